import Verif.Model.Build
import Verif.Props.Mask
import Verif.Props.Expr

namespace Calliope
namespace Build

open Grid Infix Expr Expand Where

variable {V R : Type}

/-- The mask of the equation is true at the item. -/
def On (W : Where.Env) (c : Component V) (ρ : Point) (e : Equation V Cond) : Prop :=
  ∃ m, equationMask W c.foreach c.top e.wheres = .ok (some m) ∧ m.at ρ = true

@[simp] theorem fillna_at (acc a : Arr (Option R)) (ρ : Point) :
    (fillna acc a).at ρ = (acc.at ρ).or (a.at ρ) := by
  unfold fillna
  rw [at_zip]
  cases acc.at ρ <;> rfl

theorem overlaps_false {W : Where.Env} {acc : Arr (Option R)} {m : Arr Bool} {ρ : Point}
    (hρ : Valid W ρ) (h : overlaps W.coords acc m = false) :
    acc.at ρ = none ∨ m.at ρ = false := by
  by_contra hc
  have h1 : acc.at ρ ≠ none := fun h => hc (.inl h)
  have h2 : m.at ρ = true := by
    cases hm : m.at ρ
    · exact absurd (.inr hm) hc
    · rfl
  have : overlaps W.coords acc m = true := by
    unfold overlaps
    rw [anyCell_iff hρ]
    refine ⟨ρ, hρ, ?_⟩
    rw [at_zip, h2]
    simp [Option.isSome_iff_ne_none, h1]
  rw [h] at this
  cases this

/-- A setter sets exactly the items of its mask. -/
def Exact (W : Where.Env) (c : Component V)
    (setter : Equation V Cond → Arr Bool → Except Err (Arr (Option R))) : Prop :=
  ∀ e m a, m.dims = c.foreach → setter e m = .ok a → ∀ ρ, Valid W ρ →
    (a.at ρ ≠ none ↔ m.at ρ = true)

theorem buildLoop_spec {W : Where.Env} {c : Component V}
    {setter : Equation V Cond → Arr Bool → Except Err (Arr (Option R))} (hs : Exact W c setter)
    {ρ : Point} (hρ : Valid W ρ) : ∀ {es : List (Equation V Cond)} {acc b : Arr (Option R)},
    buildLoop W c setter acc es = .ok b →
    (∀ e ∈ es, ∃ m, equationMask W c.foreach c.top e.wheres = .ok m) ∧
    (acc.at ρ ≠ none → b.at ρ = acc.at ρ ∧ ∀ e ∈ es, ¬ On W c ρ e) ∧
    (acc.at ρ = none →
      (b.at ρ = none ↔ ∀ e ∈ es, ¬ On W c ρ e) ∧
      es.Pairwise (fun e e' => ¬ (On W c ρ e ∧ On W c ρ e')) ∧
      ∀ e ∈ es, On W c ρ e → ∃ m a, equationMask W c.foreach c.top e.wheres = .ok (some m) ∧
        m.dims = c.foreach ∧ m.at ρ = true ∧ setter e m = .ok a ∧ b.at ρ = a.at ρ)
  | [], acc, b, h => by
      simp only [buildLoop, Except.ok.injEq] at h
      subst h
      refine ⟨by simp, by simp, ?_⟩
      intro h; simp [h]
  | e :: es, acc, b, h => by
      simp only [buildLoop] at h
      split at h
      · cases h
      · rename_i hm
        have hoff : ¬ On W c ρ e := by
          rintro ⟨m, hm', _⟩
          rw [hm] at hm'
          cases hm'
        obtain ⟨h0, h1, h2⟩ := buildLoop_spec hs hρ h
        refine ⟨?_, ?_, ?_⟩
        · intro e' he'
          rcases List.mem_cons.1 he' with rfl | he'
          · exact ⟨_, hm⟩
          · exact h0 e' he'
        · intro hacc
          refine ⟨(h1 hacc).1, ?_⟩
          intro e' he'
          rcases List.mem_cons.1 he' with rfl | he'
          · exact hoff
          · exact (h1 hacc).2 e' he'
        · intro hacc
          obtain ⟨g1, g2, g3⟩ := h2 hacc
          refine ⟨?_, ?_, ?_⟩
          · rw [g1]
            simp [hoff]
          · rw [List.pairwise_cons]
            exact ⟨fun e' _ hb => hoff hb.1, g2⟩
          · intro e' he' hon
            rcases List.mem_cons.1 he' with rfl | he'
            · exact absurd hon hoff
            · exact g3 e' he' hon
      · rename_i m hm
        split at h
        · cases h
        · rename_i hov
          have hov' := overlaps_false hρ (Bool.not_eq_true _ ▸ hov)
          split at h
          · cases h
          · rename_i a ha
            have hd := equationMask_dims hm
            have hex := hs e m a hd ha ρ hρ
            obtain ⟨h0, h1, h2⟩ := buildLoop_spec hs hρ h
            have hon : On W c ρ e ↔ m.at ρ = true := by
              constructor
              · rintro ⟨m', hm', ht⟩
                rw [hm] at hm'
                cases hm'
                exact ht
              · exact fun ht => ⟨m, hm, ht⟩
            refine ⟨?_, ?_, ?_⟩
            · intro e' he'
              rcases List.mem_cons.1 he' with rfl | he'
              · exact ⟨_, hm⟩
              · exact h0 e' he'
            · intro hacc
              have hmf : m.at ρ = false := hov'.resolve_left hacc
              have hf : (fillna acc a).at ρ = acc.at ρ := by
                rw [fillna_at]
                cases hx : acc.at ρ with
                | none => exact absurd hx hacc
                | some x => rfl
              obtain ⟨g1, g2⟩ := h1 (by rw [hf]; exact hacc)
              refine ⟨by rw [g1, hf], ?_⟩
              intro e' he'
              rcases List.mem_cons.1 he' with rfl | he'
              · rw [hon, hmf]; simp
              · exact g2 e' he'
            · intro hacc
              have hf : (fillna acc a).at ρ = a.at ρ := by
                rw [fillna_at, hacc]; rfl
              rw [hf] at h1 h2
              by_cases hmt : m.at ρ = true
              · have hne := hex.2 hmt
                obtain ⟨g1, g2⟩ := h1 hne
                refine ⟨?_, ?_, ?_⟩
                · rw [g1]
                  constructor
                  · intro hx; exact absurd hx hne
                  · intro H; exact absurd (hon.2 hmt) (H e (by simp))
                · rw [List.pairwise_cons]
                  refine ⟨fun e' he' hb => g2 e' he' hb.2, ?_⟩
                  refine List.Pairwise.imp_of_mem ?_ (List.pairwise_of_forall (R := fun _ _ => True)
                    (fun _ _ => trivial))
                  intro x y hx _ _ hb
                  exact g2 x hx hb.1
                · intro e' he' ho
                  rcases List.mem_cons.1 he' with rfl | he'
                  · exact ⟨m, a, hm, hd, hmt, ha, g1⟩
                  · exact absurd ho (g2 e' he')
              · have hnone : a.at ρ = none := by
                  by_contra hx
                  exact hmt (hex.1 hx)
                obtain ⟨g1, g2, g3⟩ := h2 hnone
                have hoff : ¬ On W c ρ e := fun ho => hmt (hon.1 ho)
                refine ⟨?_, ?_, ?_⟩
                · rw [g1]; simp [hoff]
                · rw [List.pairwise_cons]
                  exact ⟨fun e' _ hb => hoff hb.1, g2⟩
                · intro e' he' ho
                  rcases List.mem_cons.1 he' with rfl | he'
                  · exact absurd ho hoff
                  · exact g3 e' he' ho

theorem setExpression_exact [AddCommMonoid V] {W : Where.Env} {E : Expr.Env V} (hc : E.coords = W.coords)
    (c : Component V) : Exact W c (setExpression E) := by
  intro e m a hd h ρ hρ
  unfold setExpression at h
  split at h
  · split at h
    · cases h
    · rename_i a' ha'
      cases h
      have hck := (C70_expression ha').2 ρ (fun d _ => by rw [hc]; exact hρ d)
      unfold maskArr
      rw [at_zip]
      cases hm : m.at ρ
      · simp
      · simp only [if_true, iff_true]
        exact hck hm
  · cases h

theorem comparison_sides [AddCommMonoid V] {E : Expr.Env V} {slices : String → Option SliceDef}
    {subs : String → Option (Ex V)} {m : Arr Bool} {l r : Ex V} {b : Arr (Option (Option V × Option V))}
    (h : evalComparison E slices subs m l r = .ok b) :
    ∃ al ar, evalSide E slices subs m l = .ok al ∧ evalSide E slices subs m r = .ok ar := by
  unfold evalComparison at h
  split at h
  · cases h
  · rename_i al hal
    split at h
    · cases h
    · rename_i ar har
      exact ⟨al, ar, hal, har⟩

theorem setConstraint_exact [AddCommMonoid V] {W : Where.Env} {E : Expr.Env V}
    (c : Component V) : Exact W c (setConstraint E) := by
  intro e m a hd h ρ hρ
  unfold setConstraint at h
  split at h
  · split at h
    · cases h
    · rename_i a' ha'
      cases h
      rw [at_map]
      obtain ⟨al, ar, hal, har⟩ := comparison_sides ha'
      rw [(C70_comparison ha' hal har).2.2.2 ρ]
      cases m.at ρ <;> simp
  · cases h

end Build
end Calliope
