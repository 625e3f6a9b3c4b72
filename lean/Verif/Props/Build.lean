import Verif.Proofs.Build
import Verif.Spec.Build

/-!
# C71: what is built
-/

namespace Calliope
namespace Build

open Grid Infix Expr Expand Where

variable {V R : Type}

theorem on_iff {W : Where.Env} {c : Component V} {ρ : Point} (hρ : Valid W ρ) {e : Equation V Cond}
    {m : Option (Arr Bool)} (hm : equationMask W c.foreach c.top e.wheres = .ok m) :
    On W c ρ e ↔ Applies W c ρ e := by
  have h := equationMask_ok hm hρ
  unfold On Applies
  constructor
  · rintro ⟨a, ha, ht⟩
    rw [hm] at ha
    cases ha
    exact h.1 ⟨a, rfl, ht⟩
  · intro hA
    obtain ⟨a, rfl, ht⟩ := h.2 hA
    exact ⟨a, hm, ht⟩

theorem build_spec {W : Where.Env} {enum : List String → List String} {c : Component V}
    {setter : Equation V Cond → Arr Bool → Except Err (Arr (Option R))} (hs : Exact W c setter)
    {b : Arr (Option R)} (hb : build W enum c setter = .ok b)
    {es : List (Equation V Cond)} (hes : parseEquations enum c.defn = .ok es)
    {ρ : Point} (hρ : Valid W ρ) :
    (b.at ρ = none ↔ ∀ e ∈ es, ¬ Applies W c ρ e) ∧
    es.Pairwise (fun e e' => ¬ (Applies W c ρ e ∧ Applies W c ρ e')) ∧
    ∀ e ∈ es, Applies W c ρ e → ∃ m a, equationMask W c.foreach c.top e.wheres = .ok (some m) ∧
        m.dims = c.foreach ∧ m.at ρ = true ∧ setter e m = .ok a ∧ b.at ρ = a.at ρ := by
  unfold build at hb
  split at hb
  · cases hb
  · rename_i t ht
    split at hb
    · rw [hes] at hb
      simp only [] at hb
      obtain ⟨h0, _, h2⟩ := buildLoop_spec hs hρ hb
      obtain ⟨g1, g2, g3⟩ := h2 rfl
      have hiff : ∀ e ∈ es, (On W c ρ e ↔ Applies W c ρ e) := by
        intro e he
        obtain ⟨m, hm⟩ := h0 e he
        exact on_iff hρ hm
      refine ⟨?_, ?_, ?_⟩
      · rw [g1]
        exact ⟨fun H e he ha => H e he ((hiff e he).2 ha), fun H e he ho => H e he ((hiff e he).1 ho)⟩
      · refine List.Pairwise.imp_of_mem ?_ g2
        intro e e' he he' hn ⟨ha, ha'⟩
        exact hn ⟨(hiff e he).2 ha, (hiff e' he').2 ha'⟩
      · intro e he ha
        exact g3 e he ((hiff e he).2 ha)
    · rename_i hany
      cases hb
      have hno : ∀ e : Equation V Cond, ¬ Applies W c ρ e := by
        rintro e ⟨hk, ⟨σ, hσ, hsame, hmat, htop⟩, _⟩
        rcases topLevel_ok ht hρ with ⟨_, h⟩ | ⟨h, _⟩
        · exact h ⟨σ, hσ, hk, hmat, htop⟩
        · exact hany h
      refine ⟨?_, ?_, ?_⟩
      · exact ⟨fun _ e _ => hno e, fun _ => rfl⟩
      · exact List.pairwise_of_forall (fun e _ h => hno e h.1)
      · intro e _ ha
        exact absurd ha (hno e)

theorem side_value [AddCommMonoid V] {E : Expr.Env V} (hE : WellFormed E) {c : Component V}
    (hn : c.foreach.Nodup) {e : Equation V Cond} {m : Arr Bool} (hd : m.dims = c.foreach) {ρ : Point}
    (ht : m.at ρ = true) {t : Ex V} (hs : Simple c e t) {a : Arr (Option V)}
    (h : evalSide E (fun n => e.slices.lookup n) (fun n => e.subs.lookup n) m t = .ok a) :
    a.at ρ = value E e t ρ := by
  rw [(C68_meaning hE (by rw [hd]; exact hn) hs.1 h).2 ρ]
  have dep : DependsOn m.at m.dims := fun x y hxy => at_congr m (fun d hd => hxy d hd)
  exact (apart_same dep _ (by rw [hd]; exact hs.2)).2 ρ ht

/-- C71: a constraint is built at an item exactly if one of its equations applies there, at most one does, and
what is built there is the comparison of the two sides' meanings at that item. -/
theorem C71_constraint [AddCommMonoid V] {W : Where.Env} {E : Expr.Env V} (hE : WellFormed E)
    {enum : List String → List String} {c : Component V} (hn : c.foreach.Nodup)
    {b : Arr (Option (Cell V))} (hb : buildConstraint W E enum c = .ok b)
    {es : List (Equation V Cond)} (hes : parseEquations enum c.defn = .ok es)
    {ρ : Point} (hρ : Valid W ρ) :
    (b.at ρ = none ↔ ∀ e ∈ es, ¬ Applies W c ρ e) ∧
    es.Pairwise (fun e e' => ¬ (Applies W c ρ e ∧ Applies W c ρ e')) ∧
    ∀ e ∈ es, Applies W c ρ e → ∃ l o r, e.body = .cmp l o r ∧
      (Simple c e l → Simple c e r → b.at ρ = some ⟨value E e l ρ, o, value E e r ρ⟩) := by
  obtain ⟨h1, h2, h3⟩ := build_spec (setConstraint_exact (E := E) c) hb hes hρ
  refine ⟨h1, h2, ?_⟩
  intro e he ha
  obtain ⟨m, a, _, hd, ht, hset, hat⟩ := h3 e he ha
  unfold setConstraint at hset
  split at hset
  · rename_i l o r hbody
    refine ⟨l, o, r, hbody, ?_⟩
    intro hl hr
    split at hset
    · cases hset
    · rename_i a' ha'
      cases hset
      obtain ⟨al, ar, hal, har⟩ := comparison_sides ha'
      rw [hat, at_map, (C70_comparison ha' hal har).2.2.2 ρ, ht, side_value hE hn hd ht hl hal,
        side_value hE hn hd ht hr har]
      rfl
  · cases hset

/-- C71: a global expression likewise, and its items are not missing. -/
theorem C71_expression [AddCommMonoid V] {W : Where.Env} {E : Expr.Env V} (hE : WellFormed E)
    (hco : E.coords = W.coords)
    {enum : List String → List String} {c : Component V} (hn : c.foreach.Nodup)
    {b : Arr (Option V)} (hb : buildExpression W E enum c = .ok b)
    {es : List (Equation V Cond)} (hes : parseEquations enum c.defn = .ok es)
    {ρ : Point} (hρ : Valid W ρ) :
    (b.at ρ = none ↔ ∀ e ∈ es, ¬ Applies W c ρ e) ∧
    es.Pairwise (fun e e' => ¬ (Applies W c ρ e ∧ Applies W c ρ e')) ∧
    ∀ e ∈ es, Applies W c ρ e → ∃ t, e.body = .arith t ∧
      (Simple c e t → b.at ρ = value E e t ρ ∧ b.at ρ ≠ none) := by
  obtain ⟨h1, h2, h3⟩ := build_spec (setExpression_exact hco c) hb hes hρ
  refine ⟨h1, h2, ?_⟩
  intro e he ha
  have hne : b.at ρ ≠ none := fun h => h1.1 h e he ha
  obtain ⟨m, a, _, hd, ht, hset, hat⟩ := h3 e he ha
  unfold setExpression at hset
  split at hset
  · rename_i t hbody
    refine ⟨t, hbody, ?_⟩
    intro hst
    refine ⟨?_, hne⟩
    split at hset
    · cases hset
    · rename_i a' ha'
      cases hset
      have hside : evalSide E (fun n => e.slices.lookup n) (fun n => e.subs.lookup n) m t = .ok a' := by
        unfold evalExpression at ha'
        split at ha'
        · cases ha'
        · rename_i x hx
          split at ha'
          · cases ha'
          · cases ha'
            exact hx
      unfold maskArr at hat
      rw [hat, at_zip, ht, side_value hE hn hd ht hst hside]
      rfl
  · cases hset

end Build
end Calliope
