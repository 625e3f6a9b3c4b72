import Verif.Proofs.ExprMean

/-!
# Which other items are built does not matter
-/

namespace Calliope
namespace Expr

open Grid

variable {V : Type} [AddCommMonoid V]

theorem noOps_mean (E : Env V) (slices : String → Option SliceDef) (m m' : Point → Bool)
    (wd wd' : List String) : ∀ (t : Ex V), NoOps t → mean E slices m wd t = mean E slices m' wd' t
  | .num v, _ => by simp only [mean]
  | .comp n, _ => by simp only [mean]
  | .sliced n ss, _ => by simp only [mean]
  | .sub n, _ => by simp only [mean]
  | .sign o t, h => by
      simp only [NoOps] at h
      simp only [mean, noOps_mean E slices m m' wd wd' t h]
  | .chain t r, h => by simp only [NoOps] at h
  | .sum t over, h => by
      simp only [NoOps] at h
      simp only [mean, noOps_mean E slices m m' wd wd' t h]
  | .reduceCarrier t flow, h => by
      simp only [NoOps] at h
      simp only [mean, noOps_mean E slices m m' wd wd' t h]
  | .cond t c, h => by
      simp only [NoOps] at h
      simp only [mean, noOps_mean E slices m m' wd wd' t h.1, noOps_mean E slices m m' wd wd' c h.2]
  | .roll t shifts, _ => by simp only [mean]
  | .groupSum t g d, _ => by simp only [mean]
  | .groupDatetime t o g, _ => by simp only [mean]
  | .sumNextN t o n, h => by
      simp only [NoOps] at h
      simp only [mean, noOps_mean E slices m m' wd wd' t h]
  | .select t ls, h => by
      simp only [NoOps] at h
      simp only [mean, noOps_mean E slices m m' wd wd' t h]

/-- `m` looks at the dimensions `wd` only. -/
def DependsOn (m : Point → Bool) (wd : List String) : Prop :=
  ∀ ρ σ : Point, (∀ d ∈ wd, ρ d = σ d) → m ρ = m σ

/-- Equal outside the dimensions `wd`, and equal values where `m` holds. -/
def Same (m : Point → Bool) (wd : List String) (x y : Fn V) : Prop :=
  (∀ d, d ∉ wd → (d ∈ x.dims ↔ d ∈ y.dims)) ∧ ∀ ρ, m ρ = true → x.val ρ = y.val ρ

omit [AddCommMonoid V] in
theorem Same.refl (m : Point → Bool) (wd : List String) (x : Fn V) : Same m wd x x :=
  ⟨fun _ _ => Iff.rfl, fun _ _ => rfl⟩

omit [AddCommMonoid V] in
theorem Same.mask {m : Point → Bool} {wd : List String} {x y : Fn V} (h : Same m wd x y) :
    Same m wd (x.mask m wd) (y.mask (fun _ => true) []) := by
  refine ⟨?_, ?_⟩
  · intro d hd
    simp only [Fn.mask, List.mem_append, hd, or_false, List.not_mem_nil]
    exact h.1 d hd
  · intro ρ hρ
    simp only [Fn.mask, hρ, if_true]
    exact h.2 ρ hρ

omit [AddCommMonoid V] in
theorem Same.mask_by {m : Point → Bool} {wd : List String} {x y : Fn V} (h : Same m wd x y)
    (k : Point → Bool) (kd : List String) : Same m wd (x.mask k kd) (y.mask k kd) := by
  refine ⟨?_, ?_⟩
  · intro d hd
    simp only [Fn.mask, List.mem_append, h.1 d hd]
  · intro ρ hρ
    simp only [Fn.mask, h.2 ρ hρ]

omit [AddCommMonoid V] in
theorem Same.op {m : Point → Bool} {wd : List String} {x y x' y' : Fn V}
    (f : Option V → Option V → Option V) (h : Same m wd x y) (h' : Same m wd x' y') :
    Same m wd ⟨x.dims ++ x'.dims, fun ρ => f (x.val ρ) (x'.val ρ)⟩
      ⟨y.dims ++ y'.dims, fun ρ => f (y.val ρ) (y'.val ρ)⟩ := by
  refine ⟨?_, ?_⟩
  · intro d hd
    simp only [List.mem_append, h.1 d hd, h'.1 d hd]
  · intro ρ hρ
    simp only [h.2 ρ hρ, h'.2 ρ hρ]

theorem along_true {coords : String → List Label} {m : Point → Bool} {wd ds : List String}
    (hm : DependsOn m wd) (hd : ∀ d ∈ ds, d ∉ wd) {ρ σ : Point} (h : Along coords ds ρ σ)
    (hρ : m ρ = true) : m σ = true := by
  rw [hm σ ρ (fun d hdw => h.1 d (fun hds => hd d hds hdw))]
  exact hρ

theorem Same.sumOver {coords : String → List Label} {m : Point → Bool} {wd over : List String}
    {x y : Fn V} (hm : DependsOn m wd) (hd : ∀ d ∈ over, d ∉ wd) (h : Same m wd x y) :
    Same m wd (x.sumOver coords over) (y.sumOver coords over) := by
  refine ⟨?_, ?_⟩
  · intro d hd'
    simp only [Fn.sumOver, List.mem_filter, h.1 d hd']
  · intro ρ hρ
    simp only [Fn.sumOver]
    have hp : ((x.dims.filter (fun d => decide (d ∈ over))).dedup).Perm
        ((y.dims.filter (fun d => decide (d ∈ over))).dedup) := by
      rw [List.perm_ext_iff_of_nodup (List.nodup_dedup _) (List.nodup_dedup _)]
      intro d
      rw [List.mem_dedup, List.mem_dedup, List.mem_filter, List.mem_filter]
      by_cases ho : d ∈ over
      · simp only [ho, decide_true, and_true]
        exact h.1 d (hd d ho)
      · simp [ho]
    rw [← total_perm ((points_perm coords hp (List.nodup_dedup _) ρ).map y.val)]
    congr 1
    apply List.map_congr_left
    intro σ hσ
    rw [mem_points (List.nodup_dedup _)] at hσ
    refine h.2 σ (along_true hm ?_ hσ hρ)
    intro d hd'
    rw [List.mem_dedup, List.mem_filter] at hd'
    exact hd d (of_decide_eq_true hd'.2)

theorem Same.next {coords : String → List Label} {m : Point → Bool} {wd : List String} {d : String}
    {x y : Fn V} (n : Nat) (hm : DependsOn m wd) (hd : d ∉ wd) (h : Same m wd x y) :
    Same m wd (x.next coords d n) (y.next coords d n) := by
  refine ⟨h.1, ?_⟩
  intro ρ hρ
  simp only [Fn.next]
  congr 1
  apply List.map_congr_left
  intro l _
  refine h.2 _ ?_
  rw [hm (set ρ d l) ρ (fun e he => set_other ρ l (fun hed : e = d => hd (hed ▸ he)))]
  exact hρ

theorem looked_other {coords : String → List Label} {ρ0 : Point} :
    ∀ {gs : List (String × Arr (Option Label))} {ρ σ : Point}, looked coords ρ0 gs ρ = some σ →
      ∀ d, d ∉ gs.map Prod.fst → σ d = ρ d
  | [], ρ, σ, h, d, _ => by
      simp only [looked, Option.some.injEq] at h
      rw [h]
  | (e, g) :: rest, ρ, σ, h, d, hd => by
      simp only [looked] at h
      split at h
      · split at h
        · simp only [Option.map_eq_some_iff] at h
          obtain ⟨τ, hτ, rfl⟩ := h
          simp only [List.map_cons, List.mem_cons, not_or] at hd
          rw [set_other _ _ hd.1]
          exact looked_other hτ d hd.2
        · cases h
      · cases h

omit [AddCommMonoid V] in
theorem Same.select {coords : String → List Label} {m : Point → Bool} {wd : List String}
    {gs : List (String × Arr (Option Label))}
    {x y : Fn V} (hm : DependsOn m wd) (hd : ∀ d ∈ gs.map Prod.fst, d ∉ wd) (h : Same m wd x y) :
    Same m wd (x.select coords gs) (y.select coords gs) := by
  refine ⟨h.1, ?_⟩
  intro ρ hρ
  simp only [Fn.select]
  cases hl : looked coords ρ gs ρ with
  | none => rfl
  | some σ =>
    refine h.2 σ ?_
    rw [hm σ ρ (fun d hdw => looked_other hl d (fun hg => hd d hg hdw))]
    exact hρ

mutual
theorem apart_same {E : Env V} {slices : String → Option SliceDef} {m : Point → Bool}
    {wd : List String} (hm : DependsOn m wd) : ∀ (t : Ex V), Apart wd t →
    Same m wd (mean E slices m wd t) (mean E slices (fun _ => true) [] t)
  | .num v, _ => by simp only [mean]; exact Same.refl _ _ _
  | .comp n, _ => by simp only [mean]; exact Same.refl _ _ _
  | .sliced n ss, _ => by simp only [mean]; exact Same.refl _ _ _
  | .sub n, _ => by simp only [mean]; exact Same.refl _ _ _
  | .sign o t, h => by
      simp only [Apart] at h
      have ih := apart_same (E := E) (slices := slices) hm t h
      simp only [mean]
      exact ⟨ih.1, fun ρ hρ => by simp only [ih.2 ρ hρ]⟩
  | .chain t r, h => by
      simp only [Apart] at h
      simp only [mean]
      exact apartRest_same hm (apart_same hm t h.1).mask r h.2
  | .sum t over, h => by
      simp only [Apart] at h
      simp only [mean]
      rcases h with h | h
      · rw [noOps_mean E slices m (fun _ => true) wd [] t h]; exact Same.refl _ _ _
      · exact (apart_same hm t h.2).sumOver hm h.1
  | .reduceCarrier t flow, h => by
      simp only [Apart] at h
      simp only [mean]
      rcases h with h | h
      · rw [noOps_mean E slices m (fun _ => true) wd [] t h]; exact Same.refl _ _ _
      · cases E.carrier flow with
        | none => exact Same.refl _ _ _
        | some c =>
          exact ((apart_same hm t h.2).mask_by c.at c.dims).sumOver hm (by simpa using h.1)
  | .cond t c, h => by
      simp only [Apart] at h
      have ih1 := apart_same (E := E) (slices := slices) hm t h.1
      have ih2 := apart_same (E := E) (slices := slices) hm c h.2
      simp only [mean]
      refine ⟨?_, ?_⟩
      · intro d hd
        simp only [List.mem_append, ih1.1 d hd, ih2.1 d hd]
      · intro ρ hρ
        simp only [ih1.2 ρ hρ, ih2.2 ρ hρ]
  | .roll t shifts, _ => by simp only [mean]; exact Same.refl _ _ _
  | .groupSum t g d, _ => by simp only [mean]; exact Same.refl _ _ _
  | .groupDatetime t o g, _ => by simp only [mean]; exact Same.refl _ _ _
  | .sumNextN t o n, h => by
      simp only [Apart] at h
      simp only [mean]
      rcases h with h | h
      · rw [noOps_mean E slices m (fun _ => true) wd [] t h]; exact Same.refl _ _ _
      · exact (apart_same hm t h.2).next _ hm h.1
  | .select t ls, h => by
      simp only [Apart] at h
      simp only [mean]
      rcases h with h | h
      · rw [noOps_mean E slices m (fun _ => true) wd [] t h]; exact Same.refl _ _ _
      · refine (apart_same hm t h.2).select hm ?_
        intro d hd
        obtain ⟨q, hq, rfl⟩ := List.mem_map.1 hd
        obtain ⟨p, hp, he⟩ := List.mem_filterMap.1 hq
        cases hl : E.lookup p.2 with
        | none => rw [hl] at he; cases he
        | some g =>
          rw [hl] at he
          cases he
          exact h.1 _ (List.mem_map.2 ⟨p, hp, rfl⟩)
theorem apartRest_same {E : Env V} {slices : String → Option SliceDef} {m : Point → Bool}
    {wd : List String} (hm : DependsOn m wd) {x y : Fn V} (hx : Same m wd x y) : ∀ (r : ExRest V),
    ApartRest wd r →
    Same m wd (meanRest E slices m wd x r) (meanRest E slices (fun _ => true) [] y r)
  | .one o t, h => by
      simp only [ApartRest] at h
      simp only [meanRest]
      exact hx.op (E.op o) (apart_same hm t h).mask
  | .more o t r, h => by
      simp only [ApartRest] at h
      simp only [meanRest]
      exact apartRest_same hm (hx.op (E.op o) (apart_same hm t h.1).mask) r h.2
end

end Expr
end Calliope
