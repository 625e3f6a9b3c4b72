import Verif.Spec.Coarse
import Verif.Props.Supply
import Mathlib.Tactic.Ring
import Mathlib.Tactic.Linarith
import Mathlib.Algebra.Order.BigOperators.Group.List

/-!
Resampled inputs, and quantities that are added up.
-/

namespace Calliope
namespace Coarse

open Grid Infix Expr Expand Build Where BaseMath Time

theorem lookup_zip (ρ : Point) (d : String) : ∀ ds : List String, d ∈ ds →
    ((ds.zip (ds.map ρ)).lookup d).getD "" = ρ d
  | [], h => by simp at h
  | x :: ds, h => by
    by_cases hx : d = x
    · subst hx
      simp [List.lookup]
    · have h' : d ∈ ds := by simpa [hx] using h
      have : (d == x) = false := by simpa using hx
      simp only [List.map_cons, List.zip_cons_cons, List.lookup, this]
      exact lookup_zip ρ d ds h'

theorem at_step {V : Type} {a : Arr V} (h : "timesteps" ∉ a.dims) (ρ : Point) (t : Label) :
    a.at (set ρ "timesteps" t) = a.at ρ := by
  unfold Arr.at
  congr 1
  apply List.map_congr_left
  intro d hd
  have : d ≠ "timesteps" := fun e => h (e ▸ hd)
  simp [Expr.set, this]

theorem resampled_dated {steps : Label → List Label} {m : Method} {a : Arr (Option Rat)}
    (h : "timesteps" ∈ a.dims) (ρ : Point) :
    (resampled steps m a).at ρ =
      m.apply ((steps (ρ "timesteps")).map (fun t => a.at (set ρ "timesteps" t))) := by
  have hc : a.dims.contains "timesteps" = true := by simpa using h
  unfold resampled
  rw [if_pos hc]
  unfold Arr.at stepIn
  simp only
  rw [lookup_zip ρ _ _ h]
  congr 2
  funext t
  congr 1
  unfold withStep
  apply List.map_congr_left
  intro d hd
  unfold Expr.set
  split
  · rfl
  · exact lookup_zip ρ d _ hd

theorem resampled_undated {steps : Label → List Label} {m : Method} {a : Arr (Option Rat)}
    (h : "timesteps" ∉ a.dims) : resampled steps m a = a := by
  unfold resampled
  rw [if_neg (by simpa using h)]

theorem present_all : ∀ l : List (Option Rat), (∀ x ∈ l, x ≠ none) → present l = l.map (fun o => o.getD 0)
  | [], _ => rfl
  | none :: _, h => absurd rfl (h none (by simp))
  | some v :: r, h => by
    have := present_all r (fun x hx => h x (by simp [hx]))
    have e : present (some v :: r) = v :: present r := rfl
    rw [e, this]
    rfl

theorem present_none : ∀ l : List (Option Rat), (∀ x ∈ l, x = none) → present l = []
  | [], _ => rfl
  | none :: r, h => by
    have := present_none r (fun x hx => h x (by simp [hx]))
    simpa [present] using this
  | some v :: _, h => absurd (h (some v) (by simp)) (by simp)

theorem present_nil {l : List (Option Rat)} (h : present l = []) : ∀ x ∈ l, x = none := by
  intro x hx
  cases x with
  | none => rfl
  | some v =>
    have : v ∈ present l := by simpa [present] using hx
    rw [h] at this
    simp at this

/-- All methods leave out what is missing: there is a value unless all are missing. -/
theorem apply_none (m : Method) (l : List (Option Rat)) : m.apply l = none ↔ ∀ x ∈ l, x = none := by
  constructor
  · intro h
    apply present_nil
    cases m with
    | mean =>
      simp only [Method.apply, meanSkip] at h
      by_contra hne
      simp [hne] at h
    | sum =>
      simp only [Method.apply, sumMin1] at h
      by_contra hne
      simp [hne] at h
    | first => simpa [Method.apply, firstSkip] using h
  · intro h
    have := present_none l h
    cases m <;> simp [Method.apply, meanSkip, sumMin1, firstSkip, this]

theorem apply_sum {l : List (Option Rat)} (hne : l ≠ []) (h : ∀ x ∈ l, x ≠ none) :
    Method.sum.apply l = some (l.map (fun o => o.getD 0)).sum := by
  simp only [Method.apply, sumMin1]
  rw [present_all l h, if_neg (by simpa using hne)]

/-- The mean, and the first, of values that are all the same. -/
theorem apply_steady {m : Method} (hm : m ≠ .sum) {l : List (Option Rat)} {x : Option Rat} (hne : l ≠ [])
    (h : ∀ y ∈ l, y = x) : m.apply l = x := by
  cases x with
  | none => exact (apply_none m l).2 h
  | some v =>
    have hl : l = List.replicate l.length (some v) := List.eq_replicate_of_mem h
    have hp : present l = List.replicate l.length v := by
      rw [present_all l (fun y hy => by rw [h y hy]; simp)]
      conv_lhs => rw [hl]
      simp
    have h0 : l.length ≠ 0 := by simpa using hne
    cases m with
    | sum => exact absurd rfl hm
    | mean =>
      simp only [Method.apply, meanSkip, hp]
      rw [if_neg (by simpa using hne)]
      have : (l.length : Rat) ≠ 0 := by exact_mod_cast h0
      simp [List.sum_replicate, this]
    | first =>
      simp only [Method.apply, firstSkip, hp]
      obtain ⟨k, hk⟩ := Nat.exists_eq_succ_of_ne_zero h0
      rw [hk]
      simp [List.replicate_succ]

section
variable {W W' : Where.Env} {E E' : Expr.Env Rat} {steps : Label → List Label} {ρ : Point} (C : Coarser W W' steps)

include C in
theorem Coarser.valid (hρ : Valid W' ρ) {t : Label} (ht : t ∈ steps (ρ "timesteps")) :
    Valid W (set ρ "timesteps" t) := by
  intro d
  unfold Expr.set
  split
  · rename_i h
    subst h
    rw [← C.intervals]
    exact List.mem_flatMap.2 ⟨_, hρ _, ht⟩
  · rename_i h
    rw [← C.others d h]
    exact hρ d

include C in
theorem Coarser.inModel {sets : List String} (hρ : Valid W' ρ) (hin : InModel W' sets ρ) {t : Label}
    (ht : t ∈ steps (ρ "timesteps")) : InModel W sets (set ρ "timesteps" t) := by
  obtain ⟨h1, σ, h2, h3, h4⟩ := hin
  refine ⟨by rw [← C.dims, ← C.matrix]; exact h1, set σ "timesteps" t, ?_, ?_, ?_⟩
  · intro d
    unfold Expr.set
    split
    · rename_i h
      subst h
      rw [← C.intervals]
      exact List.mem_flatMap.2 ⟨_, hρ _, ht⟩
    · rename_i h
      rw [← C.others d h]
      exact h2 d
  · intro d hd
    unfold Expr.set
    split
    · rfl
    · exact h3 d hd
  · rw [at_step C.undated, ← C.matrix]
    exact h4

include C in
theorem Coarser.nonempty (hρ : Valid W' ρ) : steps (ρ "timesteps") ≠ [] := C.full _ (hρ _)

theorem Alike.text {n s : String} (h : Alike W W' n) (t : Label) :
    Text W' n s ρ ↔ Text W n s (set ρ "timesteps" t) := by
  unfold Text Where.valueOf
  rw [h.1, at_step h.2]

theorem Alike.given {n : String} (h : Alike W W' n) (t : Label) :
    GivenAt W' n ρ ↔ GivenAt W n (set ρ "timesteps" t) := by
  unfold GivenAt
  rw [h.1, at_step h.2]

theorem Alike.flag {n : String} (h : Alike W W' n) (t : Label) :
    BaseMath.Flag W' n ρ ↔ BaseMath.Flag W n (set ρ "timesteps" t) := by
  unfold BaseMath.Flag Where.valueOf
  rw [h.1, at_step h.2]

include C in
/-- An input that is summed. -/
theorem Filled.added {n : String} (h : Filled W W' E E' steps n ρ) (hm : methodOf n = .sum) (hρ : Valid W' ρ)
    {ds ds' : List String} {f f' : Point → Rat} (hf : Is E n ds f) (hf' : Is E' n ds' f') :
    f' ρ = sumSteps (steps (ρ "timesteps")) f ρ := by
  obtain ⟨a, ⟨d, D, D'⟩, hd, hg⟩ := h
  have h := (D' ρ hρ).2
  rw [hf'.at, resampled_dated hd, hm, apply_sum (by simpa using C.nonempty hρ) (by
    intro x hx
    obtain ⟨t, ht, rfl⟩ := List.mem_map.1 hx
    exact hg t ht)] at h
  simp only [Option.some_or, Option.some.injEq] at h
  rw [h, List.map_map]
  unfold sumSteps
  congr 1
  apply List.map_congr_left
  intro t ht
  have h1 := (D _ (C.valid hρ ht)).2
  have h2 := hg t ht
  rw [hf.at] at h1
  cases hx : a.at (set ρ "timesteps" t) with
  | none => exact absurd hx h2
  | some v =>
    rw [hx] at h1
    simp only [Option.some_or, Option.some.injEq] at h1
    simp [hx, h1]

include C in
/-- It is given at the interval and at each time step. -/
theorem Filled.given {n : String} (h : Filled W W' E E' steps n ρ) (hρ : Valid W' ρ) :
    GivenAt W' n ρ ∧ ∀ t ∈ steps (ρ "timesteps"), GivenAt W n (set ρ "timesteps" t) := by
  obtain ⟨a, ⟨d, D, D'⟩, hd, hg⟩ := h
  refine ⟨?_, fun t ht => (D _ (C.valid hρ ht)).1.2 (hg t ht)⟩
  rw [(D' ρ hρ).1, resampled_dated hd]
  intro h
  obtain ⟨t, ht⟩ := List.exists_mem_of_ne_nil _ (C.nonempty hρ)
  exact hg t ht ((apply_none _ _).1 h _ (List.mem_map.2 ⟨t, ht, rfl⟩))

include C in
theorem Empty.given {n : String} (h : Empty W W' E E' steps n ρ) (hρ : Valid W' ρ) :
    ¬ GivenAt W' n ρ ∧ ∀ t ∈ steps (ρ "timesteps"), ¬ GivenAt W n (set ρ "timesteps" t) := by
  obtain ⟨a, ⟨d, D, D'⟩, hg⟩ := h
  refine ⟨?_, fun t ht h => (D _ (C.valid hρ ht)).1.1 h (hg t ht)⟩
  rw [(D' ρ hρ).1, not_not]
  by_cases hd : "timesteps" ∈ a.dims
  · rw [resampled_dated hd]
    refine (apply_none _ _).2 ?_
    intro x hx
    obtain ⟨t, ht, rfl⟩ := List.mem_map.1 hx
    exact hg t ht
  · rw [resampled_undated hd]
    obtain ⟨t, ht⟩ := List.exists_mem_of_ne_nil _ (C.nonempty hρ)
    rw [← at_step hd ρ t]
    exact hg t ht

theorem steady_arr {m : Method} (hm : m ≠ .sum) {a : Arr (Option Rat)}
    (hs : ∀ t ∈ steps (ρ "timesteps"), ∀ u ∈ steps (ρ "timesteps"),
      a.at (set ρ "timesteps" t) = a.at (set ρ "timesteps" u))
    {t : Label} (ht : t ∈ steps (ρ "timesteps")) :
    (resampled steps m a).at ρ = a.at (set ρ "timesteps" t) := by
  by_cases hd : "timesteps" ∈ a.dims
  · rw [resampled_dated hd]
    refine apply_steady hm (by simpa using List.ne_nil_of_mem ht) ?_
    intro y hy
    obtain ⟨u, hu, rfl⟩ := List.mem_map.1 hy
    exact hs u hu t ht
  · rw [resampled_undated hd, at_step hd]

include C in
/-- An input that does not change, and is not summed. -/
theorem Even.kept {names : List String} (h : Even W W' E E' steps names ρ) {n : String} (hn : n ∈ names)
    (hm : methodOf n ≠ .sum) (hρ : Valid W' ρ) {ds ds' : List String} {f f' : Point → Rat}
    (hf : Is E n ds f) (hf' : Is E' n ds' f') {t : Label} (ht : t ∈ steps (ρ "timesteps")) :
    f' ρ = f (set ρ "timesteps" t) := by
  obtain ⟨a, ⟨d, D, D'⟩, hs⟩ := h n hn
  have h1 := (D' ρ hρ).2
  have h2 := (D _ (C.valid hρ ht)).2
  rw [hf'.at, steady_arr hm hs ht] at h1
  rw [hf.at] at h2
  exact Option.some.inj (h1.trans h2.symm)

include C in
theorem Even.given {names : List String} (h : Even W W' E E' steps names ρ) {n : String} (hn : n ∈ names)
    (hm : methodOf n ≠ .sum) (hρ : Valid W' ρ) {t : Label} (ht : t ∈ steps (ρ "timesteps")) :
    GivenAt W' n ρ ↔ GivenAt W n (set ρ "timesteps" t) := by
  obtain ⟨a, ⟨d, D, D'⟩, hs⟩ := h n hn
  rw [(D' ρ hρ).1, (D _ (C.valid hρ ht)).1, steady_arr hm hs ht]

include C in
theorem Constant.reads {n : String} (h : Constant W W' E E' steps n ρ) (hρ : Valid W' ρ) {ds ds' : List String}
    {f f' : Point → Rat} (hf : Is E n ds f) (hf' : Is E' n ds' f') :
    GivenAt W' n ρ ∧ (∀ t ∈ steps (ρ "timesteps"), GivenAt W n (set ρ "timesteps" t)) ∧
      ∀ t ∈ steps (ρ "timesteps"), f' ρ = f (set ρ "timesteps" t) := by
  obtain ⟨a, ⟨d, D, D'⟩, hd, hg⟩ := h
  refine ⟨?_, fun t ht => ?_, fun t ht => ?_⟩
  · rw [(D' ρ hρ).1, resampled_undated hd]
    exact hg
  · rw [(D _ (C.valid hρ ht)).1, at_step hd]
    exact hg
  · have h1 := (D' ρ hρ).2
    have h2 := (D _ (C.valid hρ ht)).2
    rw [hf'.at, resampled_undated hd] at h1
    rw [hf.at, at_step hd] at h2
    exact Option.some.inj (h1.trans h2.symm)

theorem present_sum (l : List (Option Rat)) : (present l).sum = (l.map (fun o => o.getD 0)).sum := by
  induction l with
  | nil => rfl
  | cons o l ih =>
    cases o with
    | none =>
      have e : present (none :: l) = present l := rfl
      rw [e, ih]
      simp
    | some v =>
      have e : present (some v :: l) = v :: present l := rfl
      rw [e]
      simp [ih]

include C in
/-- A sum leaves out what is missing. -/
theorem partly_reads {n : String} {a : Arr (Option Rat)} (hr : Resampled W W' E E' steps n a)
    (hd : "timesteps" ∈ a.dims) (hm : methodOf n = .sum) (hρ : Valid W' ρ)
    (hp : ∃ t ∈ steps (ρ "timesteps"), a.at (set ρ "timesteps" t) ≠ none) {ds ds' : List String} {f f' : Point → Rat}
    (hf : Is E n ds f) (hf' : Is E' n ds' f') :
    GivenAt W' n ρ ∧
      f' ρ = sumSteps (steps (ρ "timesteps")) (fun σ => if a.at σ = none then 0 else f σ) ρ := by
  obtain ⟨d, D, D'⟩ := hr
  obtain ⟨u, hu, hug⟩ := hp
  have hne : Method.sum.apply ((steps (ρ "timesteps")).map (fun t => a.at (set ρ "timesteps" t))) ≠ none := by
    intro h
    exact hug ((apply_none _ _).1 h _ (List.mem_map.2 ⟨u, hu, rfl⟩))
  constructor
  · rw [(D' ρ hρ).1, resampled_dated hd, hm]
    exact hne
  · have h1 := (D' ρ hρ).2
    rw [hf'.at, resampled_dated hd, hm] at h1
    simp only [Method.apply, sumMin1] at hne h1
    split at hne
    · exact absurd rfl hne
    · rename_i hx
      rw [if_neg hx, Option.some_or, Option.some.injEq, present_sum, List.map_map] at h1
      rw [h1]
      unfold sumSteps
      congr 1
      apply List.map_congr_left
      intro t ht
      have h2 := (D _ (C.valid hρ ht)).2
      rw [hf.at] at h2
      cases hy : a.at (set ρ "timesteps" t) with
      | none => simp [hy]
      | some w =>
        rw [hy] at h2
        simp only [Option.some_or, Option.some.injEq] at h2
        simp [hy, h2]

end

/-! ## Sums -/

theorem sumSteps_le {l : List Label} {f g : Point → Rat} {ρ : Point}
    (h : ∀ t ∈ l, f (set ρ "timesteps" t) ≤ g (set ρ "timesteps" t)) : sumSteps l f ρ ≤ sumSteps l g ρ := by
  unfold sumSteps
  exact List.sum_le_sum h

theorem sumSteps_congr {l : List Label} {f g : Point → Rat} {ρ : Point}
    (h : ∀ t ∈ l, f (set ρ "timesteps" t) = g (set ρ "timesteps" t)) : sumSteps l f ρ = sumSteps l g ρ := by
  unfold sumSteps
  congr 1
  exact List.map_congr_left h

theorem sumSteps_mul (l : List Label) (f : Point → Rat) (k : Rat) (ρ : Point) :
    sumSteps l (fun σ => f σ * k) ρ = sumSteps l f ρ * k := by
  unfold sumSteps
  induction l with
  | nil => simp
  | cons a l ih =>
    simp only [List.map_cons, List.sum_cons, ih]
    ring

theorem sumSteps_add (l : List Label) (f g : Point → Rat) (ρ : Point) :
    sumSteps l (fun σ => f σ + g σ) ρ = sumSteps l f ρ + sumSteps l g ρ := by
  unfold sumSteps
  induction l with
  | nil => simp
  | cons a l ih =>
    simp only [List.map_cons, List.sum_cons, ih]
    ring

theorem sumSteps_sub (l : List Label) (f g : Point → Rat) (ρ : Point) :
    sumSteps l (fun σ => f σ - g σ) ρ = sumSteps l f ρ - sumSteps l g ρ := by
  unfold sumSteps
  induction l with
  | nil => simp
  | cons a l ih =>
    simp only [List.map_cons, List.sum_cons, ih]
    ring

/-- Sums over intervals and over another dimension. -/
theorem sumSteps_sumOver {E E' : Expr.Env Rat} {d : String} (hd : d ≠ "timesteps") (hc : E'.coords d = E.coords d)
    (steps : Label → List Label) (f f' : Point → Rat) (ρ : Point)
    (h : ∀ l ∈ E'.coords d, f' (set ρ d l) = sumSteps (steps (ρ "timesteps")) f (set ρ d l)) :
    sumOver E' d f' ρ = sumSteps (steps (ρ "timesteps")) (sumOver E d f) ρ := by
  unfold sumOver sumSteps
  rw [List.map_congr_left h, hc]
  unfold sumSteps
  generalize E.coords d = L
  have hsw : ∀ t l, set (set ρ d l) "timesteps" t = set (set ρ "timesteps" t) d l := by
    intro t l
    funext x
    unfold Expr.set
    by_cases h1 : x = "timesteps"
    · subst h1
      simp [Ne.symm hd]
    · simp [h1]
  simp only [hsw]
  induction L with
  | nil => simp
  | cons a L ih =>
    simp only [List.map_cons, List.sum_cons, ih]
    rw [← List.sum_map_add]

end Coarse
end Calliope
