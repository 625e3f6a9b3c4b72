import Verif.Model.Time
import Mathlib.Tactic.Linarith
import Mathlib.Tactic.Ring
import Mathlib.Tactic.FieldSimp

/-!
# Properties C23 to C26: the time axis
-/

namespace Calliope
namespace Time

/-! ## C23: resolution and weights -/

theorem diffLower_length : ∀ l : List Int, (diffLower l).length = l.length
  | [] => rfl
  | [_] => rfl
  | a :: b :: r => by simp [diffLower, diffLower_length (b :: r)]

theorem ffill_length : ∀ (l : List (Option Int)) (p : Option Int), (ffill p l).length = l.length
  | [], _ => rfl
  | none :: r, p => by simp [ffill, ffill_length r]
  | some v :: r, p => by simp [ffill, ffill_length r]

theorem ffill_diff_get : ∀ (l : List Int) (p : Option Int) (i : Nat) (h : i + 1 < l.length),
    (ffill p (diffLower l))[i]? = some (some (l[i + 1] - l[i]))
  | a :: b :: r, p, 0, h => by simp [diffLower, ffill]
  | a :: b :: r, p, i + 1, h => by
    have := ffill_diff_get (b :: r) (some (b - a)) i (by simpa using h)
    simpa [diffLower, ffill] using this

theorem ffill_diff_last : ∀ (l : List Int) (p : Option Int) (h : 1 < l.length),
    (ffill p (diffLower l))[l.length - 1]? = some (some (l[l.length - 1] - l[l.length - 2]))
  | [a, b], p, h => by simp [diffLower, ffill]
  | a :: b :: c :: r, p, h => by
    have := ffill_diff_last (b :: c :: r) (some (b - a)) (by simp)
    simpa [diffLower, ffill] using this

theorem sum_gaps : ∀ (l : List Int) (p : Option Int) (h : l ≠ []),
    (((ffill p (diffLower l)).take (l.length - 1)).map (fun o => o.getD 0)).sum
      = l.getLast h - l.head h
  | [a], p, h => by simp
  | a :: b :: r, p, h => by
    have := sum_gaps (b :: r) (some (b - a)) (by simp)
    simp only [diffLower, ffill, List.length_cons, Nat.add_sub_cancel, List.take_succ_cons,
      List.map_cons, List.sum_cons, Option.getD_some, List.head_cons] at this ⊢
    rw [this, show (a :: b :: r).getLast h = (b :: r).getLast (by simp) from List.getLast_cons (by simp)]
    ring

/-- C23: one resolution and one weight per timestep.  The resolution is the distance in hours to
the next timestep, the last timestep repeats its predecessor's, a single timestep gets one hour;
the resolutions before the last add up to the distance between first and last; weights are 1. -/
theorem C23_resolution (axis : List Int) (hne : axis ≠ []) :
    (inferred axis).1.length = axis.length ∧ (inferred axis).2 = axis.map (fun _ => 1) ∧
    (∀ i, ∀ h : i + 1 < axis.length,
      (inferred axis).1[i]? = some (some (((axis[i + 1] - axis[i] : Int) : Rat) / hour))) ∧
    (1 < axis.length →
      (inferred axis).1[axis.length - 1]? = (inferred axis).1[axis.length - 2]?) ∧
    (axis.length = 1 → (inferred axis).1 = [some 1]) ∧
    (((inferred axis).1.take (axis.length - 1)).map (fun o => o.getD 0)).sum * hour
      = ((axis.getLast hne - axis.head hne : Int) : Rat) := by
  have hh : (hour : Rat) ≠ 0 := by norm_num [hour]
  refine ⟨?_, ?_, ?_, ?_, ?_, ?_⟩
  · simp only [inferred, List.length_map]
    split
    · simp [fillna, diffLower_length]
    · simp [ffill_length, diffLower_length]
  · simp [inferred, List.map_const']
  · intro i h
    have h1 : axis.length ≠ 1 := by omega
    simp only [inferred, h1, if_false, List.getElem?_map, ffill_diff_get axis none i h,
      Option.map_some]
  · intro h
    have h1 : axis.length ≠ 1 := by omega
    have e := ffill_diff_get axis none (axis.length - 2) (by omega)
    have e2 := ffill_diff_last axis none h
    simp only [inferred, h1, if_false, List.getElem?_map, e, e2]
    simp only [show axis.length - 2 + 1 = axis.length - 1 by omega]
  · intro h
    match axis, h with
    | [a], _ => simp [inferred, diffLower, fillna, hh]
  · by_cases h1 : axis.length = 1
    · match axis, h1 with
      | [a], _ => simp
    · simp only [inferred, h1, if_false]
      rw [← sum_gaps axis none hne, ← List.map_take, List.map_map]
      generalize (ffill none (diffLower axis)).take (axis.length - 1) = l
      induction l with
      | nil => simp
      | cons o l ih =>
        simp only [List.map_cons, List.sum_cons, add_mul, ih]
        cases o with
        | none => simp
        | some v => simp [div_mul_cancel₀ _ hh]

example : inferred [0, hour, 3 * hour] = ([some 1, some 2, some 2], [1, 1, 1]) := by
  simp [inferred, diffLower, ffill, hour]; norm_num

/-! ## C24: resampling -/

theorem grid_add (grid : Nat → Int) (hg : ∀ i, grid i < grid (i + 1)) (i : Nat) :
    grid 0 + i ≤ grid i := by
  induction i with
  | zero => simp
  | succ n ih => have := hg n; push_cast; omega

theorem grid_lt (grid : Nat → Int) (hg : ∀ i, grid i < grid (i + 1)) {i j : Nat} (h : i < j) :
    grid i < grid j := by
  induction j with
  | zero => omega
  | succ n ih =>
    rcases Nat.lt_or_ge i n with h' | h'
    · exact Int.lt_trans (ih h') (hg n)
    · have : i = n := by omega
      subst this; exact hg i

theorem grid_le (grid : Nat → Int) (hg : ∀ i, grid i < grid (i + 1)) {i j : Nat} (h : i ≤ j) :
    grid i ≤ grid j := by
  rcases Nat.lt_or_ge i j with h' | h'
  · exact Int.le_of_lt (grid_lt grid hg h')
  · have : i = j := by omega
    subst this; exact Int.le_refl _

/-- The interval holding `t`, by search. -/
theorem exists_bin (grid : Nat → Int) (hg : ∀ i, grid i < grid (i + 1)) (t : Int)
    (h0 : grid 0 ≤ t) : ∃ i, grid i ≤ t ∧ t < grid (i + 1) := by
  by_contra hc
  have hall : ∀ i, grid i ≤ t := by
    intro i
    induction i with
    | zero => exact h0
    | succ n ih =>
      by_contra hn
      exact hc ⟨n, ih, by omega⟩
  have h1 := hall ((t - grid 0).toNat + 1)
  have h2 := grid_add grid hg ((t - grid 0).toNat + 1)
  push_cast at h2
  omega

theorem binIndex_eq (grid : Nat → Int) (hg : ∀ i, grid i < grid (i + 1)) (t : Int) (i : Nat)
    (h1 : grid i ≤ t) (h2 : t < grid (i + 1)) : binIndex grid t = i := by
  have hi : i < (t - grid 0).toNat + 1 := by
    have := grid_add grid hg i
    omega
  have hfil : (List.range ((t - grid 0).toNat + 1)).filter (fun j => decide (grid j ≤ t))
      = List.range (i + 1) := by
    have hs : List.range ((t - grid 0).toNat + 1)
        = List.range (i + 1) ++ (List.range ((t - grid 0).toNat - i)).map (fun x => (i + 1) + x) := by
      rw [← List.range_add]; congr 1; omega
    rw [hs, List.filter_append]
    have e1 : (List.range (i + 1)).filter (fun j => decide (grid j ≤ t)) = List.range (i + 1) := by
      apply List.filter_eq_self.2
      intro j hj
      have hj' : j < i + 1 := List.mem_range.1 hj
      have := grid_le grid hg (show j ≤ i by omega)
      simp only [decide_eq_true_eq]
      omega
    have e2 : ((List.range ((t - grid 0).toNat - i)).map (fun x => (i + 1) + x)).filter
        (fun j => decide (grid j ≤ t)) = [] := by
      apply List.filter_eq_nil_iff.2
      intro j hj
      obtain ⟨x, _, rfl⟩ := List.mem_map.1 hj
      have := grid_le grid hg (show i + 1 ≤ i + 1 + x by omega)
      simp only [decide_eq_true_eq]
      omega
    rw [e1, e2, List.append_nil]
  simp [binIndex, hfil]

/-- Sum of the values that are there. -/
def total (l : List (Option Rat)) : Rat := (present l).sum

theorem total_cons (o : Option Rat) (l : List (Option Rat)) : total (o :: l) = o.getD 0 + total l := by
  cases o <;> simp [total, present]

theorem total_nil : total [] = 0 := rfl

theorem total_sumMin1 (l : List (Option Rat)) : (sumMin1 l).getD 0 = total l := by
  simp only [sumMin1, total]
  split
  · next h => simp [h]
  · rfl

theorem sum_range_single (n : Nat) (b : Nat) (v : Rat) :
    ((List.range n).map (fun i => if i = b then v else 0)).sum = if b < n then v else 0 := by
  induction n with
  | zero => simp
  | succ n ih =>
    rw [List.range_succ, List.map_append, List.sum_append, ih]
    by_cases h : b < n
    · have : n ≠ b := by omega
      simp [h, this, show b < n + 1 by omega]
    · by_cases h' : n = b
      · subst h'; simp
      · simp [h, h', show ¬ b < n + 1 by omega]

theorem sum_map_add (n : Nat) (f g : Nat → Rat) :
    ((List.range n).map (fun i => f i + g i)).sum
      = ((List.range n).map f).sum + ((List.range n).map g).sum := by
  induction n with
  | zero => simp
  | succ n ih => rw [List.range_succ]; simp only [List.map_append, List.sum_append, ih]; simp; ring

theorem total_members (grid : Nat → Int) (hg : ∀ i, grid i < grid (i + 1)) (data : Series) (n : Nat)
    (h0 : ∀ e ∈ data, grid 0 ≤ e.1) (hn : ∀ e ∈ data, e.1 < grid n) :
    ((List.range n).map (fun i => total (members grid data i))).sum = total (data.map Prod.snd) := by
  induction data with
  | nil => simp [members, total, present]
  | cons e r ih =>
    obtain ⟨b, hb1, hb2⟩ := exists_bin grid hg e.1 (h0 e (by simp))
    have hbn : b < n := by
      by_contra hc
      have := grid_le grid hg (show n ≤ b by omega)
      have := hn e (by simp)
      omega
    have hstep : ∀ i, total (members grid (e :: r) i)
        = (if i = b then e.2.getD 0 else 0) + total (members grid r i) := by
      intro i
      by_cases hi : i = b
      · subst hi
        have : members grid (e :: r) i = e.2 :: members grid r i := by
          simp [members, hb1, hb2]
        rw [this, total_cons]; simp
      · have : members grid (e :: r) i = members grid r i := by
          have hno : ¬ (grid i ≤ e.1 ∧ e.1 < grid (i + 1)) := by
            rintro ⟨h1, h2⟩
            rcases Nat.lt_or_ge i b with h | h
            · have := grid_le grid hg (show i + 1 ≤ b by omega); omega
            · have := grid_le grid hg (show b + 1 ≤ i by omega); omega
          simp [members, hno]
        rw [this]; simp [hi]
    simp only [hstep]
    rw [sum_map_add, sum_range_single, ih (fun e he => h0 e (by simp [he])) (fun e he => hn e (by simp [he])),
      List.map_cons, total_cons]
    simp [hbn]

theorem mem_le_last {l : Series} (hs : l.Pairwise (fun a b => a.1 < b.1)) {last : Int × Option Rat}
    (hl : l.getLast? = some last) {e : Int × Option Rat} (he : e ∈ l) : e.1 ≤ last.1 := by
  have hne : l ≠ [] := by rintro rfl; simp at hl
  have hl' : l.getLast hne = last := by simpa [List.getLast?_eq_some_getLast hne] using hl
  rw [← List.dropLast_append_getLast hne, hl'] at he hs
  rcases List.mem_append.1 he with h | h
  · exact Int.le_of_lt ((List.pairwise_append.1 hs).2.2 e h last (by simp))
  · simp at h; subst h; exact Int.le_refl _

/-- What each kind of resampling does to the values of one new timestep, said without the code. -/
def combine : Method → List Rat → Option Rat
  | .sum, vs => if vs = [] then none else some vs.sum
  | .mean, vs => if vs = [] then none else some (vs.sum / vs.length)
  | .first, vs => vs.head?

/-- C24: resampling over any grid of intervals that starts at or before the data.  The new axis is
the grid from its start; every original timestep is in exactly one new one; each new value combines
the values of exactly its members; with `sum` the total is conserved and a new timestep is empty
only if all its members are. -/
theorem C24_resample (grid : Nat → Int) (hg : ∀ i, grid i < grid (i + 1)) (m : Method) (data : Series)
    (hs : data.Pairwise (fun a b => a.1 < b.1)) (h0 : ∀ e ∈ data, grid 0 ≤ e.1) :
    ∃ n, (resampleVar grid m data).map Prod.fst = (List.range n).map grid ∧
      (∀ e ∈ data, ∃ i, i < n ∧ (∀ j, (grid j ≤ e.1 ∧ e.1 < grid (j + 1)) ↔ j = i)) ∧
      (∀ i, i < n → (resampleVar grid m data)[i]? =
        some (grid i, combine m ((data.filter (fun e => decide (grid i ≤ e.1 ∧ e.1 < grid (i + 1)))).filterMap Prod.snd))) ∧
      (m = .sum → total ((resampleVar grid m data).map Prod.snd) = total (data.map Prod.snd)) := by
  have hcomb : ∀ l, Method.apply m l = combine m (present l) := by
    intro l; cases m <;> rfl
  match hl : data.getLast? with
  | none =>
    have hd : data = [] := List.getLast?_eq_none_iff.1 hl
    subst hd
    exact ⟨0, by simp [resampleVar], by simp, by simp, by simp [resampleVar]⟩
  | some last =>
    have hlm : last ∈ data := List.mem_of_getLast? hl
    obtain ⟨b, hb1, hb2⟩ := exists_bin grid hg last.1 (h0 last hlm)
    have hbi := binIndex_eq grid hg last.1 b hb1 hb2
    have hlt : ∀ e ∈ data, e.1 < grid (b + 1) := fun e he => by
      have := mem_le_last hs hl he; omega
    have hr : resampleVar grid m data = (List.range (b + 1)).map
        (fun i => (grid i, m.apply (members grid data i))) := by simp [resampleVar, hl, hbi]
    refine ⟨b + 1, ?_, ?_, ?_, ?_⟩
    · rw [hr, List.map_map]; rfl
    · intro e he
      obtain ⟨i, hi1, hi2⟩ := exists_bin grid hg e.1 (h0 e he)
      refine ⟨i, ?_, fun j => ⟨?_, ?_⟩⟩
      · by_contra hc
        have := grid_le grid hg (show b + 1 ≤ i by omega)
        have := hlt e he
        omega
      · rintro ⟨h1, h2⟩
        rw [← binIndex_eq grid hg e.1 i hi1 hi2, ← binIndex_eq grid hg e.1 j h1 h2]
      · rintro rfl; exact ⟨hi1, hi2⟩
    · intro i hi
      rw [hr, List.getElem?_map, List.getElem?_range hi]
      simp only [Option.map_some, Option.some.injEq, Prod.mk.injEq, true_and, hcomb]
      congr 1
      simp only [members, present, List.filterMap_map]
      congr 1
    · rintro rfl
      rw [hr, List.map_map, ← total_members grid hg data (b + 1) h0 hlt]
      generalize b + 1 = n
      induction n with
      | zero => rfl
      | succ n ih =>
        rw [List.range_succ, List.map_append, List.map_append, List.sum_append, ← ih]
        have := total_sumMin1 (members grid data n)
        simp only [total, present, List.filterMap_append, List.sum_append] at *
        simp only [List.map_cons, List.map_nil, Function.comp_apply, Method.apply, List.filterMap_cons,
          List.filterMap_nil, id, List.sum_cons, List.sum_nil, add_zero]
        congr 1
        refine Eq.trans ?_ this
        cases sumMin1 (members grid data n) <;> simp

/-- C24, emptiness: with `sum`, a new timestep is empty exactly when all its members are. -/
theorem C24_empty_iff (vs : List (Option Rat)) : Method.apply .sum vs = none ↔ ∀ v ∈ vs, v = none := by
  simp only [Method.apply, sumMin1]
  constructor
  · intro h v hv
    split at h
    · next hp =>
      cases v with
      | none => rfl
      | some x =>
        have : x ∈ present vs := List.mem_filterMap.2 ⟨some x, hv, rfl⟩
        simp [hp] at this
    · cases h
  · intro h
    have : present vs = [] := by
      apply List.filterMap_eq_nil_iff.2
      intro v hv; exact h v hv
    simp [this]

/-- C24: every timeseries input needs a resampling method, otherwise nothing is resampled. -/
theorem C24_needs_method (grid : Nat → Int) (find : String → Option Method) (vars : List (String × Series)) :
    (resample grid find vars = none ↔ ∃ v ∈ vars, find v.1 = none) ∧
    (∀ out, resample grid find vars = some out → out.map Prod.fst = vars.map Prod.fst ∧
      ∀ (i : Nat) v, vars[i]? = some v → ∃ m, find v.1 = some m ∧ out[i]? = some (v.1, resampleVar grid m v.2)) := by
  induction vars with
  | nil => simp [resample]
  | cons v r ih =>
    obtain ⟨n, s⟩ := v
    obtain ⟨ih1, ih2⟩ := ih
    simp only [resample]
    cases hf : find n with
    | none => simp [hf]
    | some m =>
      cases hr : resample grid find r with
      | none =>
        have := ih1.1 hr
        simp only [List.mem_cons, exists_eq_or_imp, hf, reduceCtorEq, false_or, true_iff, false_implies,
          implies_true, and_true]
        exact this
      | some r' =>
        have hno : ¬ ∃ v ∈ r, find v.1 = none := by rw [← ih1, hr]; simp
        refine ⟨?_, ?_⟩
        · simp only [List.mem_cons, exists_eq_or_imp, hf, reduceCtorEq, false_or, false_iff]
          exact hno
        · rintro out ⟨⟩
          obtain ⟨e1, e2⟩ := ih2 r' hr
          refine ⟨by simp [e1], ?_⟩
          intro i v hv
          cases i with
          | zero => simp at hv; subst hv; exact ⟨m, hf, by simp⟩
          | succ i => simp at hv; obtain ⟨m', h1, h2⟩ := e2 i v hv; exact ⟨m', h1, by simpa using h2⟩

/-- Hypotheses of C24 on a concrete series with a gap: hourly data to two-hourly. -/
example : ∃ (grid : Nat → Int) (data : Series), (∀ i, grid i < grid (i + 1)) ∧
    data.Pairwise (fun a b => a.1 < b.1) ∧ (∀ e ∈ data, grid 0 ≤ e.1) ∧
    resampleVar grid .sum data = [(0, some 3), (2, none), (4, none), (6, some 7)] := by
  refine ⟨fun i => 2 * i, [(0, some 1), (1, some 2), (2, none), (6, some 7)], ?_, by decide, by decide, ?_⟩
  · intro i; push_cast; omega
  · decide +kernel

/-! ## C25: clustering -/

theorem mem_insertDay (x : Int) (l : List Int) (y : Int) : y ∈ insertDay x l ↔ y = x ∨ y ∈ l := by
  induction l with
  | nil => simp [insertDay]
  | cons z r ih =>
    simp only [insertDay]
    split
    · simp
    · split
      · next h => subst h; simp
      · simp only [List.mem_cons, ih]; tauto

theorem insertDay_sorted (x : Int) (l : List Int) (h : l.Pairwise (· < ·)) :
    (insertDay x l).Pairwise (· < ·) := by
  induction l with
  | nil => simp [insertDay]
  | cons z r ih =>
    obtain ⟨h1, h2⟩ := List.pairwise_cons.1 h
    simp only [insertDay]
    split
    · next hx =>
      refine List.pairwise_cons.2 ⟨?_, h⟩
      intro y hy
      rcases List.mem_cons.1 hy with rfl | hy
      · exact hx
      · exact Int.lt_trans hx (h1 y hy)
    · split
      · exact h
      · next hx hne =>
        refine List.pairwise_cons.2 ⟨?_, ih h2⟩
        intro y hy
        rcases (mem_insertDay x r y).1 hy with rfl | hy
        · omega
        · exact h1 y hy

theorem mem_groups (rep : List (Int × Int)) (r : Int) : r ∈ groups rep ↔ r ∈ rep.map Prod.snd := by
  induction rep with
  | nil => simp [groups]
  | cons e rep ih =>
    have : groups (e :: rep) = insertDay e.2 (groups rep) := rfl
    rw [this, mem_insertDay, ih]; simp

theorem groups_sorted (rep : List (Int × Int)) : (groups rep).Pairwise (· < ·) := by
  induction rep with
  | nil => simp [groups]
  | cons e rep ih =>
    have : groups (e :: rep) = insertDay e.2 (groups rep) := rfl
    rw [this]; exact insertDay_sorted _ _ ih

theorem groups_nodup (rep : List (Int × Int)) : (groups rep).Nodup :=
  (groups_sorted rep).imp (fun h => Int.ne_of_lt h)

theorem clusterId_inj (rep : List (Int × Int)) {a b : Int} (ha : a ∈ rep.map Prod.snd)
    (hb : b ∈ rep.map Prod.snd) : clusterId rep a = clusterId rep b ↔ a = b := by
  refine ⟨fun h => ?_, fun h => by rw [h]⟩
  have h1 := (mem_groups rep a).2 ha
  have h2 := (mem_groups rep b).2 hb
  exact (List.idxOf_inj h1).1 h

theorem count_zero (ds : List Int) (hd : ds.Nodup) (x : Int) (hx : x ∉ ds) :
    (ds.map (fun d => if d = x then 1 else 0)).sum = 0 := by
  induction ds with
  | nil => rfl
  | cons y ds ih =>
    simp only [List.mem_cons, not_or] at hx
    have hy : ¬ y = x := fun h => hx.1 h.symm
    simp [hy, ih (List.nodup_cons.1 hd).2 hx.2]

theorem count_one (ds : List Int) (hd : ds.Nodup) (x : Int) (hx : x ∈ ds) :
    (ds.map (fun d => if d = x then 1 else 0)).sum = 1 := by
  induction ds with
  | nil => simp at hx
  | cons y ds ih =>
    obtain ⟨h1, h2⟩ := List.nodup_cons.1 hd
    by_cases hy : y = x
    · subst hy; simp [count_zero ds h2 y h1]
    · have : x ∈ ds := (List.mem_cons.1 hx).resolve_left (fun h => hy h.symm)
      simp [hy, ih h2 this]

theorem weights_sum (ds : List Int) (hd : ds.Nodup) (rep : List (Int × Int)) :
    (ds.map (weightOf rep)).sum = (rep.filter (fun e => decide (e.2 ∈ ds))).length := by
  induction rep with
  | nil =>
    have : ∀ d, weightOf [] d = 0 := fun d => rfl
    simp [funext this]
  | cons e rep ih =>
    have hw : ∀ d, weightOf (e :: rep) d = (if d = e.2 then 1 else 0) + weightOf rep d := by
      intro d
      by_cases h : e.2 = d
      · simp [weightOf, h]; omega
      · have h' : ¬ d = e.2 := fun h' => h h'.symm
        simp [weightOf, h, h']
    have hs : (ds.map (weightOf (e :: rep))).sum
        = (ds.map (fun d => if d = e.2 then 1 else 0)).sum + (ds.map (weightOf rep)).sum := by
      rw [← List.sum_map_add]; congr 1; exact List.map_congr_left (fun d _ => hw d)
    rw [hs, ih]
    by_cases h : e.2 ∈ ds
    · rw [count_one ds hd e.2 h]; simp [h]; omega
    · rw [count_zero ds hd e.2 h]; simp [h]

/-- The days that have timesteps after clustering. -/
def KeptDays (axis : List Int) (rep : List (Int × Int)) (days : List Int) : Prop :=
  days.Nodup ∧ ∀ d, d ∈ days ↔ ∃ row ∈ (cluster axis rep).1, date row.time = d

/-- C25, under the assumption that every representative day occurs in the data (the code does not
check it, see `C25_missing_day_fails`).  `rep` lists each original day with its representative.

* The kept timesteps are all timesteps of the representative days, in order.
* The weights of the kept days add up to the number of original days.
* Each original day has the cluster number of its representative day's timesteps, and different
  representatives have different numbers.
* A timestep is marked as first of its cluster exactly when no earlier timestep has its date.
* The last timestep looked up for an original day is the last timestep of its representative.

Missing: that representatives represent themselves is not checked (`C25_self_not_checked`), and the
last timestep of a cluster can be looked up only at midnight (`C25_last_only_at_midnight`). -/
theorem C25_cluster_partial (axis : List Int) (hs : axis.Pairwise (· < ·)) (rep : List (Int × Int))
    (hin : ∀ e ∈ rep, ∃ t ∈ axis, date t = e.2) :
    (cluster axis rep).1.map Row.time = axis.filter (fun t => decide (∃ e ∈ rep, e.2 = date t)) ∧
    (∀ days, KeptDays axis rep days → ∃ w : Int → Nat,
      (∀ row ∈ (cluster axis rep).1, row.weight = w (date row.time)) ∧
      (days.map w).sum = rep.length) ∧
    (cluster axis rep).2.map DayRow.day = rep.map Prod.fst ∧
    (∀ (i : Nat) e, rep[i]? = some e → ∃ row, (cluster axis rep).2[i]? = some row ∧ row.day = e.1 ∧
      (∃ k ∈ (cluster axis rep).1, date k.time = e.2) ∧
      (∀ k ∈ (cluster axis rep).1, k.cluster = row.cluster ↔ date k.time = e.2) ∧
      (∃ t, row.lastTime = some t ∧ t ∈ axis ∧ date t = e.2 ∧ ∀ u ∈ axis, date u = e.2 → u ≤ t)) ∧
    (∀ row ∈ (cluster axis rep).1, row.first = true ↔
      ∀ u ∈ axis, date u = date row.time → row.time ≤ u) ∧
    (∀ row ∈ (cluster axis rep).1, ∀ t, row.lastLookup = some t →
      t ∈ axis ∧ date t = date row.time ∧ ∀ u ∈ axis, date u = date row.time → u ≤ t) := by
  have hkept : kept axis rep = axis.filter (fun t => decide (∃ e ∈ rep, e.2 = date t)) := by
    simp only [kept]
    congr 1; funext t; congr 1; simp [List.mem_map]
  have hmem : ∀ t, t ∈ kept axis rep ↔ t ∈ axis ∧ date t ∈ rep.map Prod.snd := by
    intro t; simp [kept]
  have hks : (kept axis rep).Pairwise (· < ·) := hs.filter _
  have hrow : ∀ row ∈ (cluster axis rep).1, row.time ∈ kept axis rep ∧
      row.cluster = clusterId rep (date row.time) ∧ row.weight = weightOf rep (date row.time) ∧
      row.first = decide (some row.time = (kept axis rep).find? (fun u => decide (date u = date row.time))) ∧
      row.lastLookup = (if row.time = date row.time * dayNs then
        ((kept axis rep).filter (fun u => decide (date u = date row.time))).getLast? else none) := by
    intro row h
    simp only [cluster, List.mem_map] at h
    obtain ⟨t, ht, rfl⟩ := h
    exact ⟨ht, rfl, rfl, rfl, rfl⟩
  have htime : (cluster axis rep).1.map Row.time = kept axis rep := by
    simp only [cluster, List.map_map]
    conv => rhs; rw [← List.map_id (kept axis rep)]
    rfl
  have hlast : ∀ (p : Int → Bool) t, ((kept axis rep).filter p).getLast? = some t →
      t ∈ kept axis rep ∧ p t = true ∧ ∀ u ∈ kept axis rep, p u = true → u ≤ t := by
    intro p t ht
    have hm := List.mem_of_getLast? ht
    have hm' := List.mem_filter.1 hm
    refine ⟨hm'.1, hm'.2, fun u hu hpu => ?_⟩
    have hsf := hks.filter p
    have hne : (kept axis rep).filter p ≠ [] := by intro h; simp [h] at hm
    have hl' : ((kept axis rep).filter p).getLast hne = t := by
      have := List.getLast?_eq_some_getLast hne
      rw [ht] at this; exact (Option.some.inj this).symm
    have hu' : u ∈ (kept axis rep).filter p := List.mem_filter.2 ⟨hu, hpu⟩
    rw [← List.dropLast_append_getLast hne, hl'] at hu' hsf
    rcases List.mem_append.1 hu' with h | h
    · exact Int.le_of_lt ((List.pairwise_append.1 hsf).2.2 u h t (by simp))
    · simp at h; omega
  refine ⟨by rw [htime, hkept], ?_, ?_, ?_, ?_, ?_⟩
  · rintro days ⟨hd, hdm⟩
    refine ⟨weightOf rep, fun row hr => (hrow row hr).2.2.1, ?_⟩
    rw [weights_sum days hd rep]
    congr 1
    apply List.filter_eq_self.2
    intro e he
    simp only [decide_eq_true_eq]
    obtain ⟨t, ht, hte⟩ := hin e he
    have htk : t ∈ kept axis rep := (hmem t).2 ⟨ht, by rw [hte]; exact List.mem_map_of_mem he⟩
    rw [← htime] at htk
    obtain ⟨row, hr, rfl⟩ := List.mem_map.1 htk
    exact (hdm e.2).2 ⟨row, hr, hte⟩
  · simp [cluster, List.map_map, Function.comp_def]
  · intro i e hi
    have he : e ∈ rep := List.mem_of_getElem? hi
    have he2 : e.2 ∈ rep.map Prod.snd := List.mem_map_of_mem he
    obtain ⟨t, ht, hte⟩ := hin e he
    have htk : t ∈ kept axis rep := (hmem t).2 ⟨ht, by rw [hte]; exact he2⟩
    have hcl : ∀ u ∈ kept axis rep, clusterId rep (date u) = clusterId rep e.2 ↔ date u = e.2 :=
      fun u hu => clusterId_inj rep ((hmem u).1 hu).2 he2
    refine ⟨_, by simp only [cluster, List.getElem?_map, hi, Option.map_some]; rfl, rfl, ?_, ?_, ?_⟩
    · have h' := htk
      rw [← htime] at h'
      obtain ⟨row, hr, h2⟩ := List.mem_map.1 h'
      exact ⟨row, hr, by rw [h2, hte]⟩
    · intro k hk
      obtain ⟨h1, h2, _⟩ := hrow k hk
      rw [h2]; exact hcl _ h1
    · simp only
      have hne : (kept axis rep).filter (fun u => decide (clusterId rep (date u) = clusterId rep e.2)) ≠ [] := by
        intro h
        have : t ∈ (kept axis rep).filter (fun u => decide (clusterId rep (date u) = clusterId rep e.2)) :=
          List.mem_filter.2 ⟨htk, by simp [hte]⟩
        simp [h] at this
      have hl := List.getLast?_eq_some_getLast hne
      obtain ⟨h1, h2, h3⟩ := hlast _ _ hl
      refine ⟨_, hl, ((hmem _).1 h1).1, (hcl _ h1).1 (by simpa using h2), ?_⟩
      intro u hu hud
      have huk : u ∈ kept axis rep := (hmem u).2 ⟨hu, by rw [hud]; exact he2⟩
      exact h3 u huk (by simp [hud])
  · intro row hr
    obtain ⟨h1, _, _, h4, _⟩ := hrow row hr
    rw [h4, decide_eq_true_eq]
    have hd := ((hmem _).1 h1).2
    constructor
    · intro h u hu hud
      have huk : u ∈ kept axis rep := (hmem u).2 ⟨hu, by rw [hud]; exact hd⟩
      obtain ⟨_, as, bs, hab, hno⟩ := List.find?_eq_some_iff_append.1 h.symm
      rw [hab] at huk hks
      rcases List.mem_append.1 huk with h' | h'
      · have := hno u h'; simp [hud] at this
      · rcases List.mem_cons.1 h' with rfl | h''
        · exact Int.le_refl _
        · exact Int.le_of_lt ((List.pairwise_cons.1 (List.pairwise_append.1 hks).2.1).1 u h'')
    · intro h
      symm
      obtain ⟨as, bs, hab⟩ := List.append_of_mem h1
      refine List.find?_eq_some_iff_append.2 ⟨by simp, as, bs, hab, ?_⟩
      intro u hu
      have huk : u ∈ kept axis rep := by rw [hab]; simp [hu]
      simp only [Bool.not_eq_eq_eq_not, Bool.not_true, decide_eq_false_iff_not]
      intro hud
      have := h u ((hmem u).1 huk).1 hud
      rw [hab] at hks
      have := (List.pairwise_append.1 hks).2.2 u hu row.time (by simp)
      omega
  · intro row hr t ht
    obtain ⟨h1, _, _, _, h5⟩ := hrow row hr
    rw [h5] at ht
    split at ht
    · obtain ⟨g1, g2, g3⟩ := hlast _ _ ht
      have g2' : date t = date row.time := by simpa using g2
      refine ⟨((hmem t).1 g1).1, g2', fun u hu hud => ?_⟩
      exact g3 u ((hmem u).2 ⟨hu, by rw [hud]; exact ((hmem _).1 h1).2⟩) (by simp [hud])
    · cases ht

/-- Four days in half-days, clustered to two representatives. -/
def toyAxis : List Int := (List.range 8).map (fun i => (i : Int) * (12 * hour))
def toyRep : List (Int × Int) := [(0, 1), (1, 1), (2, 1), (3, 3)]

example : toyAxis.Pairwise (· < ·) ∧ (∀ e ∈ toyRep, ∃ t ∈ toyAxis, date t = e.2) ∧
    KeptDays toyAxis toyRep [1, 3] ∧
    (cluster toyAxis toyRep).1.map Row.weight = [3, 3, 1, 1] := by
  refine ⟨by decide, by decide, ⟨by decide, ?_⟩, by decide⟩
  have h : ∀ d, (∃ row ∈ (cluster toyAxis toyRep).1, date row.time = d) ↔
      d ∈ (cluster toyAxis toyRep).1.map (fun r => date r.time) := by
    intro d; simp [List.mem_map]
  have hl : (cluster toyAxis toyRep).1.map (fun r => date r.time) = [1, 1, 3, 3] := by decide
  intro d; rw [h, hl]; simp

/-- C25 fails when a representative day is missing from the data: its days are lost without an
error, the weights add up to less than the number of days. -/
theorem C25_missing_day_fails : ∃ (axis : List Int) (rep : List (Int × Int)), axis.Pairwise (· < ·) ∧
    rep.length = 3 ∧ KeptDays axis rep [0] ∧ ([0].map (weightOf rep)).sum = 1 ∧
    (cluster axis rep).2.map DayRow.lastTime = [some 0, none, none] := by
  refine ⟨[0, dayNs], [(0, 0), (1, 7), (2, 7)], by decide, rfl, ⟨by decide, ?_⟩, by decide, by decide⟩
  intro d
  have hl : (cluster [0, dayNs] [(0, 0), (1, 7), (2, 7)]).1.map (fun r => date r.time) = [0] := by decide
  have h : (∃ row ∈ (cluster [0, dayNs] [(0, 0), (1, 7), (2, 7)]).1, date row.time = d) ↔
      d ∈ (cluster [0, dayNs] [(0, 0), (1, 7), (2, 7)]).1.map (fun r => date r.time) := by
    simp only [List.mem_map]
  rw [h, hl]

/-- C25: nothing checks that a representative day represents itself; here two days represent each
other. -/
theorem C25_self_not_checked : ∃ (axis : List Int) (rep : List (Int × Int)), axis.Pairwise (· < ·) ∧
    (∀ e ∈ rep, ∃ t ∈ axis, date t = e.2) ∧ (∀ e ∈ rep, e.1 ≠ e.2) ∧
    (cluster axis rep).1.map Row.weight = [1, 1] :=
  ⟨[0, dayNs], [(0, 1), (1, 0)], by decide, by decide, by decide, by decide⟩

/-- C25: when days do not start at midnight, no timestep has a "last timestep of its cluster". -/
theorem C25_last_only_at_midnight : ∃ (axis : List Int) (rep : List (Int × Int)),
    axis.Pairwise (· < ·) ∧ (∀ e ∈ rep, ∃ t ∈ axis, date t = e.2) ∧
    (cluster axis rep).1.map Row.first = [true, false] ∧
    (cluster axis rep).1.map Row.lastLookup = [none, none] :=
  ⟨[hour, 2 * hour], [(0, 0)], by decide, by decide, by decide, by decide⟩

/-! ## C26: subsetting -/

/-- C26: a subset that is accepted keeps exactly the timesteps from its start to the end of the
period its end names, in order.  It is rejected if it is no pair of ISO timestamps or ends on an
earlier (starts on a later) date than the data.  Missing: an accepted subset need not hold any
timestep (`C26_empty_subset_accepted`), and one that overlaps the data can be rejected
(`C26_overlap_rejected`). -/
theorem C26_subset_partial (axis : List Int) (hne : axis ≠ []) (s e : Stamp) :
    (∀ out, subsetTime axis [some s, some e] = .ok out →
      out.Sublist axis ∧ ∀ t, t ∈ out ↔ t ∈ axis ∧ s.lo ≤ t ∧ t ≤ e.hi) ∧
    ((∃ out, subsetTime axis [some s, some e] = .ok out) ↔
      date (axis.head hne) ≤ date e.lo ∧ date s.lo ≤ date (axis.getLast hne)) := by
  have hh : axis.head? = some (axis.head hne) := List.head?_eq_some_head hne
  have hl : axis.getLast? = some (axis.getLast hne) := List.getLast?_eq_some_getLast hne
  simp only [subsetTime, checkTimeSubset, hh, hl]
  by_cases hc : date e.lo < date (axis.head hne) ∨ date s.lo > date (axis.getLast hne)
  · simp only [hc, if_true]
    refine ⟨by simp, ?_⟩
    simp only [reduceCtorEq, exists_false, false_iff]; omega
  · simp only [hc, if_false]
    refine ⟨?_, ?_⟩
    · intro out h
      cases h
      exact ⟨List.filter_sublist, fun t => by simp⟩
    · simp only [Except.ok.injEq, exists_eq', true_iff]; omega

/-- C26: anything but two ISO timestamps is rejected. -/
theorem C26_malformed (axis : List Int) (sub : List (Option Stamp))
    (h : ¬ ∃ s e, sub = [some s, some e]) : ∃ m, subsetTime axis sub = .error m := by
  simp only [subsetTime]
  match sub, h with
  | [], _ => exact ⟨_, rfl⟩
  | [none], _ => exact ⟨_, rfl⟩
  | [some _], _ => exact ⟨_, rfl⟩
  | [none, _], _ => exact ⟨_, rfl⟩
  | [some _, none], _ => exact ⟨_, rfl⟩
  | [some s, some e], h => exact absurd ⟨s, e, rfl⟩ h
  | a :: b :: _ :: _, _ => cases a <;> cases b <;> exact ⟨_, rfl⟩

/-- C26: a subset given by days or longer periods (its ends are at midnight) that lies wholly before
or wholly after the data is rejected.  Missing: subsets given to the hour. -/
theorem C26_outside_raises_partial (axis : List Int) (s e : Stamp)
    (hout : (∀ t ∈ axis, e.hi < t) ∨ (∀ t ∈ axis, t < s.lo))
    (hperiod : e.lo ≤ e.hi ∧ (∃ d, s.lo = d * dayNs) ∧ (∃ d, e.hi + 1 = d * dayNs))
    (hne : axis ≠ []) : ∃ m, subsetTime axis [some s, some e] = .error m := by
  obtain ⟨h1, ⟨a, ha⟩, ⟨b, hb⟩⟩ := hperiod
  have hd : (0 : Int) < dayNs := by decide
  cases hr : subsetTime axis [some s, some e] with
  | error m => exact ⟨m, rfl⟩
  | ok out =>
    exfalso
    have := ((C26_subset_partial axis hne s e).2).1 ⟨out, hr⟩
    obtain ⟨g1, g2⟩ := this
    rcases hout with h | h
    · have hx := h _ (List.head_mem hne)
      have h3 : date e.lo < b := by
        simp only [date]; rw [Int.ediv_lt_iff_lt_mul hd]; omega
      have h4 : b ≤ date (axis.head hne) := by
        simp only [date]; rw [Int.le_ediv_iff_mul_le hd]; omega
      omega
    · have hx := h _ (List.getLast_mem hne)
      have h3 : date s.lo = a := by
        simp only [date, ha]; exact Int.mul_ediv_cancel _ (by decide)
      have h4 : date (axis.getLast hne) < a := by
        simp only [date]; rw [Int.ediv_lt_iff_lt_mul hd]; omega
      omega

/-- January as `"2005-01"` would be, on an axis of two days. -/
example : subsetTime [0, dayNs] [some ⟨0, dayNs - 1⟩, some ⟨0, dayNs - 1⟩] = .ok [0] := by rfl

/-- C26 fails: hours before the data on its first day are accepted and nothing is kept. -/
theorem C26_empty_subset_accepted : ∃ (axis : List Int) (s e : Stamp), axis ≠ [] ∧
    (∀ t ∈ axis, e.hi < t) ∧ subsetTime axis [some s, some e] = .ok [] :=
  ⟨[5 * hour, 6 * hour], ⟨0, 0⟩, ⟨hour, hour⟩, by decide, by decide, rfl⟩

/-- C26 fails: a month that holds all of the data is rejected when the data starts after the first
day of the month. -/
theorem C26_overlap_rejected : ∃ (axis : List Int) (s e : Stamp), axis ≠ [] ∧
    (∀ t ∈ axis, s.lo ≤ t ∧ t ≤ e.hi) ∧
    subsetTime axis [some s, some e] = .error "outside the input data" :=
  ⟨[4 * dayNs, 5 * dayNs], ⟨0, 31 * dayNs - 1⟩, ⟨0, 31 * dayNs - 1⟩, by decide, by decide, rfl⟩

end Time
end Calliope
