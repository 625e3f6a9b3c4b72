import Mathlib.Tactic.Linarith
import Verif.Spec.Loosen
import Verif.Proofs.Measure

/-!
# Expressions of what moves
-/

namespace Calliope
namespace Loosen

open Grid Expr Build BaseMath Assemble Expand
open Linear (Plain)
open Units (Both Items items_eq items_isSome)

variable {V : Type} [Field V] [LinearOrder V] [IsStrictOrderedRing V] {D : String → Way}

/-! ### Relations -/

theorem Moved.some {j : Way} {a b : Option V} (h : Moved j a b) : b.isSome = a.isSome := by
  cases h <;> rfl

theorem moved_iff {j : Way} {a b : V} : Moved j (some a) (some b) ↔ Goes j a b :=
  ⟨fun h => by cases h; assumption, .present⟩

theorem Goes.fixed {j : Way} (hj : j.fixed = true) {a b : V} (h : Goes j a b) : b = a := by
  cases j with
  | one | big | nonneg | nonpos => exact h.1
  | same => exact h
  | up | down => cases hj

theorem Goes.nonneg {j : Way} (hj : j.positive = true) {a b : V} (h : Goes j a b) : b = a ∧ 0 ≤ a := by
  cases j with
  | one => exact ⟨h.1, h.2 ▸ zero_le_one⟩
  | big => exact ⟨h.1, zero_le_one.trans h.2⟩
  | nonneg => exact h
  | nonpos | same | up | down => cases hj

theorem Goes.one_le {j : Way} (hj : j.atLeastOne = true) {a b : V} (h : Goes j a b) : b = a ∧ 1 ≤ a := by
  cases j with
  | one => exact ⟨h.1, h.2.ge⟩
  | big => exact h
  | nonneg | nonpos | same | up | down => cases hj

theorem Moved.fixed {j : Way} (hj : j.fixed = true) {a b : Option V} (h : Moved j a b) : b = a := by
  cases h with
  | missing => rfl
  | present h => rw [h.fixed hj]

/-- Ways that fit another. -/
theorem Goes.fits {j l : Way} {a b : V} (h : Goes j a b) (hf : j.fits l = true) : Goes l a b := by
  cases l with
  | one =>
    simp only [Way.fits, decide_eq_true_eq] at hf
    exact hf ▸ h
  | big => exact h.one_le hf
  | nonneg => exact h.nonneg hf
  | nonpos =>
    simp only [Way.fits, decide_eq_true_eq] at hf
    exact hf ▸ h
  | same => exact h.fixed hf
  | up =>
    simp only [Way.fits, Bool.or_eq_true, decide_eq_true_eq] at hf
    rcases hf with hf | rfl
    · exact (h.fixed hf).ge
    · exact h
  | down =>
    simp only [Way.fits, Bool.or_eq_true, decide_eq_true_eq] at hf
    rcases hf with hf | rfl
    · exact (h.fixed hf).le
    · exact h

theorem Moved.fits {j l : Way} {a b : Option V} (h : Moved j a b) (hf : j.fits l = true) : Moved l a b := by
  cases h with
  | missing => exact .missing
  | present h => exact .present (h.fits hf)

theorem fits_trans {i j l : Way} (h : i.fits j = true) (h' : j.fits l = true) : i.fits l = true := by
  revert h h'
  cases i <;> cases j <;> cases l <;> decide

theorem sup_fits {i j l : Way} (h : i.sup j = some l) : i.fits l = true ∧ j.fits l = true := by
  revert h
  cases i <;> cases j <;> cases l <;> decide

theorem fits_summed (i : Way) : i.fits i.summed = true := by
  cases i <;> rfl

theorem supAll_fits {l : List (Option Way)} {i : Way} (h : supAll l = some i) :
    ∀ x ∈ l, ∃ j, x = some j ∧ j.fits i = true := by
  induction l generalizing i with
  | nil => simp
  | cons y l ih =>
    simp only [supAll, Option.bind_eq_some_iff] at h
    obtain ⟨j, rfl, m, hm, hi⟩ := h
    obtain ⟨f1, f2⟩ := sup_fits hi
    intro x hx
    rcases List.mem_cons.1 hx with rfl | hx
    · exact ⟨j, rfl, f1⟩
    · obtain ⟨n, rfl, hn⟩ := ih hm x hx
      exact ⟨n, rfl, fits_trans hn f2⟩

/-! ### Operations -/

theorem maskArr_rel {j : Way} (w : Arr Bool) {a b : Arr (Option V)} (h : Items (Moved j) a b) :
    Items (Moved j) (maskArr w a) (maskArr w b) := by
  refine h.zipMask w ?_
  intro x y m hr
  cases m with
  | true => exact hr
  | false => exact Moved.missing

theorem goes_zero (j : Way) : Goes j.summed (0 : V) 0 := by
  cases j <;> simp [Goes, Way.summed]

theorem goes_add {j : Way} {a b a' b' : V} (h : Goes j.summed a b) (h' : Goes j.summed a' b') :
    Goes j.summed (a + a') (b + b') := by
  cases j with
  | one | big | nonneg => exact ⟨by rw [h.1, h'.1], add_nonneg h.2 h'.2⟩
  | nonpos => exact ⟨by rw [h.1, h'.1], add_nonpos h.2 h'.2⟩
  | same => simp only [Way.summed, Goes] at *; rw [h, h']
  | up => exact add_le_add h h'
  | down => exact add_le_add h h'

theorem sums_rel {α : Type} {j : Way} (f f' : α → Option V) (l : List α) (h : ∀ i ∈ l, Moved j (f i) (f' i)) :
    Moved j.summed (sumPresent (l.map f)) (sumPresent (l.map f')) := by
  have key : (l.map f').all Option.isNone = (l.map f).all Option.isNone ∧
      Goes j.summed ((l.map f).filterMap id).sum ((l.map f').filterMap id).sum := by
    induction l with
    | nil => exact ⟨rfl, goes_zero j⟩
    | cons i l ih =>
      obtain ⟨e1, e2⟩ := ih fun j hj => h j (List.mem_cons_of_mem _ hj)
      have hi : Moved j (f i) (f' i) := h i List.mem_cons_self
      have hs := hi.some
      simp only [List.map_cons]
      generalize f i = x at hi hs ⊢
      generalize f' i = y at hi hs ⊢
      cases x with
      | none => cases y with
        | some _ => simp at hs
        | none =>
          simp only [List.all_cons, Option.isNone_none, Bool.true_and, List.filterMap_cons, id_eq]
          exact ⟨e1, e2⟩
      | some p => cases y with
        | none => simp at hs
        | some q =>
          refine ⟨by simp, ?_⟩
          simp only [List.filterMap_cons, id_eq, List.sum_cons]
          exact goes_add ((moved_iff.1 hi).fits (fits_summed j)) e2
  obtain ⟨e1, e2⟩ := key
  simp only [sumPresent, e1]
  split
  · exact .missing
  · exact moved_iff.2 e2

theorem reduce_rel {j : Way} (coords : String → List Label) (over : List String) {a b : Arr (Option V)}
    (h : Items (Moved j) a b) : Items (Moved j.summed) (sumArr coords over a) (sumArr coords over b) := by
  obtain ⟨h1, h2⟩ := h
  refine ⟨by simp only [sumArr, reduce, h1], fun x => ?_⟩
  simp only [sumArr, reduce, h1]
  exact sums_rel _ _ _ fun i _ => h2 _

theorem rollAll_rel {j : Way} (coords : String → List Label) : ∀ (l : List (String × Int)) {a b : Arr (Option V)},
    Items (Moved j) a b → Both (Items (Moved j)) (rollAll coords l a) (rollAll coords l b)
  | [], _, _, h => h
  | (d, n) :: l, a, b, h => by
    obtain ⟨h1, h2⟩ := h
    simp only [rollAll, h1]
    split
    · exact rollAll_rel coords l ⟨by simp only [rollArr, h1], fun x => by
        simp only [rollArr, h1]
        exact h2 _⟩
    · exact rfl

theorem groupArr_rel {j : Way} (coords : String → List Label) (g : Arr (Option Label)) (d : String)
    {a b : Arr (Option V)} (h : Items (Moved j) a b) :
    Both (Items (Moved j.summed)) (groupArr coords a g d) (groupArr coords b g d) := by
  obtain ⟨h1, h2⟩ := h
  simp only [groupArr, h1]
  split
  · split
    · exact rfl
    · split
      · exact rfl
      · refine ⟨rfl, fun x => ?_⟩
        cases x with
        | nil => exact Moved.missing
        | cons l x => exact sums_rel _ _ _ fun i _ => h2 _
  · exact rfl

theorem nextArr_rel {j : Way} (coords : String → List Label) (d : String) (n : Int)
    {a b : Arr (Option V)} (h : Items (Moved j) a b) :
    Both (Items (Moved j.summed)) (nextArr coords d n a) (nextArr coords d n b) := by
  obtain ⟨h1, h2⟩ := h
  simp only [nextArr, h1]
  split
  · exact ⟨rfl, fun x => sums_rel _ _ _ fun i _ => h2 _⟩
  · exact rfl

theorem selectArr_rel {j : Way} (coords : String → List Label) (gs : List (String × Arr (Option Label)))
    {a b : Arr (Option V)} (h : Items (Moved j) a b) :
    Both (Items (Moved j)) (selectArr coords a gs) (selectArr coords b gs) := by
  obtain ⟨h1, h2⟩ := h
  simp only [selectArr, h1]
  split
  · split
    · split
      · split
        · exact rfl
        · refine ⟨rfl, fun x => ?_⟩
          dsimp only
          split
          · exact h2 _
          · exact Moved.missing
      · exact rfl
    · exact rfl
  · exact rfl

/-! ### Environments -/

/-- The environments differ in what moves. -/
structure Envs (D : String → Way) (E E' : Expr.Env V) : Prop where
  coords : E'.coords = E.coords
  isDim : E'.isDim = E.isDim
  lookup : E'.lookup = E.lookup
  carrier : E'.carrier = E.carrier
  period : E'.period = E.period
  op : E'.op = E.op
  neg : E'.neg = E.neg
  truthy : E'.truthy = E.truthy
  comp : ∀ n, (E.comp n = none ∧ E'.comp n = none) ∨
    ∃ c c', E.comp n = some c ∧ E'.comp n = some c' ∧
      Items (Moved (D n)) (map (fill c.default) c.arr) (map (fill c'.default) c'.arr)

variable {E E' : Expr.Env V}

theorem compArr_rel (h : Envs D E E') (n : String) :
    Both (Items (Moved (D n))) (compArr E n) (compArr E' n) := by
  rcases h.comp n with ⟨e1, e2⟩ | ⟨a, b, e1, e2, hr⟩
  · simp only [compArr, e1, e2, h.isDim]
    by_cases hd : E.isDim n = true
    · simp only [hd, if_true]
      exact ⟨rfl, fun _ => Moved.missing⟩
    · simp only [hd]
      exact rfl
  · simp only [compArr, e1, e2]
    exact hr

theorem selAll_rel {j : Way} (h : Envs D E E') (slices : String → Option SliceDef)
    (ss : List (String × Slicer)) {a b : Arr (Option V)} (hr : Items (Moved j) a b) :
    Both (Items (Moved j)) (selAll E slices a ss) (selAll E' slices b ss) := by
  obtain ⟨h1, h2⟩ := hr
  simp only [selAll, Linear.sliceArrs_same h.coords h.lookup]
  cases sliceArrs E slices ss with
  | error x => exact rfl
  | ok gs =>
    simp only [h1, h.coords]
    split
    · refine ⟨rfl, fun x => ?_⟩
      dsimp only
      split
      · exact h2 _
      · exact Moved.missing
    · exact rfl

theorem goes_flip {j : Way} {a b : V} (h : Goes j a b) : Goes j.flip (-a) (-b) := by
  cases j with
  | one => exact ⟨by rw [h.1], by rw [h.2]; exact neg_nonpos.2 zero_le_one⟩
  | big => exact ⟨by rw [h.1], neg_nonpos.2 (zero_le_one.trans h.2)⟩
  | nonneg => exact ⟨by rw [h.1], neg_nonpos.2 h.2⟩
  | nonpos => exact ⟨by rw [h.1], neg_nonneg.2 h.2⟩
  | same => simp only [Way.flip, Goes] at *; rw [h]
  | up => exact neg_le_neg h
  | down => exact neg_le_neg h

theorem goes_mul {i : Way} {a b c : V} (h : Goes i a b) (hc : 0 ≤ c) : Goes i.summed (a * c) (b * c) := by
  have h := h.fits (fits_summed i)
  cases i with
  | one | big | nonneg => exact ⟨by rw [h.1], mul_nonneg h.2 hc⟩
  | nonpos => exact ⟨by rw [h.1], mul_nonpos_of_nonpos_of_nonneg h.2 hc⟩
  | same => simp only [Way.summed, Goes] at *; rw [h]
  | up => exact mul_le_mul_of_nonneg_right h hc
  | down => exact mul_le_mul_of_nonneg_right h hc

theorem goes_mul_nonpos {i : Way} {a b c : V} (h : Goes i a b) (hc : c ≤ 0) : Goes i.flip (a * c) (b * c) := by
  have := goes_flip (goes_mul h (neg_nonneg.2 hc))
  simp only [mul_neg, neg_neg] at this
  cases i <;> exact this

/-- Operations on numbers. -/
theorem plus_goes {i j l : Way} (hc : plus i j = some l) {a b a' b' : V} (h : Goes i a b) (h' : Goes j a' b') :
    Goes l (a + a') (b + b') := by
  simp only [plus] at hc
  split at hc
  · rename_i hp
    simp only [Bool.or_eq_true, Bool.and_eq_true] at hp
    cases hc
    rcases hp with ⟨h1, h2⟩ | ⟨h1, h2⟩
    · obtain ⟨rfl, g1⟩ := h.one_le h1
      obtain ⟨rfl, g2⟩ := h'.nonneg h2
      exact ⟨rfl, le_add_of_le_of_nonneg g1 g2⟩
    · obtain ⟨rfl, g1⟩ := h.nonneg h1
      obtain ⟨rfl, g2⟩ := h'.one_le h2
      exact ⟨rfl, le_add_of_nonneg_of_le g1 g2⟩
  · obtain ⟨f1, f2⟩ := sup_fits hc
    have hl : l.summed = l := by
      revert hc
      cases i <;> cases j <;> cases l <;> decide
    have := goes_add (j := l) (hl.symm ▸ (h.fits (fits_trans (fits_summed i) f1)))
      (hl.symm ▸ (h'.fits (fits_trans (fits_summed j) f2)))
    rwa [hl] at this

theorem minus_goes {i j l : Way} (hc : combine .minus i j = some l) {a b a' b' : V} (h : Goes i a b) (h' : Goes j a' b') :
    Goes l (a - a') (b - b') := by
  simp only [combine] at hc
  split at hc
  · rename_i hp
    simp only [Bool.and_eq_true, decide_eq_true_eq] at hp
    obtain ⟨h1, rfl⟩ := hp
    cases hc
    obtain ⟨rfl, g1⟩ := h.one_le h1
    obtain ⟨rfl, rfl⟩ := h'
    exact ⟨rfl, sub_nonneg.2 g1⟩
  · rw [sub_eq_add_neg, sub_eq_add_neg]
    exact plus_goes hc h (goes_flip h')

theorem times_goes {i j l : Way} (hc : combine .times i j = some l) {a b a' b' : V} (h : Goes i a b) (h' : Goes j a' b') :
    Goes l (a * a') (b * b') := by
  simp only [combine] at hc
  split at hc
  · rename_i hp
    simp only [Bool.and_eq_true] at hp
    cases hc
    obtain ⟨rfl, g1⟩ := h.one_le hp.1
    obtain ⟨rfl, g2⟩ := h'.one_le hp.2
    exact ⟨rfl, one_le_mul_of_one_le_of_one_le g1 g2⟩
  split at hc
  · rename_i hp
    cases hc
    obtain ⟨rfl, g1⟩ := h.nonneg hp
    rw [mul_comm b a', mul_comm b b']
    exact goes_mul h' g1
  split at hc
  · rename_i hp
    cases hc
    obtain ⟨rfl, g1⟩ := h'.nonneg hp
    exact goes_mul h g1
  split at hc
  · rename_i hp
    subst hp
    cases hc
    obtain ⟨rfl, g1⟩ := h
    rw [mul_comm b a', mul_comm b b']
    exact goes_mul_nonpos h' g1
  split at hc
  · rename_i hp
    subst hp
    cases hc
    obtain ⟨rfl, g1⟩ := h'
    exact goes_mul_nonpos h g1
  split at hc
  · rename_i hp
    simp only [Bool.and_eq_true] at hp
    cases hc
    show b * b' = a * a'
    rw [h.fixed hp.1, h'.fixed hp.2]
  · cases hc

theorem div_goes {i j l : Way} (hc : combine .div i j = some l) {a b a' b' : V} (h : Goes i a b) (h' : Goes j a' b') :
    b' = a' ∧ Goes l (a / a') (b / b') := by
  simp only [combine] at hc
  split at hc
  · rename_i hp
    cases hc
    obtain ⟨rfl, g1⟩ := h'.nonneg hp
    rw [div_eq_mul_inv, div_eq_mul_inv]
    exact ⟨rfl, goes_mul h (inv_nonneg.2 g1)⟩
  split at hc
  · rename_i hp
    subst hp
    cases hc
    obtain ⟨rfl, g1⟩ := h'
    rw [div_eq_mul_inv, div_eq_mul_inv]
    exact ⟨rfl, goes_mul_nonpos h (inv_nonpos.2 g1)⟩
  split at hc
  · rename_i hp
    simp only [Bool.and_eq_true] at hp
    cases hc
    obtain rfl := h.fixed hp.1
    obtain rfl := h'.fixed hp.2
    exact ⟨rfl, rfl⟩
  · cases hc

theorem pow_rel {E : Expr.Env V} (hG : Grows E) {i j l : Way} (hc : combine .pow i j = some l) {x y x' y' : Option V}
    (h : Moved i x y) (h' : Moved j x' y') : Moved l (E.op .pow x x') (E.op .pow y y') := by
  simp only [combine] at hc
  split at hc
  · rename_i hp
    simp only [Bool.and_eq_true] at hp
    cases hc
    have f1 : i.fixed = true := by cases i <;> first | rfl | cases hp.1
    have f2 : j.fixed = true := by cases j <;> first | rfl | cases hp.2
    obtain rfl := h.fixed f1
    obtain rfl := h'.fixed f2
    cases hr : E.op .pow y y' with
    | none => exact .missing
    | some c =>
      refine .present ⟨rfl, hG y y' c ?_ ?_ hr⟩
      · rintro a rfl
        exact ((moved_iff.1 h).one_le hp.1).2
      · rintro a rfl
        exact ((moved_iff.1 h').nonneg hp.2).2
  split at hc
  · rename_i hp
    simp only [Bool.and_eq_true] at hp
    cases hc
    obtain rfl := h.fixed hp.1
    obtain rfl := h'.fixed hp.2
    cases E.op .pow y y' with
    | none => exact .missing
    | some c => exact .present rfl
  · cases hc

/-- Operations on values. -/
theorem op_rel {E : Expr.Env V} (hE : Plain E) (hG : Grows E) {o : Arith.Op} {i j l : Way} (hc : combine o i j = some l)
    {x y x' y' : Option V} (h : Moved i x y) (h' : Moved j x' y') : Moved l (E.op o x x') (E.op o y y') := by
  by_cases hp : o = .pow
  · subst hp
    exact pow_rel hG hc h h'
  · cases h with
    | missing =>
      rw [hE.left o _ hp, hE.left o _ hp]
      exact .missing
    | present h => cases h' with
      | missing =>
        rw [hE.right o _ hp, hE.right o _ hp]
        exact .missing
      | present h' =>
        cases o with
        | pow => exact absurd rfl hp
        | plus =>
          rw [hE.plus, hE.plus]
          exact .present (plus_goes hc h h')
        | minus =>
          rw [hE.minus, hE.minus]
          exact .present (minus_goes hc h h')
        | times =>
          rw [hE.times, hE.times]
          exact .present (times_goes hc h h')
        | div =>
          rename_i b' a' b0
          obtain ⟨rfl, hd⟩ := div_goes hc h h'
          by_cases hz : b0 = 0
          · subst hz
            rw [hE.divZero, hE.divZero]
            exact .missing
          · rw [hE.div _ _ hz, hE.div _ _ hz]
            exact .present hd

theorem neg_rel {E : Expr.Env V} (hE : Plain E) {j : Way} {x y : Option V} (h : Moved j x y) :
    Moved j.flip (E.neg x) (E.neg y) := by
  cases h with
  | missing =>
    rw [hE.negNone]
    exact .missing
  | present h =>
    rw [hE.neg, hE.neg]
    exact .present (goes_flip h)

theorem goes_number (v : V) : Goes (numberWay v) v v := by
  simp only [numberWay]
  split_ifs with h1 h2 h3
  · exact ⟨rfl, h1⟩
  · exact ⟨rfl, h2⟩
  · exact ⟨rfl, h3⟩
  · exact ⟨rfl, le_of_not_ge h3⟩

/-! ### Expressions -/

mutual
theorem evalEx_rel (h : Envs D E E') (hE : Plain E) (hG : Grows E) {slices : String → Option SliceDef}
    {s s' : Arr Bool → String → Res V} {sub : String → Option Way}
    (hs : ∀ w n j, sub n = some j → Both (Items (Moved j)) (s w n) (s' w n)) :
    ∀ (e : Ex V) (w : Arr Bool) (j : Way), way D sub e = some j →
      Both (Items (Moved j)) (evalEx E slices s w e) (evalEx E' slices s' w e)
  | .num v, w, j, hj => by
    simp only [way, Option.some.injEq] at hj
    subst hj
    refine ⟨rfl, fun _ => ?_⟩
    simp only [scalar]
    exact .present (goes_number v)
  | .comp n, w, j, hj => by
    simp only [way, Option.some.injEq] at hj
    subst hj
    simp only [evalEx]
    exact compArr_rel h n
  | .sliced n ss, w, j, hj => by
    simp only [way, Option.some.injEq] at hj
    subst hj
    simp only [evalEx]
    rcases (compArr_rel h n).cases with ⟨x, e1, e2⟩ | ⟨a, b, e1, e2, hr⟩
    · simp only [e1, e2]; exact rfl
    · simp only [e1, e2]
      exact selAll_rel h slices ss hr
  | .sub n, w, j, hj => by
    simp only [way] at hj
    simp only [evalEx]
    exact hs w n j hj
  | .sign o e, w, j, hj => by
    simp only [way, Option.map_eq_some_iff] at hj
    obtain ⟨i, hi, hj⟩ := hj
    simp only [evalEx]
    rcases (evalEx_rel (slices := slices) h hE hG hs e w i hi).cases with ⟨x, e1, e2⟩ | ⟨a, b, e1, e2, hr⟩
    · simp only [e1, e2]; exact rfl
    · simp only [e1, e2, h.neg]
      subst hj
      by_cases ho : o = .minus
      · simp only [ho, if_true]
        exact hr.map' fun x y hx => neg_rel hE hx
      · simp only [ho, if_false]
        exact hr
  | .chain e r, w, j, hj => by
    simp only [way, Option.bind_eq_some_iff] at hj
    obtain ⟨i, hi, hj⟩ := hj
    simp only [evalEx]
    rcases (evalEx_rel (slices := slices) h hE hG hs e w i hi).cases with ⟨x, e1, e2⟩ | ⟨a, b, e1, e2, hr⟩
    · simp only [e1, e2]; exact rfl
    · simp only [e1, e2]
      exact evalRest_rel h hE hG hs r w i j hj (maskArr_rel w hr)
  | .sum e over, w, j, hj => by
    simp only [way, Option.map_eq_some_iff] at hj
    obtain ⟨i, hi, rfl⟩ := hj
    simp only [evalEx]
    rcases (evalEx_rel (slices := slices) h hE hG hs e w i hi).cases with ⟨x, e1, e2⟩ | ⟨a, b, e1, e2, hr⟩
    · simp only [e1, e2]; exact rfl
    · simp only [e1, e2, h.coords]
      exact reduce_rel _ _ hr
  | .reduceCarrier e flow, w, j, hj => by
    simp only [way, Option.map_eq_some_iff] at hj
    obtain ⟨i, hi, rfl⟩ := hj
    simp only [evalEx]
    rcases (evalEx_rel (slices := slices) h hE hG hs e w i hi).cases with ⟨x, e1, e2⟩ | ⟨a, b, e1, e2, hr⟩
    · simp only [e1, e2]; exact rfl
    · simp only [e1, e2, h.coords, h.carrier]
      cases E.carrier flow with
      | none => exact rfl
      | some m => exact reduce_rel _ _ (maskArr_rel m hr)
  | .cond e q, w, j, hj => by
    simp only [way] at hj
    split at hj
    · rename_i hq
      simp only [evalEx]
      rcases (evalEx_rel (slices := slices) h hE hG hs e w j hj).cases with ⟨x, e1, e2⟩ | ⟨a, b, e1, e2, hr⟩
      · simp only [e1, e2]; exact rfl
      · simp only [e1, e2]
        cases hi : way D sub q with
        | none => simp [hi] at hq
        | some i =>
          simp only [hi, Option.any_some] at hq
          rcases (evalEx_rel (slices := slices) h hE hG hs q w i hi).cases with ⟨x, e1, e2⟩ | ⟨a', b', e1, e2, hr'⟩
          · simp only [e1, e2]; exact rfl
          · have hb := items_eq (hr'.mono fun x y hx => hx.fixed hq)
            subst hb
            simp only [e1, e2, condArr]
            have hh : holds E' = holds E := by
              funext x
              cases x <;> simp only [holds, h.truthy]
            rw [hh]
            refine hr.zipMask _ ?_
            intro x y m hx
            split
            · exact hx
            · exact Moved.missing
    · cases hj
  | .roll e l, w, j, hj => by
    simp only [way] at hj
    simp only [evalEx]
    rcases (evalEx_rel (slices := slices) h hE hG hs e trueArr j hj).cases with ⟨x, e1, e2⟩ | ⟨a, b, e1, e2, hr⟩
    · simp only [e1, e2]; exact rfl
    · simp only [e1, e2, h.coords]
      exact rollAll_rel _ _ hr
  | .groupSum e g d, w, j, hj => by
    simp only [way, Option.map_eq_some_iff] at hj
    obtain ⟨i, hi, rfl⟩ := hj
    simp only [evalEx]
    rcases (evalEx_rel (slices := slices) h hE hG hs e trueArr i hi).cases with ⟨x, e1, e2⟩ | ⟨a, b, e1, e2, hr⟩
    · simp only [e1, e2]; exact rfl
    · simp only [e1, e2, h.coords, h.lookup]
      cases E.lookup g with
      | none => exact rfl
      | some m => exact groupArr_rel _ _ _ hr
  | .groupDatetime e o g, w, j, hj => by
    simp only [way, Option.map_eq_some_iff] at hj
    obtain ⟨i, hi, rfl⟩ := hj
    simp only [evalEx]
    rcases (evalEx_rel (slices := slices) h hE hG hs e trueArr i hi).cases with ⟨x, e1, e2⟩ | ⟨a, b, e1, e2, hr⟩
    · simp only [e1, e2]; exact rfl
    · simp only [e1, e2, h.coords, h.period]
      exact groupArr_rel _ _ _ hr
  | .sumNextN e d n, w, j, hj => by
    simp only [way, Option.map_eq_some_iff] at hj
    obtain ⟨i, hi, rfl⟩ := hj
    simp only [evalEx]
    rcases (evalEx_rel (slices := slices) h hE hG hs e w i hi).cases with ⟨x, e1, e2⟩ | ⟨a, b, e1, e2, hr⟩
    · simp only [e1, e2]; exact rfl
    · simp only [e1, e2, h.coords]
      exact nextArr_rel _ _ _ hr
  | .select e l, w, j, hj => by
    simp only [way] at hj
    simp only [evalEx]
    rcases (evalEx_rel (slices := slices) h hE hG hs e w j hj).cases with ⟨x, e1, e2⟩ | ⟨a, b, e1, e2, hr⟩
    · simp only [e1, e2]; exact rfl
    · simp only [e1, e2, h.coords, Linear.lookups_same h.lookup]
      cases lookups E l with
      | error x => exact rfl
      | ok gs => exact selectArr_rel _ _ hr
theorem evalRest_rel (h : Envs D E E') (hE : Plain E) (hG : Grows E) {slices : String → Option SliceDef}
    {s s' : Arr Bool → String → Res V} {sub : String → Option Way}
    (hs : ∀ w n j, sub n = some j → Both (Items (Moved j)) (s w n) (s' w n)) :
    ∀ (r : ExRest V) (w : Arr Bool) (i j : Way), wayRest D sub i r = some j → ∀ {a b : Arr (Option V)},
      Items (Moved i) a b → Both (Items (Moved j)) (evalRest E slices s w a r) (evalRest E' slices s' w b r)
  | .one o e, w, i, j, hj, a, b, hr => by
    simp only [wayRest, Option.bind_eq_some_iff] at hj
    obtain ⟨l, hl, hj⟩ := hj
    simp only [evalRest]
    rcases (evalEx_rel (slices := slices) h hE hG hs e w l hl).cases with ⟨x, e1, e2⟩ | ⟨a', b', e1, e2, hr'⟩
    · simp only [e1, e2]; exact rfl
    · simp only [e1, e2, h.op]
      exact hr.zip' (maskArr_rel w hr') fun x y x' y' hx hx' => op_rel hE hG hj hx hx'
  | .more o e r, w, i, j, hj, a, b, hr => by
    simp only [wayRest, Option.bind_eq_some_iff] at hj
    obtain ⟨i', ⟨l, hl, hi⟩, hj⟩ := hj
    simp only [evalRest]
    rcases (evalEx_rel (slices := slices) h hE hG hs e w l hl).cases with ⟨x, e1, e2⟩ | ⟨a', b', e1, e2, hr'⟩
    · simp only [e1, e2]; exact rfl
    · simp only [e1, e2, h.op]
      exact evalRest_rel h hE hG hs r w i' j hj
        (hr.zip' (maskArr_rel w hr') fun x y x' y' hx hx' => op_rel hE hG hi hx hx')
end

end Loosen
end Calliope
