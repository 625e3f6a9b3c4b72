import Mathlib.Tactic.LinearCombination
import Mathlib.Tactic.Ring
import Mathlib.Tactic.FieldSimp
import Verif.Spec.Measure
import Verif.Proofs.Linear

/-!
# Expressions in other units
-/

namespace Calliope
namespace Units

open Grid Expr Build BaseMath Assemble Expand
open Linear (Plain)

variable {V : Type} [Field V] [DecidableEq V] {k : Change V} {U : System}

/-! ### Factors -/

structure Nonzero (k : Change V) : Prop where
  energy : k.energy ≠ 0
  cost : k.cost ≠ 0
  area : k.area ≠ 0

omit [DecidableEq V] in
theorem factor_one (k : Change V) : k.factor .one = 1 := by simp [Change.factor, Measure.one]

omit [DecidableEq V] in
theorem factor_times (hk : Nonzero k) (m n : Measure) : k.factor (m.times n) = k.factor m * k.factor n := by
  simp only [Change.factor, Measure.times, zpow_add₀ hk.energy, zpow_add₀ hk.cost, zpow_add₀ hk.area]
  ring

omit [DecidableEq V] in
theorem factor_ne (hk : Nonzero k) (m : Measure) : k.factor m ≠ 0 :=
  mul_ne_zero (mul_ne_zero (zpow_ne_zero _ hk.energy) (zpow_ne_zero _ hk.cost)) (zpow_ne_zero _ hk.area)

omit [DecidableEq V] in
theorem factor_over (hk : Nonzero k) (m n : Measure) : k.factor (m.over n) = k.factor m / k.factor n := by
  rw [eq_div_iff (factor_ne hk n), ← factor_times hk]
  congr 1
  cases m
  cases n
  simp [Measure.over, Measure.times]

/-! ### Relations -/

/-- In other units. -/
def Rel (k : Change V) : Kind → Option V → Option V → Prop
  | .zero, a, b => b = a ∧ (a = none ∨ a = some 0)
  | .of m, a, b => Scaled (k.factor m) a b

omit [DecidableEq V] in
theorem scaled' {f a b : V} (h : b = f * a) : Scaled f (some a) (some b) := h ▸ .present a

omit [DecidableEq V] in
theorem rel_none (j : Kind) : Rel k j none none := by
  cases j with
  | zero => exact ⟨rfl, .inl rfl⟩
  | of m => exact .missing

omit [DecidableEq V] in
theorem Rel.some {j : Kind} {a b : Option V} (h : Rel k j a b) : b.isSome = a.isSome := by
  cases j with
  | zero => rw [h.1]
  | of m => cases h <;> rfl

omit [DecidableEq V] in
/-- Zero has every unit. -/
theorem Rel.zero {a b : Option V} (h : Rel k .zero a b) (j : Kind) : Rel k j a b := by
  cases j with
  | zero => exact h
  | of m =>
    obtain ⟨rfl, rfl | rfl⟩ := h
    · exact .missing
    · exact scaled' (by ring)

/-- Units that fit another. -/
def Fits (j l : Kind) : Prop := j = .zero ∨ j = l

omit [DecidableEq V] in
theorem Rel.fits {j l : Kind} {a b : Option V} (h : Rel k j a b) (hf : Fits j l) : Rel k l a b := by
  rcases hf with rfl | rfl
  · exact h.zero l
  · exact h

theorem join_fits {i j l : Kind} (h : i.join j = some l) : Fits i l ∧ Fits j l := by
  cases i with
  | zero =>
    simp only [Kind.join, Option.some.injEq] at h
    exact ⟨.inl rfl, .inr h⟩
  | of m => cases j with
    | zero =>
      simp only [Kind.join, Option.some.injEq] at h
      exact ⟨.inr h, .inl rfl⟩
    | of n =>
      simp only [Kind.join] at h
      split at h
      · rename_i e
        subst e
        cases h
        exact ⟨.inr rfl, .inr rfl⟩
      · cases h

theorem fits_trans {i j l : Kind} (h : Fits i j) (h' : Fits j l) : Fits i l := by
  rcases h with rfl | rfl
  · exact .inl rfl
  · exact h'

theorem joinAll_fits {l : List (Option Kind)} {i : Kind} (h : joinAll l = some i) : ∀ x ∈ l, ∃ j, x = some j ∧ Fits j i := by
  induction l generalizing i with
  | nil => simp
  | cons y l ih =>
    simp only [joinAll, Option.bind_eq_some_iff] at h
    obtain ⟨j, rfl, m, hm, hi⟩ := h
    obtain ⟨f1, f2⟩ := join_fits hi
    intro x hx
    rcases List.mem_cons.1 hx with rfl | hx
    · exact ⟨j, rfl, f1⟩
    · obtain ⟨n, rfl, hn⟩ := ih hm x hx
      exact ⟨n, rfl, fits_trans hn f2⟩

omit [DecidableEq V] in
theorem Rel.plain {j : Kind} (hj : j.plain = true) {a b : Option V} (h : Rel k j a b) : b = a := by
  cases j with
  | zero => exact h.1
  | of m =>
    simp only [Kind.plain, decide_eq_true_eq] at hj
    subst hj
    cases h with
    | missing => rfl
    | present a => rw [factor_one, one_mul]

/-- Both fail the same way, or have related results. -/
def Both {α : Type} (T : α → α → Prop) : Except Err α → Except Err α → Prop
  | .ok a, .ok b => T a b
  | .error e, .error e' => e' = e
  | _, _ => False

omit [Field V] [DecidableEq V] in
theorem Both.cases {α : Type} {T : α → α → Prop} {x y : Except Err α} (h : Both T x y) :
    (∃ e, x = .error e ∧ y = .error e) ∨ ∃ a b, x = .ok a ∧ y = .ok b ∧ T a b := by
  cases x with
  | error e => cases y with
    | error e' => exact .inl ⟨e, rfl, congrArg _ h⟩
    | ok b => exact h.elim
  | ok a => cases y with
    | error e' => exact h.elim
    | ok b => exact .inr ⟨a, b, rfl, rfl, h⟩

theorem Both.mono {α : Type} {T T' : α → α → Prop} {x y : Except Err α} (h : Both T x y) (hT : ∀ a b, T a b → T' a b) :
    Both T' x y := by
  rcases h.cases with ⟨e, rfl, rfl⟩ | ⟨a, b, rfl, rfl, h⟩
  · exact rfl
  · exact hT a b h

/-- Arrays with the same dimensions, item by item. -/
def Items {R : Type} (T : Option R → Option R → Prop) (a b : Arr (Option R)) : Prop :=
  b.dims = a.dims ∧ ∀ x, T (a.val x) (b.val x)

theorem Items.map' {R S : Type} {T : Option R → Option R → Prop} {T' : Option S → Option S → Prop} {a b : Arr (Option R)}
    (h : Items T a b) {f : Option R → Option S} (hf : ∀ x y, T x y → T' (f x) (f y)) : Items T' (map f a) (map f b) :=
  ⟨h.1, fun x => hf _ _ (h.2 x)⟩

theorem Items.mono {R : Type} {T T' : Option R → Option R → Prop} {a b : Arr (Option R)} (h : Items T a b)
    (hf : ∀ x y, T x y → T' x y) : Items T' a b := ⟨h.1, fun x => hf _ _ (h.2 x)⟩

theorem items_eq {R : Type} {a b : Arr (Option R)} (h : Items (fun x y => y = x) a b) : b = a := by
  obtain ⟨h1, h2⟩ := h
  cases a
  cases b
  simp only [Arr.mk.injEq] at *
  exact ⟨h1, funext h2⟩

theorem Items.zip' {R S Q : Type} {T : Option R → Option R → Prop} {T' : Option S → Option S → Prop}
    {T'' : Option Q → Option Q → Prop} {a b : Arr (Option R)} {a' b' : Arr (Option S)} (h : Items T a b)
    (h' : Items T' a' b') {f : Option R → Option S → Option Q}
    (hf : ∀ x y x' y', T x y → T' x' y' → T'' (f x x') (f y y')) : Items T'' (zip f a a') (zip f b b') := by
  obtain ⟨h1, h2⟩ := h
  obtain ⟨h1', h2'⟩ := h'
  refine ⟨by simp only [zip, h1, h1'], fun x => ?_⟩
  simp only [zip, h1, h1']
  exact hf _ _ _ _ (h2 _) (h2' _)

theorem Items.zipMask {R S Q : Type} {T : Option R → Option R → Prop} {T'' : Option Q → Option Q → Prop}
    {a b : Arr (Option R)} (h : Items T a b) (w : Arr S) {f : Option R → S → Option Q}
    (hf : ∀ x y m, T x y → T'' (f x m) (f y m)) : Items T'' (zip f a w) (zip f b w) := by
  obtain ⟨h1, h2⟩ := h
  refine ⟨by simp only [zip, h1], fun x => ?_⟩
  simp only [zip, h1]
  exact hf _ _ _ (h2 _)

theorem items_isSome {R : Type} {T : Option R → Option R → Prop} (hT : ∀ x y, T x y → y.isSome = x.isSome)
    {a b : Arr (Option R)} (h : Items T a b) : map Option.isSome b = map Option.isSome a := by
  obtain ⟨h1, h2⟩ := h
  simp only [map, h1, Arr.mk.injEq, true_and]
  exact funext fun x => hT _ _ (h2 x)

/-! ### Operations -/

omit [DecidableEq V] in
theorem maskArr_rel {j : Kind} (w : Arr Bool) {a b : Arr (Option V)} (h : Items (Rel k j) a b) :
    Items (Rel k j) (maskArr w a) (maskArr w b) := by
  refine h.zipMask w ?_
  intro x y m hr
  cases m with
  | true => exact hr
  | false => exact rel_none j

omit [DecidableEq V] in
theorem sums_rel {α : Type} {j : Kind} (f f' : α → Option V) : ∀ l : List α, (∀ i ∈ l, Rel k j (f i) (f' i)) →
    Rel k j (sumPresent (l.map f)) (sumPresent (l.map f')) := by
  intro l h
  cases j with
  | zero =>
    have h1 : l.map f' = l.map f := List.map_congr_left fun i hi => (h i hi).1
    refine ⟨by rw [h1], ?_⟩
    have h2 : ((l.map f).filterMap id).sum = 0 := by
      apply List.sum_eq_zero
      intro v hv
      obtain ⟨o, ho, hv⟩ := List.mem_filterMap.1 hv
      obtain ⟨i, hi, rfl⟩ := List.mem_map.1 ho
      simp only [id] at hv
      rcases (h i hi).2 with e | e
      · rw [e] at hv
        cases hv
      · rw [e] at hv
        exact (Option.some.inj hv).symm
    simp only [sumPresent]
    split
    · exact .inl rfl
    · exact .inr (by rw [h2])
  | of m =>
    have key : (l.map f').all Option.isNone = (l.map f).all Option.isNone ∧
        ((l.map f').filterMap id).sum = k.factor m * ((l.map f).filterMap id).sum := by
      induction l with
      | nil => simp
      | cons i l ih =>
        obtain ⟨e1, e2⟩ := ih fun j hj => h j (List.mem_cons_of_mem _ hj)
        have hi : Scaled (k.factor m) (f i) (f' i) := h i List.mem_cons_self
        simp only [List.map_cons]
        generalize f i = x at hi ⊢
        generalize f' i = y at hi ⊢
        cases hi with
        | missing =>
          simp only [List.all_cons, Option.isNone_none, Bool.true_and, List.filterMap_cons, id_eq]
          exact ⟨e1, e2⟩
        | present p =>
          refine ⟨by simp, ?_⟩
          simp only [List.filterMap_cons, id_eq, List.sum_cons]
          change k.factor m * p + (List.filterMap id (List.map f' l)).sum =
            k.factor m * (p + (List.filterMap id (List.map f l)).sum)
          linear_combination e2
    obtain ⟨e1, e2⟩ := key
    simp only [Rel, sumPresent, e1]
    split
    · exact .missing
    · exact scaled' e2

omit [DecidableEq V] in
theorem reduce_rel {j : Kind} (coords : String → List Label) (over : List String) {a b : Arr (Option V)}
    (h : Items (Rel k j) a b) : Items (Rel k j) (sumArr coords over a) (sumArr coords over b) := by
  obtain ⟨h1, h2⟩ := h
  refine ⟨by simp only [sumArr, reduce, h1], fun x => ?_⟩
  simp only [sumArr, reduce, h1]
  exact sums_rel _ _ _ fun i _ => h2 _

omit [DecidableEq V] in
theorem rollAll_rel {j : Kind} (coords : String → List Label) : ∀ (l : List (String × Int)) {a b : Arr (Option V)},
    Items (Rel k j) a b → Both (Items (Rel k j)) (rollAll coords l a) (rollAll coords l b)
  | [], _, _, h => h
  | (d, n) :: l, a, b, h => by
    obtain ⟨h1, h2⟩ := h
    simp only [rollAll, h1]
    split
    · exact rollAll_rel coords l ⟨by simp only [rollArr, h1], fun x => by
        simp only [rollArr, h1]
        exact h2 _⟩
    · exact rfl

omit [DecidableEq V] in
theorem groupArr_rel {j : Kind} (coords : String → List Label) (g : Arr (Option Label)) (d : String)
    {a b : Arr (Option V)} (h : Items (Rel k j) a b) :
    Both (Items (Rel k j)) (groupArr coords a g d) (groupArr coords b g d) := by
  obtain ⟨h1, h2⟩ := h
  simp only [groupArr, h1]
  split
  · split
    · exact rfl
    · split
      · exact rfl
      · refine ⟨rfl, fun x => ?_⟩
        cases x with
        | nil => exact rel_none j
        | cons l x => exact sums_rel _ _ _ fun i _ => h2 _
  · exact rfl

omit [DecidableEq V] in
theorem nextArr_rel {j : Kind} (coords : String → List Label) (d : String) (n : Int)
    {a b : Arr (Option V)} (h : Items (Rel k j) a b) :
    Both (Items (Rel k j)) (nextArr coords d n a) (nextArr coords d n b) := by
  obtain ⟨h1, h2⟩ := h
  simp only [nextArr, h1]
  split
  · exact ⟨rfl, fun x => sums_rel _ _ _ fun i _ => h2 _⟩
  · exact rfl

omit [DecidableEq V] in
theorem selectArr_rel {j : Kind} (coords : String → List Label) (gs : List (String × Arr (Option Label)))
    {a b : Arr (Option V)} (h : Items (Rel k j) a b) :
    Both (Items (Rel k j)) (selectArr coords a gs) (selectArr coords b gs) := by
  obtain ⟨h1, h2⟩ := h
  simp only [selectArr, h1]
  split
  · split
    · split
      · split
        · exact rfl
        · refine ⟨rfl, fun x => ?_⟩
          dsimp only
          split
          · exact h2 _
          · exact rel_none j
      · exact rfl
    · exact rfl
  · exact rfl

/-! ### Environments -/

/-- The environments differ in units. -/
structure Envs (k : Change V) (U : System) (E E' : Expr.Env V) : Prop where
  coords : E'.coords = E.coords
  isDim : E'.isDim = E.isDim
  lookup : E'.lookup = E.lookup
  carrier : E'.carrier = E.carrier
  period : E'.period = E.period
  op : E'.op = E.op
  neg : E'.neg = E.neg
  truthy : E'.truthy = E.truthy
  comp : ∀ n, (E.comp n = none ∧ E'.comp n = none) ∨
    ∃ c c', E.comp n = some c ∧ E'.comp n = some c' ∧
      Items (Rel k (U.kind n)) (map (fill c.default) c.arr) (map (fill c'.default) c'.arr)

variable {E E' : Expr.Env V}

omit [DecidableEq V] in
theorem compArr_rel (h : Envs k U E E') (n : String) :
    Both (Items (Rel k (U.kind n))) (compArr E n) (compArr E' n) := by
  rcases h.comp n with ⟨e1, e2⟩ | ⟨a, b, e1, e2, hr⟩
  · simp only [compArr, e1, e2, h.isDim]
    by_cases hd : E.isDim n = true
    · simp only [hd, if_true]
      exact ⟨rfl, fun _ => rel_none _⟩
    · simp only [hd]
      exact rfl
  · simp only [compArr, e1, e2]
    exact hr

omit [DecidableEq V] in
theorem selAll_rel {j : Kind} (h : Envs k U E E') (slices : String → Option SliceDef)
    (ss : List (String × Slicer)) {a b : Arr (Option V)} (hr : Items (Rel k j) a b) :
    Both (Items (Rel k j)) (selAll E slices a ss) (selAll E' slices b ss) := by
  obtain ⟨h1, h2⟩ := hr
  simp only [selAll, Linear.sliceArrs_same h.coords h.lookup]
  cases sliceArrs E slices ss with
  | error x => exact rfl
  | ok gs =>
    simp only [h1, h.coords]
    split
    · refine ⟨rfl, fun x => ?_⟩
      dsimp only
      split
      · exact h2 _
      · exact rel_none j
    · exact rfl

omit [DecidableEq V] in
/-- Operations on values. -/
theorem op_rel (hk : Nonzero k) (hE : Plain E) {o : Arith.Op} {i j l : Kind} (hc : combine o i j = some l)
    {x y x' y' : Option V} (h : Rel k i x y) (h' : Rel k j x' y') : Rel k l (E.op o x x') (E.op o y y') := by
  by_cases hp : o = .pow
  · subst hp
    simp only [combine] at hc
    split at hc
    · rename_i hpl
      simp only [Bool.and_eq_true] at hpl
      cases hc
      rw [h.plain hpl.1, h'.plain hpl.2]
      simp only [Rel, factor_one]
      cases E.op .pow x x' with
      | none => exact .missing
      | some v => exact scaled' (by ring)
    · cases hc
  · have hnn : x = none ∨ x' = none → Rel k l (E.op o x x') (E.op o y y') := by
      rintro (rfl | rfl)
      · have : y = none := by
          have := h.some
          cases y with
          | none => rfl
          | some _ => simp at this
        subst this
        rw [hE.left o _ hp, hE.left o _ hp]
        exact rel_none l
      · have : y' = none := by
          have := h'.some
          cases y' with
          | none => rfl
          | some _ => simp at this
        subst this
        rw [hE.right o _ hp, hE.right o _ hp]
        exact rel_none l
    cases x with
    | none => exact hnn (.inl rfl)
    | some a => cases x' with
      | none => exact hnn (.inr rfl)
      | some a' =>
        cases o with
        | pow => exact absurd rfl hp
        | plus =>
          obtain ⟨f1, f2⟩ := join_fits hc
          have h := h.fits f1
          have h' := h'.fits f2
          cases l with
          | zero =>
            obtain ⟨rfl, e⟩ := h
            obtain ⟨rfl, e'⟩ := h'
            simp only [reduceCtorEq, Option.some.injEq, false_or] at e e'
            subst e e'
            rw [hE.plus]
            exact ⟨rfl, .inr (by simp)⟩
          | of m =>
            cases h
            cases h'
            rw [hE.plus, hE.plus]
            exact scaled' (by ring)
        | minus =>
          obtain ⟨f1, f2⟩ := join_fits hc
          have h := h.fits f1
          have h' := h'.fits f2
          cases l with
          | zero =>
            obtain ⟨rfl, e⟩ := h
            obtain ⟨rfl, e'⟩ := h'
            simp only [reduceCtorEq, Option.some.injEq, false_or] at e e'
            subst e e'
            rw [hE.minus]
            exact ⟨rfl, .inr (by simp)⟩
          | of m =>
            cases h
            cases h'
            rw [hE.minus, hE.minus]
            exact scaled' (by ring)
        | times =>
          cases i with
          | zero =>
            simp only [combine, Option.some.injEq] at hc
            subst hc
            obtain ⟨rfl, e⟩ := h
            simp only [reduceCtorEq, Option.some.injEq, false_or] at e
            subst e
            obtain ⟨b', rfl⟩ : ∃ b', y' = some b' := by
              have := h'.some
              cases y' with
              | none => simp at this
              | some b => exact ⟨b, rfl⟩
            rw [hE.times, hE.times]
            exact ⟨by simp, .inr (by simp)⟩
          | of m => cases j with
            | zero =>
              simp only [combine, Option.some.injEq] at hc
              subst hc
              obtain ⟨rfl, e⟩ := h'
              simp only [reduceCtorEq, Option.some.injEq, false_or] at e
              subst e
              cases h
              rw [hE.times, hE.times]
              exact ⟨by simp, .inr (by simp)⟩
            | of n =>
              simp only [combine, Option.some.injEq] at hc
              subst hc
              cases h
              cases h'
              rw [hE.times, hE.times]
              exact scaled' (by rw [factor_times hk]; ring)
        | div =>
          cases j with
          | zero => cases i <;> simp [combine] at hc
          | of n =>
            cases h'
            by_cases hz : a' = 0
            · subst hz
              rw [mul_zero]
              obtain ⟨b, rfl⟩ : ∃ b, y = some b := by
                have := h.some
                cases y with
                | none => simp at this
                | some b => exact ⟨b, rfl⟩
              rw [hE.divZero, hE.divZero]
              exact rel_none l
            · have hz' : k.factor n * a' ≠ 0 := mul_ne_zero (factor_ne hk n) hz
              cases i with
              | zero =>
                simp only [combine, Option.some.injEq] at hc
                subst hc
                obtain ⟨rfl, e⟩ := h
                simp only [reduceCtorEq, Option.some.injEq, false_or] at e
                subst e
                rw [hE.div _ _ hz, hE.div _ _ hz']
                exact ⟨by simp, .inr (by simp)⟩
              | of m =>
                simp only [combine, Option.some.injEq] at hc
                subst hc
                cases h
                rw [hE.div _ _ hz, hE.div _ _ hz']
                have hn := factor_ne hk n
                exact scaled' (by rw [factor_over hk]; field_simp)

omit [DecidableEq V] in
theorem neg_rel (hE : Plain E) {j : Kind} {x y : Option V} (h : Rel k j x y) : Rel k j (E.neg x) (E.neg y) := by
  cases j with
  | zero =>
    obtain ⟨rfl, rfl | rfl⟩ := h
    · rw [hE.negNone]
      exact rel_none .zero
    · rw [hE.neg]
      exact ⟨rfl, .inr (by simp)⟩
  | of m =>
    cases h with
    | missing =>
      rw [hE.negNone]
      exact rel_none (.of m)
    | present a =>
      rw [hE.neg, hE.neg]
      exact scaled' (by ring)

/-! ### Expressions -/

mutual
theorem evalEx_rel (hk : Nonzero k) (h : Envs k U E E') (hE : Plain E) {slices : String → Option SliceDef}
    {s s' : Arr Bool → String → Res V} {sub : String → Option Kind}
    (hs : ∀ w n j, sub n = some j → Both (Items (Rel k j)) (s w n) (s' w n)) :
    ∀ (e : Ex V) (w : Arr Bool) (j : Kind), kind U sub e = some j →
      Both (Items (Rel k j)) (evalEx E slices s w e) (evalEx E' slices s' w e)
  | .num v, w, j, hj => by
    simp only [kind, Option.some.injEq] at hj
    subst hj
    refine ⟨rfl, fun _ => ?_⟩
    simp only [scalar]
    split
    · rename_i hv
      subst hv
      exact ⟨rfl, .inr rfl⟩
    · exact scaled' (by rw [factor_one]; ring)
  | .comp n, w, j, hj => by
    simp only [kind, Option.some.injEq] at hj
    subst hj
    simp only [evalEx]
    exact compArr_rel h n
  | .sliced n ss, w, j, hj => by
    simp only [kind, Option.some.injEq] at hj
    subst hj
    simp only [evalEx]
    rcases (compArr_rel h n).cases with ⟨x, e1, e2⟩ | ⟨a, b, e1, e2, hr⟩
    · simp only [e1, e2]; exact rfl
    · simp only [e1, e2]
      exact selAll_rel h slices ss hr
  | .sub n, w, j, hj => by
    simp only [kind] at hj
    simp only [evalEx]
    exact hs w n j hj
  | .sign o e, w, j, hj => by
    simp only [kind] at hj
    simp only [evalEx]
    rcases (evalEx_rel (slices := slices) hk h hE hs e w j hj).cases with ⟨x, e1, e2⟩ | ⟨a, b, e1, e2, hr⟩
    · simp only [e1, e2]; exact rfl
    · simp only [e1, e2, h.neg]
      split
      · exact hr.map' fun x y hx => neg_rel hE hx
      · exact hr
  | .chain e r, w, j, hj => by
    simp only [kind, Option.bind_eq_some_iff] at hj
    obtain ⟨i, hi, hj⟩ := hj
    simp only [evalEx]
    rcases (evalEx_rel (slices := slices) hk h hE hs e w i hi).cases with ⟨x, e1, e2⟩ | ⟨a, b, e1, e2, hr⟩
    · simp only [e1, e2]; exact rfl
    · simp only [e1, e2]
      exact evalRest_rel hk h hE hs r w i j hj (maskArr_rel w hr)
  | .sum e over, w, j, hj => by
    simp only [kind] at hj
    simp only [evalEx]
    rcases (evalEx_rel (slices := slices) hk h hE hs e w j hj).cases with ⟨x, e1, e2⟩ | ⟨a, b, e1, e2, hr⟩
    · simp only [e1, e2]; exact rfl
    · simp only [e1, e2, h.coords]
      exact reduce_rel _ _ hr
  | .reduceCarrier e flow, w, j, hj => by
    simp only [kind] at hj
    simp only [evalEx]
    rcases (evalEx_rel (slices := slices) hk h hE hs e w j hj).cases with ⟨x, e1, e2⟩ | ⟨a, b, e1, e2, hr⟩
    · simp only [e1, e2]; exact rfl
    · simp only [e1, e2, h.coords, h.carrier]
      cases E.carrier flow with
      | none => exact rfl
      | some m => exact reduce_rel _ _ (maskArr_rel m hr)
  | .cond e q, w, j, hj => by
    simp only [kind] at hj
    split at hj
    · rename_i hq
      simp only [evalEx]
      rcases (evalEx_rel (slices := slices) hk h hE hs e w j hj).cases with ⟨x, e1, e2⟩ | ⟨a, b, e1, e2, hr⟩
      · simp only [e1, e2]; exact rfl
      · simp only [e1, e2]
        cases hi : kind U sub q with
        | none => simp [hi] at hq
        | some i =>
          simp only [hi, Option.any_some] at hq
          rcases (evalEx_rel (slices := slices) hk h hE hs q w i hi).cases with ⟨x, e1, e2⟩ | ⟨a', b', e1, e2, hr'⟩
          · simp only [e1, e2]; exact rfl
          · have hb := items_eq (hr'.mono fun x y hx => hx.plain hq)
            subst hb
            simp only [e1, e2, condArr]
            have hh : holds E' = holds E := by
              funext x
              cases x <;> simp only [holds, h.truthy]
            rw [hh]
            refine hr.zipMask _ ?_
            intro x y m hx
            split
            · exact hx
            · exact rel_none j
    · cases hj
  | .roll e l, w, j, hj => by
    simp only [kind] at hj
    simp only [evalEx]
    rcases (evalEx_rel (slices := slices) hk h hE hs e trueArr j hj).cases with ⟨x, e1, e2⟩ | ⟨a, b, e1, e2, hr⟩
    · simp only [e1, e2]; exact rfl
    · simp only [e1, e2, h.coords]
      exact rollAll_rel _ _ hr
  | .groupSum e g d, w, j, hj => by
    simp only [kind] at hj
    simp only [evalEx]
    rcases (evalEx_rel (slices := slices) hk h hE hs e trueArr j hj).cases with ⟨x, e1, e2⟩ | ⟨a, b, e1, e2, hr⟩
    · simp only [e1, e2]; exact rfl
    · simp only [e1, e2, h.coords, h.lookup]
      cases E.lookup g with
      | none => exact rfl
      | some m => exact groupArr_rel _ _ _ hr
  | .groupDatetime e o g, w, j, hj => by
    simp only [kind] at hj
    simp only [evalEx]
    rcases (evalEx_rel (slices := slices) hk h hE hs e trueArr j hj).cases with ⟨x, e1, e2⟩ | ⟨a, b, e1, e2, hr⟩
    · simp only [e1, e2]; exact rfl
    · simp only [e1, e2, h.coords, h.period]
      exact groupArr_rel _ _ _ hr
  | .sumNextN e d n, w, j, hj => by
    simp only [kind] at hj
    simp only [evalEx]
    rcases (evalEx_rel (slices := slices) hk h hE hs e w j hj).cases with ⟨x, e1, e2⟩ | ⟨a, b, e1, e2, hr⟩
    · simp only [e1, e2]; exact rfl
    · simp only [e1, e2, h.coords]
      exact nextArr_rel _ _ _ hr
  | .select e l, w, j, hj => by
    simp only [kind] at hj
    simp only [evalEx]
    rcases (evalEx_rel (slices := slices) hk h hE hs e w j hj).cases with ⟨x, e1, e2⟩ | ⟨a, b, e1, e2, hr⟩
    · simp only [e1, e2]; exact rfl
    · simp only [e1, e2, h.coords, Linear.lookups_same h.lookup]
      cases lookups E l with
      | error x => exact rfl
      | ok gs => exact selectArr_rel _ _ hr
theorem evalRest_rel (hk : Nonzero k) (h : Envs k U E E') (hE : Plain E) {slices : String → Option SliceDef}
    {s s' : Arr Bool → String → Res V} {sub : String → Option Kind}
    (hs : ∀ w n j, sub n = some j → Both (Items (Rel k j)) (s w n) (s' w n)) :
    ∀ (r : ExRest V) (w : Arr Bool) (i j : Kind), kindRest U sub i r = some j → ∀ {a b : Arr (Option V)},
      Items (Rel k i) a b → Both (Items (Rel k j)) (evalRest E slices s w a r) (evalRest E' slices s' w b r)
  | .one o e, w, i, j, hj, a, b, hr => by
    simp only [kindRest, Option.bind_eq_some_iff] at hj
    obtain ⟨l, hl, hj⟩ := hj
    simp only [evalRest]
    rcases (evalEx_rel (slices := slices) hk h hE hs e w l hl).cases with ⟨x, e1, e2⟩ | ⟨a', b', e1, e2, hr'⟩
    · simp only [e1, e2]; exact rfl
    · simp only [e1, e2, h.op]
      exact hr.zip' (maskArr_rel w hr') fun x y x' y' hx hx' => op_rel hk hE hj hx hx'
  | .more o e r, w, i, j, hj, a, b, hr => by
    simp only [kindRest, Option.bind_eq_some_iff] at hj
    obtain ⟨i', ⟨l, hl, hi⟩, hj⟩ := hj
    simp only [evalRest]
    rcases (evalEx_rel (slices := slices) hk h hE hs e w l hl).cases with ⟨x, e1, e2⟩ | ⟨a', b', e1, e2, hr'⟩
    · simp only [e1, e2]; exact rfl
    · simp only [e1, e2, h.op]
      exact evalRest_rel hk h hE hs r w i' j hj
        (hr.zip' (maskArr_rel w hr') fun x y x' y' hx hx' => op_rel hk hE hi hx hx')
end

end Units
end Calliope
