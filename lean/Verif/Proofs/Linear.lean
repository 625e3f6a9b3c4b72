import Mathlib.Tactic.LinearCombination
import Mathlib.Tactic.Ring
import Mathlib.Tactic.FieldSimp
import Verif.Spec.Linear
import Verif.Proofs.Assemble

/-!
# Linear expressions are mixed
-/

namespace Calliope
namespace Linear

open Grid Expr Build BaseMath Assemble Expand

variable {V : Type} [Field V] {t u : V}

/-! ### Relations -/

/-- Fixed values are the same. -/
def Rel (t u : V) : Kind → Option V → Option V → Option V → Prop
  | .fixed, a, b, c => b = a ∧ c = a
  | .linear, a, b, c => Mixture t u a b c

theorem mixture_same (h : t + u = 1) (a : Option V) : Mixture t u a a a := by
  cases a with
  | none => exact .missing
  | some a =>
    have : t * a + u * a = a := by linear_combination a * h
    simpa only [this] using Mixture.present (t := t) (u := u) a a

theorem rel_same (h : t + u = 1) (k : Kind) (a : Option V) : Rel t u k a a a := by
  cases k with
  | fixed => exact ⟨rfl, rfl⟩
  | linear => exact mixture_same h a

theorem Rel.mono (h : t + u = 1) {k : Kind} {a b c : Option V} (hr : Rel t u k a b c) : Mixture t u a b c := by
  cases k with
  | fixed =>
    obtain ⟨rfl, rfl⟩ := hr
    exact mixture_same h _
  | linear => exact hr

theorem rel_join_left (h : t + u = 1) {j k : Kind} {a b c : Option V} (hr : Rel t u j a b c) : Rel t u (j.join k) a b c := by
  cases j with
  | fixed => cases k with
    | fixed => exact hr
    | linear => exact hr.mono h
  | linear => exact hr

theorem rel_join_right (h : t + u = 1) {j k : Kind} {a b c : Option V} (hr : Rel t u k a b c) : Rel t u (j.join k) a b c := by
  cases j with
  | fixed => exact hr
  | linear => exact hr.mono h

theorem rel_none (k : Kind) : Rel t u k none none none := by
  cases k with
  | fixed => exact ⟨rfl, rfl⟩
  | linear => exact .missing

theorem Rel.some {k : Kind} {a b c : Option V} (hr : Rel t u k a b c) : b.isSome = a.isSome ∧ c.isSome = a.isSome := by
  cases k with
  | fixed =>
    obtain ⟨rfl, rfl⟩ := hr
    exact ⟨rfl, rfl⟩
  | linear => cases hr <;> exact ⟨rfl, rfl⟩

/-- All fail the same way, or have related results. -/
def Triple {α : Type} (T : α → α → α → Prop) : Except Err α → Except Err α → Except Err α → Prop
  | .ok a, .ok b, .ok c => T a b c
  | .error e, .error e', .error e'' => e' = e ∧ e'' = e
  | _, _, _ => False

theorem Triple.cases {α : Type} {T : α → α → α → Prop} {x y z : Except Err α} (h : Triple T x y z) :
    (∃ e, x = .error e ∧ y = .error e ∧ z = .error e) ∨ ∃ a b c, x = .ok a ∧ y = .ok b ∧ z = .ok c ∧ T a b c := by
  cases x with
  | error e => cases y with
    | error e' => cases z with
      | error e'' => obtain ⟨rfl, rfl⟩ := h; exact .inl ⟨_, rfl, rfl, rfl⟩
      | ok c => exact h.elim
    | ok b => cases z <;> exact h.elim
  | ok a => cases y with
    | error e' => cases z <;> exact h.elim
    | ok b => cases z with
      | error e'' => exact h.elim
      | ok c => exact .inr ⟨a, b, c, rfl, rfl, rfl, h⟩

theorem Items.map' {R S : Type} {T : Option R → Option R → Option R → Prop} {T' : Option S → Option S → Option S → Prop}
    {a b c : Arr (Option R)} (h : Items T a b c) {f : Option R → Option S}
    (hf : ∀ x y z, T x y z → T' (f x) (f y) (f z)) : Items T' (map f a) (map f b) (map f c) :=
  ⟨h.1, h.2.1, fun x => hf _ _ _ (h.2.2 x)⟩

theorem Items.mono {R : Type} {T T' : Option R → Option R → Option R → Prop} {a b c : Arr (Option R)} (h : Items T a b c)
    (hf : ∀ x y z, T x y z → T' x y z) : Items T' a b c :=
  ⟨h.1, h.2.1, fun x => hf _ _ _ (h.2.2 x)⟩

theorem items_fixed {a b c : Arr (Option V)} (h : Items (Rel t u .fixed) a b c) : b = a ∧ c = a := by
  obtain ⟨h1, h2, h3⟩ := h
  constructor
  · cases a; cases b
    simp only [Arr.mk.injEq] at *
    exact ⟨h1, funext fun x => (h3 x).1⟩
  · cases a; cases c
    simp only [Arr.mk.injEq] at *
    exact ⟨h2, funext fun x => (h3 x).2⟩

theorem items_same {R : Type} {T : Option R → Option R → Option R → Prop} (hT : ∀ x, T x x x) (a : Arr (Option R)) :
    Items T a a a := ⟨rfl, rfl, fun _ => hT _⟩

theorem Items.zip' {R S Q : Type} {T : Option R → Option R → Option R → Prop} {T' : Option S → Option S → Option S → Prop}
    {T'' : Option Q → Option Q → Option Q → Prop} {a b c : Arr (Option R)} {a' b' c' : Arr (Option S)} (h : Items T a b c)
    (h' : Items T' a' b' c') {f : Option R → Option S → Option Q}
    (hf : ∀ x y z x' y' z', T x y z → T' x' y' z' → T'' (f x x') (f y y') (f z z')) :
    Items T'' (zip f a a') (zip f b b') (zip f c c') := by
  obtain ⟨h1, h2, h3⟩ := h
  obtain ⟨h1', h2', h3'⟩ := h'
  refine ⟨by simp only [zip, h1, h1'], by simp only [zip, h2, h2'], fun x => ?_⟩
  simp only [zip, h1, h1', h2, h2']
  exact hf _ _ _ _ _ _ (h3 _) (h3' _)

theorem Items.zipMask {R S : Type} {Q : Type} {T : Option R → Option R → Option R → Prop}
    {T'' : Option Q → Option Q → Option Q → Prop} {a b c : Arr (Option R)} (h : Items T a b c) (w : Arr S)
    {f : Option R → S → Option Q} (hf : ∀ x y z m, T x y z → T'' (f x m) (f y m) (f z m)) :
    Items T'' (zip f a w) (zip f b w) (zip f c w) := by
  obtain ⟨h1, h2, h3⟩ := h
  refine ⟨by simp only [zip, h1], by simp only [zip, h2], fun x => ?_⟩
  simp only [zip, h1, h2]
  exact hf _ _ _ _ (h3 _)

theorem items_isSome {R : Type} {T : Option R → Option R → Option R → Prop}
    (hT : ∀ x y z, T x y z → y.isSome = x.isSome ∧ z.isSome = x.isSome) {a b c : Arr (Option R)} (h : Items T a b c) :
    map Option.isSome b = map Option.isSome a ∧ map Option.isSome c = map Option.isSome a := by
  obtain ⟨h1, h2, h3⟩ := h
  constructor
  · simp only [map, h1, Arr.mk.injEq, true_and]
    exact funext fun x => (hT _ _ _ (h3 x)).1
  · simp only [map, h2, Arr.mk.injEq, true_and]
    exact funext fun x => (hT _ _ _ (h3 x)).2

/-! ### Operations -/

theorem maskArr_rel {k : Kind} (w : Arr Bool) {a b c : Arr (Option V)} (h : Items (Rel t u k) a b c) :
    Items (Rel t u k) (maskArr w a) (maskArr w b) (maskArr w c) := by
  refine h.zipMask w ?_
  intro x y z m hr
  cases m with
  | true => exact hr
  | false => exact rel_none k

theorem sums_mix {α : Type} {k : Kind} (f f' f'' : α → Option V) :
    ∀ l : List α, (∀ i ∈ l, Rel t u k (f i) (f' i) (f'' i)) →
      Rel t u k (sumPresent (l.map f)) (sumPresent (l.map f')) (sumPresent (l.map f'')) := by
  intro l h
  cases k with
  | fixed =>
    have h1 : l.map f' = l.map f := List.map_congr_left fun i hi => (h i hi).1
    have h2 : l.map f'' = l.map f := List.map_congr_left fun i hi => (h i hi).2
    rw [h1, h2]
    exact ⟨rfl, rfl⟩
  | linear =>
    have key : (l.map f').all Option.isNone = (l.map f).all Option.isNone ∧
        (l.map f'').all Option.isNone = (l.map f).all Option.isNone ∧
        ((l.map f'').filterMap id).sum = t * ((l.map f).filterMap id).sum + u * ((l.map f').filterMap id).sum := by
      induction l with
      | nil => simp
      | cons i l ih =>
        obtain ⟨e1, e2, e3⟩ := ih fun j hj => h j (List.mem_cons_of_mem _ hj)
        have hi : Mixture t u (f i) (f' i) (f'' i) := h i List.mem_cons_self
        simp only [List.map_cons]
        generalize f i = x at hi ⊢
        generalize f' i = y at hi ⊢
        generalize f'' i = z at hi ⊢
        cases hi with
        | missing =>
          simp only [List.all_cons, Option.isNone_none, Bool.true_and, List.filterMap_cons, id_eq]
          exact ⟨e1, e2, e3⟩
        | present p q =>
          refine ⟨by simp, by simp, ?_⟩
          simp only [List.filterMap_cons, id_eq, List.sum_cons]
          change t * p + u * q + (List.filterMap id (List.map f'' l)).sum =
            t * (p + (List.filterMap id (List.map f l)).sum) + u * (q + (List.filterMap id (List.map f' l)).sum)
          linear_combination e3
    obtain ⟨e1, e2, e3⟩ := key
    simp only [Rel, sumPresent, e1, e2]
    split
    · exact .missing
    · rw [e3]
      exact .present _ _

theorem reduce_rel {k : Kind} (coords : String → List Label) (over : List String) {a b c : Arr (Option V)}
    (h : Items (Rel t u k) a b c) :
    Items (Rel t u k) (sumArr coords over a) (sumArr coords over b) (sumArr coords over c) := by
  obtain ⟨h1, h2, h3⟩ := h
  refine ⟨by simp only [sumArr, reduce, h1], by simp only [sumArr, reduce, h2], fun x => ?_⟩
  simp only [sumArr, reduce, h1, h2]
  exact sums_mix _ _ _ _ fun i _ => h3 _

theorem rollAll_rel {k : Kind} (coords : String → List Label) : ∀ (l : List (String × Int)) {a b c : Arr (Option V)},
    Items (Rel t u k) a b c → Triple (Items (Rel t u k)) (rollAll coords l a) (rollAll coords l b) (rollAll coords l c)
  | [], _, _, _, h => h
  | (d, n) :: l, a, b, c, h => by
    obtain ⟨h1, h2, h3⟩ := h
    simp only [rollAll, h1, h2]
    split
    · exact rollAll_rel coords l ⟨by simp only [rollArr, h1], by simp only [rollArr, h2], fun x => by
        simp only [rollArr, h1, h2]
        exact h3 _⟩
    · exact ⟨rfl, rfl⟩

theorem groupArr_rel {k : Kind} (coords : String → List Label) (g : Arr (Option Label)) (d : String)
    {a b c : Arr (Option V)} (h : Items (Rel t u k) a b c) :
    Triple (Items (Rel t u k)) (groupArr coords a g d) (groupArr coords b g d) (groupArr coords c g d) := by
  obtain ⟨h1, h2, h3⟩ := h
  simp only [groupArr, h1, h2]
  split
  · split
    · exact ⟨rfl, rfl⟩
    · split
      · exact ⟨rfl, rfl⟩
      · refine ⟨rfl, rfl, fun x => ?_⟩
        cases x with
        | nil => exact rel_none k
        | cons l x => exact sums_mix _ _ _ _ fun i _ => h3 _
  · exact ⟨rfl, rfl⟩

theorem nextArr_rel {k : Kind} (coords : String → List Label) (d : String) (n : Int)
    {a b c : Arr (Option V)} (h : Items (Rel t u k) a b c) :
    Triple (Items (Rel t u k)) (nextArr coords d n a) (nextArr coords d n b) (nextArr coords d n c) := by
  obtain ⟨h1, h2, h3⟩ := h
  simp only [nextArr, h1, h2]
  split
  · exact ⟨rfl, rfl, fun x => sums_mix _ _ _ _ fun i _ => h3 _⟩
  · exact ⟨rfl, rfl⟩

theorem selectArr_rel {k : Kind} (coords : String → List Label) (gs : List (String × Arr (Option Label)))
    {a b c : Arr (Option V)} (h : Items (Rel t u k) a b c) :
    Triple (Items (Rel t u k)) (selectArr coords a gs) (selectArr coords b gs) (selectArr coords c gs) := by
  obtain ⟨h1, h2, h3⟩ := h
  simp only [selectArr, h1, h2]
  split
  · split
    · split
      · split
        · exact ⟨rfl, rfl⟩
        · refine ⟨rfl, rfl, fun x => ?_⟩
          dsimp only
          split
          · exact h3 _
          · exact rel_none k
      · exact ⟨rfl, rfl⟩
    · exact ⟨rfl, rfl⟩
  · exact ⟨rfl, rfl⟩

/-! ### Environments -/

/-- The environments differ in the values of arrays that depend on decisions. -/
structure Envs (t u : V) (depends : String → Bool) (E E' E'' : Expr.Env V) : Prop where
  coords : E'.coords = E.coords ∧ E''.coords = E.coords
  isDim : E'.isDim = E.isDim ∧ E''.isDim = E.isDim
  lookup : E'.lookup = E.lookup ∧ E''.lookup = E.lookup
  carrier : E'.carrier = E.carrier ∧ E''.carrier = E.carrier
  period : E'.period = E.period ∧ E''.period = E.period
  op : E'.op = E.op ∧ E''.op = E.op
  neg : E'.neg = E.neg ∧ E''.neg = E.neg
  truthy : E'.truthy = E.truthy ∧ E''.truthy = E.truthy
  comp : ∀ n, (E.comp n = none ∧ E'.comp n = none ∧ E''.comp n = none) ∨
    ∃ a b c d, E.comp n = some ⟨a, d⟩ ∧ E'.comp n = some ⟨b, d⟩ ∧ E''.comp n = some ⟨c, d⟩ ∧
      Items (Rel t u (if depends n then .linear else .fixed)) a b c

variable {depends : String → Bool} {E E' E'' : Expr.Env V}

theorem fill_rel (ht : t + u = 1) {k : Kind} (d : Option V) {x y z : Option V} (h : Rel t u k x y z) :
    Rel t u k (fill d x) (fill d y) (fill d z) := by
  cases k with
  | fixed =>
    obtain ⟨rfl, rfl⟩ := h
    exact ⟨rfl, rfl⟩
  | linear =>
    cases h with
    | missing => exact mixture_same ht d
    | present a b => exact .present a b

theorem compArr_rel (ht : t + u = 1) (h : Envs t u depends E E' E'') (n : String) :
    Triple (Items (Rel t u (if depends n then .linear else .fixed))) (compArr E n) (compArr E' n) (compArr E'' n) := by
  rcases h.comp n with ⟨e1, e2, e3⟩ | ⟨a, b, c, d, e1, e2, e3, hr⟩
  · simp only [compArr, e1, e2, e3, h.isDim.1, h.isDim.2]
    by_cases hd : E.isDim n = true
    · simp only [hd, if_true]
      exact items_same (fun x => rel_same ht _ x) _
    · simp only [hd]
      exact ⟨rfl, rfl⟩
  · simp only [compArr, e1, e2, e3]
    exact hr.map' fun x y z hx => fill_rel ht d hx

omit [Field V] in
theorem sliceArrs_same {E E' : Expr.Env V} (h1 : E'.coords = E.coords) (h2 : E'.lookup = E.lookup)
    (slices : String → Option SliceDef) : ∀ ss, sliceArrs E' slices ss = sliceArrs E slices ss
  | [] => rfl
  | (d, s) :: ss => by
    have : sliceArr E' slices s = sliceArr E slices s := by simp only [sliceArr, h1, h2]
    simp only [sliceArrs, this, sliceArrs_same h1 h2 slices ss]

omit [Field V] in
theorem lookups_same {E E' : Expr.Env V} (h2 : E'.lookup = E.lookup) : ∀ ss, lookups E' ss = lookups E ss
  | [] => rfl
  | (d, s) :: ss => by simp only [lookups, h2, lookups_same h2 ss]

theorem selAll_rel {k : Kind} (h : Envs t u depends E E' E'') (slices : String → Option SliceDef)
    (ss : List (String × Slicer)) {a b c : Arr (Option V)} (hr : Items (Rel t u k) a b c) :
    Triple (Items (Rel t u k)) (selAll E slices a ss) (selAll E' slices b ss) (selAll E'' slices c ss) := by
  obtain ⟨h1, h2, h3⟩ := hr
  simp only [selAll, sliceArrs_same h.coords.1 h.lookup.1, sliceArrs_same h.coords.2 h.lookup.2]
  cases sliceArrs E slices ss with
  | error x => exact ⟨rfl, rfl⟩
  | ok gs =>
    simp only [h1, h2, h.coords.1, h.coords.2]
    split
    · refine ⟨rfl, rfl, fun x => ?_⟩
      dsimp only
      split
      · exact h3 _
      · exact rel_none k
    · exact ⟨rfl, rfl⟩

theorem present' {a b c : V} (h : c = t * a + u * b) : Mixture t u (some a) (some b) (some c) := h ▸ .present a b

/-- Operations on values. -/
theorem op_rel (ht : t + u = 1) (hE : Plain E) {o : Arith.Op} {j k l : Kind} (hc : combine o j k = some l)
    {x y z x' y' z' : Option V} (h : Rel t u j x y z) (h' : Rel t u k x' y' z') :
    Rel t u l (E.op o x x') (E.op o y y') (E.op o z z') := by
  by_cases hjk : j = .fixed ∧ k = .fixed
  · obtain ⟨rfl, rfl⟩ := hjk
    rw [h.1, h.2, h'.1, h'.2]
    exact rel_same ht l _
  · have hl : l = .linear ∧ o ≠ .pow := by
      revert hc hjk
      cases o <;> cases j <;> cases k <;> simp [combine, Kind.join] <;> exact fun h => h.symm
    obtain ⟨rfl, hp⟩ := hl
    have hx := h.mono ht
    have hx' := h'.mono ht
    show Mixture t u _ _ _
    cases hx with
    | missing => simp only [hE.left o _ hp]; exact .missing
    | present a b =>
      cases hx' with
      | missing => simp only [hE.right o _ hp]; exact .missing
      | present p q =>
        cases o with
        | plus =>
          simp only [hE.plus]
          exact present' (by ring)
        | minus =>
          simp only [hE.minus]
          exact present' (by ring)
        | times =>
          simp only [hE.times]
          cases j with
          | fixed =>
            obtain ⟨e1, e2⟩ := h
            rw [Option.some.injEq] at e1 e2
            exact present' (by rw [e2, e1]; ring)
          | linear => cases k with
            | fixed =>
              obtain ⟨e1, e2⟩ := h'
              rw [Option.some.injEq] at e1 e2
              exact present' (by rw [e2, e1]; ring)
            | linear => simp [combine] at hc
        | div =>
          cases k with
          | linear => simp [combine] at hc
          | fixed =>
            obtain ⟨e1, e2⟩ := h'
            rw [e2, e1]
            by_cases hz : p = 0
            · subst hz
              simp only [hE.divZero]
              exact .missing
            · simp only [hE.div _ _ hz]
              exact present' (by field_simp)
        | pow => exact absurd rfl hp

theorem neg_rel (hE : Plain E) {k : Kind} {x y z : Option V} (h : Rel t u k x y z) :
    Rel t u k (E.neg x) (E.neg y) (E.neg z) := by
  cases k with
  | fixed =>
    obtain ⟨rfl, rfl⟩ := h
    exact ⟨rfl, rfl⟩
  | linear =>
    cases h with
    | missing =>
      simp only [hE.negNone]
      exact rel_none .linear
    | present a b =>
      simp only [hE.neg, Rel]
      rw [show -(t * a + u * b) = t * -a + u * -b by ring]
      exact .present _ _

/-! ### Expressions -/

mutual
theorem evalEx_rel (ht : t + u = 1) (h : Envs t u depends E E' E'') (hE : Plain E) {slices : String → Option SliceDef}
    {s s' s'' : Arr Bool → String → Res V} {sub : String → Option Kind}
    (hs : ∀ w n k, sub n = some k → Triple (Items (Rel t u k)) (s w n) (s' w n) (s'' w n)) :
    ∀ (e : Ex V) (w : Arr Bool) (k : Kind), kind depends sub e = some k →
      Triple (Items (Rel t u k)) (evalEx E slices s w e) (evalEx E' slices s' w e) (evalEx E'' slices s'' w e)
  | .num v, w, k, hk => by
    simp only [kind, Option.some.injEq] at hk
    subst hk
    exact ⟨rfl, rfl, fun _ => ⟨rfl, rfl⟩⟩
  | .comp n, w, k, hk => by
    simp only [kind, Option.some.injEq] at hk
    subst hk
    simp only [evalEx]
    exact compArr_rel ht h n
  | .sliced n ss, w, k, hk => by
    simp only [kind, Option.some.injEq] at hk
    subst hk
    simp only [evalEx]
    rcases (compArr_rel ht h n).cases with ⟨x, e1, e2, e3⟩ | ⟨a, b, c, e1, e2, e3, hr⟩
    · simp only [e1, e2, e3]; exact ⟨rfl, rfl⟩
    · simp only [e1, e2, e3]
      exact selAll_rel h slices ss hr
  | .sub n, w, k, hk => by
    simp only [kind] at hk
    simp only [evalEx]
    exact hs w n k hk
  | .sign o e, w, k, hk => by
    simp only [kind] at hk
    simp only [evalEx]
    rcases (evalEx_rel (slices := slices) ht h hE hs e w k hk).cases with ⟨x, e1, e2, e3⟩ | ⟨a, b, c, e1, e2, e3, hr⟩
    · simp only [e1, e2, e3]; exact ⟨rfl, rfl⟩
    · simp only [e1, e2, e3, h.neg.1, h.neg.2]
      split
      · exact hr.map' fun x y z hx => neg_rel hE hx
      · exact hr
  | .chain e r, w, k, hk => by
    simp only [kind, Option.bind_eq_some_iff] at hk
    obtain ⟨j, hj, hk⟩ := hk
    simp only [evalEx]
    rcases (evalEx_rel (slices := slices) ht h hE hs e w j hj).cases with ⟨x, e1, e2, e3⟩ | ⟨a, b, c, e1, e2, e3, hr⟩
    · simp only [e1, e2, e3]; exact ⟨rfl, rfl⟩
    · simp only [e1, e2, e3]
      exact evalRest_rel ht h hE hs r w j k hk (maskArr_rel w hr)
  | .sum e over, w, k, hk => by
    simp only [kind] at hk
    simp only [evalEx]
    rcases (evalEx_rel (slices := slices) ht h hE hs e w k hk).cases with ⟨x, e1, e2, e3⟩ | ⟨a, b, c, e1, e2, e3, hr⟩
    · simp only [e1, e2, e3]; exact ⟨rfl, rfl⟩
    · simp only [e1, e2, e3, h.coords.1, h.coords.2]
      exact reduce_rel _ _ hr
  | .reduceCarrier e flow, w, k, hk => by
    simp only [kind] at hk
    simp only [evalEx]
    rcases (evalEx_rel (slices := slices) ht h hE hs e w k hk).cases with ⟨x, e1, e2, e3⟩ | ⟨a, b, c, e1, e2, e3, hr⟩
    · simp only [e1, e2, e3]; exact ⟨rfl, rfl⟩
    · simp only [e1, e2, e3, h.coords.1, h.coords.2, h.carrier.1, h.carrier.2]
      cases E.carrier flow with
      | none => exact ⟨rfl, rfl⟩
      | some m => exact reduce_rel _ _ (maskArr_rel m hr)
  | .cond e q, w, k, hk => by
    simp only [kind] at hk
    split at hk
    · rename_i hq
      simp only [evalEx]
      rcases (evalEx_rel (slices := slices) ht h hE hs e w k hk).cases with ⟨x, e1, e2, e3⟩ | ⟨a, b, c, e1, e2, e3, hr⟩
      · simp only [e1, e2, e3]; exact ⟨rfl, rfl⟩
      · simp only [e1, e2, e3]
        rcases (evalEx_rel (slices := slices) ht h hE hs q w .fixed hq).cases with ⟨x, e1, e2, e3⟩ | ⟨a', b', c', e1, e2, e3, hr'⟩
        · simp only [e1, e2, e3]; exact ⟨rfl, rfl⟩
        · obtain ⟨rfl, rfl⟩ := items_fixed hr'
          simp only [e1, e2, e3, condArr]
          have hh : holds E' = holds E ∧ holds E'' = holds E := by
            constructor <;> funext x <;> cases x <;> simp only [holds, h.truthy.1, h.truthy.2]
          rw [hh.1, hh.2]
          refine hr.zipMask _ ?_
          intro x y z m hx
          split
          · exact hx
          · exact rel_none k
    · cases hk
  | .roll e l, w, k, hk => by
    simp only [kind] at hk
    simp only [evalEx]
    rcases (evalEx_rel (slices := slices) ht h hE hs e trueArr k hk).cases with ⟨x, e1, e2, e3⟩ | ⟨a, b, c, e1, e2, e3, hr⟩
    · simp only [e1, e2, e3]; exact ⟨rfl, rfl⟩
    · simp only [e1, e2, e3, h.coords.1, h.coords.2]
      exact rollAll_rel _ _ hr
  | .groupSum e g d, w, k, hk => by
    simp only [kind] at hk
    simp only [evalEx]
    rcases (evalEx_rel (slices := slices) ht h hE hs e trueArr k hk).cases with ⟨x, e1, e2, e3⟩ | ⟨a, b, c, e1, e2, e3, hr⟩
    · simp only [e1, e2, e3]; exact ⟨rfl, rfl⟩
    · simp only [e1, e2, e3, h.coords.1, h.coords.2, h.lookup.1, h.lookup.2]
      cases E.lookup g with
      | none => exact ⟨rfl, rfl⟩
      | some m => exact groupArr_rel _ _ _ hr
  | .groupDatetime e o g, w, k, hk => by
    simp only [kind] at hk
    simp only [evalEx]
    rcases (evalEx_rel (slices := slices) ht h hE hs e trueArr k hk).cases with ⟨x, e1, e2, e3⟩ | ⟨a, b, c, e1, e2, e3, hr⟩
    · simp only [e1, e2, e3]; exact ⟨rfl, rfl⟩
    · simp only [e1, e2, e3, h.coords.1, h.coords.2, h.period.1, h.period.2]
      exact groupArr_rel _ _ _ hr
  | .sumNextN e d n, w, k, hk => by
    simp only [kind] at hk
    simp only [evalEx]
    rcases (evalEx_rel (slices := slices) ht h hE hs e w k hk).cases with ⟨x, e1, e2, e3⟩ | ⟨a, b, c, e1, e2, e3, hr⟩
    · simp only [e1, e2, e3]; exact ⟨rfl, rfl⟩
    · simp only [e1, e2, e3, h.coords.1, h.coords.2]
      exact nextArr_rel _ _ _ hr
  | .select e l, w, k, hk => by
    simp only [kind] at hk
    simp only [evalEx]
    rcases (evalEx_rel (slices := slices) ht h hE hs e w k hk).cases with ⟨x, e1, e2, e3⟩ | ⟨a, b, c, e1, e2, e3, hr⟩
    · simp only [e1, e2, e3]; exact ⟨rfl, rfl⟩
    · simp only [e1, e2, e3, h.coords.1, h.coords.2, lookups_same h.lookup.1, lookups_same h.lookup.2]
      cases lookups E l with
      | error x => exact ⟨rfl, rfl⟩
      | ok gs => exact selectArr_rel _ _ hr
theorem evalRest_rel (ht : t + u = 1) (h : Envs t u depends E E' E'') (hE : Plain E) {slices : String → Option SliceDef}
    {s s' s'' : Arr Bool → String → Res V} {sub : String → Option Kind}
    (hs : ∀ w n k, sub n = some k → Triple (Items (Rel t u k)) (s w n) (s' w n) (s'' w n)) :
    ∀ (r : ExRest V) (w : Arr Bool) (j k : Kind), kindRest depends sub j r = some k → ∀ {a b c : Arr (Option V)},
      Items (Rel t u j) a b c →
      Triple (Items (Rel t u k)) (evalRest E slices s w a r) (evalRest E' slices s' w b r) (evalRest E'' slices s'' w c r)
  | .one o e, w, j, k, hk, a, b, c, hr => by
    simp only [kindRest, Option.bind_eq_some_iff] at hk
    obtain ⟨l, hl, hk⟩ := hk
    simp only [evalRest]
    rcases (evalEx_rel (slices := slices) ht h hE hs e w l hl).cases with ⟨x, e1, e2, e3⟩ | ⟨a', b', c', e1, e2, e3, hr'⟩
    · simp only [e1, e2, e3]; exact ⟨rfl, rfl⟩
    · simp only [e1, e2, e3, h.op.1, h.op.2]
      exact hr.zip' (maskArr_rel w hr') fun x y z x' y' z' hx hx' => op_rel ht hE hk hx hx'
  | .more o e r, w, j, k, hk, a, b, c, hr => by
    simp only [kindRest, Option.bind_eq_some_iff] at hk
    obtain ⟨i, ⟨l, hl, hi⟩, hk⟩ := hk
    simp only [evalRest]
    rcases (evalEx_rel (slices := slices) ht h hE hs e w l hl).cases with ⟨x, e1, e2, e3⟩ | ⟨a', b', c', e1, e2, e3, hr'⟩
    · simp only [e1, e2, e3]; exact ⟨rfl, rfl⟩
    · simp only [e1, e2, e3, h.op.1, h.op.2]
      exact evalRest_rel ht h hE hs r w i k hk
        (hr.zip' (maskArr_rel w hr') fun x y z x' y' z' hx hx' => op_rel ht hE hi hx hx')
end

/-! ### Equations -/

theorem Items.rel_mono (ht : t + u = 1) {k : Kind} {a b c : Arr (Option V)} (h : Items (Rel t u k) a b c) :
    Items (Mixture t u) a b c := h.mono fun _ _ _ hx => hx.mono ht

theorem joinAll_mem {l : List (Option Kind)} {k : Kind} (h : joinAll l = some k) : ∀ x ∈ l, ∃ j, x = some j ∧
    (k = .fixed → j = .fixed) := by
  induction l generalizing k with
  | nil => simp
  | cons y l ih =>
    simp only [joinAll, Option.bind_eq_some_iff, Option.map_eq_some_iff] at h
    obtain ⟨j, rfl, i, hi, rfl⟩ := h
    intro x hx
    rcases List.mem_cons.1 hx with rfl | hx
    · exact ⟨j, rfl, fun hk => by cases j <;> simp_all [Kind.join]⟩
    · obtain ⟨m, rfl, hm⟩ := ih hi x hx
      exact ⟨m, rfl, fun hk => hm (by cases j <;> simp_all [Kind.join])⟩

/-- Weaker, from fixed to linear. -/
theorem rel_weaken (ht : t + u = 1) {j k : Kind} (h : k = .fixed → j = .fixed) {a b c : Arr (Option V)}
    (hr : Items (Rel t u j) a b c) : Items (Rel t u k) a b c := by
  cases k with
  | fixed => exact h rfl ▸ hr
  | linear => exact hr.rel_mono ht

theorem triple_weaken (ht : t + u = 1) {j k : Kind} (h : k = .fixed → j = .fixed) {a b c : Res V}
    (hr : Triple (Items (Rel t u j)) a b c) : Triple (Items (Rel t u k)) a b c := by
  rcases hr.cases with ⟨x, rfl, rfl, rfl⟩ | ⟨a, b, c, rfl, rfl, rfl, hr⟩
  · exact ⟨rfl, rfl⟩
  · exact rel_weaken ht h hr

/-- The sub-expressions of an expanded equation are among those of its component. -/
structure Among (c : Component V) (e : Equation V Cond) : Prop where
  body : ∃ w, (w, e.body) ∈ c.defn.equations
  subs : ∀ n s, e.subs.lookup n = some s → ∃ l w, (n, l) ∈ c.defn.subs ∧ (w, s) ∈ l

omit [Field V] in
theorem among {c : Component V} {enum : List String → List String} {es : List (Equation V Cond)}
    (hp : parseEquations enum c.defn = .ok es) {e : Equation V Cond} (he : e ∈ es) : Among c e := by
  obtain ⟨i, w, body, hi, cs, hcs, ss, hss, hb, _, hw, hs, hl⟩ := (C44_product hp e).1 he
  refine ⟨⟨w, hb ▸ List.mem_of_getElem? hi⟩, ?_⟩
  intro n s hn
  rw [hs] at hn
  obtain ⟨a, ha, hf⟩ := lookup_map_mem hn
  obtain ⟨l, v, hl, hx, hu⟩ := hcs.2 a ha
  obtain ⟨rfl, rfl⟩ := Prod.mk.inj hf
  exact ⟨l, v, lookup_mem hl, List.mem_of_getElem? hx⟩

theorem evalSide_rel (ht : t + u = 1) (h : Envs t u depends E E' E'') (hE : Plain E) {c : Component V}
    {e : Equation V Cond} (he : Among c e) (m : Arr Bool) (x : Ex V) {k : Kind}
    (hk : kind depends (subKind depends c.defn.subs) x = some k) :
    Triple (Items (Rel t u k)) (evalSide E (fun n => e.slices.lookup n) (fun n => e.subs.lookup n) m x)
      (evalSide E' (fun n => e.slices.lookup n) (fun n => e.subs.lookup n) m x)
      (evalSide E'' (fun n => e.slices.lookup n) (fun n => e.subs.lookup n) m x) := by
  refine evalEx_rel ht h hE ?_ x m k hk
  intro w n j hj
  simp only [evalSub]
  cases hs : e.subs.lookup n with
  | none => exact ⟨rfl, rfl⟩
  | some s =>
    obtain ⟨l, v, hl, hx⟩ := he.subs n s hs
    obtain ⟨i, hi, hij⟩ := joinAll_mem hj (kind depends (fun _ => none) s) (List.mem_map.2 ⟨(v, s),
      List.mem_flatMap.2 ⟨(n, l), List.mem_filter.2 ⟨hl, by simp⟩, hx⟩, rfl⟩)
    refine triple_weaken ht hij (evalEx_rel ht h hE ?_ s w i hi)
    intro _ _ _ h0
    cases h0

theorem checkWhere_same {k : Kind} (hc : E'.coords = E.coords) (w : Arr Bool) {a b : Arr (Option V)}
    (hd : b.dims = a.dims) (hs : ∀ x, (b.val x).isSome = (a.val x).isSome) : checkWhere E' w b = checkWhere E w a := by
  have : zip (fun v m => v.isNone && m) b w = zip (fun v m => v.isNone && m) a w := by
    simp only [zip, hd, Arr.mk.injEq, true_and]
    funext x
    have := hs (pick (joinDims a.dims w.dims) x a.dims)
    cases h1 : a.val (pick (joinDims a.dims w.dims) x a.dims) <;>
      cases h2 : b.val (pick (joinDims a.dims w.dims) x a.dims) <;> simp_all
  simp only [checkWhere, hd, hc, this]

theorem setExpression_rel (ht : t + u = 1) (h : Envs t u depends E E' E'') (hE : Plain E) {c : Component V} {k : Kind}
    (hk : componentKind depends c = some k) {e : Equation V Cond} (he : Among c e) (m : Arr Bool) :
    Triple (Items (Rel t u k)) (setExpression E e m) (setExpression E' e m) (setExpression E'' e m) := by
  obtain ⟨w, hw⟩ := he.body
  obtain ⟨j, hj, hjk⟩ := joinAll_mem hk _ (List.mem_map.2 ⟨_, hw, rfl⟩)
  refine triple_weaken ht hjk ?_
  simp only [setExpression]
  cases hb : e.body with
  | cmp _ _ _ => exact ⟨rfl, rfl⟩
  | arith x =>
    rw [hb] at hj
    simp only [bodyKind] at hj
    simp only [evalExpression]
    rcases (evalSide_rel ht h hE he m x hj).cases with ⟨y, e1, e2, e3⟩ | ⟨a, b, d, e1, e2, e3, hr⟩
    · simp only [e1, e2, e3]; exact ⟨rfl, rfl⟩
    · simp only [e1, e2, e3]
      rw [checkWhere_same (k := k) h.coords.1 m hr.1 (fun x => (hr.2.2 x).some.1),
        checkWhere_same (k := k) h.coords.2 m hr.2.1 (fun x => (hr.2.2 x).some.2)]
      cases checkWhere E m a with
      | error y => exact ⟨rfl, rfl⟩
      | ok _ => exact maskArr_rel m hr

theorem setConstraint_rel (ht : t + u = 1) (h : Envs t u depends E E' E'') (hE : Plain E) {c : Component V}
    (hk : componentKind depends c ≠ none) {e : Equation V Cond} (he : Among c e) (m : Arr Bool) :
    Triple (Items (CellMixture t u)) (setConstraint E e m) (setConstraint E' e m) (setConstraint E'' e m) := by
  obtain ⟨w, hw⟩ := he.body
  obtain ⟨k, hk⟩ := Option.ne_none_iff_exists'.1 hk
  obtain ⟨j, hj, hjk⟩ := joinAll_mem hk _ (List.mem_map.2 ⟨_, hw, rfl⟩)
  simp only [setConstraint]
  cases hb : e.body with
  | arith _ => exact ⟨rfl, rfl⟩
  | cmp l o r =>
    rw [hb] at hj
    simp only [bodyKind] at hj
    obtain ⟨jl, hl, -⟩ := joinAll_mem hj _ List.mem_cons_self
    obtain ⟨jr, hr, -⟩ := joinAll_mem hj _ (List.mem_cons_of_mem _ List.mem_cons_self)
    simp only [evalComparison]
    rcases (evalSide_rel ht h hE he m l hl).cases with ⟨y, e1, e2, e3⟩ | ⟨a, b, d, e1, e2, e3, h1⟩
    · simp only [e1, e2, e3]; exact ⟨rfl, rfl⟩
    · simp only [e1, e2, e3]
      rcases (evalSide_rel ht h hE he m r hr).cases with ⟨y, e1, e2, e3⟩ | ⟨a', b', d', e1, e2, e3, h2⟩
      · simp only [e1, e2, e3]; exact ⟨rfl, rfl⟩
      · simp only [e1, e2, e3, h1.1, h1.2.1, h2.1, h2.2.1]
        split_ifs
        · refine ⟨rfl, rfl, fun x => ?_⟩
          simp only [map]
          split_ifs
          · exact .present o ((h1.2.2 _).mono ht) ((h2.2.2 _).mono ht)
          · exact .missing
        · exact ⟨rfl, rfl⟩
        · exact ⟨rfl, rfl⟩

/-! ### Components -/

theorem CellMixture.some {a b c : Option (Cell V)} (h : CellMixture t u a b c) :
    b.isSome = a.isSome ∧ c.isSome = a.isSome := by
  cases h <;> exact ⟨rfl, rfl⟩

omit [Field V] in
theorem overlaps_same {R : Type} (coords : String → List Label) (m : Arr Bool) {a b : Arr (Option R)} (hd : b.dims = a.dims)
    (hs : ∀ x, (b.val x).isSome = (a.val x).isSome) : overlaps coords b m = overlaps coords a m := by
  have : zip (fun v m => v.isSome && m) b m = zip (fun v m => v.isSome && m) a m := by
    simp only [zip, hd, hs]
  simp only [overlaps, this]

omit [Field V] in
theorem buildLoop_rel {R : Type} {T : Option R → Option R → Option R → Prop} (hn : T none none none)
    (hT : ∀ x y z, T x y z → y.isSome = x.isSome ∧ z.isSome = x.isSome) (W : Where.Env) (c : Component V)
    {f f' f'' : Equation V Cond → Arr Bool → Except Err (Arr (Option R))} : ∀ (es : List (Equation V Cond))
    {a b d : Arr (Option R)}, (∀ e ∈ es, ∀ m, Triple (Items T) (f e m) (f' e m) (f'' e m)) → Items T a b d →
    Triple (Items T) (buildLoop W c f a es) (buildLoop W c f' b es) (buildLoop W c f'' d es)
  | [], _, _, _, _, h => h
  | e :: es, a, b, d, hf, h => by
    have ih := fun {a b d : Arr (Option R)} => buildLoop_rel hn hT W c es (a := a) (b := b) (d := d)
      (fun x hx => hf x (List.mem_cons_of_mem _ hx))
    simp only [buildLoop]
    cases Where.equationMask W c.foreach c.top e.wheres with
    | error x => exact ⟨rfl, rfl⟩
    | ok o =>
      cases o with
      | none => exact ih h
      | some m =>
        simp only [overlaps_same W.coords m h.1 (fun x => (hT _ _ _ (h.2.2 x)).1),
          overlaps_same W.coords m h.2.1 (fun x => (hT _ _ _ (h.2.2 x)).2)]
        cases overlaps W.coords a m with
        | true => exact ⟨rfl, rfl⟩
        | false =>
          simp only [Bool.false_eq_true, if_false]
          rcases (hf e List.mem_cons_self m).cases with ⟨y, e1, e2, e3⟩ | ⟨a', b', d', e1, e2, e3, h'⟩
          · simp only [e1, e2, e3]; exact ⟨rfl, rfl⟩
          · simp only [e1, e2, e3]
            refine ih (h.zip' h' ?_)
            intro x y z x' y' z' hx hx'
            obtain ⟨hy, hz⟩ := hT x y z hx
            cases x with
            | none =>
              cases y with
              | some _ => simp at hy
              | none => cases z with
                | some _ => simp at hz
                | none => exact hx'
            | some _ =>
              cases y with
              | none => simp at hy
              | some _ => cases z with
                | none => simp at hz
                | some _ => exact hx

omit [Field V] in
theorem build_rel {R : Type} {T : Option R → Option R → Option R → Prop} (hn : T none none none)
    (hT : ∀ x y z, T x y z → y.isSome = x.isSome ∧ z.isSome = x.isSome) (W : Where.Env) (enum : List String → List String)
    (c : Component V) {f f' f'' : Equation V Cond → Arr Bool → Except Err (Arr (Option R))}
    (hf : ∀ e, Among c e → ∀ m, Triple (Items T) (f e m) (f' e m) (f'' e m)) :
    Triple (Items T) (build W enum c f) (build W enum c f') (build W enum c f'') := by
  simp only [build]
  cases Where.topLevel W c.foreach c.top with
  | error x => exact ⟨rfl, rfl⟩
  | ok m =>
    simp only
    cases anyCell W.coords m with
    | false => exact ⟨rfl, rfl, fun _ => hn⟩
    | true =>
      simp only [if_true]
      cases hp : parseEquations enum c.defn with
      | error x => exact ⟨rfl, rfl⟩
      | ok es => exact buildLoop_rel hn hT W c es (fun e he m => hf e (among hp he) m) ⟨rfl, rfl, fun _ => hn⟩

/-! ### Problems -/

/-- States that differ in the values of arrays that depend on decisions. -/
structure States (t u : V) (depends : String → Bool) (s s' s'' : State V) : Prop where
  W : s'.W = s.W ∧ s''.W = s.W
  E : Envs t u depends s.E s'.E s''.E

variable {s s' s'' : State V} {g g' : Given V} {M : Math V}

theorem states_put (h : States t u depends s s' s'') {n : String} {a b c : Arr (Option V)}
    (hr : Items (Rel t u (if depends n then .linear else .fixed)) a b c) (d : Option V) :
    States t u depends (s.put n a d) (s'.put n b d) (s''.put n c d) := by
  obtain ⟨h1, h2⟩ := items_isSome (T := Rel t u (if depends n then .linear else .fixed)) (fun _ _ _ hx => hx.some) hr
  refine ⟨⟨?_, ?_⟩, ?_⟩
  · simp only [State.put, h.W.1, h1]
  · simp only [State.put, h.W.2, h2]
  · refine ⟨h.E.coords, h.E.isDim, h.E.lookup, h.E.carrier, h.E.period, h.E.op, h.E.neg, h.E.truthy, ?_⟩
    intro m
    simp only [State.put]
    by_cases hm : m = n
    · subst hm
      simp only [if_true]
      exact .inr ⟨a, b, c, d, rfl, rfl, rfl, hr⟩
    · simp only [hm, if_false]
      exact h.E.comp m

theorem plain_put (h : Plain s.E) (n : String) (a : Arr (Option V)) (d : Option V) : Plain (s.put n a d).E :=
  ⟨h.plus, h.minus, h.times, h.div, h.divZero, h.left, h.right, h.neg, h.negNone⟩

omit [Field V] in
theorem boundArr_fixed {t u : V} [Field V] (h : Envs t u depends E E' E'') {b : Bound V}
    (hb : ∀ n ∈ BoundNames b, depends n = false) : boundArr E' b = boundArr E b ∧ boundArr E'' b = boundArr E b := by
  cases b with
  | num v => exact ⟨rfl, rfl⟩
  | unbounded => exact ⟨rfl, rfl⟩
  | input n =>
    have hn := hb n (by simp [BoundNames])
    rcases h.comp n with ⟨e1, e2, e3⟩ | ⟨a, b, c, d, e1, e2, e3, hr⟩
    · simp only [boundArr, e1, e2, e3, and_self]
    · rw [hn] at hr
      obtain ⟨rfl, rfl⟩ := items_fixed hr
      simp only [boundArr, e1, e2, e3, and_self]

theorem buildVariable_same (h : States t u depends s s' s'') {v : Variable V}
    (hb : ∀ n ∈ BoundNames v.lower ++ BoundNames v.upper, depends n = false) :
    buildVariable s'.W s'.E v = buildVariable s.W s.E v ∧ buildVariable s''.W s''.E v = buildVariable s.W s.E v := by
  obtain ⟨l1, l2⟩ := boundArr_fixed h.E (b := v.lower) fun n hn => hb n (List.mem_append_left _ hn)
  obtain ⟨u1, u2⟩ := boundArr_fixed h.E (b := v.upper) fun n hn => hb n (List.mem_append_right _ hn)
  simp only [buildVariable, h.W.1, h.W.2, l1, l2, u1, u2, and_self]

theorem addVariable_rel (h : States t u depends s s' s'') (hg : SamePlace g g') {v : Variable V}
    (hv : depends v.name = true ∧ ∀ n ∈ BoundNames v.lower ++ BoundNames v.upper, depends n = false) :
    Triple (States t u depends) (addVariable g s v) (addVariable g' s' v) (addVariable (mixed t u g g') s'' v) := by
  obtain ⟨h1, h2⟩ := buildVariable_same h hv.2
  simp only [addVariable, h1, h2, hg.default, mixed]
  cases buildVariable s.W s.E v with
  | error x => exact ⟨rfl, rfl⟩
  | ok b =>
    refine states_put h ?_ _
    rw [hv.1]
    refine ⟨rfl, rfl, fun x => ?_⟩
    simp only [valued]
    cases b.val x with
    | none => exact .missing
    | some l => exact .present _ _

theorem addVariable_plain (hE : Plain s.E) {v : Variable V} {s1 : State V} (h : addVariable g s v = .ok s1) :
    Plain s1.E := by
  simp only [addVariable] at h
  split at h
  · cases h
  · cases h
    exact plain_put hE _ _ _

theorem addGlobal_plain (hE : Plain s.E) {c : Component V} {s1 : State V} (h : addGlobal g s c = .ok s1) : Plain s1.E := by
  simp only [addGlobal] at h
  split at h
  · cases h
  · cases h
    exact plain_put hE _ _ _

theorem buildExpression_rel (ht : t + u = 1) (h : States t u depends s s' s'') (hE : Plain s.E)
    (enum : List String → List String) {c : Component V} {k : Kind} (hk : componentKind depends c = some k) :
    Triple (Items (Rel t u k)) (buildExpression s.W s.E enum c) (buildExpression s'.W s'.E enum c)
      (buildExpression s''.W s''.E enum c) := by
  simp only [buildExpression, h.W.1, h.W.2]
  exact build_rel (rel_none k) (fun _ _ _ hx => hx.some) s.W enum c fun e he m => setExpression_rel ht h.E hE hk he m

theorem buildConstraint_rel (ht : t + u = 1) (h : States t u depends s s' s'') (hE : Plain s.E)
    (enum : List String → List String) {c : Component V} (hk : componentKind depends c ≠ none) :
    Triple (Items (CellMixture t u)) (buildConstraint s.W s.E enum c) (buildConstraint s'.W s'.E enum c)
      (buildConstraint s''.W s''.E enum c) := by
  simp only [buildConstraint, h.W.1, h.W.2]
  exact build_rel .missing (fun _ _ _ hx => hx.some) s.W enum c fun e he m => setConstraint_rel ht h.E hE hk he m

theorem addGlobal_rel (ht : t + u = 1) (h : States t u depends s s' s'') (hE : Plain s.E) (hg : SamePlace g g')
    {c : Component V} (hc : componentKind depends c = some .fixed ∨
      componentKind depends c = some .linear ∧ depends c.defn.name = true) :
    Triple (States t u depends) (addGlobal g s c) (addGlobal g' s' c) (addGlobal (mixed t u g g') s'' c) := by
  have hr : Triple (Items (Rel t u (if depends c.defn.name then .linear else .fixed))) (buildExpression s.W s.E g.enum c)
      (buildExpression s'.W s'.E g.enum c) (buildExpression s''.W s''.E g.enum c) := by
    rcases hc with hc | ⟨hc, hd⟩
    · exact triple_weaken ht (fun _ => rfl) (buildExpression_rel ht h hE g.enum hc)
    · rw [hd]
      exact buildExpression_rel ht h hE g.enum hc
  simp only [addGlobal, hg.default, hg.enum, mixed]
  rcases hr.cases with ⟨y, e1, e2, e3⟩ | ⟨a, b, d, e1, e2, e3, hr⟩
  · simp only [e1, e2, e3]; exact ⟨rfl, rfl⟩
  · simp only [e1, e2, e3]
    exact states_put h hr _

theorem addAll_rel {α : Type} {add add' add'' : State V → α → Except Err (State V)}
    (hp : ∀ a {x y : State V}, Plain x.E → add x a = .ok y → Plain y.E) :
    ∀ (l : List α) {s s' s'' : State V}, States t u depends s s' s'' → Plain s.E →
    (∀ a ∈ l, ∀ {x x' x'' : State V}, States t u depends x x' x'' → Plain x.E →
      Triple (States t u depends) (add x a) (add' x' a) (add'' x'' a)) →
    Triple (fun x x' x'' => States t u depends x x' x'' ∧ Plain x.E) (addAll add s l) (addAll add' s' l) (addAll add'' s'' l)
  | [], _, _, _, h, hE, _ => ⟨h, hE⟩
  | a :: l, s, s', s'', h, hE, hf => by
    simp only [addAll]
    rcases (hf a List.mem_cons_self h hE).cases with ⟨y, e1, e2, e3⟩ | ⟨x, x', x'', e1, e2, e3, hr⟩
    · simp only [e1, e2, e3]; exact ⟨rfl, rfl⟩
    · simp only [e1, e2, e3]
      exact addAll_rel hp l hr (hp a hE e1) fun b hb => hf b (List.mem_cons_of_mem _ hb)

/-- Lists with as many items, item by item. -/
def Along {β : Type} (T : β → β → β → Prop) (l l' l'' : List β) : Prop :=
  l'.length = l.length ∧ l''.length = l.length ∧ ∀ (i : Nat) (a b c : β), l[i]? = some a → l'[i]? = some b → l''[i]? = some c →
    T a b c

omit [Field V] in
theorem keepAll_rel {α β : Type} {T : β → β → β → Prop} {f f' f'' : α → Except Err β} : ∀ (l : List α),
    (∀ a ∈ l, Triple T (f a) (f' a) (f'' a)) → Triple (Along T) (keepAll f l) (keepAll f' l) (keepAll f'' l)
  | [], _ => ⟨rfl, rfl, by simp⟩
  | a :: l, h => by
    simp only [keepAll]
    rcases (h a List.mem_cons_self).cases with ⟨y, e1, e2, e3⟩ | ⟨x, x', x'', e1, e2, e3, hr⟩
    · simp only [e1, e2, e3]; exact ⟨rfl, rfl⟩
    · simp only [e1, e2, e3]
      rcases (keepAll_rel l fun b hb => h b (List.mem_cons_of_mem _ hb)).cases with
        ⟨y, e1, e2, e3⟩ | ⟨z, z', z'', e1, e2, e3, h1, h2, h3⟩
      · simp only [e1, e2, e3]; exact ⟨rfl, rfl⟩
      · simp only [e1, e2, e3]
        refine ⟨by simp [h1], by simp [h2], ?_⟩
        intro i p q r hp hq hr'
        cases i with
        | zero =>
          simp only [List.getElem?_cons_zero, Option.some.injEq] at hp hq hr'
          exact hp ▸ hq ▸ hr' ▸ hr
        | succ i => exact h3 i p q r (by simpa using hp) (by simpa using hq) (by simpa using hr')

theorem states_same (ht : t + u = 1) (s : State V) : States t u depends s s s := by
  refine ⟨⟨rfl, rfl⟩, ⟨rfl, rfl⟩, ⟨rfl, rfl⟩, ⟨rfl, rfl⟩, ⟨rfl, rfl⟩, ⟨rfl, rfl⟩, ⟨rfl, rfl⟩, ⟨rfl, rfl⟩, ⟨rfl, rfl⟩, ?_⟩
  intro n
  cases h : s.E.comp n with
  | none => exact .inl ⟨rfl, rfl, rfl⟩
  | some c => exact .inr ⟨c.arr, c.arr, c.arr, c.default, rfl, rfl, rfl, items_same (fun x => rel_same ht _ x) _⟩

theorem assemble_rel (ht : t + u = 1) (hM : LinearIn depends M) (hE : Plain s.E) (hg : SamePlace g g') :
    Triple (fun P P' P'' => Along (Items (CellMixture t u)) P.constraints P'.constraints P''.constraints ∧
      Along (Items (Mixture t u)) P.objectives P'.objectives P''.objectives)
      (assemble g M s) (assemble g' M s) (assemble (mixed t u g g') M s) := by
  have hm : (mixed t u g g').enum = g.enum := rfl
  simp only [assemble, hg.enum, hm]
  rcases (addAll_rel (add := addVariable g) (add' := addVariable g') (add'' := addVariable (mixed t u g g'))
    (fun a _ _ hx hy => addVariable_plain hx hy) M.vars (states_same (depends := depends) ht s) hE
    fun v hv _ _ _ hs _ => addVariable_rel hs hg (hM.vars v hv)).cases with
      ⟨y, e1, e2, e3⟩ | ⟨a, a', a'', e1, e2, e3, h1, p1⟩
  · simp only [e1, e2, e3]; exact ⟨rfl, rfl⟩
  simp only [e1, e2, e3]
  rcases (addAll_rel (add := addGlobal g) (add' := addGlobal g') (add'' := addGlobal (mixed t u g g'))
    (fun a _ _ hx hy => addGlobal_plain hx hy) M.globals h1 p1
    fun c hc _ _ _ hs hp => addGlobal_rel ht hs hp hg (hM.globals c hc)).cases with
      ⟨y, e1, e2, e3⟩ | ⟨b, b', b'', e1, e2, e3, h2, p2⟩
  · simp only [e1, e2, e3]; exact ⟨rfl, rfl⟩
  simp only [e1, e2, e3]
  rcases (keepAll_rel M.constraints fun c hc => buildConstraint_rel ht h2 p2 g.enum (hM.constraints c hc)).cases with
      ⟨y, e1, e2, e3⟩ | ⟨c, c', c'', e1, e2, e3, h3⟩
  · simp only [e1, e2, e3]; exact ⟨rfl, rfl⟩
  simp only [e1, e2, e3]
  have ho : ∀ c ∈ M.objectives, Triple (Items (Mixture t u)) (buildExpression b.W b.E g.enum c)
      (buildExpression b'.W b'.E g.enum c) (buildExpression b''.W b''.E g.enum c) := by
    intro c hc
    obtain ⟨k, hk⟩ := Option.ne_none_iff_exists'.1 (hM.objectives c hc)
    exact triple_weaken (k := .linear) ht (by simp) (buildExpression_rel ht h2 p2 g.enum hk)
  rcases (keepAll_rel M.objectives ho).cases with ⟨y, e1, e2, e3⟩ | ⟨d, d', d'', e1, e2, e3, h4⟩
  · simp only [e1, e2, e3]; exact ⟨rfl, rfl⟩
  simp only [e1, e2, e3]
  exact ⟨h3, h4⟩

end Linear
end Calliope
