import Verif.Spec.Measure
import Verif.Proofs.Assemble

/-!
# Conditions in other units
-/

namespace Calliope
namespace Units

open Grid Build BaseMath Assemble Infix

variable {U : System} {W W' : Where.Env}

/-- Conditions see the same inputs in other units. -/
structure Masks (U : System) (W W' : Where.Env) : Prop where
  dims : W'.dims = W.dims
  coords : W'.coords = W.coords
  config : W'.config = W.config
  matrix : W'.matrix = W.matrix
  arith : W'.arith = W.arith
  result : W'.result = W.result
  number : W'.number = W.number
  sums : W'.sums = W.sums
  signs : ∀ n, SameSigns (W.input n) (W'.input n)
  plain : ∀ n, U.of n = .one → W'.input n = W.input n

/-! ### Values -/

theorem sameSign_nan {v v' : Where.Val} (h : SameSign v v') : v' = .nan ↔ v = .nan := by
  cases h <;> simp

theorem sameSign_given (k : Where.Kind) {v v' : Where.Val} (h : SameSign v v') : Where.given k v' = Where.given k v := by
  cases h with
  | same => rfl
  | number h1 h2 => cases k <;> simp [Where.given]

theorem sameSign_fill {d d' v v' : Where.Val} (h : SameSign v v') (hd : SameSign d d') :
    SameSign (Where.fillDefault d v) (Where.fillDefault d' v') := by
  simp only [Where.fillDefault, sameSign_nan h]
  split
  · exact hd
  · exact h

theorem cmp_zero (o : Where.CmpOp) {v v' : Where.Val} (h : SameSign v v') :
    Where.cmpVal o v' (.num 0) = Where.cmpVal o v (.num 0) := by
  cases h with
  | same => rfl
  | @number p q h1 h2 =>
    have h3 : q < 0 ↔ p < 0 := by
      rw [← not_iff_not, not_lt, not_lt, le_iff_lt_or_eq, le_iff_lt_or_eq, h2]
      constructor
      · rintro (h | h)
        · exact .inl h
        · exact .inr (h1.1 h.symm).symm
      · rintro (h | h)
        · exact .inl h
        · exact .inr (h1.2 h.symm).symm
    cases o <;> simp [Where.cmpVal, Where.Val.key, Where.Val.numeric, Where.keyLt, h1, h2, h3]

theorem cmp_inf (o : Where.CmpOp) {v v' : Where.Val} (h : SameSign v v') :
    Where.cmpVal o v' .posInf = Where.cmpVal o v .posInf := by
  cases h with
  | same => rfl
  | number h1 h2 => cases o <;> simp [Where.cmpVal, Where.Val.key, Where.Val.numeric, Where.keyLt]

/-! ### Conditions -/

theorem evalLhs_same (h : Masks U W W') : ∀ (l : Where.Lhs), plainLhs U l = true → Where.evalLhs W' l = Where.evalLhs W l
  | .num _, _ => by simp only [Where.evalLhs]
  | .dim d, _ => by simp only [Where.evalLhs, h.dims]
  | .input p, hn => by
    simp only [plainLhs, decide_eq_true_eq] at hn
    simp only [Where.evalLhs, h.plain p hn]
  | .config o, _ => by simp only [Where.evalLhs, h.config]
  | .valAt d i, _ => by simp only [Where.evalLhs, Where.valAt, h.dims, h.coords]
  | .op o l r, hn => by
    simp only [plainLhs, Bool.and_eq_true] at hn
    simp only [Where.evalLhs, evalLhs_same h l hn.1, evalLhs_same h r hn.2, h.arith]
  | .result n, _ => by simp only [Where.evalLhs, h.number]
  | .total n over, _ => by simp only [Where.evalLhs, h.sums]

theorem evalRhs_same (h : Masks U W W') (r : Where.Rhs) : Where.evalRhs W' r = Where.evalRhs W r := by
  cases r <;> simp only [Where.evalRhs, Where.valAt, h.dims, h.coords]

theorem inputCond_same (h : Masks U W W') (p : String) : Where.inputCond (W'.input p) = Where.inputCond (W.input p) := by
  have hs := h.signs p
  simp only [Where.inputCond, map, hs.kind, hs.dims, Arr.mk.injEq, true_and]
  exact funext fun c => sameSign_given _ (hs.val c)

theorem zip_same (h : Masks U W W') (p : String) (o : Where.CmpOp) (v : Where.Val)
    (hv : ∀ x y, SameSign x y → Where.cmpVal o y v = Where.cmpVal o x v) :
    zip (Where.cmpVal o) (map (Where.fillDefault (W'.input p).default) (W'.input p).arr) (scalar v) =
      zip (Where.cmpVal o) (map (Where.fillDefault (W.input p).default) (W.input p).arr) (scalar v) := by
  have hs := h.signs p
  simp only [zip, map, scalar, hs.dims, Arr.mk.injEq, true_and]
  exact funext fun c => hv _ _ (sameSign_fill (hs.val _) hs.default)

theorem evalLeaf_same (h : Masks U W W') (l : Where.Leaf) (hn : plainLeaf U l = true) :
    Where.evalLeaf W' l = Where.evalLeaf W l := by
  cases l with
  | bool b => rfl
  | input p => simp only [Where.evalLeaf, inputCond_same h]
  | result r => simp only [Where.evalLeaf, h.result]
  | cmp l o r =>
    simp only [plainLeaf, Bool.or_eq_true] at hn
    rcases hn with hn | hn
    · simp only [Where.evalLeaf, evalLhs_same h l hn, evalRhs_same h r, h.coords]
    · cases l with
      | input p =>
        cases r with
        | num q =>
          simp only [plainCmp, decide_eq_true_eq] at hn
          subst hn
          simp only [Where.evalLeaf, Where.evalLhs, Where.evalRhs, zip_same h p o (.num 0) fun _ _ hx => cmp_zero o hx,
            h.coords]
        | inf =>
          simp only [Where.evalLeaf, Where.evalLhs, Where.evalRhs, zip_same h p o .posInf fun _ _ hx => cmp_inf o hx,
            h.coords]
        | bool _ => simp [plainCmp] at hn
        | str _ => simp [plainCmp] at hn
        | valAt _ _ => simp [plainCmp] at hn
      | num _ => simp [plainCmp] at hn
      | dim _ => simp [plainCmp] at hn
      | config _ => simp [plainCmp] at hn
      | valAt _ _ => simp [plainCmp] at hn
      | op _ _ _ => simp [plainCmp] at hn
      | result _ => simp [plainCmp] at hn
      | total _ _ => simp [plainCmp] at hn
  | isIn items d => simp only [Where.evalLeaf, h.dims]
  | anyInput p over => simp only [Where.evalLeaf, inputCond_same h, h.coords]
  | anyResult r over => simp only [Where.evalLeaf, h.result, h.coords]
  | defined sel within how => simp only [Where.evalLeaf, Where.evalDefined, h.matrix, h.coords]

mutual
theorem evalTree_same (h : Masks U W W') : ∀ (t : Tree Where.Op Where.Leaf), plainCond U t = true →
    Where.evalTree W' t = Where.evalTree W t
  | .atom l, hn => by
    simp only [plainCond] at hn
    simp only [Where.evalTree, evalLeaf_same h l hn]
  | .pre o t, hn => by
    simp only [plainCond] at hn
    simp only [Where.evalTree, evalTree_same h t hn]
  | .chain t r, hn => by
    simp only [plainCond, Bool.and_eq_true] at hn
    simp only [Where.evalTree, evalTree_same h t hn.1]
    cases Where.evalTree W t with
    | error x => rfl
    | ok a => exact evalTreeRest_same h r a hn.2
theorem evalTreeRest_same (h : Masks U W W') : ∀ (r : Rest Where.Op Where.Leaf) (acc : Arr Bool),
    plainCondRest U r = true → Where.evalRest W' acc r = Where.evalRest W acc r
  | .one o t, acc, hn => by
    simp only [plainCondRest] at hn
    simp only [Where.evalRest, evalTree_same h t hn]
  | .more o t r, acc, hn => by
    simp only [plainCondRest, Bool.and_eq_true] at hn
    simp only [Where.evalRest, evalTree_same h t hn.1]
    cases Where.evalTree W t with
    | error x => rfl
    | ok a => exact evalTreeRest_same h r _ hn.2
end

theorem evalWheres_same (h : Masks U W W') : ∀ (ts : List (Tree Where.Op Where.Leaf)) (acc : Arr Bool),
    (∀ t ∈ ts, plainCond U t = true) → Where.evalWheres W' acc ts = Where.evalWheres W acc ts
  | [], _, _ => rfl
  | t :: ts, acc, hn => by
    simp only [Where.evalWheres, evalTree_same h t (hn t List.mem_cons_self)]
    cases Where.evalTree W t with
    | error x => rfl
    | ok a => exact evalWheres_same h ts _ (fun u hu => hn u (List.mem_cons_of_mem _ hu))

theorem topLevel_same (h : Masks U W W') (sets : List String) (t : Tree Where.Op Where.Leaf)
    (hn : plainCond U t = true) : Where.topLevel W' sets t = Where.topLevel W sets t := by
  have hf : Where.foreachMask W' sets = Where.foreachMask W sets := by
    simp only [Where.foreachMask, h.matrix, h.dims]
  have hw := evalWheres_same h [t] (Where.foreachMask W sets) (by simpa using hn)
  simp only [Where.topLevel, hf, hw, h.coords, Where.dropDims]

theorem equationMask_same (h : Masks U W W') (sets : List String) (top : Tree Where.Op Where.Leaf)
    (ws : List (Tree Where.Op Where.Leaf)) (hn : plainCond U top = true) (hw : ∀ t ∈ ws, plainCond U t = true) :
    Where.equationMask W' sets top ws = Where.equationMask W sets top ws := by
  simp only [Where.equationMask, topLevel_same h sets top hn, h.coords, Where.dropDims]
  cases Where.topLevel W sets top with
  | error x => rfl
  | ok t => simp only [evalWheres_same h ws t hw]

/-! ### Conditions that nothing meets -/

/-- What the system of units assumes of inputs and options. -/
structure Rules (U : System) (W : Where.Env) : Prop where
  absent : ∀ p ∈ U.absent, ∀ c, (W.input p.1).arr.val c ≠ .str p.2 ∧
    ((W.input p.1).arr.val c = .nan → (W.input p.1).default ≠ .str p.2)
  off : ∀ o ∈ U.off, W.config o = some (.bool false)

theorem anyCell_false (coords : String → List Label) {a : Arr Bool} (h : ∀ c, a.val c = false) :
    anyCell coords a = false := by
  simp only [anyCell, reduce, List.any_eq_false, List.mem_map]
  rintro b ⟨c, _, rfl⟩
  simp [h]

theorem cmp_text {v : Where.Val} {t : String} (h : v ≠ .str t) : Where.cmpVal .eq v (.str t) = some false := by
  cases v with
  | str s =>
    have : s ≠ t := fun e => h (by rw [e])
    simp [Where.cmpVal, this]
  | nan => simp [Where.cmpVal, Where.Val.key]
  | num q => simp [Where.cmpVal, Where.Val.key]
  | posInf => simp [Where.cmpVal, Where.Val.key]
  | negInf => simp [Where.cmpVal, Where.Val.key]
  | bool b => simp [Where.cmpVal, Where.Val.key]

theorem excluded_false (hR : Rules U W) {t : Cond} (ht : U.excluded t = true) {a : Arr Bool}
    (h : Where.evalTree W t = .ok a) : ∀ c, a.val c = false := by
  unfold System.excluded at ht
  split at ht
  · rename_i p t
    have hp := hR.absent (p, t) (by simpa using ht)
    simp only [Where.evalTree, Where.evalLeaf, Where.evalLhs, Where.evalRhs] at h
    split at h
    · cases h
    · cases h
      intro c
      simp only [map, zip, scalar]
      rw [cmp_text]
      · rfl
      · simp only [Where.fillDefault]
        split
        · rename_i e
          exact (hp _).2 e
        · exact (hp _).1
  · rename_i o
    have ho := hR.off o (by simpa using ht)
    simp only [Where.evalTree, Where.evalLeaf, Where.evalLhs, ho, Where.evalRhs] at h
    split at h
    · cases h
    · cases h
      intro c
      simp [map, zip, scalar, Where.cmpVal, Where.Val.key]
  · cases ht

theorem evalWheres_false : ∀ (ts : List Cond) {acc a : Arr Bool}, Where.evalWheres W acc ts = .ok a →
    (∀ c, acc.val c = false) → ∀ c, a.val c = false
  | [], acc, a, h, ha => by
    simp only [Where.evalWheres, Except.ok.injEq] at h
    exact h ▸ ha
  | t :: ts, acc, a, h, ha => by
    simp only [Where.evalWheres] at h
    split at h
    · cases h
    · exact evalWheres_false ts h fun c => by simp [zip, ha]

theorem evalWheres_excluded (hR : Rules U W) : ∀ (ts : List Cond) {acc a : Arr Bool}, Where.evalWheres W acc ts = .ok a →
    ∀ t ∈ ts, U.excluded t = true → ∀ c, a.val c = false
  | [], _, _, _, _, ht, _ => by simp at ht
  | t :: ts, acc, a, h, u, hu, hx => by
    simp only [Where.evalWheres] at h
    split at h
    · cases h
    · rename_i b hb
      rcases List.mem_cons.1 hu with rfl | hu
      · exact evalWheres_false ts h fun c => by simp [zip, excluded_false hR hx hb]
      · exact evalWheres_excluded hR ts h u hu hx

theorem equationMask_excluded (hR : Rules U W) {sets : List String} {top : Cond} {ws : List Cond} {m : Arr Bool}
    (h : Where.equationMask W sets top ws = .ok (some m)) : ∀ t ∈ ws, U.excluded t = false := by
  intro t ht
  by_contra hx
  rw [Bool.not_eq_false] at hx
  simp only [Where.equationMask] at h
  split at h
  · cases h
  · split at h
    · split at h
      · cases h
      · rename_i a ha
        rw [anyCell_false W.coords (evalWheres_excluded hR ws ha t ht hx)] at h
        simp at h
    · simp at h

theorem topLevel_excluded (hR : Rules U W) {sets : List String} {top : Cond} {m : Arr Bool} (ht : U.excluded top = true)
    (h : Where.topLevel W sets top = .ok m) : anyCell W.coords m = false := by
  simp only [Where.topLevel] at h
  split at h
  · split at h
    · cases h
    · rename_i a ha
      have hf := anyCell_false W.coords (evalWheres_excluded hR [top] ha top List.mem_cons_self ht)
      rw [hf] at h
      simp only [Bool.false_eq_true, if_false, Except.ok.injEq] at h
      exact h ▸ hf
  · rename_i hf
    cases h
    simpa using hf

end Units
end Calliope
