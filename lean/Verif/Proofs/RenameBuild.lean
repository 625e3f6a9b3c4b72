import Verif.Proofs.Rename
import Verif.Proofs.MeasureBuild

/-!
# Conditions and problems under new names
-/

namespace Calliope
namespace Rename

open Grid Expr Build BaseMath Assemble Expand Infix
open Units (Both Among among)

variable {V : Type} {R : Renaming} {W W' : Where.Env}

/-! ### Conditions -/

/-- Conditions see the same model under new names. -/
structure Masks (R : Renaming) (W W' : Where.Env) : Prop where
  labels : Covers R W.coords W'.coords
  dims : W'.dims = W.dims
  config : W'.config = W.config
  arith : W'.arith = W.arith
  matrix : Same R W.coords W.matrix W'.matrix
  kind : ∀ n, n ∉ R.odd → (W'.input n).kind = (W.input n).kind
  default : ∀ n, n ∉ R.odd → (W'.input n).default = (W.input n).default
  input : ∀ n, n ∉ R.odd → n ∉ R.held → Same R W.coords (W.input n).arr (W'.input n).arr
  held : ∀ n, n ∉ R.odd → (W'.input n).arr.dims = (W.input n).arr.dims ∧
    ∀ ρ, (∀ d ∈ (W.input n).arr.dims, ρ d ∈ W.coords d) →
      NameOrSame ((W.input n).arr.at ρ) ((W'.input n).arr.at (R.move ρ))
  result : ∀ n, Option.Rel (Same R W.coords) (W.result n) (W'.result n)
  number : ∀ n, Option.Rel (Same R W.coords) (W.number n) (W'.number n)
  sums : ∀ n over, Option.Rel (Same R W.coords) (W.sums n over) (W'.sums n over)

theorem valAt_same (h : Masks R W W') {d : String} (hd : R.free d = false) (i : Int) :
    Both (Same R W.coords) (Where.valAt W d i) (Where.valAt W' d i) := by
  simp only [Where.valAt, h.dims, (h.labels.kept d hd).1]
  split
  · cases Where.pyIndex (W.coords d) i with
    | none => exact rfl
    | some l => exact same_scalar _
  · exact rfl

theorem dimArr_same (h : Masks R W W') {d : String} (hd : R.free d = false) :
    Same R W.coords (if W.dims.contains d then Where.dimArr d else scalar .nan)
      (if W'.dims.contains d then Where.dimArr d else scalar .nan) := by
  rw [h.dims]
  split
  · refine ⟨rfl, fun ρ _ => ?_⟩
    show Where.Val.str (R.move ρ d) = Where.Val.str (ρ d)
    rw [h.labels.move_kept hd]
  · exact same_scalar _

theorem rel_ok {α : Type} {T : α → α → Prop} {x y : Option α} (h : Option.Rel T x y) (e : Err) :
    Both T (match x with
      | some a => .ok a
      | none => .error e) (match y with
      | some a => .ok a
      | none => .error e) := by
  cases h with
  | none => exact rfl
  | some h => exact h

theorem evalLhs_same (h : Masks R W W') : ∀ (l : Where.Lhs), lhsOk R l = true →
    Both (Same R W.coords) (Where.evalLhs W l) (Where.evalLhs W' l)
  | .num _, _ => by
    simp only [Where.evalLhs]
    exact same_scalar _
  | .dim d, hn => by
    simp only [lhsOk, Bool.not_eq_true'] at hn
    simp only [Where.evalLhs]
    exact dimArr_same h hn
  | .input p, hn => by
    simp only [lhsOk, Bool.and_eq_true, Bool.not_eq_true', List.contains_eq_mem, decide_eq_false_iff_not] at hn
    simp only [Where.evalLhs, h.default p hn.2]
    exact (h.input p hn.2 hn.1).map _
  | .config o, _ => by
    simp only [Where.evalLhs, h.config]
    cases W.config o with
    | none => exact rfl
    | some v => exact same_scalar _
  | .valAt d i, hn => by
    simp only [lhsOk, Bool.not_eq_true'] at hn
    simp only [Where.evalLhs]
    exact valAt_same h hn i
  | .op o l r, hn => by
    simp only [lhsOk, Bool.and_eq_true] at hn
    simp only [Where.evalLhs, h.arith]
    rcases (evalLhs_same h l hn.1).cases with ⟨e, e1, e2⟩ | ⟨a, a', e1, e2, ha⟩
    · simp only [e1, e2]; exact rfl
    · simp only [e1, e2]
      rcases (evalLhs_same h r hn.2).cases with ⟨e, e1, e2⟩ | ⟨b, b', e1, e2, hb⟩
      · simp only [e1, e2]; exact rfl
      · simp only [e1, e2]
        exact ha.zip hb _
  | .result n, _ => by
    have hr := h.number n
    simp only [Where.evalLhs]
    generalize W.number n = x at hr ⊢
    generalize W'.number n = y at hr ⊢
    cases hr with
    | none => exact rfl
    | some hr => exact hr
  | .total n over, _ => by
    have hr := h.sums n over
    simp only [Where.evalLhs]
    generalize W.sums n over = x at hr ⊢
    generalize W'.sums n over = y at hr ⊢
    cases hr with
    | none => exact rfl
    | some hr => exact hr

theorem evalRhs_same (h : Masks R W W') (r : Where.Rhs) (hn : rhsOk R r = true) :
    Both (Same R W.coords) (Where.evalRhs W r) (Where.evalRhs W' r) := by
  cases r with
  | valAt d i =>
    simp only [rhsOk, Bool.not_eq_true'] at hn
    simp only [Where.evalRhs]
    exact valAt_same h hn i
  | _ =>
    simp only [Where.evalRhs]
    exact same_scalar _

theorem inputCond_same (h : Masks R W W') {p : String} (hp : p ∉ R.odd) :
    Same R W.coords (Where.inputCond (W.input p)) (Where.inputCond (W'.input p)) := by
  obtain ⟨h1, h2⟩ := h.held p hp
  refine ⟨h1, fun ρ hρ => ?_⟩
  simp only [Where.inputCond, at_map, h.kind p hp]
  have := h2 ρ hρ
  generalize (W.input p).arr.at ρ = x at this ⊢
  generalize (W'.input p).arr.at (R.move ρ) = y at this ⊢
  cases this with
  | same v => rfl
  | name a b => cases (W.input p).kind <;> simp [Where.given]

theorem howFn_mem (k : Where.How) (l l' : List Bool) (h : ∀ x, x ∈ l ↔ x ∈ l') : Where.howFn k l = Where.howFn k l' := by
  rw [Bool.eq_iff_iff]
  cases k <;> simp only [Where.howFn, List.any_eq_true, List.all_eq_true, h]

theorem same_any (h : Masks R W W') {a a' : Arr Bool} (ha : Same R W.coords a a') (over : List String) :
    Same R W.coords (reduce W.coords (Where.howFn .any) over a) (reduce W'.coords (Where.howFn .any) over a') :=
  ha.reduce_mem (howFn_mem .any) h.labels.mem (fun _ _ hl => hl) over

theorem zip_val {α β γ : Type} (f : α → β → γ) (a : Arr α) (b : Arr β) (c : List Label) :
    (zip f a b).val c = (zip f a b).at (override (fun _ => "") (zip f a b).dims c) := by
  rw [at_zip]
  rfl

theorem at_override {α : Type} (a : Arr α) (ρ σ : Point) {c : List Label} (h : c.length = a.dims.length) :
    a.at (override ρ a.dims c) = a.at (override σ a.dims c) := by
  refine at_congr a fun d hd => ?_
  obtain ⟨x, hx⟩ := lookup_zip_some d a.dims c hd h
  simp only [override, hx, Option.getD_some]

/-- Something about some item. -/
theorem cells_any {α β γ : Type} (h : Masks R W W') {a a' : Arr α} {b b' : Arr β} (ha : Same R W.coords a a')
    (hb : Same R W.coords b b') (f : α → β → γ) (p : γ → Bool) :
    (cells W'.coords (zip f a' b').dims).any (fun k => p ((zip f a' b').val k)) =
      (cells W.coords (zip f a b).dims).any (fun k => p ((zip f a b).val k)) := by
  have hz := ha.zip hb f
  rw [hz.1, Bool.eq_iff_iff]
  simp only [List.any_eq_true, cells_mem h.labels.mem (zip f a b).dims]
  constructor
  · rintro ⟨_, ⟨c, hc, rfl⟩, hp⟩
    refine ⟨c, hc, ?_⟩
    rw [zip_val, at_override _ _ (R.move fun _ => "") (by rw [hz.1]; simp [length_of_mem_cells hc]), hz.1] at hp
    rw [zip_val, ← hz.2 _ fun d hd => mem_of_cells hc d hd, ← move_override]
    exact hp
  · rintro ⟨c, hc, hp⟩
    refine ⟨_, ⟨c, hc, rfl⟩, ?_⟩
    rw [zip_val, ← hz.2 _ fun d hd => mem_of_cells hc d hd, ← move_override] at hp
    rw [zip_val, at_override _ _ (R.move fun _ => "") (by rw [hz.1]; simp [length_of_mem_cells hc]), hz.1]
    exact hp

theorem evalDefined_same (h : Masks R W W') {sel : List (String × List Label)} (hs : ∀ p ∈ sel, R.free p.1 = false)
    (within : String) (how : Where.How) :
    Both (Same R W.coords) (Where.evalDefined W sel within how) (Where.evalDefined W' sel within how) := by
  have hsel : sel.all (fun p => p.2.all ((W'.coords p.1).contains ·)) =
      sel.all (fun p => p.2.all ((W.coords p.1).contains ·)) := by
    rw [Bool.eq_iff_iff]
    simp only [List.all_eq_true]
    refine forall₂_congr fun p hp => ?_
    rw [(h.labels.kept p.1 (hs p hp)).1]
  simp only [Where.evalDefined, h.matrix.1, hsel]
  split
  · split
    · rename_i hin
      simp only [List.all_eq_true, List.contains_eq_mem, decide_eq_true_eq] at hin
      refine (same_any h h.matrix _).reduce_mem (howFn_mem how) (fun d => ?_) (fun d l hl => ?_) _
      · simp only [Where.restrict]
        cases hd : sel.lookup d with
        | none => exact h.labels.mem d
        | some ls =>
          have hf := hs _ (Expand.lookup_mem hd)
          intro l'
          simp only [Option.getD_some, (h.labels.kept d hf).2, exists_eq_right]
      · simp only [Where.restrict] at hl
        cases hd : sel.lookup d with
        | none =>
          rw [hd] at hl
          exact hl
        | some ls =>
          rw [hd] at hl
          exact hin _ (Expand.lookup_mem hd) l hl
    · exact rfl
  · exact rfl

theorem cmpVal_eq_some (x y : Where.Val) : (Where.cmpVal .eq x y).isNone = false := by
  unfold Where.cmpVal
  split
  · split
    · rfl
    · split <;> rfl
  · contradiction

/-- Whether it is the first, second, ... label of a dimension that keeps its order. -/
theorem dateCmp_same (h : Masks R W W') {d : String} (hd : R.dated d = true) (i : Int) :
    Both (Same R W.coords) (Where.evalLeaf W (.cmp (.dim d) .eq (.valAt d i)))
      (Where.evalLeaf W' (.cmp (.dim d) .eq (.valAt d i))) := by
  obtain ⟨k1, k2⟩ := h.labels.dated d hd
  have hi : Where.pyIndex (W'.coords d) i = (Where.pyIndex (W.coords d) i).map (R.of d) := by
    rw [k1]
    exact pyIndex_moved (R.of d) (W.coords d) i
  simp only [Where.evalLeaf, Where.evalLhs, Where.evalRhs, Where.valAt, h.dims, hi]
  by_cases hm : W.dims.contains d = true
  · simp only [hm, if_true]
    cases Where.pyIndex (W.coords d) i with
    | none => exact rfl
    | some l =>
      have no : ∀ (coords : String → List Label) (m : Label),
          ((cells coords (zip (Where.cmpVal .eq) (Where.dimArr d) (scalar (.str m))).dims).any fun k =>
            ((zip (Where.cmpVal .eq) (Where.dimArr d) (scalar (.str m))).val k).isNone) = false := by
        intro coords m
        rw [List.any_eq_false]
        intro k _
        rw [zip_val, at_zip, cmpVal_eq_some]
        exact Bool.false_ne_true
      simp only [Option.map_some, no, Bool.false_eq_true, if_false]
      refine ⟨rfl, fun ρ _ => ?_⟩
      simp only [at_map, at_zip]
      show (Where.cmpVal .eq (.str (R.move ρ d)) (.str (R.of d l))).getD false =
        (Where.cmpVal .eq (.str (ρ d)) (.str l)).getD false
      show decide (R.of d (ρ d) = R.of d l) = decide (ρ d = l)
      rw [decide_eq_decide]
      exact ⟨k2 _ _, fun e => by rw [e]⟩
  · simp only [hm]
    exact rfl

theorem evalLeaf_same (h : Masks R W W') (l : Where.Leaf) (hn : leafOk R l = true) :
    Both (Same R W.coords) (Where.evalLeaf W l) (Where.evalLeaf W' l) := by
  cases l with
  | bool b => exact same_scalar _
  | input p =>
    simp only [leafOk, Bool.not_eq_true', List.contains_eq_mem, decide_eq_false_iff_not] at hn
    exact inputCond_same h hn
  | result r =>
    have hr := h.result r
    simp only [Where.evalLeaf]
    generalize W.result r = x at hr ⊢
    generalize W'.result r = y at hr ⊢
    cases hr with
    | none => exact rfl
    | some hr => exact hr
  | cmp l o r =>
    by_cases hd : dateOk R l o r = true
    · cases l <;> cases o <;> cases r <;> simp only [dateOk, Bool.and_eq_true, decide_eq_true_eq, Bool.false_eq_true] at hd
      obtain ⟨rfl, hd⟩ := hd
      exact dateCmp_same h hd _
    simp only [leafOk, Bool.and_eq_true, Bool.or_eq_true, hd, Bool.false_eq_true, or_false] at hn
    simp only [Where.evalLeaf]
    rcases (evalLhs_same h l hn.1).cases with ⟨e, e1, e2⟩ | ⟨a, a', e1, e2, ha⟩
    · simp only [e1, e2]; exact rfl
    · simp only [e1, e2]
      rcases (evalRhs_same h r hn.2).cases with ⟨e, e1, e2⟩ | ⟨b, b', e1, e2, hb⟩
      · simp only [e1, e2]; exact rfl
      · simp only [e1, e2, cells_any h ha hb (Where.cmpVal o) Option.isNone]
        split
        · exact rfl
        · exact (ha.zip hb _).map _
  | isIn items d =>
    simp only [leafOk, Bool.not_eq_true'] at hn
    exact (dimArr_same h hn).map _
  | anyInput p over =>
    simp only [leafOk, Bool.not_eq_true', List.contains_eq_mem, decide_eq_false_iff_not] at hn
    exact same_any h (inputCond_same h hn) over
  | anyResult r over =>
    have hr := h.result r
    simp only [Where.evalLeaf]
    generalize W.result r = x at hr ⊢
    generalize W'.result r = y at hr ⊢
    cases hr with
    | none => exact rfl
    | some hr => exact same_any h hr over
  | defined sel within how =>
    simp only [leafOk, List.all_eq_true, Bool.not_eq_true'] at hn
    exact evalDefined_same h hn within how

mutual
theorem evalTree_same (h : Masks R W W') : ∀ (t : Tree Where.Op Where.Leaf), condOk R t = true →
    Both (Same R W.coords) (Where.evalTree W t) (Where.evalTree W' t)
  | .atom l, hn => by
    simp only [condOk] at hn
    simp only [Where.evalTree]
    exact evalLeaf_same h l hn
  | .pre o t, hn => by
    simp only [condOk] at hn
    simp only [Where.evalTree]
    rcases (evalTree_same h t hn).cases with ⟨e, e1, e2⟩ | ⟨a, a', e1, e2, ha⟩
    · simp only [e1, e2]; exact rfl
    · simp only [e1, e2]
      exact ha.map _
  | .chain t r, hn => by
    simp only [condOk, Bool.and_eq_true] at hn
    simp only [Where.evalTree]
    rcases (evalTree_same h t hn.1).cases with ⟨e, e1, e2⟩ | ⟨a, a', e1, e2, ha⟩
    · simp only [e1, e2]; exact rfl
    · simp only [e1, e2]
      exact evalTreeRest_same h r ha hn.2
theorem evalTreeRest_same (h : Masks R W W') : ∀ (r : Rest Where.Op Where.Leaf) {a a' : Arr Bool},
    Same R W.coords a a' → condRestOk R r = true → Both (Same R W.coords) (Where.evalRest W a r) (Where.evalRest W' a' r)
  | .one o t, _, _, ha, hn => by
    simp only [condRestOk] at hn
    simp only [Where.evalRest]
    rcases (evalTree_same h t hn).cases with ⟨e, e1, e2⟩ | ⟨b, b', e1, e2, hb⟩
    · simp only [e1, e2]; exact rfl
    · simp only [e1, e2]
      exact ha.zip hb _
  | .more o t r, _, _, ha, hn => by
    simp only [condRestOk, Bool.and_eq_true] at hn
    simp only [Where.evalRest]
    rcases (evalTree_same h t hn.1).cases with ⟨e, e1, e2⟩ | ⟨b, b', e1, e2, hb⟩
    · simp only [e1, e2]; exact rfl
    · simp only [e1, e2]
      exact evalTreeRest_same h r (ha.zip hb _) hn.2
end

theorem evalWheres_same (h : Masks R W W') : ∀ (ts : List (Tree Where.Op Where.Leaf)) {a a' : Arr Bool},
    Same R W.coords a a' → (∀ t ∈ ts, condOk R t = true) →
    Both (Same R W.coords) (Where.evalWheres W a ts) (Where.evalWheres W' a' ts)
  | [], _, _, ha, _ => ha
  | t :: ts, _, _, ha, hn => by
    simp only [Where.evalWheres]
    rcases (evalTree_same h t (hn t List.mem_cons_self)).cases with ⟨e, e1, e2⟩ | ⟨b, b', e1, e2, hb⟩
    · simp only [e1, e2]; exact rfl
    · simp only [e1, e2]
      exact evalWheres_same h ts (ha.zip hb _) (fun u hu => hn u (List.mem_cons_of_mem _ hu))

theorem foreachMask_same (h : Masks R W W') (sets : List String) :
    Same R W.coords (Where.foreachMask W sets) (Where.foreachMask W' sets) := by
  simp only [Where.foreachMask, h.dims, h.matrix.1]
  split
  · exact same_scalar _
  · suffices hf : ∀ (ds : List String) {a a' : Arr Bool}, Same R W.coords a a' →
        Same R W.coords (ds.foldl (fun a d => zip (fun x y => x && y) a ⟨[d], fun _ => true⟩) a)
          (ds.foldl (fun a d => zip (fun x y => x && y) a ⟨[d], fun _ => true⟩) a') from hf _ h.matrix
    intro ds
    induction ds with
    | nil => exact fun h => h
    | cons d ds ih => exact fun ha => ih (ha.zip (b := ⟨[d], fun _ => true⟩) (b' := ⟨[d], fun _ => true⟩)
        ⟨rfl, fun _ _ => rfl⟩ _)

theorem dropDims_same (h : Masks R W W') (sets : List String) {a a' : Arr Bool} (ha : Same R W.coords a a') :
    Both (Same R W.coords) (Where.dropDims W sets a) (Where.dropDims W' sets a') := by
  simp only [Where.dropDims, ha.1]
  have := (same_any h ha (a.dims.filter (fun d => !sets.contains d))).transpose sets
  generalize transpose sets (reduce W.coords (Where.howFn .any) (a.dims.filter (fun d => !sets.contains d)) a) = x at this ⊢
  generalize transpose sets (reduce W'.coords (Where.howFn .any) (a.dims.filter (fun d => !sets.contains d)) a') = y at this ⊢
  cases this with
  | none => exact rfl
  | some h => exact h

/-- A mask: of the dimensions of its component, if it has an item. -/
def Mask (R : Renaming) (coords : String → List Label) (sets : List String) (a a' : Arr Bool) : Prop :=
  Same R coords a a' ∧ (anyCell coords a = true → a.dims = sets)

theorem dropDims_dims {sets : List String} {a b : Arr Bool} (h : Where.dropDims W sets a = .ok b) : b.dims = sets := by
  simp only [Where.dropDims] at h
  split at h
  · rename_i c hc
    cases h
    simp only [Grid.transpose] at hc
    split at hc
    · cases hc
      rfl
    · cases hc
  · cases h

theorem topLevel_same (h : Masks R W W') (sets : List String) {t : Tree Where.Op Where.Leaf} (hn : condOk R t = true) :
    Both (Mask R W.coords sets) (Where.topLevel W sets t) (Where.topLevel W' sets t) := by
  have hf := foreachMask_same h sets
  simp only [Where.topLevel, hf.anyCell h.labels]
  cases hc : anyCell W.coords (Where.foreachMask W sets) with
  | false =>
    refine ⟨hf, fun he => ?_⟩
    rw [hc] at he
    cases he
  | true =>
    simp only [if_true]
    rcases (evalWheres_same h [t] hf (by simpa using hn)).cases with ⟨e, e1, e2⟩ | ⟨a, a', e1, e2, ha⟩
    · simp only [e1, e2]; exact rfl
    · simp only [e1, e2, ha.anyCell h.labels]
      cases hc : anyCell W.coords a with
      | false =>
        refine ⟨ha, fun he => ?_⟩
        rw [hc] at he
        cases he
      | true =>
        simp only [if_true]
        rcases (dropDims_same h sets ha).cases with ⟨e, e1, e2⟩ | ⟨b, b', e1, e2, hb⟩
        · simp only [e1, e2]; exact rfl
        · simp only [e1, e2]
          exact ⟨hb, fun _ => dropDims_dims e1⟩

theorem equationMask_same (h : Masks R W W') (sets : List String) {top : Tree Where.Op Where.Leaf}
    {ws : List (Tree Where.Op Where.Leaf)} (hn : condOk R top = true) (hw : ∀ t ∈ ws, condOk R t = true) :
    Both (Option.Rel (fun a a' => Same R W.coords a a' ∧ a.dims = sets)) (Where.equationMask W sets top ws)
      (Where.equationMask W' sets top ws) := by
  simp only [Where.equationMask]
  rcases (topLevel_same h sets hn).cases with ⟨e, e1, e2⟩ | ⟨t, t', e1, e2, ht⟩
  · simp only [e1, e2]; exact rfl
  simp only [e1, e2, ht.1.anyCell h.labels]
  split
  · rcases (evalWheres_same h ws ht.1 hw).cases with ⟨e, e1, e2⟩ | ⟨a, a', e1, e2, ha⟩
    · simp only [e1, e2]; exact rfl
    simp only [e1, e2, ha.anyCell h.labels]
    split
    · rcases (dropDims_same h sets ha).cases with ⟨e, e1, e2⟩ | ⟨b, b', e1, e2, hb⟩
      · simp only [e1, e2]; exact rfl
      · simp only [e1, e2]
        exact .some ⟨hb, dropDims_dims e1⟩
    · exact .none
  · exact .none

end Rename
end Calliope
