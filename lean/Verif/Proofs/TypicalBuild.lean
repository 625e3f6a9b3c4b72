import Verif.Proofs.TypicalExpr

/-!
# Problems of typical steps
-/

namespace Calliope
namespace Typical

open Grid Expr Build BaseMath Assemble Expand Infix
open Rename (Same Good Covers Masks Mask Retold Limited condOk leafOk same_scalar topLevel_same equationMask_same
  evalLeaf_same foreachMask_same joinDims_sub addAll_same keepAll_same boundArr_dims)
open Units (Both Among among)

variable {V : Type} {T : Choice} {coords coords' : String → List Label}

/-! ### Components without items -/

section Nowhere

variable {W W' : Where.Env}

/-- Nothing is true. -/
def Never (coords : String → List Label) (a : Arr Bool) : Prop := ∀ ρ, Good coords a.dims ρ → a.at ρ = false

theorem never_cells {a : Arr Bool} (h : Never coords a) : anyCell coords a = false := by
  have hd : (Grid.reduce coords (fun l => l.any id) a.dims a).dims = [] := by
    simp [Grid.reduce, List.filter_eq_nil_iff]
  have e := at_reduce coords (fun l => l.any id) a.dims a (fun _ => "")
  simp only [Arr.at, hd, List.map_nil] at e
  rw [anyCell, e, Bool.eq_false_iff]
  intro ht
  simp only [List.any_map, List.any_eq_true, Function.comp, id] at ht
  obtain ⟨g, hg, ht⟩ := ht
  have := h _ fun d hd => mem_of_cells (ρ := fun _ => "") hg d (List.mem_filter.2 ⟨hd, by simpa using hd⟩)
  simp only [Arr.at] at this
  rw [this] at ht
  cases ht

/-- Conditions about variables and global expressions. -/
def about : Where.Leaf → Bool
  | .result _ | .anyResult _ _ => true
  | _ => false

/-- What is true nowhere. -/
structure Nones (T : Choice) (W : Where.Env) : Prop where
  never : ∀ l ∈ T.never, about l = false → ∀ a, Where.evalLeaf W l = .ok a → Never W.coords a
  gone : ∀ n ∈ T.gone, ∀ a, W.result n = some a → ∀ ρ, a.at ρ = false

theorem never_op {o : Where.Op} {b c : Bool} (ho : nowhereOp o b c = true) {x y : Arr Bool} (hx : b = true → Never coords x)
    (hy : c = true → Never coords y) : Never coords (zip (Where.operate o) x y) := by
  intro ρ hρ
  have gx : Good coords x.dims ρ := fun d hd => hρ d (mem_joinDims.2 (.inl hd))
  have gy : Good coords y.dims ρ := fun d hd => hρ d (mem_joinDims.2 (.inr hd))
  rw [at_zip]
  cases o with
  | not => simp [nowhereOp] at ho
  | and =>
    simp only [nowhereOp, Bool.or_eq_true] at ho
    rcases ho with h | h
    · simp [Where.operate, hx h ρ gx]
    · simp [Where.operate, hy h ρ gy]
  | or =>
    simp only [nowhereOp, Bool.and_eq_true] at ho
    simp [Where.operate, hx ho.1 ρ gx, hy ho.2 ρ gy]

mutual
theorem evalTree_never (h : Nones T W) : ∀ (t : Tree Where.Op Where.Leaf) {a : Arr Bool}, nowhere T t = true →
    Where.evalTree W t = .ok a → Never W.coords a
  | .atom l, a, hn, ha => by
    simp only [Where.evalTree] at ha
    cases l with
    | result n =>
      simp only [nowhere, List.contains_eq_mem, decide_eq_true_eq] at hn
      simp only [Where.evalLeaf] at ha
      split at ha
      · rename_i x hx
        cases ha
        exact fun ρ _ => h.gone n hn _ hx ρ
      · cases ha
    | anyResult => simp [nowhere] at hn
    | bool | input | cmp | isIn | anyInput | defined =>
      simp only [nowhere, List.contains_eq_mem, decide_eq_true_eq] at hn
      exact h.never _ hn rfl a ha
  | .pre o t, _, hn, _ => by simp [nowhere] at hn
  | .chain t r, a, hn, ha => by
    simp only [nowhere] at hn
    simp only [Where.evalTree] at ha
    split at ha
    · cases ha
    · rename_i x hx
      exact evalRest_never h r (fun hb => evalTree_never h t hb hx) hn ha
theorem evalRest_never (h : Nones T W) : ∀ (r : Rest Where.Op Where.Leaf) {b : Bool} {x a : Arr Bool},
    (b = true → Never W.coords x) → nowhereRest T b r = true → Where.evalRest W x r = .ok a → Never W.coords a
  | .one o t, b, x, a, hb, hn, ha => by
    simp only [nowhereRest] at hn
    simp only [Where.evalRest] at ha
    split at ha
    · cases ha
    · rename_i y hy
      cases ha
      exact never_op hn hb fun ht => evalTree_never h t ht hy
  | .more o t r, b, x, a, hb, hn, ha => by
    simp only [nowhereRest] at hn
    simp only [Where.evalRest] at ha
    split at ha
    · cases ha
    · rename_i y hy
      exact evalRest_never h r (fun hc => never_op hc hb fun ht => evalTree_never h t ht hy) hn ha
end

theorem pyIndex_end {l l' : List Label} (h : l = [] ↔ l' = []) {i : Int} (hi : i = 0 ∨ i = -1) :
    (Where.pyIndex l i).isSome = (Where.pyIndex l' i).isSome := by
  have key : ∀ l : List Label, (Where.pyIndex l i).isSome = decide (l ≠ []) := by
    intro l
    rcases hi with rfl | rfl
    · cases l <;> simp [Where.pyIndex]
    · rcases List.eq_nil_or_concat l with rfl | ⟨m, x, rfl⟩
      · simp [Where.pyIndex]
      · have h1 : ¬ (0 : Int) ≤ -1 := by omega
        have h2 : (0 : Int) ≤ ((m ++ [x]).length : Int) + -1 := by simp
        simp only [List.concat_eq_append, Where.pyIndex, if_neg h1, if_pos h2]
        have : (((m ++ [x]).length : Int) + -1).toNat = m.length := by simp
        rw [this]
        simp
  rw [key, key, decide_eq_decide, not_iff_not, h]

/-- Arrays of the same dimensions. -/
def Shape (a a' : Arr Bool) : Prop := a'.dims = a.dims

theorem cmp_eq (x y : Where.Val) : (Where.cmpVal .eq x y).isNone = false := by
  unfold Where.cmpVal
  cases x <;> cases y <;> simp only [Option.isNone_some] <;> split <;> rfl

theorem evalLeaf_alike (h : Masks T.names W W') (l : Where.Leaf) (hl : leafAlike T l = true) :
    Both Shape (Where.evalLeaf W l) (Where.evalLeaf W' l) := by
  have fine : leafOk T.names l = true → Both Shape (Where.evalLeaf W l) (Where.evalLeaf W' l) :=
    fun hk => (evalLeaf_same h l hk).mono fun a b hab => hab.1
  unfold leafAlike at hl
  split at hl
  · rename_i d d' i
    rw [Bool.or_eq_true] at hl
    rcases hl with hl | hl
    · exact fine hl
    · simp only [Bool.and_eq_true, Bool.or_eq_true, decide_eq_true_eq] at hl
      obtain ⟨⟨rfl, rfl⟩, hi⟩ := hl
      have hnil : W.coords "timesteps" = [] ↔ W'.coords "timesteps" = [] := by
        simp only [List.eq_nil_iff_forall_not_mem, h.labels.mem "timesteps"]
        exact ⟨fun h l' ⟨l, hl, _⟩ => h l hl, fun h l hl => h _ ⟨l, hl, rfl⟩⟩
      have hs := pyIndex_end hnil hi
      have hz : ∀ (c : String → List Label) (a b : Arr Where.Val),
          (cells c (zip (Where.cmpVal .eq) a b).dims).any (fun k => ((zip (Where.cmpVal .eq) a b).val k).isNone) = false := by
        intro c a b
        rw [List.any_eq_false]
        intro k _
        simp only [Grid.zip, cmp_eq, Bool.false_eq_true, not_false_eq_true]
      simp only [Where.evalLeaf, Where.evalLhs, Where.evalRhs, Where.valAt, h.dims, hz]
      rcases Bool.eq_false_or_eq_true (W.dims.contains "timesteps") with hd | hd
      · simp only [hd, if_true]
        cases e1 : Where.pyIndex (W.coords "timesteps") i with
        | none =>
          cases e2 : Where.pyIndex (W'.coords "timesteps") i with
          | none => exact rfl
          | some y => simp [e1, e2] at hs
        | some x =>
          cases e2 : Where.pyIndex (W'.coords "timesteps") i with
          | none => simp [e1, e2] at hs
          | some y => exact rfl
      · simp only [hd, Bool.false_eq_true, if_false]
        exact rfl
  · exact fine hl

mutual
theorem evalTree_alike (h : Masks T.names W W') : ∀ (t : Tree Where.Op Where.Leaf), alike T t = true →
    Both Shape (Where.evalTree W t) (Where.evalTree W' t)
  | .atom l, hn => by
    simp only [alike] at hn
    simp only [Where.evalTree]
    exact evalLeaf_alike h l hn
  | .pre o t, hn => by
    simp only [alike] at hn
    simp only [Where.evalTree]
    rcases (evalTree_alike h t hn).cases with ⟨e, e1, e2⟩ | ⟨a, a', e1, e2, ha⟩
    · simp only [e1, e2]; exact rfl
    · simp only [e1, e2]
      exact ha
  | .chain t r, hn => by
    simp only [alike, Bool.and_eq_true] at hn
    simp only [Where.evalTree]
    rcases (evalTree_alike h t hn.1).cases with ⟨e, e1, e2⟩ | ⟨a, a', e1, e2, ha⟩
    · simp only [e1, e2]; exact rfl
    · simp only [e1, e2]
      exact evalRest_alike h r ha hn.2
theorem evalRest_alike (h : Masks T.names W W') : ∀ (r : Rest Where.Op Where.Leaf) {a a' : Arr Bool}, Shape a a' →
    alikeRest T r = true → Both Shape (Where.evalRest W a r) (Where.evalRest W' a' r)
  | .one o t, a, a', ha, hn => by
    simp only [alikeRest] at hn
    simp only [Where.evalRest]
    rcases (evalTree_alike h t hn).cases with ⟨e, e1, e2⟩ | ⟨b, b', e1, e2, hb⟩
    · simp only [e1, e2]; exact rfl
    · simp only [e1, e2]
      show joinDims a'.dims b'.dims = joinDims a.dims b.dims
      rw [ha, hb]
  | .more o t r, a, a', ha, hn => by
    simp only [alikeRest, Bool.and_eq_true] at hn
    simp only [Where.evalRest]
    rcases (evalTree_alike h t hn.1).cases with ⟨e, e1, e2⟩ | ⟨b, b', e1, e2, hb⟩
    · simp only [e1, e2]; exact rfl
    · simp only [e1, e2]
      refine evalRest_alike h r ?_ hn.2
      show joinDims a'.dims b'.dims = joinDims a.dims b.dims
      rw [ha, hb]
end

theorem topLevel_empty (h : Masks T.names W W') (h1 : Nones T W) (h2 : Nones T W') (sets : List String)
    {t : Tree Where.Op Where.Leaf} (hn : empty T t = true) :
    Both (fun m m' => anyCell W.coords m = false ∧ anyCell W'.coords m' = false) (Where.topLevel W sets t)
      (Where.topLevel W' sets t) := by
  simp only [empty, Bool.and_eq_true] at hn
  have hf := foreachMask_same h sets
  simp only [Where.topLevel, hf.anyCell h.labels]
  cases hc : anyCell W.coords (Where.foreachMask W sets) with
  | false => exact ⟨hc, by rw [hf.anyCell h.labels, hc]⟩
  | true =>
    simp only [if_true, Where.evalWheres]
    rcases (evalTree_alike h t hn.2).cases with ⟨e, e1, e2⟩ | ⟨a, a', e1, e2, ha⟩
    · simp only [e1, e2]; exact rfl
    · simp only [e1, e2]
      have never : ∀ {c : String → List Label} {f b : Arr Bool}, Never c b → anyCell c (zip (fun x y => x && y) f b) = false := by
        intro c f b hb
        refine never_cells fun ρ hρ => ?_
        rw [at_zip, hb ρ fun d hd => hρ d (mem_joinDims.2 (.inr hd)), Bool.and_false]
      have n1 := never (f := Where.foreachMask W sets) (evalTree_never h1 t hn.1 e1)
      have n2 := never (f := Where.foreachMask W' sets) (evalTree_never h2 t hn.1 e2)
      rw [n1, n2]
      exact ⟨n1, n2⟩

end Nowhere

/-! ### Components -/

/-- The parts of an equation are those of single steps. -/
structure Fine (T : Choice) (k : Kind) (e : Equation V Cond) : Prop where
  kinds : ∃ kinds : String → Option Kind, bodyKind T kinds e.body = some k ∧
    ∀ n t j, e.subs.lookup n = some t → kinds n = some j → kind T (fun _ => none) t = some j
  wheres : ∀ t ∈ e.wheres, condOk T.names t = true

theorem allOf_mem {l : List (Option Kind)} {k : Kind} (h : allOf l = some k) {x : Option Kind} (hx : x ∈ l) : x = some k := by
  cases l with
  | nil => cases hx
  | cons y l =>
    simp only [allOf] at h
    split at h
    · rename_i ha
      simp only [List.all_eq_true, decide_eq_true_eq] at ha
      rcases List.mem_cons.1 hx with rfl | hx
      · exact h
      · rw [ha x hx, h]
    · cases h

theorem fine {k : Kind} {c : Component V} (hc : single T k c = true) {enum : List String → List String}
    {es : List (Equation V Cond)} (hp : parseEquations enum c.defn = .ok es) {e : Equation V Cond} (he : e ∈ es) :
    Fine T k e := by
  simp only [single, Bool.and_eq_true, List.all_eq_true, decide_eq_true_eq] at hc
  have ha := among hp he
  refine ⟨⟨subKind T c.defn.subs, ?_, fun n t j h hj => ?_⟩, fun t h => hc.1 t (ha.wheres t h)⟩
  · obtain ⟨w, hw, _⟩ := ha.body
    exact hc.2 _ hw
  · obtain ⟨l, w, hl, hm, _⟩ := ha.subs n t h
    refine allOf_mem hj (List.mem_map.2 ⟨(w, t), List.mem_flatMap.2 ⟨(n, l), ?_, hm⟩, rfl⟩)
    exact List.mem_filter.2 ⟨hl, by simp⟩

section Setters

variable [Field V] {w w' : Label → V} {E E' : Expr.Env V}

theorem setExpression_like (h : Envs T w w' coords coords' E E') {k : Kind} {e : Equation V Cond} (he : Fine T k e)
    {m m' : Arr Bool} (hm : Same T.names coords m m') (hn : m.dims.Nodup) :
    Both (fun a a' => Like T w w' coords coords' k a a' ∧ ∀ d ∈ a.dims, d ∈ m.dims) (setExpression E e m) (setExpression E' e m') := by
  obtain ⟨kinds, hb, hs⟩ := he.kinds
  simp only [setExpression]
  cases hx : e.body with
  | cmp _ _ _ => exact rfl
  | arith t =>
    rw [hx] at hb
    simp only [bodyKind] at hb
    simp only
    rcases (evalExpression_like h hs hm hn hb (slices := fun n => e.slices.lookup n)).cases with ⟨y, e1, e2⟩ | ⟨a, a', e1, e2, ha⟩
    · simp only [e1, e2]; exact rfl
    · simp only [e1, e2]
      refine ⟨like_mask h.labels ha hm hn, fun d hdd => ?_⟩
      rcases mem_joinDims.1 hdd with hdd | hdd
      · simp only [evalExpression] at e1
        split at e1
        · cases e1
        · split at e1
          · cases e1
          · rename_i hw
            cases e1
            simp only [checkWhere] at hw
            split at hw
            · rename_i hall
              simp only [List.all_eq_true, List.contains_eq_mem, decide_eq_true_eq] at hall
              exact hall d hdd
            · cases hw
      · exact hdd

theorem setConstraint_like (h : Envs T w w' coords coords' E E') {e : Equation V Cond} (he : Fine T .plain e)
    {m m' : Arr Bool} (hm : Same T.names coords m m') (hn : m.dims.Nodup) :
    Both (fun a a' => Same T.names coords a a' ∧ ∀ d ∈ a.dims, d ∈ m.dims) (setConstraint E e m) (setConstraint E' e m') := by
  obtain ⟨kinds, hb, hs⟩ := he.kinds
  simp only [setConstraint]
  cases hx : e.body with
  | arith _ => exact rfl
  | cmp l o r =>
    rw [hx] at hb
    simp only [bodyKind] at hb
    split at hb
    · rename_i hlr
      simp only
      rcases (evalComparison_like h hs hm hn hlr.1 hlr.2 (slices := fun n => e.slices.lookup n)).cases
        with ⟨y, e1, e2⟩ | ⟨a, a', e1, e2, ha⟩
      · simp only [e1, e2]; exact rfl
      · simp only [e1, e2]
        refine ⟨ha.map _, fun d hdd => ?_⟩
        have : a.dims = m.dims := by
          simp only [evalComparison] at e1
          split at e1
          · cases e1
          · split at e1
            · cases e1
            · split at e1
              · split at e1
                · cases e1
                  rfl
                · cases e1
              · cases e1
        rw [← this]
        exact hdd
    · cases hb

end Setters

/-- What a relation of arrays that are built has to keep. -/
structure Keeps {S : Type} (R : Rename.Renaming) (coords : String → List Label) (sets : List String)
    (Q : Arr (Option S) → Arr (Option S) → Prop) : Prop where
  start : Q ⟨sets, fun _ => none⟩ ⟨sets, fun _ => none⟩
  nothing : Q (scalar none) (scalar none)
  fill : ∀ {a a' b b'}, Q a a' → Q b b' → Q (fillna a b) (fillna a' b')
  present : ∀ {a a'}, Q a a' → Same R coords (map Option.isSome a) (map Option.isSome a')

variable {W W' : Where.Env}

theorem overlaps_like {S : Type} {R : Rename.Renaming} {Q : Arr (Option S) → Arr (Option S) → Prop} {sets : List String}
    (hQ : Keeps R coords sets Q) (hc : Covers R coords coords') {a a' : Arr (Option S)} (ha : Q a a') {m m' : Arr Bool}
    (hm : Same R coords m m') : overlaps coords' a' m' = overlaps coords a m := by
  have hz := (hQ.present ha).zip hm (fun x b => x && b)
  have hs : Same R coords (zip (fun v b => v.isSome && b) a m) (zip (fun v b => v.isSome && b) a' m') := by
    refine ⟨hz.1, fun ρ hρ => ?_⟩
    have := hz.2 ρ hρ
    simp only [at_zip, at_map] at this ⊢
    exact this
  exact hs.anyCell hc

theorem buildLoop_like {S : Type} {Q : Arr (Option S) → Arr (Option S) → Prop} {R : Rename.Renaming} (hW : Masks R W W')
    {c : Component V} (hQ : Keeps R W.coords c.foreach Q) (ht : condOk R c.top = true)
    {f f' : Equation V Cond → Arr Bool → Except Err (Arr (Option S))} : ∀ (es : List (Equation V Cond))
    {a a' : Arr (Option S)}, (∀ e ∈ es, ∀ t ∈ e.wheres, condOk R t = true) →
    (∀ e ∈ es, ∀ m m', Same R W.coords m m' → m.dims = c.foreach →
      Both (fun a a' => Q a a' ∧ ∀ d ∈ a.dims, d ∈ c.foreach) (f e m) (f' e m')) →
    Q a a' → a.dims = c.foreach →
    Both (fun a a' => Q a a' ∧ (a.dims = c.foreach ∨ a = scalar none)) (buildLoop W c f a es) (buildLoop W' c f' a' es)
  | [], _, _, _, _, ha, hd => ⟨ha, .inl hd⟩
  | e :: es, a, a', hw, hf, ha, hd => by
    have ih := fun {a a' : Arr (Option S)} => buildLoop_like hW hQ ht es (a := a) (a' := a')
      (fun x hx => hw x (List.mem_cons_of_mem _ hx)) (fun x hx => hf x (List.mem_cons_of_mem _ hx))
    simp only [buildLoop]
    rcases (equationMask_same hW c.foreach ht (hw e List.mem_cons_self)).cases with ⟨y, e1, e2⟩ | ⟨o, o', e1, e2, ho⟩
    · simp only [e1, e2]; exact rfl
    · simp only [e1, e2]
      cases ho with
      | none => exact ih ha hd
      | @some m m' hm =>
        have ho := overlaps_like hQ hW.labels ha hm.1
        simp only [ho]
        by_cases hq : overlaps W.coords a m = true
        · rw [if_pos hq, if_pos hq]
          exact rfl
        · rw [if_neg hq, if_neg hq]
          rcases (hf e List.mem_cons_self _ _ hm.1 hm.2).cases with ⟨y, e1, e2⟩ | ⟨b, b', e1, e2, hb⟩
          · simp only [e1, e2]; exact rfl
          · simp only [e1, e2]
            refine ih (hQ.fill ha hb.1) ?_
            show joinDims a.dims b.dims = c.foreach
            rw [joinDims_sub fun d hdd => hd ▸ hb.2 d hdd, hd]

theorem build_like {S : Type} {Q : Arr (Option S) → Arr (Option S) → Prop} (hW : Masks T.names W W') (h1 : Nones T W)
    (h2 : Nones T W') {k : Kind} {c : Component V} (hQ : Keeps T.names W.coords c.foreach Q) (hc : componentOk T k c = true)
    (enum : List String → List String) {f f' : Equation V Cond → Arr Bool → Except Err (Arr (Option S))}
    (hf : ∀ es, parseEquations enum c.defn = .ok es → ∀ e ∈ es, Fine T k e → ∀ m m', Same T.names W.coords m m' →
      m.dims = c.foreach → Both (fun a a' => Q a a' ∧ ∀ d ∈ a.dims, d ∈ c.foreach) (f e m) (f' e m')) :
    Both (fun a a' => Q a a' ∧ (a.dims = c.foreach ∨ a = scalar none) ∧ (empty T c.top = true → a = scalar none ∧ a' = scalar none))
      (build W enum c f) (build W' enum c f') := by
  simp only [build]
  cases he : empty T c.top with
  | true =>
    rcases (topLevel_empty hW h1 h2 c.foreach he).cases with ⟨y, e1, e2⟩ | ⟨m, m', e1, e2, hm⟩
    · simp only [e1, e2]; exact rfl
    · simp only [e1, e2, hm.1, hm.2, Bool.false_eq_true, if_false]
      exact ⟨hQ.nothing, .inr rfl, fun _ => ⟨rfl, rfl⟩⟩
  | false =>
    have hs : single T k c = true := by
      simp only [componentOk, he, Bool.or_false, Bool.and_eq_true] at hc
      exact hc.2
    have ht : condOk T.names c.top = true := by
      simp only [single, Bool.and_eq_true, List.all_eq_true] at hs
      exact hs.1 c.top (by simp [Units.conditions])
    rcases (topLevel_same hW c.foreach ht).cases with ⟨y, e1, e2⟩ | ⟨m, m', e1, e2, hm⟩
    · simp only [e1, e2]; exact rfl
    simp only [e1, e2, hm.1.anyCell hW.labels]
    split
    · cases he : parseEquations enum c.defn with
      | error x => exact rfl
      | ok es =>
        refine (buildLoop_like hW hQ ht es (fun e he' => (fine hs he he').wheres)
          (fun e he' => hf es he e he' (fine hs he he')) hQ.start rfl).mono fun a b h => ⟨h.1, h.2, fun h => by cases h⟩
    · exact ⟨hQ.nothing, .inr rfl, fun h => by cases h⟩

/-! ### Problems -/

section Problems

variable [Field V] {w w' : Label → V} {s s' : State V} {g g' : Given V} {M : Math V}

/-- States of all steps and of typical steps. -/
structure States (T : Choice) (w w' : Label → V) (coords coords' : String → List Label) (s s' : State V) : Prop where
  W : Masks T.names s.W s'.W
  E : Envs T w w' coords coords' s.E s'.E
  here : s.W.coords = coords
  there : s'.W.coords = coords'
  none : Nones T s.W
  none' : Nones T s'.W

theorem keeps_like (hl : Labels T w w' coords coords') (k : Kind) {sets : List String} (hn : sets.Nodup) :
    Keeps T.names coords sets (Like T w w' coords coords' k) where
  start := like_none k sets hn
  nothing := like_scalar_none k
  fill := by
    intro a a' b b' ha hb
    cases k with
    | plain => exact ⟨ha.1.zip hb.1 _, joinDims_nodup ha.2 hb.2⟩
    | scaled =>
      refine Scaled.zip ha hb (fun c x y => ?_) fun x y hx hy => ?_
      · cases x <;> cases y <;> rfl
      · rcases hx with rfl | rfl
        · exact hy
        · exact .inr rfl
  present := fun ha => ha.present hl

theorem keeps_same {S : Type} (R : Rename.Renaming) (coords : String → List Label) (sets : List String) :
    Keeps (S := S) R coords sets (Same R coords) where
  start := ⟨rfl, fun _ _ => rfl⟩
  nothing := same_scalar _
  fill := fun ha hb => ha.zip hb _
  present := fun ha => ha.map _

theorem fill_default {d : Option V} (hd : d = none ∨ d = some 0) : Through (fill d) := by
  rcases hd with rfl | rfl
  · refine ⟨fun c x => by cases x <;> rfl, fun x hx => ?_⟩
    rcases hx with rfl | rfl <;> simp [fill]
  · refine ⟨fun c x => by cases x <;> simp [fill], fun x hx => ?_⟩
    rcases hx with rfl | rfl <;> simp [fill]

theorem evalLhs_put (n : String) (a : Arr (Option V)) (d : Option V) :
    ∀ l : Where.Lhs, Where.evalLhs (s.put n a d).W l = Where.evalLhs s.W l
  | .op o l r => by
    simp only [Where.evalLhs, evalLhs_put n a d l, evalLhs_put n a d r]
    rfl
  | .num _ | .dim _ | .input _ | .config _ | .valAt _ _ | .result _ | .total _ _ => by
    simp only [Where.evalLhs] <;> rfl

theorem nones_put (h : Nones T s.W) (n : String) (a : Arr (Option V)) (d : Option V)
    (hn : n ∈ T.gone → ∀ ρ, (a.at ρ).isSome = false) : Nones T (s.put n a d).W := by
  refine ⟨fun l hl hr b hb => ?_, fun m hm b hb ρ => ?_⟩
  · have : Where.evalLeaf (s.put n a d).W l = Where.evalLeaf s.W l := by
      cases l with
      | result x => cases hr
      | anyResult x over => cases hr
      | cmp l o r =>
        simp only [Where.evalLeaf, evalLhs_put]
        cases r <;> rfl
      | _ => rfl
    rw [this] at hb
    exact h.never l hl hr b hb
  · simp only [State.put] at hb
    split at hb
    · rename_i e
      subst e
      cases hb
      rw [at_map]
      exact hn hm ρ
    · exact h.gone m hm b hb ρ

theorem states_put (h : States T w w' coords coords' s s') (n : String) {a a' : Arr (Option V)}
    (ha : Like T w w' coords coords' (kindOf T n) a a') {d : Option V}
    (hd : kindOf T n = .scaled → d = none ∨ d = some 0)
    (hn : n ∈ T.gone → (∀ ρ, (a.at ρ).isSome = false) ∧ ∀ ρ, (a'.at ρ).isSome = false) :
    States T w w' coords coords' (s.put n a d) (s'.put n a' d) := by
  refine ⟨⟨h.W.labels, h.W.dims, h.W.config, h.W.arith, h.W.matrix, h.W.kind, h.W.default, h.W.input, h.W.held, ?_,
    h.W.number, h.W.sums⟩, ⟨h.E.labels, h.E.here, h.E.there, h.E.isDim, h.E.op, h.E.neg, h.E.truthy,
    Linear.Plain.mk h.E.numbers.plus h.E.numbers.minus h.E.numbers.times h.E.numbers.div h.E.numbers.divZero
      h.E.numbers.left h.E.numbers.right h.E.numbers.neg h.E.numbers.negNone, h.E.carrier, ?_, ?_⟩,
    h.here, h.there, nones_put h.none n a d fun hm => (hn hm).1, nones_put h.none' n a' d fun hm => (hn hm).2⟩
  · intro m
    simp only [State.put]
    split
    · refine .some ?_
      rw [h.here]
      exact ha.present h.E.labels
    · exact h.W.result m
  · intro m hm
    simp only [State.put]
    split
    · rename_i e
      subst e
      rw [hm] at ha
      exact .some ⟨rfl, ha⟩
    · exact h.E.comp m hm
  · intro m hm
    simp only [State.put]
    split
    · rename_i e
      subst e
      rw [hm] at ha
      exact .some (Scaled.map ha (fill_default (hd hm)))
    · exact h.E.scaled m hm

theorem boundArr_like (h : States T w w' coords coords' s s') (b : Bound V) (hb : ∀ n ∈ BoundNames b, kindOf T n = .plain) :
    Both (Same T.names coords) (boundArr s.E b) (boundArr s'.E b) := by
  cases b with
  | num v => exact same_scalar _
  | unbounded => exact same_scalar _
  | input n =>
    have hc := h.E.comp n (hb n (by simp [BoundNames]))
    simp only [boundArr]
    generalize s.E.comp n = x at hc ⊢
    generalize s'.E.comp n = y at hc ⊢
    cases hc with
    | none => exact rfl
    | some hr =>
      simp only [hr.1]
      exact hr.2.1.map _

theorem buildVariable_of (hW : Masks T.names s.W s'.W) (h1 : Nones T s.W) (h2 : Nones T s'.W) (hb : Rename.Bounded M s)
    {v : Variable V} (hv : v ∈ M.vars) (hn : variableOk T v = true)
    (hbounds : ∀ b : Bound V, (∀ n ∈ BoundNames b, n ∈ BoundNames v.lower ++ BoundNames v.upper) →
      Both (Same T.names s.W.coords) (boundArr s.E b) (boundArr s'.E b)) :
    Both (fun b b' => Same T.names s.W.coords b b' ∧ (b.dims = v.foreach ∨ b = scalar none) ∧
        (v.name ∈ T.gone → b = scalar none ∧ b' = scalar none))
      (buildVariable s.W s.E v) (buildVariable s'.W s'.E v) := by
  simp only [variableOk, Bool.and_eq_true, decide_eq_true_eq, List.all_eq_true, Bool.or_eq_true, Bool.not_eq_true',
    List.contains_eq_mem, decide_eq_false_iff_not] at hn
  obtain ⟨⟨⟨hnd, hk⟩, hbn⟩, ht⟩ := hn
  simp only [buildVariable, variableMask]
  cases he : empty T v.top with
  | true =>
    rcases (topLevel_empty hW h1 h2 v.foreach he).cases with ⟨y, e1, e2⟩ | ⟨m, m', e1, e2, hm⟩
    · simp only [e1, e2]; exact rfl
    · simp only [e1, e2, hm.1, hm.2, Bool.false_eq_true, if_false]
      exact ⟨same_scalar _, .inr rfl, fun _ => ⟨rfl, rfl⟩⟩
  | false =>
    have ht : condOk T.names v.top = true ∧ v.name ∉ T.gone := by
      rcases ht with ht | ht
      · exact ht
      · rw [he] at ht
        cases ht
    rcases (topLevel_same hW v.foreach ht.1).cases with ⟨y, e1, e2⟩ | ⟨m, m', e1, e2, hm⟩
    · simp only [e1, e2]; exact rfl
    simp only [e1, e2, hm.1.anyCell hW.labels]
    cases hc : anyCell s.W.coords m with
    | false => exact ⟨same_scalar _, .inr rfl, fun hg => absurd hg ht.2⟩
    | true =>
      simp only [if_true]
      rcases (hbounds v.lower fun n hn => List.mem_append_left _ hn).cases with ⟨y, e1, e2⟩ | ⟨l, l', l1, l2, hl⟩
      · simp only [e1, e2]; exact rfl
      simp only [l1, l2]
      rcases (hbounds v.upper fun n hn => List.mem_append_right _ hn).cases with ⟨y, e1, e2⟩ | ⟨u, u', u1, u2, hu⟩
      · simp only [e1, e2]; exact rfl
      simp only [u1, u2]
      refine ⟨hm.1.zip (hl.zip hu _) _, .inl ?_, fun hg => absurd hg ht.2⟩
      show joinDims m.dims (joinDims l.dims u.dims) = v.foreach
      rw [hm.2 hc]
      refine joinDims_sub fun d hd => ?_
      rcases mem_joinDims.1 hd with hd | hd
      · exact boundArr_dims (fun n hn => hb v hv n (List.mem_append_left _ hn)) l1 d hd
      · exact boundArr_dims (fun n hn => hb v hv n (List.mem_append_right _ hn)) u1 d hd

theorem buildVariable_like (h : States T w w' coords coords' s s') (hb : Rename.Bounded M s) {v : Variable V} (hv : v ∈ M.vars)
    (hn : variableOk T v = true) :
    Both (fun b b' => Same T.names coords b b' ∧ (b.dims = v.foreach ∨ b = scalar none) ∧
        (v.name ∈ T.gone → b = scalar none ∧ b' = scalar none))
      (buildVariable s.W s.E v) (buildVariable s'.W s'.E v) := by
  have hbn : ∀ n ∈ BoundNames v.lower ++ BoundNames v.upper, kindOf T n = .plain := by
    have := hn
    simp only [variableOk, Bool.and_eq_true, decide_eq_true_eq, List.all_eq_true] at this
    exact this.1.2
  have := buildVariable_of h.W h.none h.none' hb hv hn fun b hb => by
    rw [h.here]
    exact boundArr_like h b fun n hn => hbn n (hb n hn)
  rwa [h.here] at this

theorem variable_nodup {v : Variable V} (hn : variableOk T v = true) : v.foreach.Nodup := by
  simp only [variableOk, Bool.and_eq_true, decide_eq_true_eq] at hn
  exact hn.1.1.1

theorem addVariable_like (h : States T w w' coords coords' s s') (hg : Retold T.names coords M g g') (hl : Limited M s)
    {v : Variable V} (hv : v ∈ M.vars) (hn : variableOk T v = true) :
    Both (fun x x' => States T w w' coords coords' x x' ∧ Limited M x) (addVariable g s v) (addVariable g' s' v) := by
  have hk : kindOf T v.name = .plain := by
    simp only [variableOk, Bool.and_eq_true, decide_eq_true_eq] at hn
    exact hn.1.1.2
  simp only [addVariable]
  rcases (buildVariable_like h (fun v hv n hn => (hl v hv n hn).2) hv hn).cases with ⟨y, e1, e2⟩ | ⟨b, b', e1, e2, hb⟩
  · simp only [e1, e2]; exact rfl
  simp only [e1, e2, hg.default]
  refine ⟨states_put h v.name ?_ (fun hs => by rw [hk] at hs; cases hs) ?_, ?_⟩
  · rw [hk]
    refine ⟨⟨hb.1.1, fun ρ hρ => ?_⟩, ?_⟩
    · have hr := hb.1.2 ρ hρ
      simp only [Arr.at, hb.1.1] at hr
      simp only [Arr.at, valued, hb.1.1, hr]
      rcases hb.2.1 with hd | hd
      · rw [hd, hg.x v hv ρ (hd ▸ hρ)]
      · rw [hd]
        rfl
    · show b.dims.Nodup
      rcases hb.2.1 with hd | hd
      · rw [hd]
        exact variable_nodup hn
      · rw [hd]
        exact List.nodup_nil
  · intro hm
    obtain ⟨rfl, rfl⟩ := hb.2.2 hm
    exact ⟨fun _ => rfl, fun _ => rfl⟩
  · intro u hu n hnn
    obtain ⟨h1, h2⟩ := hl u hu n hnn
    refine ⟨h1, fun c hc => h2 c ?_⟩
    simp only [State.put] at hc
    rwa [if_neg (Ne.symm (h1 v hv))] at hc

theorem component_nodup {k : Kind} {c : Component V} (hc : componentOk T k c = true) : c.foreach.Nodup := by
  simp only [componentOk, Bool.and_eq_true, decide_eq_true_eq] at hc
  exact hc.1

theorem buildExpression_like (h : States T w w' coords coords' s s') (enum : List String → List String) {k : Kind}
    {c : Component V} (hc : componentOk T k c = true) :
    Both (fun a a' => Like T w w' coords coords' k a a' ∧ (a.dims = c.foreach ∨ a = scalar none) ∧
        (empty T c.top = true → a = scalar none ∧ a' = scalar none))
      (buildExpression s.W s.E enum c) (buildExpression s'.W s'.E enum c) := by
  have hQ : Keeps T.names s.W.coords c.foreach (Like T w w' coords coords' k) := by
    rw [h.here]
    exact keeps_like h.E.labels k (component_nodup hc)
  refine build_like h.W h.none h.none' hQ hc enum fun _ _ e _ he m m' hm hd => ?_
  rw [h.here] at hm
  have := setExpression_like h.E he hm (hd ▸ component_nodup hc)
  rwa [hd] at this

theorem buildConstraint_like (h : States T w w' coords coords' s s') (enum : List String → List String)
    {c : Component V} (hc : componentOk T .plain c = true) :
    Both (fun a a' => Same T.names coords a a' ∧ a.dims.Nodup)
      (buildConstraint s.W s.E enum c) (buildConstraint s'.W s'.E enum c) := by
  have := build_like h.W h.none h.none' (keeps_same T.names s.W.coords c.foreach) hc enum
    (f := setConstraint s.E) (f' := setConstraint s'.E) fun _ _ e _ he m m' hm hd => by
      rw [h.here] at hm ⊢
      have := setConstraint_like h.E he hm (hd ▸ component_nodup hc)
      rwa [hd] at this
  rw [h.here] at this
  refine this.mono fun a a' h => ⟨h.1, ?_⟩
  rcases h.2.1 with h | h
  · rw [h]
    exact component_nodup hc
  · rw [h]
    exact List.nodup_nil

theorem kindOf_scaled {n : String} (h : kindOf T n = .scaled) : n ∈ T.scaled := by
  simp only [kindOf] at h
  split at h
  · rename_i hc
    simpa using hc
  · cases h

theorem addGlobal_like (h : States T w w' coords coords' s s') (hg : Retold T.names coords M g g') (h0 : NoOther T g)
    {c : Component V} (hc : componentOk T (kindOf T c.defn.name) c = true)
    (hn : c.defn.name ∈ T.gone → empty T c.top = true) :
    Both (States T w w' coords coords') (addGlobal g s c) (addGlobal g' s' c) := by
  simp only [addGlobal, hg.enum, hg.default]
  rcases (buildExpression_like h g.enum hc).cases with ⟨y, e1, e2⟩ | ⟨a, a', e1, e2, ha⟩
  · simp only [e1, e2]; exact rfl
  · simp only [e1, e2]
    refine states_put h _ ha.1 (fun hs => h0 _ (kindOf_scaled hs)) fun hm => ?_
    obtain ⟨rfl, rfl⟩ := ha.2.2 (hn hm)
    exact ⟨fun _ => rfl, fun _ => rfl⟩

theorem kindOf_plain {n : String} (h : kindOf T n = .plain) : n ∉ T.scaled := by
  simp only [kindOf] at h
  split at h
  · cases h
  · rename_i hc
    simpa using hc

theorem states_start (hs : Stands T w w' s s') : States T w w' s.W.coords s'.W.coords s s' := by
  have hl : Labels T w w' s.W.coords s'.W.coords := ⟨hs.kept, hs.steps, hs.once, hs.weight⟩
  refine ⟨⟨hl.covers, hs.dims, hs.config, hs.arith, hs.matrix, hs.kind, hs.default, fun n h _ => hs.input n h,
    fun n h => ⟨(hs.input n h).1, fun ρ hρ => ?_⟩, hs.result, hs.number, hs.sums⟩,
    ⟨hl, hs.ecoords.1, hs.ecoords.2, hs.isDim, hs.op, hs.neg, hs.truthy, hs.numbers, hs.carrier,
      fun n h => hs.comp n (kindOf_plain h), fun n h => ?_⟩, rfl, rfl,
    ⟨fun l hl _ => (hs.never l hl).1, fun n hn => (hs.gone n hn).1⟩, ⟨fun l hl _ => (hs.never l hl).2, fun n hn => (hs.gone n hn).2⟩⟩
  · rw [(hs.input n h).2 ρ hρ]
    exact .same _
  · by_cases hw : n = "timestep_weights"
    · subst hw
      obtain ⟨c, c', e1, e2, d1, d2, h1, h2⟩ := hs.weights
      rw [e1, e2]
      refine .some ⟨d2.trans d1.symm, by simp [Grid.map, d1], fun _ => some 1, fun ρ hρ => ?_, fun ρ hρ => ?_, .inl (by simp [Grid.map, d1])⟩
      · have hm : ρ "timesteps" ∈ s.W.coords "timesteps" := hρ "timesteps" (by simp [Grid.map, d1])
        rw [at_map]
        simp only [Arr.at, d1, List.map_cons, List.map_nil, h1 _ hm]
        simp [fill]
      · have hm : ρ "timesteps" ∈ s'.W.coords "timesteps" := hρ "timesteps" (by simp [Grid.map, d1])
        rw [at_map]
        simp only [Arr.at, d2, List.map_cons, List.map_nil, h2 _ hm]
        simp [fill]
    · obtain ⟨e1, e2⟩ := hs.others n (kindOf_scaled h) hw
      rw [e1, e2]
      exact .none

theorem assemble_like (hM : Single T M) (hs : Stands T w w' s s') (hl : Limited M s) (h0 : NoOther T g)
    (hg : Retold T.names s.W.coords M g g') :
    Both (Rename.Problems T.names s.W.coords) (assemble g M s) (assemble g' M s') := by
  simp only [assemble]
  rcases (addAll_same (T := fun x x' => States T w w' s.W.coords s'.W.coords x x' ∧ Limited M x) (add := addVariable g)
    (add' := addVariable g') M.vars ⟨states_start hs, hl⟩
    fun v hv x x' h => addVariable_like h.1 hg h.2 hv (hM.vars v hv)).cases
    with ⟨y, e1, e2⟩ | ⟨s1, s1', e1, e2, h1⟩
  · simp only [e1, e2]; exact rfl
  simp only [e1, e2]
  rcases (addAll_same (T := States T w w' s.W.coords s'.W.coords) (add := addGlobal g) (add' := addGlobal g') M.globals h1.1
    fun c hc x x' h => addGlobal_like h hg h0 (hM.globals c hc).1 (hM.globals c hc).2).cases with ⟨y, e1, e2⟩ | ⟨s2, s2', e1, e2, h2⟩
  · simp only [e1, e2]; exact rfl
  simp only [e1, e2, hg.enum]
  have hobj : ∀ c ∈ M.objectives, Both (fun a a' => Same T.names s.W.coords a a' ∧ a.dims = [])
      (buildExpression s2.W s2.E g.enum c) (buildExpression s2'.W s2'.E g.enum c) := by
    intro c hc
    refine (buildExpression_like h2 g.enum (hM.objectives c hc).1).mono fun a b h => ⟨h.1.1, ?_⟩
    rcases h.2.1 with h | h
    · rw [h, (hM.objectives c hc).2]
    · rw [h]
      rfl
  rcases (keepAll_same M.constraints fun c hc => buildConstraint_like h2 g.enum (hM.constraints c hc)).cases
    with ⟨y, e1, e2⟩ | ⟨cs, cs', e1, e2, h3⟩
  · simp only [e1, e2]; exact rfl
  simp only [e1, e2]
  rcases (keepAll_same M.objectives hobj).cases with ⟨y, e1, e2⟩ | ⟨os, os', e1, e2, h4⟩
  · simp only [e1, e2]; exact rfl
  simp only [e1, e2]
  exact ⟨h3, h4⟩

end Problems

end Typical
end Calliope
