import Verif.Spec.LatexWhere
import Verif.Props.Where

/-!
# C106: documented conditions say where they hold
-/

namespace Calliope
namespace LatexWhere

open Grid (Label Arr)
open Where

section

variable {e : Env} {ρ : String → Label}

theorem lhs_value (l : Lhs) : (lhsTerm e l).value e ρ = lhsValue e ρ l := by
  induction l with
  | op o l r h1 h2 => simp only [lhsTerm, Term.value, lhsValue, h1, h2]
  | result n =>
    simp only [lhsTerm, Term.value, lhsValue, numberOf]
    cases e.number n <;> rfl
  | total n over =>
    simp only [lhsTerm, Term.value, lhsValue, numberOf]
    cases e.sums n over <;> rfl
  | valAt d i => rfl
  | _ => rfl

theorem rhs_value (r : Rhs) : (rhsTerm r).value e ρ = rhsValue e r := by
  cases r <;> rfl

theorem translate_holds (o : CmpOp) (a b : Where.Val) : (translate o).Holds a b ↔ Compares o a b := by
  cases o <;> exact Iff.rfl

theorem exist_given {i : Input} (hf : Finite i) {v : Where.Val} {c : List Label} (hv : v = i.arr.val c) :
    v ≠ .nan ↔ Given i.kind v := by
  subst hv
  simp only [Given, hf.1, false_and, ne_eq, not_false_eq_true, true_and, false_or]
  exact ⟨fun h => ⟨h, (hf.2 c).1, (hf.2 c).2⟩, fun h => h.1⟩

/-- Some label for each of the dimensions. -/
theorem along_more {over dims : List String} (hne : ∀ d ∈ over, e.coords d ≠ []) {σ : String → Label}
    (h : Grid.Along e.coords (dims.filter (fun d => over.contains d)) ρ σ) :
    ∃ τ, Grid.Along e.coords over ρ τ ∧ dims.map τ = dims.map σ := by
  classical
  refine ⟨fun d => if d ∈ dims then σ d else if d ∈ over then (e.coords d).headD "" else ρ d, ⟨?_, ?_⟩, ?_⟩
  · intro d hd
    by_cases hm : d ∈ dims
    · simp only [if_pos hm]
      exact h.1 d (by simp [hd])
    · simp only [if_neg hm, if_neg hd]
  · intro d hd
    by_cases hm : d ∈ dims
    · simp only [if_pos hm]
      exact h.2 d (by simp [hd, hm])
    · simp only [if_neg hm, if_pos hd]
      cases hc : e.coords d with
      | nil => exact absurd hc (hne d hd)
      | cons l r => simp
  · apply List.map_congr_left
    intro d hd
    simp only [if_pos hd]

theorem along_less {over dims : List String} {σ : String → Label} (h : Grid.Along e.coords over ρ σ) :
    ∃ τ, Grid.Along e.coords (dims.filter (fun d => over.contains d)) ρ τ ∧ dims.map τ = dims.map σ := by
  classical
  refine ⟨fun d => if d ∈ dims then σ d else ρ d, ⟨?_, ?_⟩, ?_⟩
  · intro d hd
    by_cases hm : d ∈ dims
    · simp only [if_pos hm]
      apply h.1
      intro ho
      exact hd (by simp [ho, hm])
    · simp only [if_neg hm]
  · intro d hd
    simp only [List.mem_filter, List.contains_iff_mem] at hd
    simp only [if_pos hd.1]
    exact h.2 d hd.2
  · apply List.map_congr_left
    intro d hd
    simp only [if_pos hd]

theorem vee_iff {over dims : List String} (hne : ∀ d ∈ over, e.coords d ≠ []) {P : List Label → Prop} :
    (∃ σ, Grid.Along e.coords over ρ σ ∧ P (dims.map σ)) ↔
      ∃ σ, Grid.Along e.coords (dims.filter (fun d => over.contains d)) ρ σ ∧ P (dims.map σ) := by
  constructor
  · rintro ⟨σ, h1, h2⟩
    obtain ⟨τ, h3, h4⟩ := along_less (dims := dims) h1
    exact ⟨τ, h3, h4 ▸ h2⟩
  · rintro ⟨σ, h1, h2⟩
    obtain ⟨τ, h3, h4⟩ := along_more hne h1
    exact ⟨τ, h3, h4 ▸ h2⟩

/-- The labels of one dimension that are defined in a label of another. -/
theorem defined_iff {d w : String} {vals : List Label} {v : Label} (hv : v ∈ vals) (hs : v ∈ e.coords d) (hdw : d ≠ w)
    (hρ : Valid e ρ) :
    DefinedIn e d v w (ρ w) ↔ ∃ τ, (∀ x, x ≠ d → τ x = ρ x) ∧ τ d = v ∧ ∃ σ, Grid.Along e.coords
      (e.matrix.dims.filter (fun x => !([w, d]).contains x)) τ σ ∧ e.matrix.at σ = true := by
  classical
  constructor
  · rintro ⟨σ, h1, h2, h3, h4⟩
    refine ⟨fun x => if x = d then v else ρ x, fun x hx => if_neg hx, if_pos rfl,
      fun x => if x ∈ e.matrix.dims then σ x else if x = d then v else ρ x, ⟨?_, ?_⟩, ?_⟩
    · intro x hx
      by_cases hm : x ∈ e.matrix.dims
      · simp only [if_pos hm]
        have : x = w ∨ x = d := by
          by_cases hw : x = w
          · exact .inl hw
          · exact .inr (by simpa [hm, hw] using hx)
        rcases this with rfl | rfl
        · rw [h2, if_neg (fun h => hdw h.symm)]
        · rw [h1, if_pos rfl]
      · simp only [if_neg hm]
    · intro x hx
      have hm : x ∈ e.matrix.dims := (List.mem_filter.1 hx).1
      simp only [if_pos hm]
      exact h3 x hm
    · rw [← h4]
      show e.matrix.val _ = e.matrix.val _
      congr 1
      apply List.map_congr_left
      intro x hx
      simp only [if_pos hx]
  · rintro ⟨τ, h1, h2, σ, ⟨h3, h4⟩, h5⟩
    have hd : σ d = v := by rw [h3 d (by simp), h2]
    have hw : σ w = ρ w := by rw [h3 w (by simp), h1 w (fun h => hdw h.symm)]
    refine ⟨σ, hd, hw, ?_, h5⟩
    intro x hx
    by_cases h : x = d
    · subst h; rw [hd]; exact hs
    · by_cases h' : x = w
      · subst h'; rw [hw]; exact hρ x
      · exact h4 x (by simp [hx, h, h'])

theorem defined_coords {sel : List (String × List Label)} {w : String} {how : How} {a : Arr Bool}
    (h : evalLeaf e (.defined sel w how) = .ok a) : ∀ p ∈ sel, ∀ v ∈ p.2, v ∈ e.coords p.1 := by
  simp only [evalLeaf, evalDefined] at h
  split at h
  · split at h
    · rename_i h1 h2
      intro p hp v hv
      simp only [List.all_eq_true, List.contains_iff_mem] at h2
      exact h2 p hp v hv
    · cases h
  · cases h

/-- C106 (partial): what is printed for an operand says of every item what holds for it. -/
theorem C106_operand_partial (l : Leaf) (hl : Plain e l) {a : Arr Bool} (h : evalLeaf e l = .ok a) (hρ : Valid e ρ) :
    (atom e l).Says e ρ ↔ a.at ρ = true := by
  have hT : a.at ρ = true ↔ LeafTruth e ρ l := by
    have := C40_pointwise e (.atom l) a (by simpa only [evalTree] using h) ρ
    simpa only [Truth] using this
  rw [hT]
  cases l with
  | bool b => exact Iff.rfl
  | input p =>
    simp only [atom, Atom.Says, LeafTruth]
    exact exist_given hl rfl
  | result r =>
    simp only [atom, Atom.Says, LeafTruth, resultSub]
    constructor
    · rintro ⟨a, h1, h2⟩
      rw [h1] at h2
      exact ⟨a, h1, h2⟩
    · rintro ⟨a, h1, h2⟩
      refine ⟨a, h1, ?_⟩
      rw [h1]; exact h2
  | cmp l o r =>
    simp only [atom, Atom.Says, LeafTruth, lhs_value, rhs_value]
    exact translate_holds o _ _
  | isIn items d => exact Iff.rfl
  | anyInput p over =>
    simp only [atom, Atom.Says, LeafTruth]
    rw [vee_iff (P := fun c => (e.input p).arr.val c ≠ .nan) hl.2]
    exact exists_congr fun σ => and_congr_right fun _ => exist_given hl.1 rfl
  | anyResult r over =>
    simp only [atom, Atom.Says, LeafTruth, resultSub]
    cases hr : e.result r with
    | none => simp
    | some b =>
      simp only [Option.some.injEq, exists_eq_left']
      exact vee_iff (P := fun c => b.val c = true) hl
  | defined sel w how =>
    obtain ⟨d, vals, rfl, hdw⟩ := hl
    have hc := defined_coords h
    have key : ∀ (τ : String → Label), Grid.Along (restrict [(d, vals)] e.coords) [d] ρ τ ↔
        (∀ x, x ≠ d → τ x = ρ x) ∧ τ d ∈ vals := by
      intro τ
      simp only [Grid.Along, List.mem_singleton, restrict]
      constructor
      · rintro ⟨h1, h2⟩
        refine ⟨h1, ?_⟩
        have := h2 d rfl
        simpa using this
      · rintro ⟨h1, h2⟩
        refine ⟨h1, ?_⟩
        rintro x rfl
        simpa using h2
    cases how with
    | any =>
      simp only [atom, definedText, substring, LeafTruth, List.map_cons, List.map_nil]
      simp only [show decide (How.any = How.all) = false from rfl, Atom.Says]
      constructor
      · rintro ⟨v, hv, hd⟩
        obtain ⟨τ, h1, h2, h3⟩ := (defined_iff hv (hc (d, vals) (by simp) v hv) hdw hρ).1 hd
        exact ⟨τ, (key τ).2 ⟨h1, h2 ▸ hv⟩, h3⟩
      · rintro ⟨τ, h1, h3⟩
        obtain ⟨h1, h2⟩ := (key τ).1 h1
        exact ⟨τ d, h2, (defined_iff h2 (hc (d, vals) (by simp) _ h2) hdw hρ).2 ⟨τ, h1, rfl, h3⟩⟩
    | all =>
      simp only [atom, definedText, substring, LeafTruth, List.map_cons, List.map_nil]
      simp only [decide_true, Atom.Says]
      constructor
      · intro hd τ h1
        obtain ⟨h1, h2⟩ := (key τ).1 h1
        obtain ⟨τ', h3, h4, h5⟩ := (defined_iff h2 (hc (d, vals) (by simp) _ h2) hdw hρ).1 (hd _ h2)
        have : τ' = τ := by
          funext x
          by_cases hx : x = d
          · subst hx; exact h4
          · rw [h3 x hx, h1 x hx]
        exact this ▸ h5
      · intro hd v hv
        refine (defined_iff hv (hc (d, vals) (by simp) v hv) hdw hρ).2 ?_
        classical
        refine ⟨fun x => if x = d then v else ρ x, fun x hx => if_neg hx, if_pos rfl, ?_⟩
        refine hd _ ((key _).2 ⟨fun x hx => if_neg hx, ?_⟩)
        simpa using hv

mutual
theorem holds_truth {S : Leaf → Prop} : ∀ (t : Infix.Tree Op Leaf), (∀ l ∈ operands t, S l ↔ LeafTruth e ρ l) →
    (Holds S t ↔ Truth e ρ t)
  | .atom l, h => by simp only [Holds, Truth]; exact h l (by simp [operands])
  | .pre _ t, h => by
      simp only [Holds, Truth]
      exact not_congr (holds_truth t h)
  | .chain t r, h => by
      simp only [Holds, Truth]
      simp only [operands, List.mem_append] at h
      exact holdsRest_truth r (holds_truth t (fun l hl => h l (.inl hl))) (fun l hl => h l (.inr hl))
theorem holdsRest_truth {S : Leaf → Prop} {p q : Prop} : ∀ (r : Infix.Rest Op Leaf), (p ↔ q) →
    (∀ l ∈ operandsRest r, S l ↔ LeafTruth e ρ l) → (HoldsRest S p r ↔ RestTruth e ρ q r)
  | .one o t, hp, h => by
      simp only [HoldsRest, RestTruth]
      have := holds_truth t h
      cases o <;> simp only [connect, hp, this]
  | .more o t r, hp, h => by
      simp only [HoldsRest, RestTruth]
      simp only [operandsRest, List.mem_append] at h
      have := holds_truth t (fun l hl => h l (.inl hl))
      refine holdsRest_truth r ?_ (fun l hl => h l (.inr hl))
      cases o <;> simp only [connect, hp, this]
end

/-- C106 (partial): what is printed for the operands of a condition says, put together, of every item whether the
condition holds for it. -/
theorem C106_condition_partial (t : Infix.Tree Op Leaf) (hl : ∀ l ∈ operands t, Plain e l) {a : Arr Bool}
    (h : evalTree e t = .ok a) (hρ : Valid e ρ) :
    Holds (fun l => (atom e l).Says e ρ) t ↔ a.at ρ = true := by
  rw [C40_pointwise e t a h ρ]
  refine holds_truth t (fun l hm => ?_)
  have hret := (C40_returns e t).1 ⟨a, h⟩
  have hsame : ∀ t : Infix.Tree Op Leaf, treeLeaves t = operands t := by
    intro t
    induction t using Infix.Tree.rec (motive_2 := fun r => restLeaves r = operandsRest r) with
    | atom l => rfl
    | pre o t ih => exact ih
    | chain t r h1 h2 => simp only [treeLeaves, operands, h1, h2]
    | one o t ih => exact ih
    | more o t r h1 h2 => simp only [restLeaves, operandsRest, h1, h2]
  obtain ⟨b, hb⟩ := hret l (by rw [hsame]; exact hm)
  rw [C106_operand_partial l (hl l hm) hb hρ]
  have := C40_pointwise e (.atom l) b (by simpa only [evalTree] using hb) ρ
  simpa only [Truth] using this

theorem defined_says {how : How} {w : String} : ∀ (sel : List (String × List Label)),
    (definedText how w sel).Says e ρ ↔ ∀ p ∈ sel, (substring how w p).Says e ρ
  | [] => by simp [definedText, Atom.Says]
  | [p] => by simp [definedText]
  | p :: q :: r => by
      simp only [definedText, Atom.Says, defined_says (q :: r), List.forall_mem_cons]

theorem lookup_mem {sel : List (String × List Label)} (hn : (sel.map Prod.fst).Nodup) {p : String × List Label}
    (hp : p ∈ sel) : sel.lookup p.1 = some p.2 := by
  induction sel with
  | nil => cases hp
  | cons q r ih =>
    simp only [List.map_cons, List.nodup_cons] at hn
    rcases List.mem_cons.1 hp with rfl | hp
    · simp [List.lookup]
    · have hne : p.1 ≠ q.1 := fun h => hn.1 (h ▸ List.mem_map_of_mem hp)
      simp only [List.lookup, beq_eq_false_iff_ne.2 hne]
      exact ih hn.2 hp

theorem defined_point {sel : List (String × List Label)} {w : String} (hn : (sel.map Prod.fst).Nodup)
    (hw : w ∉ sel.map Prod.fst) (hc : ∀ p ∈ sel, ∀ v ∈ p.2, v ∈ e.coords p.1) (hρ : Valid e ρ) {τ σ : String → Label}
    (h1 : Grid.Along (restrict sel e.coords) (sel.map Prod.fst) ρ τ)
    (h2 : Grid.Along e.coords (e.matrix.dims.filter (fun d => !(w :: sel.map Prod.fst).contains d)) τ σ)
    (h3 : e.matrix.at σ = true) (p : String × List Label) (hp : p ∈ sel) :
    τ p.1 ∈ p.2 ∧ DefinedIn e p.1 (τ p.1) w (ρ w) := by
  have hm : ∀ q ∈ sel, τ q.1 ∈ q.2 := by
    intro q hq
    have := h1.2 q.1 (List.mem_map_of_mem hq)
    simpa [restrict, lookup_mem hn hq] using this
  have hsame : ∀ x, x ∈ w :: sel.map Prod.fst → σ x = τ x := by
    intro x hx
    exact h2.1 x (by simp [List.mem_filter]; intro _ h; simpa [h] using hx)
  refine ⟨hm p hp, σ, hsame _ (List.mem_cons_of_mem _ (List.mem_map_of_mem hp)), ?_, ?_, h3⟩
  · rw [hsame w List.mem_cons_self, h1.1 w hw]
  · intro x hx
    by_cases hxn : x ∈ sel.map Prod.fst
    · obtain ⟨q, hq, rfl⟩ := List.mem_map.1 hxn
      rw [hsame _ (List.mem_cons_of_mem _ hxn)]
      exact hc q hq _ (hm q hq)
    · by_cases hxw : x = w
      · subst hxw
        rw [hsame x List.mem_cons_self, h1.1 x hw]
        exact hρ x
      · exact h2.2 x (by
          simp only [List.mem_filter, hx, true_and, Bool.not_eq_true', List.contains_eq_mem, decide_eq_false_iff_not,
            List.mem_cons, not_or]
          exact ⟨hxw, hxn⟩)

/-- For several dimensions, what `defined` is printed as is true of every item for which it holds, and of others
(`C106_defined_two`). -/
theorem C106_defined_implied {sel : List (String × List Label)} {w : String} {how : How}
    (hn : (sel.map Prod.fst).Nodup) (hw : w ∉ sel.map Prod.fst) (hne : ∀ p ∈ sel, p.2 ≠ []) {a : Arr Bool}
    (h : evalLeaf e (.defined sel w how) = .ok a) (hρ : Valid e ρ) (ha : a.at ρ = true) :
    (atom e (.defined sel w how)).Says e ρ := by
  have hc := defined_coords h
  rw [C40_pointwise e (.atom (.defined sel w how)) a (by simpa only [evalTree] using h) ρ] at ha
  simp only [Truth] at ha
  simp only [atom]
  rw [defined_says]
  intro p hp
  cases how with
  | any =>
    simp only [LeafTruth] at ha
    obtain ⟨τ, h1, σ, h2, h3⟩ := ha
    have := defined_point hn hw hc hρ h1 h2 h3 p hp
    simp only [substring, show decide (How.any = How.all) = false from rfl, Atom.Says]
    exact ⟨_, this.1, this.2⟩
  | all =>
    simp only [LeafTruth] at ha
    simp only [substring, decide_true, Atom.Says]
    intro v hv
    classical
    have h1 : Grid.Along (restrict sel e.coords) (sel.map Prod.fst) ρ
        (fun x => if x = p.1 then v else if x ∈ sel.map Prod.fst then ((sel.lookup x).getD []).headD "" else ρ x) := by
      refine ⟨?_, ?_⟩
      · intro x hx
        have : x ≠ p.1 := fun h => hx (h ▸ List.mem_map_of_mem hp)
        simp only [if_neg this, if_neg hx]
      · intro x hx
        by_cases hxp : x = p.1
        · subst hxp
          simpa [restrict, lookup_mem hn hp] using hv
        · obtain ⟨q, hq, rfl⟩ := List.mem_map.1 hx
          simp only [if_neg hxp, if_pos hx, restrict, lookup_mem hn hq, Option.getD_some]
          cases hqe : q.2 with
          | nil => exact absurd hqe (hne q hq)
          | cons l r => simp
    obtain ⟨σ, h2, h3⟩ := ha _ h1
    have := (defined_point hn hw hc hρ h1 h2 h3 p hp).2
    simpa using this

/-- C106 fails: a Boolean input that is false is printed as one that exists, and does not hold. -/
theorem C106_boolean_input {p : String} (hk : (e.input p).kind = .boolean)
    (hv : (e.input p).arr.at ρ = .bool false) {a : Arr Bool} (h : evalLeaf e (.input p) = .ok a) :
    (atom e (.input p)).Says e ρ ∧ a.at ρ = false := by
  constructor
  · simp only [atom, Atom.Says]
    have : (e.input p).arr.val ((e.input p).arr.dims.map ρ) = .bool false := hv
    rw [this]; simp
  · rw [← Bool.not_eq_true, C40_pointwise e (.atom (.input p)) a (by simpa only [evalTree] using h) ρ]
    simp only [Truth, LeafTruth, Given, hk, hv]
    simp

/-- C106 fails: an infinite input is printed as one that exists, and does not hold. -/
theorem C106_infinite_input {p : String} (hv : (e.input p).arr.at ρ = .posInf) {a : Arr Bool}
    (h : evalLeaf e (.input p) = .ok a) : (atom e (.input p)).Says e ρ ∧ a.at ρ = false := by
  constructor
  · simp only [atom, Atom.Says]
    have : (e.input p).arr.val ((e.input p).arr.dims.map ρ) = .posInf := hv
    rw [this]; simp
  · rw [← Bool.not_eq_true, C40_pointwise e (.atom (.input p)) a (by simpa only [evalTree] using h) ρ]
    simp only [Truth, LeafTruth, Given, hv]
    simp

end

/-! ### The texts -/

/-- C106: the texts of comparison signs are different. -/
theorem C106_signs {a b : Sign} (h : a.text = b.text) : a = b := by
  cases a <;> cases b <;> first | rfl | exact absurd h (by decide)

theorem text_cmp (it : String → String) (num : Rat → String) (l : Term) (o : Sign) (r : Term) :
    (Atom.cmp l o r).text it num = l.text it num ++ o.text ++ r.text it num := rfl

theorem text_within (it : String → String) (num : Rat → String) (all : Bool) (d : String) (vals : List Label) (w : String) :
    (Atom.within all d vals w).text it num = "\\big" ++ (if all then "wedge" else "vee") ++
      "\\limits_{\\substack{\\text{" ++ it d ++ "} \\in \\text{[" ++ ",".intercalate vals ++ "]}}}\\text{" ++ it d ++
      " defined in " ++ it w ++ "}" := rfl

/-- C106: comparisons of the same terms with different operators have different texts. -/
theorem C106_compared (e : Env) (it : String → String) (num : Rat → String) {l : Lhs} {o o' : CmpOp} {r : Rhs}
    (h : (atom e (.cmp l o r)).text it num = (atom e (.cmp l o' r)).text it num) : o = o' := by
  simp only [atom, text_cmp] at h
  have h1 := congrArg String.toList h
  simp only [String.toList_append, List.append_assoc, List.append_cancel_left_eq, List.append_cancel_right_eq] at h1
  have h2 := C106_signs (String.ext_iff.2 h1)
  cases o <;> cases o' <;> first | rfl | cases h2

/-- C106: `any` and `all` of `defined` have different texts, whatever they are about. -/
theorem C106_any_all (it : String → String) (num : Rat → String) (d d' : String) (vals vals' : List Label) (w w' : String) :
    (Atom.within true d vals w).text it num ≠ (Atom.within false d' vals' w').text it num := by
  intro h
  rw [text_within, text_within] at h
  have h1 := congrArg (fun s : String => s.toList.drop 4) h
  simp only [if_true, Bool.false_eq_true, if_false, String.toList_append, List.append_assoc] at h1
  rw [show "\\big".toList = ['\\', 'b', 'i', 'g'] from rfl, show "wedge".toList = ['w', 'e', 'd', 'g', 'e'] from rfl,
    show "vee".toList = ['v', 'e', 'e'] from rfl] at h1
  simp at h1

/-- C106: an input or a result without dimensions has no subscript. -/
theorem C106_no_subscript (it : String → String) (num : Rat → String) (p : String) :
    (Atom.exist p []).text it num = "\\exists (\\textit{" ++ p ++ "})" ∧
      (Atom.result p []).text it num = "\\textbf{" ++ p ++ "}" := by
  have h1 : (Atom.exist p []).text it num = "\\exists (\\textit{" ++ p ++ "}" ++ subText it [] ++ ")" := rfl
  have h2 : (Atom.result p []).text it num = "\\textbf{" ++ p ++ "}" ++ subText it [] := rfl
  rw [h1, h2]
  refine ⟨String.ext_iff.2 ?_, String.ext_iff.2 ?_⟩ <;> simp [subText]

/-! ### Demo -/

section Demo

/-- Two nodes, technologies and carriers: `n` has technology `p` with carrier `x`, and `q` with carrier `y`; `m` has `p`
with `x`.  `size` is given for `n`; `flag` is true for `n` and false for `m`. -/
def demoCond : Env where
  dims := ["nodes", "techs", "carriers"]
  coords := fun d => if d = "nodes" then ["n", "m"] else if d = "techs" then ["p", "q"] else ["x", "y"]
  input := fun s =>
    if s = "size" then ⟨.number, ⟨["nodes"], fun c => if c = ["n"] then .num 2 else .nan⟩, .num 0⟩
    else if s = "flag" then ⟨.boolean, ⟨["nodes"], fun c => if c = ["n"] then .bool true else .bool false⟩, .bool false⟩
    else ⟨.number, ⟨[], fun _ => .nan⟩, .nan⟩
  result := fun s => if s = "cap" then some ⟨["nodes", "techs"], fun c => c == ["n", "p"]⟩ else none
  config := fun _ => none
  matrix := ⟨["nodes", "techs", "carriers"], fun c => c == ["n", "p", "x"] || c == ["n", "q", "y"] || c == ["m", "p", "x"]⟩
  arith := fun _ v _ => v

def demoItem : String → Label := fun d => if d = "nodes" then "n" else if d = "techs" then "p" else "x"

def demoIt (d : String) : String := if d = "nodes" then "node" else if d = "techs" then "tech" else "carrier"

/-- `defined(techs=[p, q], within=nodes, how=all) and (any(cap, over=techs) or size > 1)` -/
def demoTree : Infix.Tree Op Leaf :=
  .chain (.atom (.defined [("techs", ["p", "q"])] "nodes" .all))
    (.one .and (.chain (.atom (.anyResult "cap" ["techs"])) (.one .or (.atom (.cmp (.input "size") .gt (.num 1))))))

example : (atom demoCond (.defined [("techs", ["p", "q"])] "nodes" .all)).text demoIt (fun q => toString q) =
    "\\bigwedge\\limits_{\\substack{\\text{tech} \\in \\text{[p,q]}}}\\text{tech defined in node}" := by decide +kernel

example : (atom demoCond (.anyInput "size" ["nodes"])).text demoIt (fun q => toString q) =
    "\\bigvee\\limits_{\\substack{\\text{node} \\in \\text{nodes}}} (\\exists (\\textit{size}_\\text{node}))" := by
  decide +kernel

theorem demoCond_valid : Valid demoCond demoItem := by
  intro d
  simp only [demoCond, demoItem]
  split
  · decide
  · split <;> decide

/-- What `C106_condition_partial` asks for, for a condition that holds. -/
example : (∀ l ∈ operands demoTree, Plain demoCond l) ∧ ∃ a, evalTree demoCond demoTree = .ok a ∧ a.at demoItem = true := by
  refine ⟨?_, _, rfl, by decide +kernel⟩
  intro l hl
  simp only [demoTree, operands, operandsRest, List.cons_append, List.nil_append, List.mem_cons, List.not_mem_nil,
    or_false] at hl
  rcases hl with rfl | rfl | rfl
  · exact ⟨"techs", ["p", "q"], rfl, by decide⟩
  · intro d hd
    obtain rfl : d = "techs" := by simpa using hd
    decide
  · trivial

/-- What `C106_boolean_input` asks for. -/
example : (demoCond.input "flag").kind = .boolean ∧
    (demoCond.input "flag").arr.at (fun d => if d = "nodes" then "m" else demoItem d) = .bool false := by
  constructor <;> decide

theorem demo_defined {d v w l : String} (c : List Label) (hc : demoCond.matrix.val c = true) (σ : String → Label)
    (h1 : σ d = v) (h2 : σ w = l) (h3 : ["nodes", "techs", "carriers"].map σ = c)
    (h4 : ∀ x ∈ ["nodes", "techs", "carriers"], σ x ∈ demoCond.coords x) : DefinedIn demoCond d v w l :=
  ⟨σ, h1, h2, h4, by show demoCond.matrix.val _ = true; rw [show demoCond.matrix.dims.map σ = c from h3]; exact hc⟩

/-- C106 fails: `defined` of two dimensions is printed as one condition for each, and evaluated for both together: at
`n`, technology `p` is defined and carrier `y` is, but not `p` with `y`. -/
theorem C106_defined_two :
    let l : Leaf := .defined [("techs", ["p"]), ("carriers", ["y"])] "nodes" .any
    (atom demoCond l).Says demoCond demoItem ∧ ∃ a, evalLeaf demoCond l = .ok a ∧ a.at demoItem = false := by
  refine ⟨⟨⟨"p", by simp, ?_⟩, ⟨"y", by simp, ?_⟩⟩, _, rfl, by decide +kernel⟩
  · exact demo_defined ["n", "p", "x"] (by decide) demoItem rfl rfl (by decide) (by decide)
  · exact demo_defined ["n", "q", "y"] (by decide)
      (fun d => if d = "nodes" then "n" else if d = "techs" then "q" else "y") rfl rfl (by decide) (by decide)

/-- What `C106_defined_implied` asks for. -/
example : let l : Leaf := .defined [("techs", ["p", "q"]), ("carriers", ["x"])] "nodes" .any
    ∃ a, evalLeaf demoCond l = .ok a ∧ a.at demoItem = true := ⟨_, rfl, by decide +kernel⟩

end Demo

end LatexWhere
end Calliope
