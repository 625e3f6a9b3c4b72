import Verif.Proofs.Where

/-!
# C40, C41, C43 (conditions) and C45: `where` strings and the mask of a component
-/

namespace Calliope
namespace Where

open Grid Infix

theorem levels_disjoint : levels.Disjoint := by
  unfold Levels.Disjoint levels; simp

/-! ### C40: item by item -/

/-- The array of a `where` string holds, at every item, the truth of the condition at that item. -/
theorem C40_pointwise (e : Env) (t : Tree Op Leaf) (a : Arr Bool) (h : evalTree e t = .ok a)
    (ρ : String → Label) : a.at ρ = true ↔ Truth e ρ t :=
  evalTree_ok ρ h

mutual
/-- The operands of a condition. -/
def treeLeaves : Tree Op Leaf → List Leaf
  | .atom l => [l]
  | .pre _ t => treeLeaves t
  | .chain t r => treeLeaves t ++ restLeaves r
def restLeaves : Rest Op Leaf → List Leaf
  | .one _ t => treeLeaves t
  | .more _ t r => treeLeaves t ++ restLeaves r
end

mutual
theorem evalTree_returns {e : Env} : ∀ {t : Tree Op Leaf},
    (∃ a, evalTree e t = .ok a) ↔ ∀ l ∈ treeLeaves t, ∃ a, evalLeaf e l = .ok a
  | .atom l => by simp [evalTree, treeLeaves]
  | .pre o t => by
      simp only [evalTree, treeLeaves, ← evalTree_returns (t := t)]
      cases evalTree e t <;> simp
  | .chain t r => by
      simp only [evalTree, treeLeaves, List.mem_append]
      have h1 := evalTree_returns (e := e) (t := t)
      constructor
      · intro h
        cases ht : evalTree e t with
        | error x => rw [ht] at h; obtain ⟨_, h⟩ := h; cases h
        | ok a =>
          rw [ht] at h
          rintro l (hl | hl)
          · exact h1.1 ⟨a, ht⟩ l hl
          · exact (evalRest_returns (acc := a)).1 h l hl
      · intro h
        obtain ⟨a, ha⟩ := h1.2 (fun l hl => h l (.inl hl))
        rw [ha]
        exact evalRest_returns.2 (fun l hl => h l (.inr hl))
theorem evalRest_returns {e : Env} : ∀ {acc : Arr Bool} {r : Rest Op Leaf},
    (∃ a, evalRest e acc r = .ok a) ↔ ∀ l ∈ restLeaves r, ∃ a, evalLeaf e l = .ok a
  | acc, .one o t => by
      simp only [evalRest, restLeaves, ← evalTree_returns (t := t)]
      cases evalTree e t <;> simp
  | acc, .more o t r => by
      simp only [evalRest, restLeaves, List.mem_append]
      have h1 := evalTree_returns (e := e) (t := t)
      constructor
      · intro h
        cases ht : evalTree e t with
        | error x => rw [ht] at h; obtain ⟨_, h⟩ := h; cases h
        | ok a =>
          rw [ht] at h
          rintro l (hl | hl)
          · exact h1.1 ⟨a, ht⟩ l hl
          · exact evalRest_returns.1 h l hl
      · intro h
        obtain ⟨a, ha⟩ := h1.2 (fun l hl => h l (.inl hl))
        rw [ha]
        exact evalRest_returns.2 (fun l hl => h l (.inr hl))
end

/-- A condition can be evaluated if and only if each of its operands can: there is no short circuit. -/
theorem C40_returns (e : Env) (t : Tree Op Leaf) :
    (∃ a, evalTree e t = .ok a) ↔ ∀ l ∈ treeLeaves t, ∃ a, evalLeaf e l = .ok a :=
  evalTree_returns

/-- Operands whose truth depends on the item alone. -/
def Leaf.local : Leaf → Bool
  | .anyInput _ _ => false
  | .anyResult _ _ => false
  | .defined _ _ _ => false
  | _ => true

/-- Two models that agree on everything at one item. -/
structure AgreeAt (e e' : Env) (ρ : String → Label) : Prop where
  dims : e.dims = e'.dims
  coords : e.coords = e'.coords
  config : e.config = e'.config
  arith : e.arith = e'.arith
  kind : ∀ p, (e.input p).kind = (e'.input p).kind
  default : ∀ p, (e.input p).default = (e'.input p).default
  value : ∀ p, (e.input p).arr.at ρ = (e'.input p).arr.at ρ
  result : ∀ r, (e.result r).map (fun a => a.at ρ) = (e'.result r).map (fun a => a.at ρ)
  number : ∀ r, numberOf (e.number r) ρ = numberOf (e'.number r) ρ
  sums : ∀ r over, numberOf (e.sums r over) ρ = numberOf (e'.sums r over) ρ

theorem lhsValue_agree {e e' : Env} {ρ : String → Label} (h : AgreeAt e e' ρ) : ∀ l : Lhs,
    lhsValue e ρ l = lhsValue e' ρ l
  | .num q => rfl
  | .dim d => by simp only [lhsValue, labelOf, h.dims]
  | .input p => by simp only [lhsValue, valueOf, h.value, h.default]
  | .config o => by simp only [lhsValue, h.config]
  | .valAt d i => by simp only [lhsValue, labelAt, h.coords]
  | .op o l r => by
      simp only [lhsValue, h.arith, lhsValue_agree h l, lhsValue_agree h r]
  | .result n => h.number n
  | .total n over => h.sums n over

theorem leafTruth_agree {e e' : Env} {ρ : String → Label} (h : AgreeAt e e' ρ) (l : Leaf)
    (hl : l.local = true) : LeafTruth e ρ l ↔ LeafTruth e' ρ l := by
  cases l with
  | bool b => exact Iff.rfl
  | input p => simp only [LeafTruth, h.kind, h.value]
  | result r =>
    have hr := h.result r
    simp only [LeafTruth]
    cases h1 : e.result r <;> cases h2 : e'.result r <;> simp_all
  | cmp l o r =>
    simp only [LeafTruth, lhsValue_agree h]
    have : rhsValue e r = rhsValue e' r := by
      cases r <;> simp only [rhsValue, labelAt, h.coords]
    rw [this]
  | isIn items d => simp only [LeafTruth, labelOf, h.dims]
  | anyInput => cases hl
  | anyResult => cases hl
  | defined => cases hl

mutual
theorem truth_agree {e e' : Env} {ρ : String → Label} (h : AgreeAt e e' ρ) : ∀ t : Tree Op Leaf,
    (∀ l ∈ treeLeaves t, l.local = true) → (Truth e ρ t ↔ Truth e' ρ t)
  | .atom l, hl => leafTruth_agree h l (hl l (by simp [treeLeaves]))
  | .pre o t, hl => by
      simp only [Truth]
      rw [truth_agree h t hl]
  | .chain t r, hl => by
      simp only [Truth]
      simp only [treeLeaves, List.mem_append] at hl
      exact restTruth_agree h r (fun l hr => hl l (.inr hr)) (truth_agree h t (fun l ht => hl l (.inl ht)))
theorem restTruth_agree {e e' : Env} {ρ : String → Label} (h : AgreeAt e e' ρ) :
    ∀ (r : Rest Op Leaf) {p q : Prop}, (∀ l ∈ restLeaves r, l.local = true) → (p ↔ q) →
    (RestTruth e ρ p r ↔ RestTruth e' ρ q r)
  | .one o t, p, q, hl, hpq => by
      have ht := truth_agree h t hl
      simp only [RestTruth, propext hpq, propext ht]
  | .more o t r, p, q, hl, hpq => by
      simp only [restLeaves, List.mem_append] at hl
      have ht := truth_agree h t (fun l h => hl l (.inl h))
      simp only [RestTruth]
      refine restTruth_agree h r (fun l h => hl l (.inr h)) ?_
      simp only [propext hpq, propext ht]
end

/-- Unless it uses `any` or `defined`, a condition at an item depends on the data at that item only. -/
theorem C40_item_by_item (e e' : Env) (ρ : String → Label) (h : AgreeAt e e' ρ) (t : Tree Op Leaf)
    (hl : ∀ l ∈ treeLeaves t, l.local = true) (a a' : Arr Bool) (ha : evalTree e t = .ok a)
    (ha' : evalTree e' t = .ok a') : a.at ρ = a'.at ρ := by
  have h1 := evalTree_ok ρ ha
  have h2 := evalTree_ok ρ ha'
  have h3 := truth_agree h t hl
  have : a.at ρ = true ↔ a'.at ρ = true := by rw [h1, h2, h3]
  exact Bool.eq_iff_iff.2 this

/-- Missing data, and infinite data, count as False. -/
theorem C40_missing_false (e : Env) (p : String) (ρ : String → Label) (a : Arr Bool)
    (h : evalTree e (.atom (.input p)) = .ok a)
    (hv : (e.input p).arr.at ρ = .nan ∨ (e.input p).arr.at ρ = .posInf ∨
      (e.input p).arr.at ρ = .negInf) :
    a.at ρ = false := by
  rw [← Bool.not_eq_true, evalTree_ok ρ h]
  simp only [Truth, LeafTruth, Given]
  rcases hv with hv | hv | hv <;> rw [hv] <;> simp

/-- A parameter that is not in the data is missing everywhere, and its default is used in
comparisons, exactly as if it were given for another item. -/
theorem C40_absent_parameter (d : InputDef) (hd : d.lookup = false) (data : Arr Val)
    (ρ : String → Label) (hv : data.at ρ = .nan) :
    (inputCond (addInput d none)).at ρ = false ∧ (inputCond (addInput d (some data))).at ρ = false ∧
    valueOf (addInput d none) ρ = d.default ∧ valueOf (addInput d (some data)) ρ = d.default := by
  refine ⟨?_, ?_, ?_, ?_⟩
  · simp only [inputCond, at_map, addInput, hd]
    cases d.kind <;> rfl
  · simp only [inputCond, at_map, addInput, hv]
    cases d.kind <;> rfl
  · simp [valueOf, addInput, hd]
  · simp [valueOf, addInput, hv]

/-- A lookup with a default, on the contrary, counts as given everywhere when it is not in the data,
and as missing at an item once it is given for another item: data for one technology changes the
condition for all others. -/
theorem C40_absent_lookup (d : InputDef) (hd : d.lookup = true) (hk : Given d.kind d.default)
    (data : Arr Val) (ρ : String → Label) (hv : data.at ρ = .nan) :
    (inputCond (addInput d none)).at ρ = true ∧
    (inputCond (addInput d (some data))).at ρ = false := by
  refine ⟨?_, ?_⟩
  · simp only [inputCond, at_map, addInput, hd, if_true, at_scalar]
    exact (given_iff _ _).2 hk
  · simp only [inputCond, at_map, addInput, hv]
    cases d.kind <;> rfl

/-! ### C40: `defined` in terms of the definition matrix -/

theorem lookup_given {sel : List (String × List Label)} (hn : (sel.map Prod.fst).Nodup)
    {p : String × List Label} (hp : p ∈ sel) : sel.lookup p.1 = some p.2 := by
  induction sel with
  | nil => cases hp
  | cons q r ih =>
    simp only [List.map_cons, List.nodup_cons] at hn
    rcases List.mem_cons.1 hp with rfl | hp
    · simp [List.lookup]
    · have hne : p.1 ≠ q.1 := fun h => hn.1 (h ▸ List.mem_map_of_mem hp)
      simp only [List.lookup, beq_eq_false_iff_ne.2 hne]
      exact ih hn.2 hp

theorem at_same {V : Type} {m : Arr V} {σ τ : String → Label} (h : ∀ d ∈ m.dims, σ d = τ d) :
    m.at σ = m.at τ := by
  unfold Arr.at
  rw [List.map_congr_left h]

theorem other_mem {m : Arr Bool} {w : String} {sel : List (String × List Label)} {d : String} :
    d ∈ m.dims.filter (fun d => !(w :: sel.map Prod.fst).contains d) ↔
      d ∈ m.dims ∧ d ≠ w ∧ d ∉ sel.map Prod.fst := by
  simp only [List.mem_filter, Bool.not_eq_true', List.contains_eq_mem, decide_eq_false_iff_not,
    List.mem_cons, not_or]

theorem chosen_iff {e : Env} {sel : List (String × List Label)} (hn : (sel.map Prod.fst).Nodup)
    {ρ τ : String → Label} : Along (restrict sel e.coords) (sel.map Prod.fst) ρ τ ↔
      (∀ d, d ∉ sel.map Prod.fst → τ d = ρ d) ∧ ∀ p ∈ sel, τ p.1 ∈ p.2 := by
  constructor
  · rintro ⟨h1, h2⟩
    refine ⟨h1, fun p hp => ?_⟩
    have := h2 p.1 (List.mem_map_of_mem hp)
    simpa [restrict, lookup_given hn hp] using this
  · rintro ⟨h1, h2⟩
    refine ⟨h1, fun d hd => ?_⟩
    obtain ⟨p, hp, rfl⟩ := List.mem_map.1 hd
    simpa [restrict, lookup_given hn hp] using h2 p hp

/-- `defined(…, within=w, how=any)` holds for an item if and only if the definition matrix is true at some place
with the item's own label of `w`, one of the labels given for each dimension mentioned, and any label of the other
dimensions. -/
theorem C40_defined_any {e : Env} {sel : List (String × List Label)} {w : String} {a : Arr Bool}
    (hn : (sel.map Prod.fst).Nodup) (hw : w ∉ sel.map Prod.fst)
    (h : evalLeaf e (.defined sel w .any) = .ok a) (ρ : String → Label) :
    a.at ρ = true ↔ ∃ σ : String → Label, σ w = ρ w ∧ (∀ p ∈ sel, σ p.1 ∈ p.2) ∧
      (∀ d ∈ e.matrix.dims, d ≠ w → d ∉ sel.map Prod.fst → σ d ∈ e.coords d) ∧ e.matrix.at σ = true := by
  classical
  rw [evalLeaf_ok ρ h]
  simp only [LeafTruth, chosen_iff hn]
  constructor
  · rintro ⟨τ, ⟨h1, h2⟩, σ, ⟨h3, h4⟩, h5⟩
    have hs : ∀ d, ¬ (d ≠ w ∧ d ∉ sel.map Prod.fst) → σ d = τ d :=
      fun d hd => h3 d (fun hm => hd (other_mem.1 hm).2)
    refine ⟨σ, ?_, ?_, fun d hd h6 h7 => h4 d (other_mem.2 ⟨hd, h6, h7⟩), h5⟩
    · rw [hs w (fun h => h.1 rfl), h1 w hw]
    · intro p hp
      rw [hs p.1 (fun h => h.2 (List.mem_map_of_mem hp))]
      exact h2 p hp
  · rintro ⟨σ, h1, h2, h3, h4⟩
    refine ⟨fun d => if d ∈ sel.map Prod.fst then σ d else ρ d, ⟨fun d hd => if_neg hd, fun p hp => ?_⟩,
      fun d => if d = w then ρ w else if d ∈ e.matrix.dims ∨ d ∈ sel.map Prod.fst then σ d else ρ d,
      ⟨fun d hd => ?_, fun d hd => ?_⟩, ?_⟩
    · simp only [if_pos (List.mem_map_of_mem hp)]
      exact h2 p hp
    · by_cases hdw : d = w
      · subst hdw; simp only [if_pos, if_neg hw]
      · by_cases hds : d ∈ sel.map Prod.fst
        · simp only [if_neg hdw, if_pos hds, if_pos (Or.inr hds : d ∈ e.matrix.dims ∨ _)]
        · have : ¬ (d ∈ e.matrix.dims ∨ d ∈ sel.map Prod.fst) := by
            rintro (hm | hm)
            · exact hd (other_mem.2 ⟨hm, hdw, hds⟩)
            · exact hds hm
          simp only [if_neg hdw, if_neg this, if_neg hds]
    · obtain ⟨hm, hdw, hds⟩ := other_mem.1 hd
      simp only [if_neg hdw, if_pos (Or.inl hm : _ ∨ d ∈ sel.map Prod.fst)]
      exact h3 d hm hdw hds
    · rw [← h4]
      apply at_same
      intro d hd
      by_cases hdw : d = w
      · subst hdw; simp only [if_pos, h1]
      · simp only [if_neg hdw, if_pos (Or.inl hd : _ ∨ d ∈ sel.map Prod.fst)]

/-- `defined(…, within=w, how=all)` holds for an item if and only if for every choice of the labels given there is
such a place in the definition matrix. -/
theorem C40_defined_all {e : Env} {sel : List (String × List Label)} {w : String} {a : Arr Bool}
    (hn : (sel.map Prod.fst).Nodup) (hw : w ∉ sel.map Prod.fst)
    (h : evalLeaf e (.defined sel w .all) = .ok a) (ρ : String → Label) :
    a.at ρ = true ↔ ∀ τ : String → Label, (∀ p ∈ sel, τ p.1 ∈ p.2) →
      ∃ σ : String → Label, σ w = ρ w ∧ (∀ p ∈ sel, σ p.1 = τ p.1) ∧
        (∀ d ∈ e.matrix.dims, d ≠ w → d ∉ sel.map Prod.fst → σ d ∈ e.coords d) ∧ e.matrix.at σ = true := by
  classical
  rw [evalLeaf_ok ρ h]
  simp only [LeafTruth, chosen_iff hn]
  constructor
  · intro hall τ hτ
    obtain ⟨σ, ⟨h3, h4⟩, h5⟩ := hall (fun d => if d ∈ sel.map Prod.fst then τ d else ρ d)
      ⟨fun d hd => if_neg hd, fun p hp => by simp only [if_pos (List.mem_map_of_mem hp)]; exact hτ p hp⟩
    refine ⟨σ, ?_, fun p hp => ?_, fun d hd h6 h7 => h4 d (other_mem.2 ⟨hd, h6, h7⟩), h5⟩
    · exact (h3 w (fun hm => (other_mem.1 hm).2.1 rfl)).trans (if_neg hw)
    · exact (h3 p.1 (fun hm => (other_mem.1 hm).2.2 (List.mem_map_of_mem hp))).trans (if_pos (List.mem_map_of_mem hp))
  · rintro hall τ ⟨h1, h2⟩
    obtain ⟨σ, h3, h4, h5, h6⟩ := hall τ h2
    refine ⟨fun d => if d ∈ e.matrix.dims ∧ d ≠ w ∧ d ∉ sel.map Prod.fst then σ d else τ d,
      ⟨fun d hd => if_neg (fun hm => hd (other_mem.2 hm)), fun d hd => ?_⟩, ?_⟩
    · have hm := other_mem.1 hd
      simp only [if_pos hm]
      exact h5 d hm.1 hm.2.1 hm.2.2
    · rw [← h6]
      apply at_same
      intro d hd
      by_cases hm : d ∈ e.matrix.dims ∧ d ≠ w ∧ d ∉ sel.map Prod.fst
      · simp only [if_pos hm]
      · simp only [if_neg hm]
        by_cases hds : d ∈ sel.map Prod.fst
        · obtain ⟨p, hp, rfl⟩ := List.mem_map.1 hds
          exact (h4 p hp).symm
        · by_cases hdw : d = w
          · subst hdw; rw [h1 d hw, h3]
          · exact absurd ⟨hd, hdw, hds⟩ hm

/-- Comparing an input without text, whether its values are given or not, with a number never fails. -/
theorem C40_numbers (e : Env) (p : String) (o : CmpOp) (q : Rat)
    (hd : ∀ s, (e.input p).default ≠ .str s) (hv : ∀ k s, (e.input p).arr.val k ≠ .str s) :
    ∃ a, evalLeaf e (.cmp (.input p) o (.num q)) = .ok a := by
  simp only [evalLeaf, evalLhs, evalRhs]
  split
  · rename_i hany
    exfalso
    obtain ⟨k, _, hk⟩ := List.any_eq_true.1 hany
    have key : ∀ v : Val, (∀ s, v ≠ .str s) → (cmpVal o v (.num q)).isNone = false := by
      intro v hv
      cases o <;> cases v <;> first | rfl | exact absurd rfl (hv _)
    have hf : ∀ k' s, fillDefault (e.input p).default ((e.input p).arr.val k') ≠ .str s := by
      intro k' s
      unfold fillDefault
      split
      · exact hd s
      · exact hv k' s
    simp only [zip, map, scalar] at hk
    rw [key _ (hf _)] at hk
    cases hk
  · exact ⟨_, rfl⟩

/-! ### C41: precedence -/

/-- Reading a chain of conditions from left to right. -/
def leftToRight : Prop → List (Op × Prop) → Prop
  | p, [] => p
  | p, (o, q) :: r => leftToRight (connect o p q) r

/-- Reading a chain of conditions with AND binding tighter than OR. -/
def conventional : Prop → List (Op × Prop) → Prop
  | p, [] => p
  | p, (.or, q) :: r => p ∨ conventional q r
  | p, (_, q) :: r => conventional (p ∧ q) r

/-- An operand of a chain: an atom, a negation or something in parentheses. -/
structure Operand where
  tree : Tree Op Leaf
  text : List (Tok Op Leaf)
  ok : Derives levels [] tree text

/-- The text of a chain. -/
def chainText (x : Operand) (r : List (Op × Operand)) : List (Tok Op Leaf) :=
  x.text ++ r.flatMap (fun p => .op p.1 :: p.2.text)

theorem chain_rest (e : Env) (ρ : String → Label) : ∀ (r : List (Op × Operand)),
    (∀ p ∈ r, p.1 = .and ∨ p.1 = .or) → r ≠ [] →
    ∃ rs, DerivesRest levels (fun o => decide (o = .and) || decide (o = .or)) [] rs
        (r.flatMap (fun p => .op p.1 :: p.2.text)) ∧
      ∀ P, RestTruth e ρ P rs ↔ leftToRight P (r.map (fun p => (p.1, Truth e ρ p.2.tree)))
  | [], _, h => absurd rfl h
  | [(o, x)], ho, _ => by
      refine ⟨.one o x.tree, ?_, fun P => Iff.rfl⟩
      simp only [List.flatMap_cons, List.flatMap_nil, List.append_nil]
      refine .one ?_ x.ok
      rcases ho (o, x) (by simp) with h | h <;> simp only at h <;> subst h <;> rfl
  | (o, x) :: y :: r, ho, _ => by
      obtain ⟨rs, h1, h2⟩ := chain_rest e ρ (y :: r)
        (fun p hp => ho p (List.mem_cons_of_mem _ hp)) (by simp)
      refine ⟨.more o x.tree rs, ?_, fun P => ?_⟩
      · rw [List.flatMap_cons]
        simp only [List.cons_append]
        refine .more ?_ x.ok h1
        rcases ho (o, x) (by simp) with h | h <;> simp only at h <;> subst h <;> rfl
      · simp only [RestTruth, List.map_cons, leftToRight]
        exact h2 _

/-- A chain without parentheses is accepted and read from left to right. -/
theorem C41_left_to_right (e : Env) (ρ : String → Label) (x : Operand) (r : List (Op × Operand))
    (ho : ∀ p ∈ r, p.1 = .and ∨ p.1 = .or) :
    ∃ t, parse levels (chainText x r) = some t ∧
      (Truth e ρ t ↔
        leftToRight (Truth e ρ x.tree) (r.map (fun p => (p.1, Truth e ρ p.2.tree)))) := by
  cases r with
  | nil =>
    refine ⟨x.tree, (parse_iff levels levels_disjoint _ _).2 ?_, Iff.rfl⟩
    simp only [chainText, List.flatMap_nil, List.append_nil]
    exact derives_lift x.ok
  | cons p r =>
    obtain ⟨rs, h1, h2⟩ := chain_rest e ρ (p :: r) ho (by simp)
    refine ⟨.chain x.tree rs, (parse_iff levels levels_disjoint _ _).2 ?_, ?_⟩
    · exact .chain x.ok h1
    · simp only [Truth]
      exact h2 _

/-- No AND comes after an OR. -/
def NoAndAfterOr : List Op → Prop
  | [] => True
  | .or :: r => Op.and ∉ r
  | _ :: r => NoAndAfterOr r

theorem leftToRight_or : ∀ (r : List (Op × Prop)) (p q : Prop), (∀ x ∈ r, x.1 = .or) →
    (leftToRight (p ∨ q) r ↔ p ∨ leftToRight q r)
  | [], _, _, _ => Iff.rfl
  | (o, x) :: r, p, q, h => by
      have := h (o, x) (by simp)
      simp only at this
      subst this
      simp only [leftToRight, connect]
      rw [← leftToRight_or r p (q ∨ x) (fun y hy => h y (List.mem_cons_of_mem _ hy)), or_assoc]

theorem conventional_or : ∀ (r : List (Op × Prop)) (p : Prop), (∀ x ∈ r, x.1 = .or) →
    (conventional p r ↔ leftToRight p r)
  | [], _, _ => Iff.rfl
  | (o, x) :: r, p, h => by
      have ho := h (o, x) (by simp)
      simp only at ho
      subst ho
      have hr := fun y hy => h y (List.mem_cons_of_mem _ hy)
      simp only [leftToRight, connect, conventional]
      rw [leftToRight_or r p x hr, conventional_or r x hr]

theorem conventional_of_noAndAfterOr : ∀ (r : List (Op × Prop)) (p : Prop),
    (∀ x ∈ r, x.1 = .and ∨ x.1 = .or) → NoAndAfterOr (r.map Prod.fst) →
    (conventional p r ↔ leftToRight p r)
  | [], _, _, _ => Iff.rfl
  | (.or, x) :: r, p, h, hn => by
      apply conventional_or
      intro y hy
      rcases List.mem_cons.1 hy with rfl | hy
      · rfl
      · rcases h y (List.mem_cons_of_mem _ hy) with h' | h'
        · exact absurd (h' ▸ List.mem_map.2 ⟨y, hy, rfl⟩) hn
        · exact h'
  | (.and, x) :: r, p, h, hn => by
      simp only [conventional, leftToRight, connect]
      exact conventional_of_noAndAfterOr r _ (fun y hy => h y (List.mem_cons_of_mem _ hy)) hn
  | (.not, x) :: r, p, h, _ => by
      rcases h (.not, x) (by simp) with h | h <;> cases h

theorem leftToRight_false : ∀ (r : List Op), leftToRight False (r.map (fun o => (o, False))) ↔ False
  | [] => Iff.rfl
  | o :: r => by
      simp only [List.map_cons, leftToRight]
      rw [show connect o False False = False by cases o <;> simp [connect]]
      exact leftToRight_false r

theorem split_and : ∀ (r : List Op), Op.and ∈ r → ∃ a b, r = a ++ .and :: b ∧ Op.and ∉ a
  | [], h => by cases h
  | o :: r, h => by
      by_cases ho : o = .and
      · exact ⟨[], r, by rw [ho]; rfl, by simp⟩
      · rcases List.mem_cons.1 h with h | h
        · exact absurd h.symm ho
        · obtain ⟨a, b, rfl, hn⟩ := split_and r h
          exact ⟨o :: a, b, rfl, by simp [hn, Ne.symm ho]⟩

theorem leftToRight_append : ∀ (a b : List (Op × Prop)) (p : Prop),
    leftToRight p (a ++ b) = leftToRight (leftToRight p a) b
  | [], _, _ => rfl
  | (o, x) :: a, b, p => by simp only [List.cons_append, leftToRight]; exact leftToRight_append a b _

theorem differ : ∀ (r : List Op) (p : Prop), p → (∀ o ∈ r, o = .and ∨ o = .or) → ¬ NoAndAfterOr r →
    ∃ v : List Prop, v.length = r.length ∧ conventional p (r.zip v) ∧ ¬ leftToRight p (r.zip v)
  | [], _, _, _, h => absurd trivial h
  | .not :: r, _, _, ho, _ => by
      rcases ho .not (by simp) with h | h <;> cases h
  | .and :: r, p, hp, ho, h => by
      obtain ⟨v, h1, h2, h3⟩ := differ r (p ∧ True) ⟨hp, trivial⟩
        (fun o h => ho o (List.mem_cons_of_mem _ h)) h
      exact ⟨True :: v, by simp [h1], h2, h3⟩
  | .or :: r, p, hp, ho, h => by
      have hand : Op.and ∈ r := Classical.byContradiction h
      obtain ⟨a, b, rfl, _⟩ := split_and r hand
      refine ⟨True :: (a.map (fun _ => True) ++ False :: b.map (fun _ => False)), by simp, ?_, ?_⟩
      · exact .inl hp
      · rw [List.zip_cons_cons, List.zip_append (by simp)]
        simp only [leftToRight, List.zip_cons_cons]
        rw [leftToRight_append]
        simp only [leftToRight, connect, and_false]
        have : b.zip (b.map (fun _ => False)) = b.map (fun o => (o, False)) := by
          clear hand ho h
          induction b with
          | nil => rfl
          | cons x b ih => simp [ih]
        rw [this, leftToRight_false]
        exact id

/-- The reading is the conventional one if and only if no AND comes after an OR; the English property
is false of all other chains. -/
theorem C41_exact (r : List Op) (ho : ∀ o ∈ r, o = .and ∨ o = .or) :
    (∀ (p : Prop) (v : List Prop), v.length = r.length →
      (leftToRight p (r.zip v) ↔ conventional p (r.zip v))) ↔ NoAndAfterOr r := by
  constructor
  · intro h
    refine Classical.byContradiction fun hn => ?_
    obtain ⟨v, h1, h2, h3⟩ := differ r True trivial ho hn
    exact h3 ((h True v h1).2 h2)
  · intro hn p v hv
    refine (conventional_of_noAndAfterOr _ p ?_ ?_).symm
    · intro x hx
      exact ho x.1 (List.of_mem_zip hx).1
    · rwa [List.map_fst_zip (by omega)]

/-- Partial: chains in which no AND comes after an OR have the conventional meaning.  Missing: all
other chains, for which the property is false (`C41_exact`, `C41_or_and`). -/
theorem C41_conventional_partial (e : Env) (ρ : String → Label) (x : Operand) (r : List (Op × Operand))
    (ho : ∀ p ∈ r, p.1 = .and ∨ p.1 = .or) (hn : NoAndAfterOr (r.map Prod.fst)) :
    ∃ t, parse levels (chainText x r) = some t ∧
      (Truth e ρ t ↔
        conventional (Truth e ρ x.tree) (r.map (fun p => (p.1, Truth e ρ p.2.tree)))) := by
  obtain ⟨t, h1, h2⟩ := C41_left_to_right e ρ x r ho
  refine ⟨t, h1, h2.trans (conventional_of_noAndAfterOr _ _ ?_ ?_).symm⟩
  · intro y hy
    obtain ⟨p, hp, rfl⟩ := List.mem_map.1 hy
    exact ho p hp
  · rw [List.map_map]
    exact hn

/-- `a OR b AND c` is `(a OR b) AND c`, which is false although the conventional reading is true
exactly when `a` holds and `c` does not. -/
theorem C41_or_and (e : Env) (ρ : String → Label) (a b c : Leaf) :
    ∃ t, parse levels [.atom a, .op .or, .atom b, .op .and, .atom c] = some t ∧
      (Truth e ρ t ↔ (LeafTruth e ρ a ∨ LeafTruth e ρ b) ∧ LeafTruth e ρ c) ∧
      ((LeafTruth e ρ a ∨ (LeafTruth e ρ b ∧ LeafTruth e ρ c)) ∧ ¬ Truth e ρ t ↔
        LeafTruth e ρ a ∧ ¬ LeafTruth e ρ c) := by
  refine ⟨.chain (.atom a) (.more .or (.atom b) (.one .and (.atom c))), ?_, ?_, ?_⟩
  · exact (parse_iff levels levels_disjoint _ _).2
      (.chain (ts := [.atom a]) (rs := [.op Op.or, .atom b, .op Op.and, .atom c]) (.atom a)
        (.more (ts := [.atom b]) (rs := [.op Op.and, .atom c]) rfl (.atom b) (.one rfl (.atom c))))
  · simp only [Truth, RestTruth, connect]
  · simp only [Truth, RestTruth, connect]
    constructor
    · rintro ⟨h1, h2⟩
      by_cases hc : LeafTruth e ρ c
      · exact absurd ⟨h1.imp id And.left, hc⟩ h2
      · rcases h1 with h1 | h1
        · exact ⟨h1, hc⟩
        · exact absurd h1.2 hc
    · rintro ⟨h1, h2⟩
      exact ⟨.inl h1, fun h => h2 h.2⟩

/-! ### C43: parsing inverts printing, for any table of operators -/

/-- The parser accepts exactly the texts of the grammar, and returns the tree they are a text of; so
every text has at most one reading. -/
theorem C43_grammar {O α : Type} (g : Levels O) (hg : g.Disjoint) (ts : List (Tok O α))
    (t : Tree O α) : parse g ts = some t ↔ Derives g g.bins t ts :=
  parse_iff g hg ts t

/-- Writing a formula with full parentheses and parsing it gives the formula back. -/
theorem C43_round_trip {O α : Type} (g : Levels O) (hg : g.Disjoint) (φ : Formula O α)
    (hφ : φ.Ok g) : ∃ t, parse g φ.write = some t ∧ t.formula = φ :=
  ⟨φ.tree, (parse_iff g hg _ _).2 (derives_write g φ hφ), formula_tree φ⟩

/-! ### Concrete cases -/

/-- Two technologies, of which one has a capacity; an operation mode in the configuration. -/
def demo : Env where
  dims := ["techs"]
  coords _ := ["pv", "wind"]
  input p := if p = "flow_cap_max" then
      ⟨.number, ⟨["techs"], fun c => if c = ["pv"] then .num 10 else .nan⟩, .num 5⟩
    else ⟨.number, scalar .nan, .nan⟩
  result _ := none
  config o := if o = "mode" then some (.str "plan") else none
  matrix := ⟨["techs"], fun _ => true⟩
  arith _ _ _ := .nan

/-- `flow_cap_max=5 AND NOT flow_cap_max` holds for wind (by its default), not for pv. -/
example : ∃ a, evalTree demo (.chain (.atom (.cmp (.input "flow_cap_max") .eq (.num 5)))
      (.one .and (.pre .not (.atom (.input "flow_cap_max"))))) = .ok a ∧
    a.at (fun _ => "wind") = true ∧ a.at (fun _ => "pv") = false :=
  ⟨_, rfl, rfl, rfl⟩

/-- Operands that do not return: an unknown configuration option. -/
example : evalTree demo (.atom (.cmp (.config "foo") .eq (.num 5))) = .error .backendError := rfl

/-- `C40_defined_any`, `C40_defined_all`: wind and pv are defined at the north node, only wind in the south. -/
def placed : Env := { demo with
  dims := ["techs", "nodes"]
  coords := fun d => if d = "techs" then ["wind", "pv"] else if d = "nodes" then ["north", "south"] else []
  matrix := ⟨["nodes", "techs"], fun k => decide (k ≠ ["south", "pv"])⟩ }

example : ∃ a b, evalLeaf placed (.defined [("techs", ["wind", "pv"])] "nodes" .any) = .ok a ∧
    evalLeaf placed (.defined [("techs", ["wind", "pv"])] "nodes" .all) = .ok b ∧
    a.at (fun _ => "south") = true ∧ b.at (fun _ => "south") = false ∧ b.at (fun _ => "north") = true :=
  ⟨_, _, rfl, rfl, rfl, rfl, rfl⟩

/-- `C40_numbers`: some values of `flow_cap_max` are missing. -/
example : (∀ s, (demo.input "flow_cap_max").default ≠ .str s) ∧
    (∀ k s, (demo.input "flow_cap_max").arr.val k ≠ .str s) := by
  constructor
  · intro s; simp [demo]
  · intro k s; simp only [demo, if_pos]; split <;> simp

/-- `C40_item_by_item`: another model with other data for pv only. -/
example : AgreeAt demo { demo with input := fun p => if p = "flow_cap_max" then
      ⟨.number, ⟨["techs"], fun c => if c = ["pv"] then .num 11 else .nan⟩, .num 5⟩
    else ⟨.number, scalar .nan, .nan⟩ } (fun _ => "wind") := by
  refine ⟨rfl, rfl, rfl, rfl, ?_, ?_, ?_, fun _ => rfl, fun _ => rfl, fun _ _ => rfl⟩ <;> intro p <;>
    by_cases h : p = "flow_cap_max" <;> simp [demo, h, Arr.at]

/-- `C40_missing_false`. -/
example : (demo.input "flow_cap_max").arr.at (fun _ => "wind") = .nan := rfl

/-- `C40_absent_lookup`: a text lookup with a default. -/
example : Given .text (.str "default") := .inr (by simp)

/-- `C41`: a chain with a negated operand, no AND after an OR. -/
example : NoAndAfterOr [.and, .or, .or] ∧ ¬ NoAndAfterOr [.or, .and] := by
  simp [NoAndAfterOr]

example : Operand := ⟨.pre .not (.atom (.bool true)), [.op .not, .atom (.bool true)], .pre rfl (.atom _)⟩

/-- `C43`: a formula of depth three over the operators of `where` strings. -/
example : (Formula.bin Op.or (.pre .not (.leaf (Leaf.bool true)))
    (.bin .and (.leaf (.bool false)) (.leaf (.bool true)))).Ok levels := by
  simp [Formula.Ok, levels]

end Where
end Calliope
