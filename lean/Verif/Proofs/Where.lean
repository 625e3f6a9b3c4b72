import Mathlib.Algebra.Order.Ring.Unbundled.Rat
import Verif.Spec.Where
import Verif.Proofs.Grid
import Verif.Proofs.Infix

namespace Calliope
namespace Where

open Grid Infix

theorem string_le_iff (a b : String) : ¬ b < a ↔ a < b ∨ a = b := by
  constructor
  · intro h
    by_cases hab : a < b
    · exact .inl hab
    · exact .inr (String.le_antisymm h hab)
  · rintro (h | rfl)
    · exact String.lt_asymm h
    · exact String.lt_irrefl _

theorem less_num {a b : Rat} : Less (.num a) (.num b) ↔ a < b :=
  ⟨fun h => by cases h; assumption, .num⟩
theorem less_text {a b : String} : Less (.str a) (.str b) ↔ a < b :=
  ⟨fun h => by cases h; assumption, .text⟩

theorem cmpVal_iff (o : CmpOp) (l r : Val) : cmpVal o l r = some true ↔ Compares o l r := by
  have key : ∀ (x y : Val), (∀ b, x ≠ .bool b) → (∀ b, y ≠ .bool b) →
      (cmpVal o x y = some true ↔ Compares o x y) := by
    intro x y hx hy
    cases o <;> cases x <;> cases y <;>
      first
      | exact absurd rfl (hx _)
      | exact absurd rfl (hy _)
      | (simp only [cmpVal, Val.key, Val.numeric, Compares, asNumber, Same, less_num, less_text, keyLt]
         first
         | (constructor
            · intro h; first | (simp at h; done) | exact .ends | exact .below _ | exact .above _
            · intro h; first | rfl | (cases h; done))
         | (simp; done)
         | (simp; exact le_iff_lt_or_eq)
         | (simp; rw [le_iff_lt_or_eq, eq_comm])
         | (constructor
            · intro h; first | exact .inl .ends | exact .inl (.below _) | exact .inl (.above _)
            · intro h; rfl)
         | (constructor
            · intro h; first | (simp at h; done)
            · rintro (h | h)
              · cases h
              · first | (simp at h; done))
         | (simp only [Option.some.injEq, Bool.not_eq_true', decide_eq_false_iff_not, string_le_iff,
              Val.str.injEq, ne_eq, reduceCtorEq, not_false_eq_true, and_true]; done)
         | (simp only [Option.some.injEq, Bool.not_eq_true', decide_eq_false_iff_not, string_le_iff,
              Val.str.injEq, ne_eq, reduceCtorEq, not_false_eq_true, and_true]
            exact or_congr Iff.rfl eq_comm))
  have e1 : cmpVal o l r = cmpVal o (asNumber l) (asNumber r) := by
    cases o <;> cases l <;> cases r <;> rfl
  have e2 : Compares o l r ↔ Compares o (asNumber l) (asNumber r) := by
    have h : ∀ v, asNumber (asNumber v) = asNumber v := by intro v; cases v <;> rfl
    cases o <;> simp only [Compares, h]
  rw [e1, e2]
  apply key <;> intro b h
  · cases l <;> simp [asNumber] at h
  · cases r <;> simp [asNumber] at h

theorem given_iff (k : Kind) (v : Val) : given k v = true ↔ Given k v := by
  unfold Given
  cases k <;> simp [given, and_assoc]

theorem at_dimArr (d : String) (ρ : String → Label) : (dimArr d).at ρ = .str (ρ d) := rfl

theorem dimValue (e : Env) (d : String) (ρ : String → Label) :
    (if e.dims.contains d then dimArr d else scalar .nan).at ρ = labelOf e ρ d := by
  unfold labelOf
  by_cases h : d ∈ e.dims
  · have : e.dims.contains d = true := by simpa using h
    rw [if_pos this, if_pos h]; rfl
  · have : ¬ e.dims.contains d = true := by simpa using h
    rw [if_neg this, if_neg h]; rfl

theorem pyIndex_some {l : List Label} {i : Int} {x : Label} (h : pyIndex l i = some x) :
    (if i < 0 then l.reverse[(-i - 1).toNat]? else l[i.toNat]?) = some x := by
  unfold pyIndex at h
  by_cases h0 : 0 ≤ i
  · rw [if_pos h0] at h
    rw [if_neg (by omega), h]
  · rw [if_neg h0] at h
    rw [if_pos (by omega)]
    split at h
    · rename_i hlen
      rw [List.getElem?_reverse (by omega), ← h]
      congr 1
      omega
    · cases h

theorem valAt_ok {e : Env} {d : String} {i : Int} {a : Arr Val} (h : valAt e d i = .ok a)
    (ρ : String → Label) : a.at ρ = labelAt e d i := by
  unfold valAt at h
  unfold labelAt
  split at h
  · split at h
    · rename_i l hl
      cases h; rw [pyIndex_some hl]; rfl
    · cases h
  · cases h

theorem evalLhs_ok {e : Env} (ρ : String → Label) : ∀ {l : Lhs} {a : Arr Val},
    evalLhs e l = .ok a → a.at ρ = lhsValue e ρ l
  | .num q, a, h => by cases h; rfl
  | .dim d, a, h => by
      simp only [evalLhs, Except.ok.injEq] at h
      rw [← h, dimValue]; rfl
  | .input p, a, h => by cases h; rfl
  | .config o, a, h => by
      simp only [evalLhs] at h
      split at h
      · rename_i v hv
        cases h
        simp [lhsValue, hv]
      · cases h
  | .valAt d i, a, h => valAt_ok h ρ
  | .op o l r, a, h => by
      simp only [evalLhs] at h
      split at h
      · cases h
      · rename_i x hx
        split at h
        · cases h
        · rename_i y hy
          cases h
          rw [at_zip, evalLhs_ok ρ hx, evalLhs_ok ρ hy]; rfl
  | .result n, a, h => by
      simp only [evalLhs] at h
      split at h
      · rename_i v hv
        cases h
        simp [lhsValue, hv, numberOf]
      · cases h
  | .total n over, a, h => by
      simp only [evalLhs] at h
      split at h
      · rename_i v hv
        cases h
        simp [lhsValue, hv, numberOf]
      · cases h

theorem evalRhs_ok {e : Env} (ρ : String → Label) {r : Rhs} {a : Arr Val}
    (h : evalRhs e r = .ok a) : a.at ρ = rhsValue e r := by
  cases r with
  | bool b => cases h; rfl
  | num q => cases h; rfl
  | inf => cases h; rfl
  | str s => cases h; rfl
  | valAt d i => exact valAt_ok h ρ

theorem reduce_any (coords : String → List Label) (over : List String) (a : Arr Bool)
    (ρ : String → Label) :
    (reduce coords (howFn .any) over a).at ρ = true ↔
      ∃ σ, Along coords (a.dims.filter (fun d => over.contains d)) ρ σ ∧ a.at σ = true := by
  rw [at_reduce, ← exists_cells_iff coords _ ρ (fun σ => a.at σ = true)]
  simp [howFn]

theorem reduce_all (coords : String → List Label) (over : List String) (a : Arr Bool)
    (ρ : String → Label) :
    (reduce coords (howFn .all) over a).at ρ = true ↔
      ∀ σ, Along coords (a.dims.filter (fun d => over.contains d)) ρ σ → a.at σ = true := by
  rw [at_reduce, ← forall_cells_iff coords _ ρ (fun σ => a.at σ = true)]
  simp [howFn]

theorem along_congr {coords : String → List Label} {ds es : List String}
    (h : ∀ d, d ∈ ds ↔ d ∈ es) {ρ σ : String → Label} :
    Along coords ds ρ σ ↔ Along coords es ρ σ := by
  unfold Along
  constructor
  · rintro ⟨a, b⟩
    exact ⟨fun d hd => a d (fun h' => hd ((h d).1 h')), fun d hd => b d ((h d).2 hd)⟩
  · rintro ⟨a, b⟩
    exact ⟨fun d hd => a d (fun h' => hd ((h d).2 h')), fun d hd => b d ((h d).1 hd)⟩

theorem reduce_dims (coords : String → List Label) {V W : Type} (f : List V → W) (over : List String)
    (a : Arr V) : (reduce coords f over a).dims = a.dims.filter (fun d => !over.contains d) := rfl

theorem evalDefined_ok {e : Env} {sel : List (String × List Label)} {within : String} {how : How}
    {a : Arr Bool} (h : evalDefined e sel within how = .ok a) (ρ : String → Label) :
    a.at ρ = true ↔ LeafTruth e ρ (.defined sel within how) := by
  unfold evalDefined at h
  simp only [] at h
  split at h
  · rename_i hin
    split at h
    · cases h
      have hd : ∀ d, d ∈ ((reduce e.coords (howFn .any)
          (e.matrix.dims.filter (fun d => !(within :: sel.map Prod.fst).contains d))
          e.matrix).dims.filter (fun d => (sel.map Prod.fst).contains d)) ↔ d ∈ sel.map Prod.fst := by
        intro d
        rw [reduce_dims]
        simp only [List.mem_filter, List.contains_eq_mem, decide_eq_true_eq, Bool.not_eq_true',
          decide_eq_false_iff_not, not_and, Decidable.not_not]
        constructor
        · exact fun h => h.2
        · intro hd
          refine ⟨⟨?_, fun _ => List.mem_cons_of_mem _ hd⟩, hd⟩
          have := List.all_eq_true.1 hin d (List.mem_cons_of_mem _ hd)
          simpa using this
      have hf : ∀ d, d ∈ e.matrix.dims.filter (fun d =>
          (e.matrix.dims.filter (fun d => !(within :: sel.map Prod.fst).contains d)).contains d) ↔
          d ∈ e.matrix.dims.filter (fun d => !(within :: sel.map Prod.fst).contains d) := by
        intro d
        simp only [List.mem_filter, List.contains_eq_mem, decide_eq_true_eq]
        constructor
        · exact fun h => h.2
        · exact fun h => ⟨h.1, h⟩
      cases how with
      | any =>
        rw [reduce_any]
        simp only [along_congr hd, reduce_any, along_congr hf]
        rfl
      | all =>
        rw [reduce_all]
        simp only [along_congr hd, reduce_any, along_congr hf]
        rfl
    · cases h
  · cases h

theorem evalLeaf_ok {e : Env} (ρ : String → Label) {l : Leaf} {a : Arr Bool}
    (h : evalLeaf e l = .ok a) : a.at ρ = true ↔ LeafTruth e ρ l := by
  cases l with
  | bool b => cases h; exact Iff.rfl
  | input p => cases h; exact given_iff _ _
  | result r =>
    simp only [evalLeaf] at h
    split at h
    · rename_i x hx
      cases h
      simp [LeafTruth, hx]
    · cases h
  | cmp l o r =>
    simp only [evalLeaf] at h
    split at h
    · cases h
    · rename_i x hx
      split at h
      · cases h
      · rename_i y hy
        split at h
        · cases h
        · cases h
          rw [at_map, at_zip, evalLhs_ok ρ hx, evalRhs_ok ρ hy]
          show _ ↔ Compares o _ _
          rw [← cmpVal_iff]
          cases cmpVal o (lhsValue e ρ l) (rhsValue e r) <;> simp
  | isIn items d =>
    simp only [evalLeaf, Except.ok.injEq] at h
    rw [← h, at_map, dimValue]
    simp [LeafTruth]
  | anyInput p over =>
    cases h
    rw [reduce_any]
    simp only [inputCond, at_map, given_iff]
    exact Iff.rfl
  | anyResult r over =>
    simp only [evalLeaf] at h
    split at h
    · rename_i x hx
      cases h
      rw [reduce_any]
      simp [LeafTruth, hx]
    · cases h
  | defined sel within how => exact evalDefined_ok h ρ

theorem operate_iff (o : Op) (a b : Bool) : operate o a b = true ↔ connect o (a = true) (b = true) := by
  cases o <;> simp [operate, connect]

mutual
theorem evalTree_ok {e : Env} (ρ : String → Label) : ∀ {t : Tree Op Leaf} {a : Arr Bool},
    evalTree e t = .ok a → (a.at ρ = true ↔ Truth e ρ t)
  | .atom l, a, h => evalLeaf_ok ρ h
  | .pre o t, a, h => by
      simp only [evalTree] at h
      split at h
      · cases h
      · rename_i x hx
        cases h
        rw [at_map]
        have := evalTree_ok ρ hx
        simp only [Truth, ← this]
        cases x.at ρ <;> simp
  | .chain t r, a, h => by
      simp only [evalTree] at h
      split at h
      · cases h
      · rename_i x hx
        simp only [Truth]
        exact evalRest_ok ρ (evalTree_ok ρ hx) h
theorem evalRest_ok {e : Env} (ρ : String → Label) : ∀ {acc : Arr Bool} {p : Prop} {r : Rest Op Leaf}
    {a : Arr Bool}, (acc.at ρ = true ↔ p) → evalRest e acc r = .ok a →
    (a.at ρ = true ↔ RestTruth e ρ p r)
  | acc, p, .one o t, a, hp, h => by
      simp only [evalRest] at h
      split at h
      · cases h
      · rename_i x hx
        cases h
        have := evalTree_ok ρ hx
        rw [at_zip, operate_iff]
        simp only [RestTruth, propext hp, propext this]
  | acc, p, .more o t r, a, hp, h => by
      simp only [evalRest] at h
      split at h
      · cases h
      · rename_i x hx
        have := evalTree_ok ρ hx
        simp only [RestTruth]
        refine evalRest_ok ρ ?_ h
        rw [at_zip, operate_iff]
        simp only [propext hp, propext this]
end

end Where
end Calliope
