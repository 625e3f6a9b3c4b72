import Verif.Proofs.WhereGrammar
import Verif.Props.Grammar

/-!
# C102: a where string is read as it is written
-/

namespace Calliope
namespace Grammar

open Where (CmpOp)

section

/-- A where string is read as the condition `t` exactly if it is a way to write `t`. -/
theorem C102_where (n : WNames) (s : Str) (t : Infix.Tree Where.Op WLeaf) :
    readWhere n s = some t ↔ ∃ ts, Written false s ts ∧ SCond n t ts := by
  unfold readWhere
  rw [readAll_iff]
  exact exists_congr fun ts => and_congr_right fun _ => cond_iff

/-- A string is a way to write one condition at most. -/
theorem C102_one_meaning (n : WNames) (s : Str) (t u : Infix.Tree Where.Op WLeaf) (ts us : List Tok)
    (h1 : Written false s ts) (h2 : SCond n t ts) (h3 : Written false s us) (h4 : SCond n u us) : ts = us ∧ t = u := by
  refine ⟨written_unique h1 h3, ?_⟩
  have a := (C102_where n s t).2 ⟨ts, h1, h2⟩
  have b := (C102_where n s u).2 ⟨us, h3, h4⟩
  rw [a] at b
  exact Option.some.inj b

/-! ### Validation -/

theorem has_iff {m : WMath} {k : Sort'} {s : Str} : m.has k s = true ↔ ∃ a, (s, k, a) ∈ m := by
  simp only [WMath.has, List.any_eq_true, Bool.and_eq_true, decide_eq_true_eq]
  constructor
  · rintro ⟨⟨x, k', a⟩, hx, rfl, rfl⟩; exact ⟨a, hx⟩
  · rintro ⟨a, h⟩; exact ⟨_, h, rfl, rfl⟩

theorem active_iff {m : WMath} {k : Sort'} {s : Str} : m.active k s = true ↔ (s, k, true) ∈ m := by
  simp only [WMath.active, List.any_eq_true, Bool.and_eq_true, decide_eq_true_eq]
  constructor
  · rintro ⟨⟨x, k', a⟩, hx, ⟨rfl, rfl⟩, rfl⟩; exact hx
  · intro h; exact ⟨_, h, ⟨rfl, rfl⟩, rfl⟩

theorem bool_iff {a b : Bool} (h : a = true ↔ b = true) : a = b := by
  cases a <;> cases b <;> simp_all

theorem extended_input {m : WMath} {s : Str} (h : ∀ a a', (s, .input, a) ∈ m → (s, .result, a') ∈ m → (s, .input, true) ∈ m) :
    m.extended .input s = m.has .input s := by
  apply bool_iff
  simp only [WMath.extended, Bool.or_eq_true, Bool.and_eq_true, Bool.not_eq_true', Bool.or_eq_false_iff]
  rw [active_iff, has_iff]
  constructor
  · rintro (h1 | ⟨h1, _⟩)
    · exact ⟨true, h1⟩
    · exact h1
  · rintro ⟨a, ha⟩
    by_cases hact : (s, .input, true) ∈ m
    · exact .inl hact
    · refine .inr ⟨⟨a, ha⟩, ?_, ?_⟩
      · rw [Bool.eq_false_iff, ne_eq, active_iff]; exact hact
      · rw [Bool.eq_false_iff, ne_eq, active_iff]
        exact fun h2 => hact (h _ _ ha h2)

theorem extended_result {m : WMath} {s : Str} (h : ∀ a, (s, .input, a) ∉ m) : m.extended .result s = m.has .result s := by
  apply bool_iff
  simp only [WMath.extended, Bool.or_eq_true, Bool.and_eq_true, Bool.not_eq_true', Bool.or_eq_false_iff]
  rw [active_iff, has_iff]
  constructor
  · rintro (h1 | ⟨h1, _⟩)
    · exact ⟨true, h1⟩
    · exact h1
  · rintro ⟨a, ha⟩
    by_cases hact : (s, .result, true) ∈ m
    · exact .inl hact
    · refine .inr ⟨⟨a, ha⟩, ?_, ?_⟩
      · rw [Bool.eq_false_iff, ne_eq, active_iff]; exact h true
      · rw [Bool.eq_false_iff, ne_eq, active_iff]; exact hact

/-- The same names, but for results that are inputs, too. -/
theorem sameNames_validated {m : WMath} {l : List Str} (hd : ∀ n ∈ l, ∀ a, (n, .dim, a) ∈ m → (n, .dim, true) ∈ m)
    (hu : ∀ n ∈ l, ∀ a a', (n, .input, a) ∈ m → (n, .result, a') ∈ m → (n, .input, true) ∈ m) :
    SameNames (buildWhere m) (validationWhere m) l := by
  refine ⟨fun n hn => ?_, fun n hn => extended_input (hu n hn), fun n hn hi => ?_, fun _ _ => rfl, rfl⟩
  · apply bool_iff
    show m.active .dim n = true ↔ m.has .dim n = true
    rw [active_iff, has_iff]
    exact ⟨fun h => ⟨true, h⟩, fun ⟨a, h⟩ => hd n hn a h⟩
  · apply extended_result
    intro a ha
    have h1 : m.extended .input n = true := by rw [extended_input (hu n hn), has_iff]; exact ⟨a, ha⟩
    have h2 : m.extended .input n = false := hi
    rw [h1] at h2; cases h2

/-- If the dimensions that a where string uses are active, and the inputs that it uses are active where they have the
name of a result, the backend reads it as validation did: also if validation did not read it, and also if it uses
components that are not active. -/
theorem C102_validated (m : WMath) (s : Str)
    (hd : ∀ n, Uses s n → ∀ a, (n, .dim, a) ∈ m → (n, .dim, true) ∈ m)
    (hu : ∀ n, Uses s n → ∀ a a', (n, .input, a) ∈ m → (n, .result, a') ∈ m → (n, .input, true) ∈ m) :
    readWhere (buildWhere m) s = readWhere (validationWhere m) s := by
  have key : ∀ ts, Written false s ts → SameNames (buildWhere m) (validationWhere m) (idsOf ts) := fun ts hw =>
    sameNames_validated (fun n hn => hd n ⟨ts, hw, hn⟩) (fun n hn => hu n ⟨ts, hw, hn⟩)
  apply Option.ext
  intro t
  rw [C102_where, C102_where]
  exact exists_congr fun ts => and_congr_right fun hw =>
    ⟨fun h => sCond_congr h (key ts hw), fun h => sCond_congr h (key ts hw).symm⟩

end

/-! ### Demo -/

section Demo

/-- `nodes` is not active, `carriers` is; the lookup `base_tech` and the variable `cap` are active, the variable `old`
is not; `size` is a parameter that is not active and a variable that is. -/
def demoWhere : WMath :=
  [("nodes".toList, .dim, false), ("carriers".toList, .dim, true), ("base_tech".toList, .input, true),
    ("cap".toList, .result, true), ("old".toList, .result, false), ("size".toList, .input, false),
    ("size".toList, .result, true)]

/-- `not` binds more tightly than `and` and `or`, which are read from left to right. -/
example : readWhere (validationWhere demoWhere)
      "cap or NOT base_tech=='supply' and [heat, config.foo] in carriers".toList = none ∧
    readWhere (validationWhere demoWhere) "cap or NOT base_tech==supply and [heat, config.foo] in carriers".toList =
      some (.chain (.atom (.result "cap".toList)) (.more .or (.pre .not (.atom (.cmp (.comp "base_tech".toList) .eq
          (.text "supply".toList))))
        (.one .and (.atom (.isIn [.text "heat".toList, .config "foo".toList] "carriers".toList))))) := by
  constructor <;> decide +kernel

/-- A function, parentheses and booleans. -/
example : readWhere (validationWhere demoWhere) "(defined(carriers=heat, within=nodes, how=any) and (true))".toList =
    some (.chain (.atom (.call "defined".toList .nil (.cons "carriers".toList (.text "heat".toList)
        (.cons "within".toList (.ex (.comp "nodes".toList)) (.cons "how".toList (.text "any".toList) .nil)))))
      (.one .and (.atom (.bool true)))) := by decide +kernel

/-- Parentheses of arithmetic and of conditions. -/
example : readWhere (validationWhere demoWhere) "((2 * base_tech) > 1 and (base_tech))".toList =
    some (.chain (.atom (.cmp (.chain (.num "2".toList) (.one .times (.comp "base_tech".toList))) .gt (.num "1".toList)))
      (.one .and (.atom (.input "base_tech".toList)))) := by decide +kernel

/-- What is not read: a dimension by itself, a result in a comparison, nothing after `and`, no blank before `in`. -/
example : readWhere (validationWhere demoWhere) "nodes".toList = none ∧
    readWhere (validationWhere demoWhere) "cap > 1".toList = none ∧
    readWhere (validationWhere demoWhere) "cap and".toList = none ∧
    readWhere (validationWhere demoWhere) "[heat]in carriers".toList = none := by
  refine ⟨?_, ?_, ?_, ?_⟩ <;> decide +kernel

/-- A component that is not active is read by the backend, too. -/
example : readWhere (buildWhere demoWhere) "not old".toList = some (.pre .not (.atom (.result "old".toList))) := by
  decide +kernel

/-- With a dimension that is not active, validation passes and the backend does not read the string. -/
theorem C102_inactive_dimension :
    readWhere (validationWhere demoWhere) "[a] in nodes".toList =
      some (.atom (.isIn [.text "a".toList] "nodes".toList)) ∧
    readWhere (buildWhere demoWhere) "[a] in nodes".toList = none := by
  constructor <;> decide +kernel

/-- A name that is an active variable and a parameter that is not active: validation passes and the backend does not
read the string; or the backend reads the variable where validation read the parameter. -/
theorem C102_two_groups :
    readWhere (validationWhere demoWhere) "size > 1".toList =
      some (.atom (.cmp (.comp "size".toList) .gt (.num "1".toList))) ∧
    readWhere (buildWhere demoWhere) "size > 1".toList = none ∧
    readWhere (validationWhere demoWhere) "size".toList = some (.atom (.input "size".toList)) ∧
    readWhere (buildWhere demoWhere) "size".toList = some (.atom (.result "size".toList)) := by
  refine ⟨?_, ?_, ?_, ?_⟩ <;> decide +kernel

/-- What `C102_validated` asks for: here with a variable that is not active. -/
example : (∀ n, Uses "old and cap".toList n → ∀ a, (n, .dim, a) ∈ demoWhere → (n, .dim, true) ∈ demoWhere) ∧
    (∀ n, Uses "old and cap".toList n → ∀ a a', (n, .input, a) ∈ demoWhere → (n, .result, a') ∈ demoWhere →
      (n, .input, true) ∈ demoWhere) := by
  have hl : lex "old and cap".toList =
      some [(false, .id "old".toList), (false, .id "and".toList), (false, .id "cap".toList)] := by decide +kernel
  have hn : ∀ n, Uses "old and cap".toList n → n = "old".toList ∨ n = "and".toList ∨ n = "cap".toList := by
    rintro n ⟨ts, hw, hm⟩
    have he := written_unique hw ((lex_iff _ _).1 hl)
    subst he
    simpa [idsOf] using hm
  refine ⟨fun n hu a ha => ?_, fun n hu a a' h1 h2 => ?_⟩
  · rcases hn n hu with rfl | rfl | rfl <;> simp [demoWhere] at ha
  · rcases hn n hu with rfl | rfl | rfl <;> simp [demoWhere] at h1 h2

end Demo
end Grammar
end Calliope
