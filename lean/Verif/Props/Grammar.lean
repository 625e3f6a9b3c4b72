import Verif.Proofs.GrammarNames

/-!
# C101: a math string is read as it is written
-/

namespace Calliope
namespace Grammar

open Arith (Op isAdd isMul isPow)
open Where (CmpOp)

section

theorem equation_ok (names : Str → Bool) : (inEquations names).Ok := fun _ h => h
theorem sub_ok (names : Str → Bool) : (inSubs names).Ok := fun _ h => h
theorem slice_ok (names : Str → Bool) : (inSlices names).Ok := fun _ h => h

/-- The string of a global expression or an objective is read as `t` exactly if it is a way to write `t`. -/
theorem C101_arithmetic (names : Str → Bool) (s : Str) (t : Ast) :
    readArithmetic names s = some t ↔
      ∃ ts, Written false s ts ∧ Spells (inEquations names) [isAdd, isMul, isPow] t ts := by
  unfold readArithmetic
  rw [readAll_iff]
  exact exists_congr fun ts => and_congr_right fun _ => level_iff (equation_ok names)

/-- The string of a constraint is read as `l o r` exactly if it is a way to write `l`, one of `<=`, `>=` and `==`, and
`r`. -/
theorem C101_equation (names : Str → Bool) (s : Str) (l r : Ast) (o : CmpOp) :
    readEquation names s = some (l, o, r) ↔
      ∃ ts, Written false s ts ∧ SEquation (inEquations names) l o r ts := by
  unfold readEquation
  rw [readAll_iff]
  exact exists_congr fun ts => and_congr_right fun _ => equation_iff (equation_ok names)

/-- A sub-expression is read as `t` exactly if it is a way to write `t` without `$name`. -/
theorem C101_sub (names : Str → Bool) (s : Str) (t : Ast) :
    readSub names s = some t ↔ ∃ ts, Written false s ts ∧ Spells (inSubs names) [isAdd, isMul, isPow] t ts := by
  unfold readSub
  rw [readAll_iff]
  exact exists_congr fun ts => and_congr_right fun _ => level_iff (sub_ok names)

/-- A slice is read as `a` exactly if it is a way to write `a` without operators. -/
theorem C101_slice (names : Str → Bool) (s : Str) (a : Arg) :
    readSlice names s = some a ↔ ∃ ts, Written false s ts ∧ SSliceDef (inSlices names) a ts := by
  unfold readSlice
  rw [readAll_iff]
  exact exists_congr fun ts => and_congr_right fun _ => sliceDef_iff (slice_ok names)

/-- A string is a way to write one expression at most. -/
theorem C101_one_meaning (names : Str → Bool) (s : Str) (t u : Ast) (ts us : List Tok) (h1 : Written false s ts)
    (h2 : Spells (inEquations names) [isAdd, isMul, isPow] t ts) (h3 : Written false s us)
    (h4 : Spells (inEquations names) [isAdd, isMul, isPow] u us) : ts = us ∧ t = u := by
  refine ⟨written_unique h1 h3, ?_⟩
  have a := (C101_arithmetic names s t).2 ⟨ts, h1, h2⟩
  have b := (C101_arithmetic names s u).2 ⟨us, h3, h4⟩
  rw [a] at b
  exact Option.some.inj b

/-! ### Validation -/

/-- The identifiers in a string. -/
def Uses (s : Str) (n : Str) : Prop := ∃ ts, Written false s ts ∧ n ∈ idsOf ts

theorem sameOn_names {names names' : Str → Bool} {s : Str} (h : ∀ n, Uses s n → names n = names' n) {ts : List Tok}
    (hw : Written false s ts) : SameOn (inEquations names) (inEquations names') (idsOf ts) := by
  constructor <;> first
    | rfl
    | exact fun n hn => h n ⟨ts, hw, hn⟩

theorem sameOn_slice {names names' : Str → Bool} {s : Str} (h : ∀ n, Uses s n → names n = names' n) {ts : List Tok}
    (hw : Written false s ts) : SameOn (inSlices names) (inSlices names') (idsOf ts) := by
  constructor <;> first
    | rfl
    | exact fun n hn => h n ⟨ts, hw, hn⟩

theorem sameOn_sub {names names' : Str → Bool} {s : Str} (h : ∀ n, Uses s n → names n = names' n) {ts : List Tok}
    (hw : Written false s ts) : SameOn (inSubs names) (inSubs names') (idsOf ts) := by
  constructor <;> first
    | rfl
    | exact fun n hn => h n ⟨ts, hw, hn⟩

theorem names_agree {m : Names} {s : Str} (h : ∀ n, Uses s n → ∀ a, (n, a) ∈ m → (n, true) ∈ m) :
    ∀ n, Uses s n → validationNames m n = buildNames m n := by
  intro n hn
  have hiff : validationNames m n = true ↔ buildNames m n = true := by
    simp only [validationNames, buildNames, List.any_eq_true, Bool.and_eq_true, decide_eq_true_eq]
    constructor
    · rintro ⟨⟨x, a⟩, hx, rfl⟩
      exact ⟨(x, true), h x hn a hx, rfl, rfl⟩
    · rintro ⟨x, hx, hn, _⟩
      exact ⟨x, hx, hn⟩
  cases h1 : validationNames m n <;> cases h2 : buildNames m n <;> simp_all

/-- If what a string uses of the math is active, the backend reads it as validation did: also if validation did not
read it. -/
theorem C101_validated (m : Names) (s : Str) (h : ∀ n, Uses s n → ∀ a, (n, a) ∈ m → (n, true) ∈ m) :
    readArithmetic (buildNames m) s = readArithmetic (validationNames m) s ∧
    readEquation (buildNames m) s = readEquation (validationNames m) s ∧
    readSub (buildNames m) s = readSub (validationNames m) s ∧
    readSlice (buildNames m) s = readSlice (validationNames m) s := by
  have hn := names_agree h
  have hn' : ∀ n, Uses s n → buildNames m n = validationNames m n := fun n hu => (hn n hu).symm
  have same : ∀ {α : Type} {a b : Option α}, (∀ x, a = some x ↔ b = some x) → a = b := fun h => Option.ext h
  refine ⟨same fun x => ?_, same fun x => ?_, same fun x => ?_, same fun x => ?_⟩
  · rw [C101_arithmetic, C101_arithmetic]
    exact exists_congr fun ts => and_congr_right fun hw =>
      ⟨fun h => spells_congr h (sameOn_names hn' hw), fun h => spells_congr h (sameOn_names hn hw)⟩
  · obtain ⟨l, o, r⟩ := x
    rw [C101_equation, C101_equation]
    refine exists_congr fun ts => and_congr_right fun hw => ?_
    have key : ∀ {n n' : Str → Bool}, (∀ k, Uses s k → n k = n' k) → SEquation (inEquations n) l o r ts →
        SEquation (inEquations n') l o r ts := by
      intro n n' hnn h
      have hs := sameOn_names hnn hw
      cases h with
      | eqn ho h1 h2 =>
        exact .eqn ho (spells_congr h1 (hs.sub (by intro k hk; simp [ids_append, hk])))
          (spells_congr h2 (hs.sub (by intro k hk; simp [ids_append, idsOf, hk])))
    exact ⟨key hn', key hn⟩
  · rw [C101_sub, C101_sub]
    exact exists_congr fun ts => and_congr_right fun hw =>
      ⟨fun h => spells_congr h (sameOn_sub hn' hw), fun h => spells_congr h (sameOn_sub hn hw)⟩
  · rw [C101_slice, C101_slice]
    refine exists_congr fun ts => and_congr_right fun hw => ?_
    have key : ∀ {n n' : Str → Bool}, (∀ k, Uses s k → n k = n' k) → SSliceDef (inSlices n) x ts →
        SSliceDef (inSlices n') x ts := by
      intro n n' hnn h
      have hs := sameOn_slice hnn hw
      cases h with
      | ex h => exact .ex (spells_congr h hs)
      | list h => exact .list (sList_congr h hs)
      | text hi hk hc =>
        exact .text hi (by rw [← hs.known _ (by simp [idsOf])]; exact hk) (by rw [← hs.comp _ (by simp [idsOf])]; exact hc)
    exact ⟨key hn', key hn⟩

end

/-! ### Demo -/

section Demo

def demoNames : Names := [("x".toList, true), ("y".toList, true), ("z".toList, false), ("techs".toList, true)]

/-- Operators and calls; the sign binds more tightly than `**`. -/
example : readArithmetic (validationNames demoNames) "-x**2 + sum(x*$s, over=[techs])/(y[techs=$t]-1.5e-3)".toList =
    some (.chain (.chain (.sign .minus (.comp "x".toList)) (.one .pow (.num "2".toList)))
      (.one .plus (.chain
        (.call "sum".toList (.cons (.ex (.chain (.comp "x".toList) (.one .times (.sub "s".toList)))) .nil)
          (.cons "over".toList (.list [.comp "techs".toList]) .nil))
        (.one .div (.chain (.sliced "y".toList [("techs".toList, .ref "t".toList)])
          (.one .minus (.num "1.5e-3".toList))))))) := by
  decide +kernel

/-- An equation, with `.inf`. -/
example : readEquation (validationNames demoNames) "x <= .inf".toList =
    some (.comp "x".toList, .le, .num "inf".toList) := by decide +kernel

/-- A slice. -/
example : readSlice (validationNames demoNames) "get_val_at_index(timesteps=-1)".toList =
    some (.ex (.call "get_val_at_index".toList .nil (.cons "timesteps".toList (.ex (.num "-1".toList)) .nil))) := by decide +kernel

/-- What is not read: a blank before a parenthesis, a name that is not in the math, `$` in a sub-expression. -/
example : readArithmetic (validationNames demoNames) "sum (x)".toList = none ∧
    readArithmetic (validationNames demoNames) "w + 1".toList = none ∧
    readSub (validationNames demoNames) "$s".toList = none ∧
    readArithmetic (validationNames demoNames) "x + ".toList = none := by
  refine ⟨?_, ?_, ?_, ?_⟩ <;> decide +kernel

/-- The comma before a keyword argument may be missing. -/
example : readArithmetic (validationNames demoNames) "sum(x over=techs)".toList =
    readArithmetic (validationNames demoNames) "sum(x, over=techs)".toList := by decide +kernel

/-- With a name that is not active, validation passes and the backend does not read the string. -/
theorem C101_inactive : readArithmetic (validationNames demoNames) "x + z".toList ≠ none ∧
    readArithmetic (buildNames demoNames) "x + z".toList = none := by
  refine ⟨?_, by decide +kernel⟩
  rw [show readArithmetic (validationNames demoNames) "x + z".toList =
    some (.chain (.comp "x".toList) (.one .plus (.comp "z".toList))) from by decide +kernel]
  simp

/-- Or the backend reads the name as a text, without an error. -/
theorem C101_inactive_text :
    readArithmetic (validationNames demoNames) "sum(x, over=z)".toList =
      some (.call "sum".toList (.cons (.ex (.comp "x".toList)) .nil)
        (.cons "over".toList (.ex (.comp "z".toList)) .nil)) ∧
    readArithmetic (buildNames demoNames) "sum(x, over=z)".toList =
      some (.call "sum".toList (.cons (.ex (.comp "x".toList)) .nil) (.cons "over".toList (.text "z".toList) .nil)) := by
  constructor <;> decide +kernel

/-- What `C101_validated` asks for. -/
example : ∀ m, Uses "x + y".toList m → ∀ a, (m, a) ∈ demoNames → (m, true) ∈ demoNames := by
  rintro m ⟨ts, hw, hm⟩ a ha
  have hl : lex "x + y".toList = some [(false, .id "x".toList), (false, .op .plus), (false, .id "y".toList)] := by decide +kernel
  have he := written_unique hw ((lex_iff _ _).1 hl)
  subst he
  simp only [idsOf, List.mem_cons, List.not_mem_nil, or_false] at hm
  rcases hm with rfl | rfl <;> simp [demoNames]

end Demo
end Grammar
end Calliope
