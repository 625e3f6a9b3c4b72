import Verif.Proofs.Arith
import Verif.Proofs.WhereText

/-!
# C42, C43 (arithmetic) and C51: arithmetic strings and LaTeX text
-/

namespace Calliope
namespace Arith

open Infix

/-! ### C42 -/

/-- By the conventions of algebra, a text reads in at most one way. -/
theorem C42_convention_unique {α : Type} (ts : List (Tok Op α)) (φ ψ : Formula Op α)
    (h : Conv .sum φ ts) (h' : Conv .sum ψ ts) : φ = ψ :=
  conv_unique h h'

/-- Partial: a text in which powers have an unsigned base and no further power in their exponent, other than
in parentheses, is accepted and evaluated as by the conventions of algebra, whatever the values.
Missing: other texts, for which the property is false (`C42_sign_before_power`, `C42_power_of_power`). -/
theorem C42_conventional_partial {α V : Type} (ts : List (Tok Op α)) (φ : Formula Op α)
    (h : Plain .sum φ ts) :
    Conv .sum φ ts ∧ ∃ t, parse levels ts = some t ∧ t.formula = φ ∧
      ∀ (A : Alg V) (lv : α → V), valTree A lv t = valF A lv φ := by
  obtain ⟨t, h1, h2⟩ := plain_derives h
  refine ⟨plain_conv h, t, (parse_iff levels levels_disjoint ts t).2 h1, h2, fun A lv => ?_⟩
  rw [valTree_formula, h2]

/-- The grouping of sums and products is conventional: the code groups them from the left. -/
theorem C42_left_grouping {α : Type} (a b c : α) (o p : Op) (ho : isAdd o = true ∧ isAdd p = true ∨
      isMul o = true ∧ isMul p = true) :
    Conv .sum (.bin p (.bin o (.leaf a) (.leaf b)) (.leaf c)) [.atom a, .op o, .atom b, .op p, .atom c] ∧
    ∃ t, parse levels [.atom a, .op o, .atom b, .op p, .atom c] = some t ∧
      t.formula = .bin p (.bin o (.leaf a) (.leaf b)) (.leaf c) := by
  have hp : Plain .sum (.bin p (.bin o (.leaf a) (.leaf b)) (.leaf c))
      [.atom a, .op o, .atom b, .op p, .atom c] := by
    rcases ho with ⟨h1, h2⟩ | ⟨h1, h2⟩
    · exact .add (ts := [.atom a, .op o, .atom b]) (isAdd_iff.1 h2)
        (.add (ts := [.atom a]) (isAdd_iff.1 h1)
          (.prod (.power (.signed (.atom (.leaf a))))) (.power (.signed (.atom (.leaf b)))))
        (.power (.signed (.atom (.leaf c))))
    · exact .prod (.mul (ts := [.atom a, .op o, .atom b]) (isMul_iff.1 h2)
        (.mul (ts := [.atom a]) (isMul_iff.1 h1)
          (.power (.signed (.atom (.leaf a)))) (.signed (.atom (.leaf b))))
        (.signed (.atom (.leaf c))))
  obtain ⟨h1, t, h2, h3, _⟩ := C42_conventional_partial (V := Unit) _ _ hp
  exact ⟨h1, t, h2, h3⟩

/-- `-a ** b` is by convention `-(a ** b)`; the code computes `(-a) ** b`. -/
theorem C42_sign_before_power {α : Type} (a b : α) :
    Conv .sum (.pre .minus (.bin .pow (.leaf a) (.leaf b)))
      [.op .minus, .atom a, .op .pow, .atom b] ∧
    ∃ t, parse levels [.op .minus, .atom a, .op .pow, .atom b] = some t ∧
      t.formula = .bin .pow (.pre .minus (.leaf a)) (.leaf b) := by
  constructor
  · exact .prod (.unary (.sign (.inr rfl) (.pow (ts := [.atom a]) (.leaf a) (.atom (.leaf b)))))
  · refine ⟨.chain (.pre .minus (.atom a)) (.one .pow (.atom b)),
      (parse_iff levels levels_disjoint _ _).2 ?_, by simp only [Tree.formula, Rest.formula]⟩
    exact .lift (.lift (.chain (ts := [.op Op.minus, .atom a]) (.pre rfl (.atom a))
      (.one rfl (.atom b))))

/-- `a ** b ** c` is by convention `a ** (b ** c)`; the code computes `(a ** b) ** c`. -/
theorem C42_power_of_power {α : Type} (a b c : α) :
    Conv .sum (.bin .pow (.leaf a) (.bin .pow (.leaf b) (.leaf c)))
      [.atom a, .op .pow, .atom b, .op .pow, .atom c] ∧
    ∃ t, parse levels [.atom a, .op .pow, .atom b, .op .pow, .atom c] = some t ∧
      t.formula = .bin .pow (.bin .pow (.leaf a) (.leaf b)) (.leaf c) := by
  constructor
  · exact .prod (.unary (.pow (ts := [.atom a]) (.leaf a)
      (.pow (ts := [.atom b]) (.leaf b) (.atom (.leaf c)))))
  · refine ⟨.chain (.atom a) (.more .pow (.atom b) (.one .pow (.atom c))),
      (parse_iff levels levels_disjoint _ _).2 ?_, by simp only [Tree.formula, Rest.formula]⟩
    exact .lift (.lift (.chain (ts := [.atom a]) (.atom a)
      (.more (ts := [.atom b]) rfl (.atom b) (.one rfl (.atom c)))))

/-- Integers, with natural exponents. -/
def intAlg : Alg Int where
  zero := 0
  neg v := -1 * v
  op o a b := match o with
    | .plus => a + b
    | .minus => a - b
    | .times => a * b
    | .div => a / b
    | .pow => a ^ b.toNat

/-- The values differ: `-2 ** 2` is computed as 4 instead of -4, `2 ** 3 ** 2` as 64 instead of 512. -/
theorem C42_values :
    (∃ t : Tree Op Int, parse levels [.op .minus, .atom 2, .op .pow, .atom 2] = some t ∧
      valTree intAlg id t = 4) ∧
    (∃ φ, Conv .sum φ [.op .minus, .atom (2 : Int), .op .pow, .atom 2] ∧ valF intAlg id φ = -4) ∧
    (∃ t : Tree Op Int, parse levels [.atom 2, .op .pow, .atom 3, .op .pow, .atom 2] = some t ∧
      valTree intAlg id t = 64) ∧
    (∃ φ, Conv .sum φ [.atom (2 : Int), .op .pow, .atom 3, .op .pow, .atom 2] ∧
      valF intAlg id φ = 512) := by
  obtain ⟨h1, t, h2, h3⟩ := C42_sign_before_power (2 : Int) 2
  obtain ⟨g1, u, g2, g3⟩ := C42_power_of_power (2 : Int) 3 2
  refine ⟨⟨t, h2, ?_⟩, ⟨_, h1, ?_⟩, ⟨u, g2, ?_⟩, ⟨_, g1, ?_⟩⟩
  · rw [valTree_formula, h3]; decide
  · decide
  · rw [valTree_formula, g3]; decide
  · decide

/-! ### C43 for arithmetic -/

/-- Every arithmetic expression is read back from its text with full parentheses, and evaluated to its
value. -/
theorem C43_arithmetic {α V : Type} (φ : Formula Op α) (hφ : φ.Ok levels) :
    ∃ t, parse levels φ.write = some t ∧ t.formula = φ ∧
      ∀ (A : Alg V) (lv : α → V), valTree A lv t = valF A lv φ := by
  refine ⟨φ.tree, (parse_iff levels levels_disjoint _ _).2 (derives_write levels φ hφ),
    formula_tree φ, fun A lv => ?_⟩
  rw [valTree_formula, formula_tree]

/-! ### C51: LaTeX text of expressions -/

/-- Partial: for printable expressions, the LaTeX text reads, by the conventions of algebra and in no other
way, as a formula with the value that is computed.  Missing: other expressions, for which the
property is false (`C51_sign_of_sum`, `C51_sub_expression_in_product`, `C51_zero_minus`,
`C51_signed_base`, `C51_power_chain`). -/
theorem C51_expression_partial {V : Type} (A : Alg V) (hA : A.Lawful) (av : Atom → V)
    (hz : av .zero = A.zero) (subs : String → Tree Op Atom) (t : Tree Op Leaf)
    (h : Printable subs t) :
    ∃ φ, Conv .sum φ (latex subs t) ∧ valF A av φ = valTree A (leafVal A av subs) t ∧
      ∀ ψ, Conv .sum ψ (latex subs t) → ψ = φ := by
  obtain ⟨φ, h1, h2⟩ := latex_ok hA hz subs t h
  exact ⟨φ, h1, h2, fun ψ hψ => conv_unique hψ h1⟩

private def lf (s : String) : Tree Op Leaf := .atom (.atom (.sym s))

/-- A text with a conventional reading. -/
theorem misread {ts : Text} {φ : Formula Op Atom} (h : Conv .sum φ ts) {V : Type} (A : Alg V)
    (av : Atom → V) {v : V} (hv : valF A av φ ≠ v) :
    ¬ ∃ ψ, Conv .sum ψ ts ∧ valF A av ψ = v := by
  rintro ⟨ψ, h1, h2⟩
  rw [conv_unique h1 h] at h2
  exact hv h2

/-- `-(a + b)` is printed as `-a + b`. -/
theorem C51_sign_of_sum (subs : String → Tree Op Atom) :
    ∃ (t : Tree Op Leaf), latex subs t = [.op .minus, .atom (.sym "a"), .op .plus, .atom (.sym "b")] ∧
      parse levels [.op .minus, .lpar, .atom (.atom (.sym "a")), .op .plus, .atom (.atom (.sym "b")),
        .rpar] = some t ∧
      ∃ av : Atom → Int, av .zero = 0 ∧
        ¬ ∃ ψ, Conv .sum ψ (latex subs t) ∧ valF intAlg av ψ = valTree intAlg (leafVal intAlg av subs) t := by
  refine ⟨.pre .minus (.chain (lf "a") (.one .plus (lf "b"))), rfl,
    (parse_iff levels levels_disjoint _ _).2 (.lift (.lift (.lift (.pre rfl
      (.paren (ts := [.atom (Leaf.atom (.sym "a")), .op Op.plus, .atom (Leaf.atom (.sym "b"))])
        (.chain (ts := [.atom (Leaf.atom (.sym "a"))]) (.lift (.lift (.atom _)))
          (.one rfl (.lift (.lift (.atom _)))))))))),
    fun a => if a = .zero then 0 else 1, rfl, ?_⟩
  refine misread (φ := .bin .plus (.pre .minus (.leaf (.sym "a"))) (.leaf (.sym "b"))) ?_ _ _ ?_
  · exact .add (ts := [.op Op.minus, .atom (Atom.sym "a")]) (.inl rfl)
      (.prod (.unary (.sign (.inr rfl) (.atom (.leaf _))))) (.unary (.atom (.leaf _)))
  · simp only [valTree, valRest, leafVal, lf]
    decide

/-- A sub-expression is printed without parentheses: with `s` standing for `a + b`, `$s * c` is printed as
`a + b \times c`. -/
theorem C51_sub_expression_in_product (subs : String → Tree Op Atom)
    (hs : subs "s" = .chain (.atom (.sym "a")) (.one .plus (.atom (.sym "b")))) :
    ∃ (t : Tree Op Leaf), parse levels [.atom (.sub "s"), .op .times, .atom (.atom (.sym "c"))] = some t ∧
      latex subs t = [.atom (.sym "a"), .op .plus, .atom (.sym "b"), .op .times, .atom (.sym "c")] ∧
      ∃ av : Atom → Int, av .zero = 0 ∧
        ¬ ∃ ψ, Conv .sum ψ (latex subs t) ∧ valF intAlg av ψ = valTree intAlg (leafVal intAlg av subs) t := by
  have hl : latex subs (.chain (.atom (.sub "s")) (.one .times (lf "c"))) =
      [.atom (.sym "a"), .op .plus, .atom (.sym "b"), .op .times, .atom (.sym "c")] := by
    simp only [latex, printTree, printRest, leafText, hs, lf]
    decide
  refine ⟨.chain (.atom (.sub "s")) (.one .times (lf "c")),
    (parse_iff levels levels_disjoint _ _).2 (.lift (.chain (ts := [.atom (Leaf.sub "s")])
      (.lift (.atom _)) (.one rfl (.lift (.atom _))))), hl,
    fun a => if a = .zero then 0 else if a = .sym "c" then 2 else 1, rfl, ?_⟩
  rw [hl]
  refine misread (φ := .bin .plus (.leaf (.sym "a")) (.bin .times (.leaf (.sym "b")) (.leaf (.sym "c"))))
    ?_ _ _ ?_
  · exact .add (ts := [.atom (Atom.sym "a")]) (.inl rfl) (.prod (.unary (.atom (.leaf _))))
      (.mul (ts := [.atom (Atom.sym "b")]) (.inl rfl) (.unary (.atom (.leaf _))) (.atom (.leaf _)))
  · simp only [valTree, valRest, leafVal, hs, lf]
    decide

/-- `0 - a` is printed as `a`. -/
theorem C51_zero_minus (subs : String → Tree Op Atom) :
    ∃ (t : Tree Op Leaf), parse levels [.atom (.atom .zero), .op .minus, .atom (.atom (.sym "a"))] = some t ∧
      latex subs t = [.atom (.sym "a")] ∧
      ∃ av : Atom → Int, av .zero = 0 ∧
        ¬ ∃ ψ, Conv .sum ψ (latex subs t) ∧ valF intAlg av ψ = valTree intAlg (leafVal intAlg av subs) t := by
  refine ⟨.chain (.atom (.atom .zero)) (.one .minus (lf "a")),
    (parse_iff levels levels_disjoint _ _).2 (.chain (ts := [.atom (Leaf.atom .zero)])
      (.lift (.lift (.atom _))) (.one rfl (.lift (.lift (.atom _))))), rfl,
    fun a => if a = .zero then 0 else 1, rfl, ?_⟩
  refine misread (φ := .leaf (.sym "a")) (.prod (.unary (.atom (.leaf _)))) _ _ ?_
  simp only [valTree, valRest, leafVal, lf]
  decide

/-- `(-a) ** b`, as well as `-a ** b`, is printed as `-a^{b}`. -/
theorem C51_signed_base (subs : String → Tree Op Atom) :
    ∃ (t : Tree Op Leaf), parse levels [.lpar, .op .minus, .atom (.atom (.sym "a")), .rpar, .op .pow,
        .atom (.atom (.sym "b"))] = some t ∧
      latex subs t = [.op .minus, .atom (.sym "a"), .op .pow, .lpar, .atom (.sym "b"), .rpar] ∧
      ∃ av : Atom → Int, av .zero = 0 ∧
        ¬ ∃ ψ, Conv .sum ψ (latex subs t) ∧ valF intAlg av ψ = valTree intAlg (leafVal intAlg av subs) t := by
  refine ⟨.chain (.pre .minus (lf "a")) (.one .pow (lf "b")),
    (parse_iff levels levels_disjoint _ _).2 (.lift (.lift (.chain
      (ts := [.lpar, .op Op.minus, .atom (Leaf.atom (.sym "a")), .rpar])
      (.paren (ts := [.op Op.minus, .atom (Leaf.atom (.sym "a"))])
        (.lift (.lift (.lift (.pre rfl (.atom _)))))) (.one rfl (.atom _))))), rfl,
    fun a => if a = .zero then 0 else 2, rfl, ?_⟩
  refine misread (φ := .pre .minus (.bin .pow (.leaf (.sym "a")) (.leaf (.sym "b")))) ?_ _ _ ?_
  · exact .prod (.unary (.sign (.inr rfl) (.pow (ts := [.atom (Atom.sym "a")]) (.leaf _)
      (.atom (.paren (ts := [.atom (Atom.sym "b")]) (.prod (.unary (.atom (.leaf _)))))))))
  · simp only [valTree, valRest, leafVal, lf]
    decide

/-- `a ** b ** c` is printed as `a^{b}^{c}`, which at best reads as `a ** (b ** c)`. -/
theorem C51_power_chain (subs : String → Tree Op Atom) :
    ∃ (t : Tree Op Leaf), parse levels [.atom (.atom (.sym "a")), .op .pow, .atom (.atom (.sym "b")),
        .op .pow, .atom (.atom (.sym "c"))] = some t ∧
      latex subs t = [.atom (.sym "a"), .op .pow, .lpar, .atom (.sym "b"), .rpar, .op .pow, .lpar,
        .atom (.sym "c"), .rpar] ∧
      ∃ av : Atom → Int, av .zero = 0 ∧
        ¬ ∃ ψ, Conv .sum ψ (latex subs t) ∧ valF intAlg av ψ = valTree intAlg (leafVal intAlg av subs) t := by
  refine ⟨.chain (lf "a") (.more .pow (lf "b") (.one .pow (lf "c"))),
    (parse_iff levels levels_disjoint _ _).2 (.lift (.lift (.chain
      (ts := [.atom (Leaf.atom (.sym "a"))]) (.atom _)
      (.more (ts := [.atom (Leaf.atom (.sym "b"))]) rfl (.atom _) (.one rfl (.atom _)))))), rfl,
    fun a => if a = .zero then 0 else if a = .sym "b" then 3 else 2, rfl, ?_⟩
  refine misread (φ := .bin .pow (.leaf (.sym "a")) (.bin .pow (.leaf (.sym "b")) (.leaf (.sym "c"))))
    ?_ _ _ ?_
  · exact .prod (.unary (.pow (ts := [.atom (Atom.sym "a")]) (.leaf _)
      (.pow (ts := [.lpar, .atom (Atom.sym "b"), .rpar])
        (.paren (ts := [.atom (Atom.sym "b")]) (.prod (.unary (.atom (.leaf _)))))
        (.atom (.paren (ts := [.atom (Atom.sym "c")]) (.prod (.unary (.atom (.leaf _)))))))))
  · simp only [valTree, valRest, leafVal, lf]
    decide

/-! ### Concrete cases -/

theorem intAlg_lawful : intAlg.Lawful :=
  ⟨fun v => Int.add_zero v, fun v => Int.zero_add v, fun v => Int.sub_zero v⟩

/-- `C42_conventional_partial`: `a * -b ** ...` is not plain, `-a * (b + c) ** -d / e` is. -/
example : Plain .sum (.bin .times (.pre .minus (.leaf "a"))
      (.bin .pow (.bin .plus (.leaf "b") (.leaf "c")) (.pre .minus (.leaf "d"))))
    ([.op .minus, .atom "a"] ++ (.op .times :: ((.lpar :: ([.atom "b"] ++ (.op .plus :: [.atom "c"]) ++ [.rpar]))
      ++ (.op .pow :: (.op .minus :: [.atom "d"]))))) :=
  .prod (.mul (.inl rfl) (.power (.signed (.sign (.inr rfl) (.atom (.leaf _)))))
    (.pow (.paren (.add (.inl rfl) (.prod (.power (.signed (.atom (.leaf _)))))
      (.power (.signed (.atom (.leaf _)))))) (.sign (.inr rfl) (.atom (.leaf _)))))

/-- `C51_expression_partial`: `a * (b + 0 - $s) / c`, with a sub-expression that is a product. -/
example : Printable (fun _ => .chain (.atom (.sym "x")) (.one .times (.atom (.sym "y"))))
    (.chain (lf "a") (.more .times (.chain (lf "b") (.more .plus (.atom (.atom .zero))
      (.one .minus (.atom (.sub "s"))))) (.one .div (lf "c")))) := by
  unfold Printable; decide

example : (Formula.bin Op.pow (.pre .minus (.leaf "a")) (.leaf "b")).Ok levels := by
  simp [Formula.Ok, levels, isAdd, isMul, isPow]

end Arith

namespace Where

open Infix Grid

/-! ### C51: LaTeX text of conditions -/

/-- Partial: the text of the conditions of an equation, if they are printable, is empty and all conditions
hold, or reads by the conventions of logic, and in no other way, as a condition that is true exactly
where all conditions are.  Missing: conditions with an AND after an OR or an OR with `true`
(`C51_or_and`, `C51_or_true`). -/
theorem C51_condition_partial (e : Env) (ρ : String → Label) (ws : List (Tree Op Leaf))
    (h : ∀ w ∈ ws, PrintableCond w) :
    (whereText ws = [] ∧ ∀ w ∈ ws, Truth e ρ w) ∨
    ∃ t, ConvReads t (whereText ws) ∧ (Truth e ρ t ↔ ∀ w ∈ ws, Truth e ρ w) ∧
      ∀ u, ConvReads u (whereText ws) → u = t := by
  rcases whereText_ok (e := e) (ρ := ρ) h with h | ⟨t, h1, h2⟩
  · exact .inl h
  · exact .inr ⟨t, h1, h2, fun u hu => convReads_unique hu h1⟩

/-- `a OR b AND c`, which is evaluated as `(a OR b) AND c`, is printed as it is and reads as
`a OR (b AND c)`. -/
theorem C51_or_and (e : Env) (ρ : String → Label) (a b c : Leaf) (hc : c ≠ .bool true)
    (ha : a ≠ .bool true) (hb : b ≠ .bool true) :
    let t : Tree Op Leaf := .chain (.atom a) (.more .or (.atom b) (.one .and (.atom c)))
    parse levels [.atom a, .op .or, .atom b, .op .and, .atom c] = some t ∧
    ∃ u, ConvReads u (printTree t) ∧
      (Truth e ρ u ↔ LeafTruth e ρ a ∨ (LeafTruth e ρ b ∧ LeafTruth e ρ c)) ∧
      (Truth e ρ t ↔ (LeafTruth e ρ a ∨ LeafTruth e ρ b) ∧ LeafTruth e ρ c) := by
  refine ⟨(parse_iff levels (by unfold Levels.Disjoint levels; simp) _ _).2
      (.chain (ts := [.atom a]) (rs := [.op Op.or, .atom b, .op Op.and, .atom c]) (.atom a)
        (.more (ts := [.atom b]) (rs := [.op Op.and, .atom c]) rfl (.atom b) (.one rfl (.atom c)))), ?_⟩
  have hp : printTree (.chain (.atom a) (.more .or (.atom b) (.one .and (.atom c)))) =
      [.atom a, .op .or, .atom b, .op .and, .atom c] := by
    simp [printTree, printRest, printStep, skip, trueText, paren, isChain, ha, hb, hc]
  rw [hp]
  refine ⟨.chain (.atom a) (.one .or (.chain (.atom b) (.one .and (.atom c)))), ?_, ?_, ?_⟩
  · exact .chain (ts := [.atom a]) (.lift (.atom a))
      (.one (ts := [.atom b, .op Op.and, .atom c]) rfl
        (.chain (ts := [.atom b]) (.atom b) (.one rfl (.atom c))))
  · simp only [Truth, RestTruth, connect]
  · simp only [Truth, RestTruth, connect]

/-- `a OR true`, which always holds, is printed as `a`. -/
theorem C51_or_true (a : Leaf) :
    printTree (.chain (.atom a) (.one .or (.atom (.bool true)))) = [.atom a] ∧
    ∀ e ρ, Truth e ρ (.chain (.atom a) (.one .or (.atom (.bool true)))) := by
  constructor
  · simp [printTree, printRest, printStep, skip, trueText]
  · intro e ρ
    simp [Truth, RestTruth, connect, LeafTruth]

/-- `C51_condition_partial`: `NOT (a OR b) AND true AND (a OR b)`. -/
example : PrintableCond (.chain (.pre .not (.chain (.atom (.input "a")) (.one .or (.atom (.input "b")))))
    (.more .and (.atom (.bool true))
      (.one .and (.chain (.atom (.input "a")) (.one .or (.atom (.input "b"))))))) := by
  unfold PrintableCond; decide

end Where
end Calliope
