import Verif.Proofs.WriteWhere

/-!
# C115: what is written is what is meant
-/

namespace Calliope
namespace Write

open Grammar (Str)
open MathText (Ex ExRest Kinds Raw RawItem)

/-- The text of an expression is read as this expression. -/
theorem C115_arithmetic (k : Kinds) {t : Expand.Body Rat} {s : Str} (h : ArithmeticText k.expr t s) :
    MathText.readArithmetic k s = some t := by
  obtain ⟨h⟩ := h
  obtain ⟨a, h1, h2⟩ := text_reads h
  unfold MathText.readArithmetic
  rw [(Grammar.C101_arithmetic k.expr s a).2 h2.all]
  simp only [h1]

/-- The text of an equation is read as this equation. -/
theorem C115_equation (k : Kinds) {t : Expand.Body Rat} {s : Str} (h : EquationText k.expr t s) :
    MathText.readEquation k s = some t := by
  have key : ∀ {l r : Ex} {s u : Str} (o : Where.CmpOp), (o = .le ∨ o = .ge ∨ o = .eq) → Text k.expr true l s →
      Text k.expr true r u → MathText.readEquation k (s ++ (' ' :: (comparison o ++ (' ' :: u)))) =
        some (.cmp l (MathText.cmpText o) r) := by
    intro l r s u o ho h h'
    obtain ⟨a, a', h1, h2, h3⟩ := equation_reads h h' o ho
    unfold MathText.readEquation
    rw [(Grammar.C101_equation k.expr _ a a' o).2 h3.all]
    simp only [h1, h2]
  cases h with
  | le h h' => exact key .le (.inl rfl) h h'
  | ge h h' => exact key .ge (.inr (.inl rfl)) h h'
  | eq h h' => exact key .eq (.inr (.inr rfl)) h h'

/-- The text of a sub-expression is read as this expression. -/
theorem C115_sub (k : Kinds) {t : Ex} {s : Str} (h : SubText k.expr t s) : MathText.readSub k s = some t := by
  obtain ⟨a, h1, h2⟩ := text_reads h
  unfold MathText.readSub
  rw [(Grammar.C101_sub k.expr s a).2 h2.all]
  exact h1

/-- The text of a slice is read as this slice. -/
theorem C115_slice (k : Kinds) {x : Expr.SliceDef} {s : Str} (h : SliceText k.expr x s) :
    MathText.readSlice k s = some x := by
  obtain ⟨a, h1, h2⟩ := slice_reads h
  unfold MathText.readSlice
  rw [(Grammar.C101_slice k.expr s a).2 h2.all]
  exact h1

/-- The text of a condition is read as this condition; no text is read as the condition that always holds. -/
theorem C115_where (k : Kinds) {c : Build.Cond} {s : Option Str} (h : WhereText k.cond c s) :
    MathText.readCond k s = some c := by
  have key : ∀ {c : Build.Cond} {s : Str}, CondText k.cond c s → MathText.readCond k (some s) = some c := by
    intro c s h
    obtain ⟨t, h1, h2⟩ := cond_reads rfl h
    unfold MathText.readCond
    rw [show (some s).getD MathText.wTrue = s from rfl, (Grammar.C102_where k.cond s t).2 h2.all]
    exact h1
  cases h with
  | none => exact key (.leaf .yes)
  | some h => exact key h

/-- Two expressions do not have the same text. -/
theorem C115_different (known : Str → Bool) {t u : Ex} {s : Str} (h : Text known true t s) (h' : Text known true u s) :
    t = u := by
  have a := C115_arithmetic ⟨known, ⟨known, known, known, known, false⟩⟩ (.arith h)
  have b := C115_arithmetic ⟨known, ⟨known, known, known, known, false⟩⟩ (.arith h')
  rw [a] at b
  simpa using b

theorem items_read {α : Type} (k : Kinds) {Body : α → Str → Prop} {read : Str → Option α}
    (hb : ∀ x s, Body x s → read s = some x) {l : List (Build.Cond × α)} {es : List RawItem}
    (h : List.Forall₂ (ItemText k.cond Body) l es) : MathText.readItems k read es = some l := by
  induction h with
  | nil => rfl
  | cons h1 _ ih => simp only [MathText.readItems, C115_where k h1.cond, hb _ _ h1.body, ih]

theorem table_read {α : Type} (k : Kinds) {Body : α → Str → Prop} {read : Str → Option α}
    (hb : ∀ x s, Body x s → read s = some x) {l : List (String × List (Build.Cond × α))}
    {es : List (Str × List RawItem)} (h : TableText k.cond Body l es) : MathText.readTable k read es = some l := by
  unfold TableText at h
  induction h with
  | nil => rfl
  | @cons p q l es h1 _ ih =>
    obtain ⟨n, x⟩ := p
    obtain ⟨n', y⟩ := q
    obtain ⟨h2, h3⟩ := h1
    simp only at h2 h3
    subst h2
    simp only [MathText.readTable, items_read k hb h3, ih, str]

theorem component_read (k : Kinds) {Body : Expand.Body Rat → Str → Prop} {read : Str → Option (Expand.Body Rat)}
    (hb : ∀ x s, Body x s → read s = some x) {c : Build.Component Rat} {r : Raw}
    (h : ComponentText k.expr k.cond Body c r) : MathText.readComponent k read r = some c := by
  obtain ⟨f, t, ⟨n, es, ss, ls⟩⟩ := c
  obtain ⟨es', he, hes⟩ := h.equations
  have h1 := table_read k (fun _ _ h => C115_sub k h) h.subs
  have h2 := table_read k (fun _ _ h => C115_slice k h) h.slices
  simp only [MathText.readComponent, C115_where k h.cond, he, Option.getD_some, items_read k hb hes, h1, h2, h.name,
    h.foreach, str, List.map_map]
  have : (String.ofList ∘ String.toList) = id := by funext s; simp
  rw [this, List.map_id]

/-- A constraint in a math file is read as this constraint. -/
theorem C115_constraint (k : Kinds) {c : Build.Component Rat} {r : Raw}
    (h : ComponentText k.expr k.cond (EquationText k.expr) c r) : MathText.readConstraint k r = some c :=
  component_read k (fun _ _ h => C115_equation k h) h

/-- So is a global expression, an objective or a postprocessed array. -/
theorem C115_expression (k : Kinds) {c : Build.Component Rat} {r : Raw}
    (h : ComponentText k.expr k.cond (ArithmeticText k.expr) c r) : MathText.readExpression k r = some c :=
  component_read k (fun _ _ h => C115_arithmetic k h) h

theorem bound_read {b : BaseMath.Bound Rat} {s : Option Str} (h : BoundText b s) : MathText.readBound s = b := by
  cases h with
  | none => rfl
  | inf => rfl
  | minusInf => rfl
  | @num q s h =>
    obtain ⟨c, r, rfl, hc⟩ := number_head h
    have h1 : c ≠ '.' := by rintro rfl; exact absurd hc (by decide)
    have h2 : c ≠ '-' := by rintro rfl; exact absurd hc (by decide)
    simp [MathText.readBound, hc, h1, h2, number_eq h]
  | @input n h =>
    obtain ⟨c, r, he, hc, _⟩ := h.1
    have h1 : c ≠ '.' := alpha_ne hc (by decide)
    have h2 : c ≠ '-' := alpha_ne hc (by decide)
    have hd : c.isDigit = false := by
      cases hcd : c.isDigit with
      | false => rfl
      | true => rw [digit_not_alpha hcd] at hc; cases hc
    have h3 : String.ofList (c :: r) = n := by rw [← he]; simp
    rw [he]
    simp [MathText.readBound, hd, h1, h2, h3]

/-- A variable in a math file is read as this variable. -/
theorem C115_variable (k : Kinds) {v : BaseMath.Variable Rat} {r : Raw} (h : VariableText k.cond v r) :
    MathText.readVariable k r = some v := by
  obtain ⟨n, f, t, i, lo, up⟩ := v
  have this : (String.ofList ∘ String.toList) = id := by funext s; simp
  have hi : decide (r.domain = some (chars! "integer")) = i := by
    have hd : r.domain = some (if i then "integer".toList else "real".toList) := h.domain
    rw [hd]
    cases i <;> decide
  simp only [MathText.readVariable, C115_where k h.cond, hi, h.name, h.foreach, bound_read h.lower, bound_read h.upper,
    Option.getD_some, List.map_map, this, List.map_id, str]

/-- A check in a math file is read as this check. -/
theorem C115_check (k : Kinds) {c : BaseMath.Check} {r : Raw} (h : CheckText k.cond c r) :
    MathText.readCheck k r = some c := by
  obtain ⟨n, t, m, e, a⟩ := c
  have he : decide (r.errors ≠ some (chars! "warn")) = e := by
    have hd : r.errors = some (if e then "raise".toList else "warn".toList) := h.errors
    rw [hd]
    cases e <;> decide
  have ha : r.isActive = a := by
    have hd : r.active = some a := h.active
    simp [Raw.isActive, hd]
  simp only [MathText.readCheck, C115_where k h.cond, he, ha, h.name, h.message, Option.getD_some, str]

end Write
end Calliope
