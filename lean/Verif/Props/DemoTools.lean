import Mathlib.Algebra.Order.Ring.Rat
import Mathlib.Data.Rat.Cast.Order
import Verif.Spec.BaseValue
import Verif.Proofs.BaseValue

/-!
# Small models, to meet the hypotheses of theorems about the math
-/

namespace Calliope
namespace BaseMath

open Grid Infix Expr Expand Build Where

/-- A small model, as tables. -/
structure Mini where
  labels : List (String × List Label)
  /-- dimensions and values of components -/
  data : List (String × List String × (List Label → Rat))
  lookups : List (String × Arr (Option Label))
  inputs : List (String × Input)
  results : List (String × Arr Bool)
  along : List String
  items : List (List Label)
  config : List (String × Where.Val) := []
  /-- sums of results along some dimensions -/
  totals : List ((String × List String) × Arr Where.Val) := []

namespace Mini

/-- A table of numbers, zero elsewhere. -/
def table (l : List (List Label × Rat)) (c : List Label) : Rat := (l.lookup c).getD 0

def power (a b : Rat) : Rat := a ^ b.num.toNat

def op : Arith.Op → Option Rat → Option Rat → Option Rat
  | .plus, some a, some b => some (a + b)
  | .minus, some a, some b => some (a - b)
  | .times, some a, some b => some (a * b)
  | .div, some a, some b => if b = 0 then none else some (a / b)
  | .pow, some a, some b => some (power a b)
  | _, _, _ => none

variable (M : Mini)

def coords (d : String) : List Label := (M.labels.lookup d).getD ["only"]

def E : Expr.Env Rat where
  coords := M.coords
  comp n := (M.data.lookup n).map (fun p => ⟨⟨p.1, fun c => some (p.2 c)⟩, none⟩)
  isDim _ := false
  lookup n := M.lookups.lookup n
  carrier _ := none
  period _ l := l
  op := op
  neg := Option.map (fun x => -x)
  truthy x := x != 0

/-- The numbers of a result, where it exists. -/
def number (n : String) : Option (Arr Where.Val) :=
  match M.data.lookup n, M.results.lookup n with
  | some (ds, g), some a => if a.dims = ds then some ⟨ds, fun c => if a.val c then .num (g c) else .nan⟩ else none
  | _, _ => none

def W : Where.Env where
  dims := M.labels.map Prod.fst
  coords := M.coords
  input n := (M.inputs.lookup n).getD ⟨.number, scalar .nan, .nan⟩
  result n := M.results.lookup n
  config n := M.config.lookup n
  matrix := ⟨M.along, fun c => decide (c ∈ M.items)⟩
  arith _ _ _ := .nan
  number := M.number
  sums n over := M.totals.lookup (n, over)

/-- The tables make sense. -/
def ok : Bool :=
  decide ("timesteps" ∈ M.labels.map Prod.fst) && decide (M.coords "timesteps").Nodup &&
  M.labels.all (fun p => decide (p.2 ≠ [])) && M.data.all (fun p => decide p.2.1.Nodup) &&
  M.lookups.all (fun p => decide p.2.dims.Nodup) && decide M.along.Nodup

variable {M}

theorem setting (h : M.ok = true) : Setting M.W M.E power := by
  simp only [ok, Bool.and_eq_true, decide_eq_true_eq, List.all_eq_true] at h
  obtain ⟨⟨⟨⟨⟨h1, h2⟩, _⟩, h4⟩, h5⟩, _⟩ := h
  refine ⟨⟨?_, ?_, ?_⟩, rfl, ?_, h1, h2⟩
  · intro n c hc
    simp only [E, Option.map_eq_some_iff] at hc
    obtain ⟨p, hp, rfl⟩ := hc
    exact h4 _ (mem_of_lookup hp)
  · intro n g hg
    exact h5 _ (mem_of_lookup hg)
  · intro n g hg
    cases hg
  · refine ⟨fun _ _ => rfl, fun _ _ => rfl, fun _ _ => rfl, ?_, fun _ _ => rfl⟩
    intro a b hb
    simp [E, op, hb]

theorem is_data {n : String} {ds ds' : List String} {g : List Label → Rat} (h : M.data.lookup n = some (ds', g))
    (hd : ∀ d ∈ ds, d ∈ ds') : Is M.E n ds (fun ρ => g (ds'.map ρ)) := by
  refine ⟨⟨⟨ds', fun c => some (g c)⟩, none⟩, ?_, ?_, .inl hd⟩
  · simp [E, h]
  · intro ρ
    rfl

/-- The point with the given labels, the first ones otherwise. -/
def point (M : Mini) (l : List (String × Label)) : Point := fun d => (l.lookup d).getD ((M.coords d).headD "")

theorem coords_ne (h : M.ok = true) (d : String) : M.coords d ≠ [] := by
  simp only [ok, Bool.and_eq_true, decide_eq_true_eq, List.all_eq_true] at h
  obtain ⟨⟨⟨⟨_, h3⟩, _⟩, _⟩, _⟩ := h
  unfold coords
  cases hl : M.labels.lookup d with
  | none => simp
  | some l => exact h3 _ (mem_of_lookup hl)

theorem valid_point (h : M.ok = true) {l : List (String × Label)}
    (hl : l.all (fun p => decide (p.2 ∈ M.coords p.1)) = true) : Valid M.W (M.point l) := by
  intro d
  show M.point l d ∈ M.coords d
  unfold point
  cases hd : l.lookup d with
  | none =>
    simp only [Option.getD_none]
    cases hc : M.coords d with
    | nil => exact absurd hc (coords_ne h d)
    | cons a t => simp
  | some x =>
    have := List.all_eq_true.1 hl _ (mem_of_lookup hd)
    simpa using this

/-- The item `c` of the definition matrix has the labels of `ρ` along `sets`. -/
def agrees (M : Mini) (sets : List String) (ρ : Point) (c : List Label) : Bool :=
  decide (c ∈ M.items) && decide (c.length = M.along.length) && decide M.along.Nodup &&
  (M.along.zip c).all (fun p => decide (p.2 ∈ M.coords p.1) && (decide (p.1 ∉ sets) || decide (ρ p.1 = p.2)))

theorem lookup_zip : ∀ {ks : List String} {vs : List Label} (f : String → Label), ks.Nodup → vs.length = ks.length →
    ks.map (fun d => ((ks.zip vs).lookup d).getD (f d)) = vs
  | [], [], _, _, _ => rfl
  | [], _ :: _, _, _, h => by simp at h
  | _ :: _, [], _, _, h => by simp at h
  | k :: ks, v :: vs, f, hn, hlen => by
      simp only [List.nodup_cons] at hn
      simp only [List.zip_cons_cons, List.map_cons, List.lookup_cons, beq_self_eq_true, Option.getD_some]
      congr 1
      rw [← lookup_zip (ks := ks) (vs := vs) f hn.2 (by simpa using hlen)]
      apply List.map_congr_left
      intro d hd
      have hne : d ≠ k := fun e => hn.1 (e ▸ hd)
      rw [beq_false_of_ne hne, lookup_zip f hn.2 (by simpa using hlen)]

theorem in_model {sets : List String} {ρ : Point} (hρ : Valid M.W ρ) (c : List Label) (hc : M.agrees sets ρ c = true)
    (hd : sets.all (fun d => decide (d ∈ M.labels.map Prod.fst)) = true) : InModel M.W sets ρ := by
  simp only [agrees, Bool.and_eq_true, decide_eq_true_eq, List.all_eq_true, Bool.or_eq_true] at hc
  obtain ⟨⟨⟨h1, h2⟩, h3⟩, h4⟩ := hc
  refine ⟨fun d hdd => .inr (of_decide_eq_true (List.all_eq_true.1 hd d hdd)),
    fun d => ((M.along.zip c).lookup d).getD (ρ d), ?_, ?_, ?_⟩
  · intro d
    show ((M.along.zip c).lookup d).getD (ρ d) ∈ M.coords d
    cases hl : (M.along.zip c).lookup d with
    | none => exact hρ d
    | some x => exact (h4 _ (mem_of_lookup hl)).1
  · intro d hdd
    show ((M.along.zip c).lookup d).getD (ρ d) = ρ d
    cases hl : (M.along.zip c).lookup d with
    | none => rfl
    | some x =>
      rcases (h4 _ (mem_of_lookup hl)).2 with h | h
      · exact absurd hdd h
      · exact h.symm
  · show decide (M.along.map (fun d => ((M.along.zip c).lookup d).getD (ρ d)) ∈ M.items) = true
    rw [lookup_zip _ h3 h2]
    exact decide_eq_true h1

/-- What a computation yields, if it does not fail. -/
def got {R : Type} : Except Err (Arr (Option R)) → Arr (Option R)
  | .ok a => a
  | .error _ => scalar none

def isOk {R : Type} : Except Err R → Bool
  | .ok _ => true
  | .error _ => false

theorem got_ok {R : Type} {r : Except Err (Arr (Option R))} (h : isOk r = true) : r = .ok (got r) := by
  cases r with
  | ok a => rfl
  | error e => cases h

/-- All labels of some dimensions. -/
def rows (M : Mini) : List String → List (List Label)
  | [] => [[]]
  | d :: ds => (M.coords d).flatMap (fun l => (rows M ds).map (fun c => l :: c))

theorem mem_rows {ρ : Point} (hρ : Valid M.W ρ) : ∀ ds : List String, ds.map ρ ∈ M.rows ds
  | [] => by simp [rows]
  | d :: ds => by
    simp only [List.map_cons, rows, List.mem_flatMap, List.mem_map]
    exact ⟨ρ d, hρ d, _, mem_rows hρ ds, rfl⟩

/-- Whether the numbers of a constraint satisfy it. -/
def check : Option (Cell Rat) → Bool
  | some ⟨some x, o, some y⟩ =>
    (o != "==" || decide (x = y)) && (o != "<=" || decide (x ≤ y)) && (o != ">=" || decide (y ≤ x))
  | _ => true

theorem satisfied {b : Arr (Option (Cell Rat))}
    (h : (M.rows b.dims).all (fun c => check (b.val c)) = true) {ρ : Point} (hρ : Valid M.W ρ) : Satisfied b ρ := by
  intro x y
  have := List.all_eq_true.1 h _ (mem_rows hρ b.dims)
  refine ⟨?_, ?_, ?_⟩ <;>
  · intro hc
    rw [show b.val (b.dims.map ρ) = _ from hc] at this
    simpa [check] using this

/-- A constraint as it is built for the small model. -/
def con (M : Mini) (c : Component Rat) : Arr (Option (Cell Rat)) := got (buildConstraint M.W M.E List.dedup c)

/-- An expression as it is built for the small model. -/
def expr (M : Mini) (c : Component Rat) : Arr (Option Rat) := got (buildExpression M.W M.E List.dedup c)

theorem con_ok {c : Component Rat} (h : isOk (buildConstraint M.W M.E List.dedup c) = true) :
    buildConstraint M.W M.E List.dedup c = .ok (M.con c) := got_ok h

theorem expr_ok {c : Component Rat} (h : isOk (buildExpression M.W M.E List.dedup c) = true) :
    buildExpression M.W M.E List.dedup c = .ok (M.expr c) := got_ok h

/-- All points of the small model satisfy a constraint. -/
def holds (M : Mini) (c : Component Rat) : Bool :=
  (M.rows (M.con c).dims).all (fun r => check ((M.con c).val r))

theorem con_holds {c : Component Rat} (h : M.holds c = true) {ρ : Point} (hρ : Valid M.W ρ) : Satisfied (M.con c) ρ :=
  satisfied h hρ

theorem traverses : Traverses List.dedup := fun l => ⟨List.nodup_dedup l, fun _ => List.mem_dedup⟩

/-- Inputs have no other dimensions than `sets`. -/
def within (M : Mini) (sets names : List String) : Bool :=
  names.all (fun n => (M.W.input n).arr.dims.all (fun d => decide (d ∈ sets)))

theorem within_ok {sets names : List String} (h : M.within sets names = true) : Within M.W sets names := by
  simp only [within, List.all_eq_true, decide_eq_true_eq] at h
  exact h

/-- A component has no other dimensions than `sets`. -/
def resultWithin (M : Mini) (sets : List String) (n : String) : Bool :=
  match M.results.lookup n with
  | some a => a.dims.all (fun d => decide (d ∈ sets))
  | none => true

theorem resultWithin_ok {sets : List String} {n : String} (h : M.resultWithin sets n = true) :
    ResultWithin M.W sets n := by
  intro a ha
  simp only [resultWithin] at h
  rw [show M.results.lookup n = some a from ha] at h
  simpa [List.all_eq_true] using h

end Mini

instance (W : Where.Env) (n : String) (ρ : Point) : Decidable (Flag W n ρ) :=
  inferInstanceAs (Decidable (_ ∨ _))
instance (W : Where.Env) (ρ : Point) : Decidable (HasStorage W ρ) :=
  inferInstanceAs (Decidable (_ ∨ _))
instance (W : Where.Env) (ρ : Point) : Decidable (Stores W ρ) :=
  inferInstanceAs (Decidable (_ ∧ ¬ (_ ∨ _)))
instance (W : Where.Env) (d : String) (ρ : Point) : Decidable (FirstOf W d ρ) :=
  inferInstanceAs (Decidable (_ = _))
instance (W : Where.Env) (ρ : Point) : Decidable (First W ρ) :=
  inferInstanceAs (Decidable (_ = _))
instance (k : Kind) (v : Where.Val) : Decidable (Where.Given k v) :=
  inferInstanceAs (Decidable (_ ∨ _))
instance (W : Where.Env) (n : String) (ρ : Point) : Decidable (GivenAt W n ρ) :=
  inferInstanceAs (Decidable (Where.Given _ _))

end BaseMath
end Calliope
