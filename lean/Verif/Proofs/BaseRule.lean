import Verif.Proofs.BaseMath
import Verif.Spec.BaseCost
import Verif.Model.InterCluster

/-!
Conditions that only depend on the dimensions of a component.
-/

namespace Calliope
namespace BaseMath

open Grid Infix Expr Expand Build Where

variable {V : Type}

/-- What an operand of a comparison depends on. -/
def LocalLhs (W : Where.Env) (sets : List String) : Lhs → Prop
  | .num _ | .config _ | .valAt _ _ => True
  | .dim d => d ∈ sets
  | .input n => ∀ d ∈ (W.input n).arr.dims, d ∈ sets
  | .op _ l r => LocalLhs W sets l ∧ LocalLhs W sets r
  | .result n => ∀ a, W.number n = some a → ∀ d ∈ a.dims, d ∈ sets
  | .total n over => ∀ a, W.sums n over = some a → ∀ d ∈ a.dims, d ∈ sets

def LocalLeaf (W : Where.Env) (sets : List String) : Leaf → Prop
  | .bool _ => True
  | .input n => ∀ d ∈ (W.input n).arr.dims, d ∈ sets
  | .result n => ResultWithin W sets n
  | .cmp l _ _ => LocalLhs W sets l
  | .isIn _ d => d ∈ sets
  | .anyInput n over => ∀ d ∈ (W.input n).arr.dims, d ∈ sets ∨ d ∈ over
  | .anyResult n over => ∀ a, W.result n = some a → ∀ d ∈ a.dims, d ∈ sets ∨ d ∈ over
  | .defined _ _ _ => False

mutual
/-- Conditions that only depend on the labels along some dimensions. -/
def Local (W : Where.Env) (sets : List String) : Cond → Prop
  | .atom l => LocalLeaf W sets l
  | .pre _ t => Local W sets t
  | .chain t r => Local W sets t ∧ LocalRest W sets r
def LocalRest (W : Where.Env) (sets : List String) : Rest Where.Op Leaf → Prop
  | .one _ t => Local W sets t
  | .more _ t r => Local W sets t ∧ LocalRest W sets r
end

theorem lhs_local {W : Where.Env} {sets : List String} {ρ σ : Point} (h : SameAlong sets ρ σ) :
    ∀ l : Lhs, LocalLhs W sets l → lhsValue W σ l = lhsValue W ρ l
  | .num _, _ | .config _, _ | .valAt _ _, _ => rfl
  | .dim d, hl => by simp only [lhsValue, Where.labelOf, h d hl]
  | .input n, hl => valueOf_same h hl
  | .op o l r, hl => by simp only [lhsValue, lhs_local h l hl.1, lhs_local h r hl.2]
  | .result n, hl => by
      simp only [lhsValue]
      cases ha : W.number n with
      | none => rfl
      | some a => exact at_congr a (fun d hd => h d (hl a ha d hd))
  | .total n over, hl => by
      simp only [lhsValue]
      cases ha : W.sums n over with
      | none => rfl
      | some a => exact at_congr a (fun d hd => h d (hl a ha d hd))

theorem along_local {α : Type} {coords : String → List Label} {sets over : List String} {ρ σ τ : Point}
    (h : SameAlong sets ρ σ) {a : Arr α} (ha : ∀ d ∈ a.dims, d ∈ sets ∨ d ∈ over)
    (hτ : Along coords (a.dims.filter (fun d => over.contains d)) σ τ) :
    ∃ υ, Along coords (a.dims.filter (fun d => over.contains d)) ρ υ ∧ a.at υ = a.at τ := by
  refine ⟨fun d => if d ∈ a.dims.filter (fun d => over.contains d) then τ d else ρ d, ⟨?_, ?_⟩, ?_⟩
  · intro d hd
    simp only [if_neg hd]
  · intro d hd
    simp only [if_pos hd]
    exact hτ.2 d hd
  · apply at_congr
    intro d hd
    by_cases hf : d ∈ a.dims.filter (fun d => over.contains d)
    · simp only [if_pos hf]
    · simp only [if_neg hf]
      have ho : d ∉ over := fun ho => hf (List.mem_filter.2 ⟨hd, by simpa using ho⟩)
      rw [hτ.1 d hf, h d ((ha d hd).resolve_right ho)]

theorem sameAlong_symm {sets : List String} {ρ σ : Point} (h : SameAlong sets ρ σ) : SameAlong sets σ ρ :=
  fun d hd => (h d hd).symm

theorem leaf_local {W : Where.Env} {sets : List String} {ρ σ : Point} (h : SameAlong sets ρ σ) (l : Leaf)
    (hl : LocalLeaf W sets l) : LeafTruth W σ l ↔ LeafTruth W ρ l := by
  cases l with
  | bool b => exact Iff.rfl
  | input n =>
    simp only [LeafTruth]
    rw [at_congr (W.input n).arr (ρ := ρ) (fun d hd => h d (hl d hd))]
  | result n =>
    simp only [LeafTruth]
    constructor
    · rintro ⟨a, ha, hv⟩
      exact ⟨a, ha, by rw [← hv]; exact at_congr a (fun d hd => (h d (hl a ha d hd)).symm)⟩
    · rintro ⟨a, ha, hv⟩
      exact ⟨a, ha, by rw [← hv]; exact at_congr a (fun d hd => h d (hl a ha d hd))⟩
  | cmp l o r => simp only [LeafTruth, lhs_local h l hl]
  | isIn items d => simp only [LeafTruth, Where.labelOf, h d hl]
  | anyInput n over =>
    simp only [LeafTruth]
    constructor
    · rintro ⟨τ, ht, hv⟩
      obtain ⟨υ, hu, he⟩ := along_local h (fun d hd => hl d hd) ht
      exact ⟨υ, hu, he ▸ hv⟩
    · rintro ⟨τ, ht, hv⟩
      obtain ⟨υ, hu, he⟩ := along_local (sameAlong_symm h) (fun d hd => hl d hd) ht
      exact ⟨υ, hu, he ▸ hv⟩
  | anyResult n over =>
    simp only [LeafTruth]
    constructor
    · rintro ⟨a, ha, τ, ht, hv⟩
      obtain ⟨υ, hu, he⟩ := along_local h (hl a ha) ht
      exact ⟨a, ha, υ, hu, he.trans hv⟩
    · rintro ⟨a, ha, τ, ht, hv⟩
      obtain ⟨υ, hu, he⟩ := along_local (sameAlong_symm h) (hl a ha) ht
      exact ⟨a, ha, υ, hu, he.trans hv⟩
  | defined => exact absurd hl (by simp [LocalLeaf])

mutual
theorem truth_local {W : Where.Env} {sets : List String} {ρ σ : Point} (h : SameAlong sets ρ σ) :
    ∀ t : Cond, Local W sets t → (Truth W σ t ↔ Truth W ρ t)
  | .atom l, ht => leaf_local h l ht
  | .pre _ t, ht => by
      simp only [Truth]
      rw [truth_local h t ht]
  | .chain t r, ht => by
      simp only [Truth]
      exact rest_local h r ht.2 (truth_local h t ht.1)
theorem rest_local {W : Where.Env} {sets : List String} {ρ σ : Point} (h : SameAlong sets ρ σ) :
    ∀ r : Rest Where.Op Leaf, LocalRest W sets r → ∀ {p q : Prop}, (p ↔ q) → (RestTruth W σ p r ↔ RestTruth W ρ q r)
  | .one o t, hr, p, q, hpq => by
      simp only [RestTruth]
      have := truth_local h t hr
      cases o <;> simp only [connect, hpq, this]
  | .more o t r, hr, p, q, hpq => by
      simp only [RestTruth]
      apply rest_local h r hr.2
      have := truth_local h t hr.1
      cases o <;> simp only [connect, hpq, this]
end

/-- The conditions of a component only depend on its dimensions. -/
def LocalAll (W : Where.Env) (c : Component V) (es : List (Equation V Cond)) : Prop :=
  Local W c.foreach c.top ∧ ∀ e ∈ es, ∀ w ∈ e.wheres, Local W c.foreach w

theorem steady_local {W : Where.Env} {c : Component V} {es : List (Equation V Cond)} (h : LocalAll W c es)
    (ρ : Point) : Steady W c es ρ :=
  fun _ hs => ⟨truth_local hs _ h.1, fun e he w hw => truth_local hs _ (h.2 e he w hw)⟩

theorem parse_sliceOne {enum : List String → List String} (henum : Traverses enum) (name : String)
    (foreach : List String) (top : Cond) (body : Body V) (s : String) (d : SliceDef) (h1 : findSubs body = [])
    (h2 : s ∈ findSlices (⟨[(name, 0)], [always], body, [], []⟩ : Equation V Cond))
    (h3 : ∀ x ∈ findSlices (⟨[(name, 0)], [always], body, [], []⟩ : Equation V Cond), x = s) :
    parseEquations enum (sliceOne name foreach top body s d).defn =
      .ok [⟨[(name, 0), (s, 0)], [always, always], body, [], [(s, d)]⟩] := by
  simp only [sliceOne, parseEquations, initial, List.zipIdx_cons, List.zipIdx_nil, List.map_cons, List.map_nil,
    extendAll, h1, extend, enum_nil henum, List.append_nil, enum_same henum h2 h3, gather, List.lookup_cons,
    beq_self_eq_true, cases, product, List.flatMap_cons, List.flatMap_nil, addSlices, List.cons_append, List.nil_append]

/-- The value of an expression with one slice. -/
def withSlice [AddCommMonoid V] (E : Expr.Env V) (s : String) (d : SliceDef) (t : Ex V) (ρ : Point) : Option V :=
  (mean E (fun n => List.lookup n [(s, d)]) (fun _ => true) [] t).val ρ

/-- A constraint of one equation with one slice. -/
theorem sliceOne_at [AddCommMonoid V] {W : Where.Env} {E : Expr.Env V} (hE : WellFormed E)
    {enum : List String → List String} (henum : Traverses enum) {name s : String} {sets : List String} {top : Cond}
    {d : SliceDef} {l r : Ex V} {o : String} (hn : sets.Nodup)
    {b : Arr (Option (Cell V))} (hb : buildConstraint W E enum (sliceOne name sets top (.cmp l o r) s d) = .ok b)
    (hsub : subRefs l = [] ∧ subRefs r = []) (hsl : s ∈ sliceRefs l ++ sliceRefs r)
    (hsl' : ∀ x ∈ sliceRefs l ++ sliceRefs r, x = s)
    (hl : Ok l ∧ Apart sets l) (hr : Ok r ∧ Apart sets r)
    {ρ : Point} (hρ : Valid W ρ) (hloc : Local W sets top) :
    (b.at ρ ≠ none ↔ InModel W sets ρ ∧ Truth W ρ top) ∧
    (b.at ρ ≠ none → b.at ρ = some ⟨withSlice E s d l ρ, o, withSlice E s d r ρ⟩) := by
  have hes := parse_sliceOne (V := V) henum name sets top (.cmp l o r) s d
    (by simp [findSubs, hsub]) (by simpa [findSlices] using hsl) (by simpa [findSlices] using hsl')
  obtain ⟨h1, h2⟩ := constraint_at hE (by simpa [sliceOne] using hn) hb hes hρ (by
    intro σ h
    exact ⟨truth_local h _ hloc, by simp⟩)
  have hiff : b.at ρ ≠ none ↔ InModel W sets ρ ∧ Truth W ρ top := by
    rw [h1]
    simp [sliceOne]
  refine ⟨hiff, ?_⟩
  intro hne
  have hsim : ∀ t : Ex V, Ok t ∧ Apart sets t → Simple (sliceOne name sets top (.cmp l o r) s d)
      ⟨[(name, 0), (s, 0)], [always, always], .cmp l o r, [], [(s, d)]⟩ t := by
    intro t ht
    unfold Simple
    rw [inline_none]
    · exact ht
    · intro n; rfl
  have hval : ∀ t : Ex V, value E (⟨[(name, 0), (s, 0)], [always, always], .cmp l o r, [], [(s, d)]⟩ :
      Equation V Cond) t ρ = withSlice E s d t ρ := by
    intro t
    unfold value withSlice
    rw [inline_none]
    intro n; rfl
  rw [h2 _ (List.mem_singleton.2 rfl) (hiff.1 hne).1 (hiff.1 hne).2 (by simp) l o r rfl (hsim l hl) (hsim r hr),
    hval, hval]

/-- The label that a slice by an input stands for. -/
theorem labelOf_lookup {E : Expr.Env V} {s m : String} {g : Arr (Option Label)} (hg : E.lookup m = some g)
    (ρ : Point) :
    Expr.labelOf E (fun n => List.lookup n [(s, SliceDef.lookup m [])]) ρ (.ref s) = g.at ρ := by
  simp only [Expr.labelOf, List.lookup_cons, beq_self_eq_true, hg, Fn.rolled]

theorem labelOf_rolled {E : Expr.Env V} {s m d : String} {k : Int} {g : Arr (Option Label)}
    (hg : E.lookup m = some g) (ρ : Point) :
    Expr.labelOf E (fun n => List.lookup n [(s, SliceDef.lookup m [(d, k)])]) ρ (.ref s) =
      g.at (set ρ d (rolled (E.coords d) k (ρ d))) := by
  simp only [Expr.labelOf, List.lookup_cons, beq_self_eq_true, hg, Fn.rolled]

end BaseMath
end Calliope
