import Verif.Spec.BaseValue
import Verif.Proofs.BaseMeaning

/-!
Rules to compute what expressions stand for.
-/

namespace Calliope
namespace BaseMath

open Grid Infix Expr Expand Build Where

variable {V : Type}

theorem Is.at {V : Type} [Zero V] {E : Expr.Env V} {n : String} {ds : List String} {f : Point → V} (h : Is E n ds f)
    (ρ : Point) : valueAt E n ρ = some (f ρ) := by
  obtain ⟨c, hc, hv, _⟩ := h
  unfold valueAt
  rw [hc]
  exact hv ρ

section
variable [AddCommMonoid V] {E : Expr.Env V} {sl : String → Option SliceDef}

/-- The value of an expression, by the values of its parts. -/
def val (E : Expr.Env V) (sl : String → Option SliceDef) (t : Ex V) (ρ : Point) : Option V :=
  (mean E sl (fun _ => true) [] t).val ρ

theorem readAs_val (subs : List (String × Ex V)) (slices : List (String × SliceDef)) (t : Ex V) (ρ : Point) :
    readAs E subs slices t ρ = val E (fun n => slices.lookup n) (inline (fun n => subs.lookup n) t) ρ := rfl

theorem plain_val (t : Ex V) (ρ : Point) : plain E t ρ = val E (fun n => List.lookup n []) t ρ := rfl

theorem val_num (v : V) (ρ : Point) : val E sl (.num v) ρ = some v := by simp only [val, mean]

theorem val_comp (n : String) (ρ : Point) : val E sl (.comp n) ρ = valueAt E n ρ := by
  unfold val valueAt
  simp only [mean]
  cases E.comp n <;> rfl

theorem val_bin (a b : Ex V) (o : Arith.Op) (ρ : Point) :
    val E sl (bin a o b) ρ = E.op o (val E sl a ρ) (val E sl b ρ) := mean_bin a b o ρ

theorem val_bin3 (a b c : Ex V) (o p : Arith.Op) (ρ : Point) :
    val E sl (bin3 a o b p c) ρ = E.op p (E.op o (val E sl a ρ) (val E sl b ρ)) (val E sl c ρ) :=
  mean_bin3 a b c o p ρ

theorem val_roll (t : Ex V) (d : String) (k : Int) (ρ : Point) :
    val E sl (.roll t [(d, k)]) ρ = val E sl t (set ρ d (rolled (E.coords d) k (ρ d))) := by
  simp only [val, mean, Fn.rolled]

theorem val_sliced {n d : String} {s : Slicer} {l : Label} {ρ : Point} (hl : Expr.labelOf E sl ρ s = some l)
    (hm : l ∈ E.coords d) : val E sl (.sliced n [(d, s)]) ρ = valueAt E n (set ρ d l) := by
  unfold val valueAt
  cases hc : E.comp n with
  | none => simp only [mean, hc]
  | some c => simp only [mean, hc, sliced, hl, if_pos hm, Option.map_some]

end

theorem lookup_hit {α : Type} (k : String) (v : α) (l : List (String × α)) : ((k, v) :: l).lookup k = some v := by
  simp [List.lookup_cons]

theorem lookup_miss {α : Type} {k n : String} (h : n ≠ k) (v : α) (l : List (String × α)) :
    ((k, v) :: l).lookup n = l.lookup n := by
  rw [List.lookup_cons, beq_false_of_ne h]

/-! ### Conditions -/

theorem truth_firstOf {W : Where.Env} {d : String} (hd : d ∈ W.dims) (ρ : Point) :
    Truth W ρ (.atom (.cmp (.dim d) .eq (.valAt d 0))) ↔ FirstOf W d ρ := by
  simp only [Truth, LeafTruth, Compares, lhsValue, rhsValue, Where.labelOf, labelAt, if_pos hd, FirstOf,
    asNumber, Where.Same]
  rw [if_neg (by decide)]
  simp only [Int.toNat_zero, List.head?_eq_getElem?]
  cases (W.coords d)[0]? with
  | none => simp
  | some l => simp [eq_comm]

theorem truth_hasStorage {W : Where.Env} (ρ : Point) :
    Truth W ρ (either (isTrue "include_storage") (isText "base_tech" "storage")) ↔ HasStorage W ρ := by
  simp only [truth_either, truth_isTrue, truth_isText, HasStorage]

theorem local_hasStorage {W : Where.Env} {sets : List String} (h : Within W sets ["include_storage", "base_tech"]) :
    Local W sets (either (isTrue "include_storage") (isText "base_tech" "storage")) :=
  ⟨h _ (by simp), h _ (by simp)⟩

/-- A constraint of one equation without references. -/
theorem single_reads [AddCommMonoid V] {W : Where.Env} {E : Expr.Env V} (hE : WellFormed E)
    {enum : List String → List String} (henum : Traverses enum) {name : String} {sets : List String} {top : Cond}
    {l r : Ex V} {o : String} (hn : sets.Nodup)
    {b : Arr (Option (Cell V))} (hb : buildConstraint W E enum (single name sets top (.cmp l o r)) = .ok b)
    (hloc : Local W sets top) {ρ : Point} (hρ : Valid W ρ)
    (hsub : subRefs l = [] ∧ subRefs r = []) (hsl : sliceRefs l = [] ∧ sliceRefs r = [])
    (hl : Ok l ∧ Apart sets l) (hr : Ok r ∧ Apart sets r) :
    (b.at ρ ≠ none ↔ InModel W sets ρ ∧ Truth W ρ top) ∧
    (InModel W sets ρ → Truth W ρ top → b.at ρ = some ⟨plain E l ρ, o, plain E r ρ⟩) := by
  obtain ⟨h1, h2⟩ := single_at hE henum hn hb hsub hsl hl hr hρ (fun σ h => truth_local h _ hloc)
  exact ⟨h1, fun g1 g2 => h2 (h1.2 ⟨g1, g2⟩)⟩

/-- What a satisfied constraint says. -/
theorem satisfied_eq [LE V] {b : Arr (Option (Cell V))} {ρ : Point} (h : Satisfied b ρ) {x y : V}
    (hb : b.at ρ = some ⟨some x, "==", some y⟩) : x = y := (h x y).1 hb
theorem satisfied_le [LE V] {b : Arr (Option (Cell V))} {ρ : Point} (h : Satisfied b ρ) {x y : V}
    (hb : b.at ρ = some ⟨some x, "<=", some y⟩) : x ≤ y := (h x y).2.1 hb
theorem satisfied_ge [LE V] {b : Arr (Option (Cell V))} {ρ : Point} (h : Satisfied b ρ) {x y : V}
    (hb : b.at ρ = some ⟨some x, ">=", some y⟩) : y ≤ x := (h x y).2.2 hb

end BaseMath
end Calliope
