import Verif.Props.CostDemo
import Verif.Props.Variables

/-!
# Small models: variables and values of components
-/

namespace Calliope
namespace BaseMath

open Grid Infix Expr Expand Build Where

namespace Mini
variable {M : Mini}

/-- What a component stands for. -/
def quantity (M : Mini) (n : String) (ρ : Point) : Rat :=
  match M.data.lookup n with
  | some (ds, g) => g (ds.map ρ)
  | none => 0

theorem quantity_is {n : String} {ds : List String} {g : List Label → Rat} (h : M.data.lookup n = some (ds, g)) :
    M.quantity n = fun ρ => g (ds.map ρ) := by
  funext ρ
  simp only [quantity, h]

/-- A component is there and has some dimensions. -/
def has (M : Mini) (n : String) (ds : List String) : Bool :=
  match M.data.lookup n with
  | some (ds', _) => ds.all (fun d => decide (d ∈ ds'))
  | none => false

theorem has_ok {n : String} {ds : List String} (h : M.has n ds = true) : Is M.E n ds (M.quantity n) := by
  unfold has at h
  split at h
  · rename_i ds' g hl
    rw [quantity_is hl]
    exact is_data hl (by simpa using h)
  · simp at h

/-- A property of the numbers of a component. -/
def every (M : Mini) (p : Rat → Bool) (n : String) : Bool :=
  match M.data.lookup n with
  | some (ds, g) => (M.rows ds).all (fun r => p (g r))
  | none => p 0

theorem every_ok {p : Rat → Bool} {n : String} (h : M.every p n = true) {ρ : Point} (hρ : Valid M.W ρ) :
    p (M.quantity n ρ) = true := by
  unfold every at h
  unfold quantity
  split at h
  · rename_i ds g _
    exact List.all_eq_true.1 h _ (mem_rows hρ ds)
  · exact h

theorem nonneg_ok {n : String} (h : M.every (fun x => decide (0 ≤ x)) n = true) (ρ : Point) (hρ : Valid M.W ρ) :
    0 ≤ M.quantity n ρ := of_decide_eq_true (every_ok h hρ)

/-- Whether a number is within the bounds of an item. -/
def inside (integer : Bool) (x : Rat) : Option (Limits Rat) → Bool
  | none => decide (x = 0)
  | some c => (match c.lower with
      | some l => decide (l ≤ x)
      | none => true) && (match c.upper with
      | some u => decide (x ≤ u)
      | none => true) && (!integer || decide (x.den = 1))

/-- A variable, with values within its bounds. -/
def chooses (M : Mini) (v : Variable Rat) : Bool :=
  match M.data.lookup v.name, M.results.lookup v.name, buildVariable M.W M.E v with
  | some (ds', g), some a, .ok b =>
    decide v.foreach.Nodup && decide (ds' = v.foreach) && a.dims.all (fun d => decide (d ∈ v.foreach)) &&
    b.dims.all (fun d => decide (d ∈ v.foreach)) &&
    (M.rows v.foreach).all (fun r =>
      decide (a.at (M.point (v.foreach.zip r)) = (b.at (M.point (v.foreach.zip r))).isSome) &&
      inside v.integer (g (v.foreach.map (M.point (v.foreach.zip r)))) (b.at (M.point (v.foreach.zip r))))
  | _, _, _ => false

theorem chooses_ok {v : Variable Rat} (h : M.chooses v = true) : Solves M.W M.E v (M.quantity v.name) := by
  unfold chooses at h
  split at h
  · rename_i ds' g a b hd hr hb
    simp only [Bool.and_eq_true, decide_eq_true_eq, List.all_eq_true] at h
    obtain ⟨⟨⟨⟨h1, h2⟩, h3⟩, h4⟩, h5⟩ := h
    subst h2
    have key : ∀ ρ, Valid M.W ρ → a.at ρ = (b.at ρ).isSome ∧ inside v.integer (M.quantity v.name ρ) (b.at ρ) = true := by
      intro ρ hρ
      refine forall_points (P := fun ρ => a.at ρ = (b.at ρ).isSome ∧
        inside v.integer (M.quantity v.name ρ) (b.at ρ) = true) h1 ?_ ?_ hρ
      · intro ρ σ _ hs hP
        rw [← at_congr b (fun d hd => hs d (h4 d hd)), ← at_congr a (fun d hd => hs d (h3 d hd))]
        rw [quantity_is hd] at hP ⊢
        simp only at hP ⊢
        rw [show v.foreach.map ρ = v.foreach.map σ from List.map_congr_left (fun d hd => (hs d hd).symm)]
        exact hP
      · intro r hr
        rw [quantity_is hd]
        exact h5 r hr
    refine ⟨b, hb, ?_, ?_, ?_, ?_, ?_, ?_, ?_⟩
    · rw [quantity_is hd]
      exact is_data hd (fun _ h => h)
    · intro a' ha'
      rw [show M.W.result v.name = M.results.lookup v.name from rfl, hr, Option.some.injEq] at ha'
      subst ha'
      exact h3
    · intro ρ hρ
      constructor
      · rintro ⟨a', ha', hv⟩
        rw [show M.W.result v.name = M.results.lookup v.name from rfl, hr, Option.some.injEq] at ha'
        subst ha'
        rw [(key ρ hρ).1] at hv
        exact Option.isSome_iff_ne_none.1 hv
      · intro hne
        exact ⟨a, hr, by rw [(key ρ hρ).1]; exact Option.isSome_iff_ne_none.2 hne⟩
    · intro ρ hρ hn
      have := (key ρ hρ).2
      rw [hn] at this
      simpa [inside] using this
    · intro ρ x u hρ hn
      have := (key ρ hρ).2
      rw [hn] at this
      simp only [inside, Bool.and_eq_true, decide_eq_true_eq] at this
      exact this.1.1
    · intro ρ l y hρ hn
      have := (key ρ hρ).2
      rw [hn] at this
      simp only [inside, Bool.and_eq_true, decide_eq_true_eq] at this
      exact this.1.2
    · intro ρ hρ hn hi
      have := (key ρ hρ).2
      cases hc : b.at ρ with
      | none => exact absurd hc hn
      | some c =>
        rw [hc, hi] at this
        simp only [inside, Bool.and_eq_true, Bool.not_true, Bool.false_or, decide_eq_true_eq] at this
        exact ⟨_, (Rat.den_eq_one_iff _).1 this.2 |>.symm⟩
  · simp at h

/-- A number for every item, as data and as an input. -/
def param (n : String) (ds : List String) (l : List (List Label × Rat)) (default : Rat) :
    (String × List String × (List Label → Rat)) × (String × Input) :=
  ((n, ds, fun c => (l.lookup c).getD default),
   (n, ⟨.number, ⟨ds, fun c => ((l.lookup c).map Where.Val.num).getD .nan⟩, .num default⟩))

/-- A decision variable or expression, which exists where a number is given. -/
def result (n : String) (ds : List String) (l : List (List Label × Rat)) :
    (String × List String × (List Label → Rat)) × (String × Arr Bool) :=
  ((n, ds, table l), (n, ⟨ds, fun c => (l.lookup c).isSome⟩))

/-- A text for some items. -/
def text (n : String) (ds : List String) (l : List (List Label × String)) (default : Where.Val) : String × Input :=
  (n, ⟨.text, ⟨ds, fun c => ((l.lookup c).map Where.Val.str).getD .nan⟩, default⟩)

/-- A switch for some items. -/
def flag (n : String) (ds : List String) (l : List (List Label)) : String × Input :=
  (n, ⟨.boolean, ⟨ds, fun c => .bool (decide (c ∈ l))⟩, .bool false⟩)

end Mini
end BaseMath
end Calliope
