import Verif.Proofs.Mask

/-!
# C45: where a component is built
-/

namespace Calliope
namespace Where

open Grid Infix

/-- The item `ρ` of the component is built. -/
def Built (m : Option (Arr Bool)) (ρ : String → Label) : Prop := ∃ a, m = some a ∧ a.at ρ = true

/-- What the property asks: there is an item of the model with the labels of `ρ` along the dimensions of
the component (`foreach`) which is in the definition matrix and at which all conditions hold. -/
def ShouldBuild (e : Env) (sets : List String) (top : Tree Op Leaf) (ws : List (Tree Op Leaf))
    (ρ : String → Label) : Prop :=
  (∀ d ∈ sets, d ∈ e.matrix.dims ∨ d ∈ e.dims) ∧
  ∃ σ, Valid e σ ∧ SameAlong sets ρ σ ∧ e.matrix.at σ = true ∧ ∀ w ∈ top :: ws, Truth e σ w

/-- Exactly: the definition matrix and the component's condition must hold together at an item with the
labels of `ρ`, and the equation's conditions together at an item with the labels of `ρ`, which may
be a different one. -/
theorem C45_exact (e : Env) (sets : List String) (top : Tree Op Leaf) (ws : List (Tree Op Leaf))
    (m : Option (Arr Bool)) (h : equationMask e sets top ws = .ok m) (ρ : String → Label)
    (hρ : Valid e ρ) :
    Built m ρ ↔
      (∀ d ∈ sets, d ∈ e.matrix.dims ∨ d ∈ e.dims) ∧
      (∃ σ, Valid e σ ∧ SameAlong sets ρ σ ∧ e.matrix.at σ = true ∧ Truth e σ top) ∧
      (∃ σ, Valid e σ ∧ SameAlong sets ρ σ ∧ ∀ w ∈ ws, Truth e σ w) :=
  equationMask_ok h hρ

/-- No item that should be built is left out. -/
theorem C45_complete (e : Env) (sets : List String) (top : Tree Op Leaf) (ws : List (Tree Op Leaf))
    (m : Option (Arr Bool)) (h : equationMask e sets top ws = .ok m) (ρ : String → Label)
    (hρ : Valid e ρ) (hs : ShouldBuild e sets top ws ρ) : Built m ρ := by
  obtain ⟨hk, σ, h1, h2, h3, h4⟩ := hs
  exact (C45_exact e sets top ws m h ρ hρ).2
    ⟨hk, ⟨σ, h1, h2, h3, h4 top (by simp)⟩, σ, h1, h2, fun w hw => h4 w (by simp [hw])⟩

/-- Partial: the property holds if the conditions of the equation have no dimension beyond those of the
component.  Missing: equations with conditions over other dimensions, for which it is false
(`C45_not_joint`). -/
theorem C45_built_partial (e : Env) (sets : List String) (top : Tree Op Leaf)
    (ws : List (Tree Op Leaf)) (m : Option (Arr Bool)) (h : equationMask e sets top ws = .ok m)
    (ρ : String → Label) (hρ : Valid e ρ)
    (hw : ∀ w ∈ ws, ∃ a, evalTree e w = .ok a ∧ ∀ d ∈ a.dims, d ∈ sets) :
    Built m ρ ↔ ShouldBuild e sets top ws ρ := by
  refine ⟨fun hb => ?_, C45_complete e sets top ws m h ρ hρ⟩
  obtain ⟨hk, ⟨σ, h1, h2, h3, h4⟩, τ, g1, g2, g3⟩ := (C45_exact e sets top ws m h ρ hρ).1 hb
  refine ⟨hk, σ, h1, h2, h3, ?_⟩
  intro w hmem
  rcases List.mem_cons.1 hmem with rfl | hmem
  · exact h4
  · obtain ⟨a, ha, hd⟩ := hw w hmem
    rw [← evalTree_ok σ ha]
    rw [at_congr a (ρ := τ) (fun d hda => by rw [h2 d (hd d hda), g2 d (hd d hda)])]
    exact (evalTree_ok τ ha).2 (g3 w hmem)

/-- A dimension the model does not have: no item, whatever the conditions. -/
theorem C45_unknown_dimension (e : Env) (sets : List String) (top : Tree Op Leaf)
    (ws : List (Tree Op Leaf)) (d : String) (hd : d ∈ sets) (hm : d ∉ e.matrix.dims)
    (hn : d ∉ e.dims) : equationMask e sets top ws = .ok none := by
  have hf : foreachMask e sets = scalar false := by
    unfold foreachMask
    simp only []
    rw [if_pos]
    rw [List.any_eq_true]
    exact ⟨d, List.mem_filter.2 ⟨hd, by simpa using hm⟩, by simpa using hn⟩
  have hc : anyCell e.coords (scalar false) = false := rfl
  unfold equationMask topLevel
  simp only [hf, hc]
  rfl

/-- The mask has exactly the dimensions of the component, in its order, so it says nothing else. -/
theorem C45_dimensions (e : Env) (sets : List String) (top : Tree Op Leaf) (ws : List (Tree Op Leaf))
    (a : Arr Bool) (h : equationMask e sets top ws = .ok (some a)) : a.dims = sets :=
  equationMask_dims h

/-- Finding the mask fails only if one of the conditions cannot be evaluated. -/
theorem C45_returns (e : Env) (sets : List String) (top : Tree Op Leaf) (ws : List (Tree Op Leaf))
    (ρ₀ : String → Label) (hρ₀ : Valid e ρ₀)
    (hw : ∀ w ∈ top :: ws, ∃ b, evalTree e w = .ok b) :
    ∃ m, equationMask e sets top ws = .ok m :=
  equationMask_returns hρ₀ hw

/-! ### A model with one technology, two carriers -/

/-- Two carriers; the definition matrix is true for both. -/
def twoCarriers : Env where
  dims := ["nodes", "techs", "carriers"]
  coords d := if d = "carriers" then ["heat", "power"] else ["x"]
  input _ := ⟨.number, scalar .nan, .nan⟩
  result _ := none
  config _ := none
  matrix := ⟨["nodes", "techs", "carriers"], fun _ => true⟩
  arith _ _ _ := .nan

/-- `[heat] in carriers` -/
def onHeat : Tree Op Leaf := .atom (.isIn [.str "heat"] "carriers")
/-- `[power] in carriers` -/
def onPower : Tree Op Leaf := .atom (.isIn [.str "power"] "carriers")

/-- A component over technologies with the condition `[heat] in carriers`, whose equation has the condition
`[power] in carriers`, is built although no item meets both; written as one condition, it is not. -/
theorem C45_not_joint :
    ∃ m m' ρ, equationMask twoCarriers ["techs"] onHeat [onPower] = .ok m ∧
      equationMask twoCarriers ["techs"] (.chain onHeat (.one .and onPower)) [] = .ok m' ∧
      Valid twoCarriers ρ ∧ Built m ρ ∧ ¬ Built m' ρ ∧
      ¬ ShouldBuild twoCarriers ["techs"] onHeat [onPower] ρ := by
  have ret : ∀ w ∈ [onHeat, onPower, .chain onHeat (.one .and onPower)],
      ∃ b, evalTree twoCarriers w = .ok b := by
    intro w hw
    simp only [List.mem_cons, List.not_mem_nil, or_false] at hw
    rcases hw with rfl | rfl | rfl <;> exact ⟨_, rfl⟩
  have hv : ∀ l ∈ ["heat", "power"],
      Valid twoCarriers (fun d => if d = "carriers" then l else "x") := by
    intro l hl d
    simp only [twoCarriers]
    by_cases hd : d = "carriers" <;> simp_all
  have heat : ∀ σ, Truth twoCarriers σ onHeat ↔ σ "carriers" = "heat" := by
    intro σ; simp [Truth, onHeat, LeafTruth, labelOf, twoCarriers]
  have power : ∀ σ, Truth twoCarriers σ onPower ↔ σ "carriers" = "power" := by
    intro σ; simp [Truth, onPower, LeafTruth, labelOf, twoCarriers]
  obtain ⟨m, hm⟩ := C45_returns twoCarriers ["techs"] onHeat [onPower] _ (hv "heat" (by simp))
    (fun w hw => ret w (by simp at hw ⊢; rcases hw with h | h <;> simp [h]))
  obtain ⟨m', hm'⟩ := C45_returns twoCarriers ["techs"] (.chain onHeat (.one .and onPower)) [] _
    (hv "heat" (by simp)) (fun w hw => ret w (by simp at hw ⊢; simp [hw]))
  refine ⟨m, m', _, hm, hm', hv "heat" (by simp), ?_, ?_, ?_⟩
  · rw [C45_exact _ _ _ _ _ hm _ (hv "heat" (by simp))]
    refine ⟨by intro d hd; simp [twoCarriers] at hd ⊢; simp [hd],
      ⟨_, hv "heat" (by simp), fun _ _ => rfl, rfl, (heat _).2 rfl⟩,
      ⟨_, hv "power" (by simp), fun d hd => ?_, ?_⟩⟩
    · simp at hd; subst hd; rfl
    · intro w hw; simp at hw; subst hw; exact (power _).2 rfl
  · rw [C45_exact _ _ _ _ _ hm' _ (hv "heat" (by simp))]
    rintro ⟨_, ⟨σ, _, _, _, ht⟩, _⟩
    simp only [Truth, RestTruth, connect] at ht
    have h1 := (heat σ).1 ht.1
    have h2 := (power σ).1 ht.2
    rw [h1] at h2
    exact absurd h2 (by decide)
  · rintro ⟨_, σ, _, _, _, ht⟩
    have h1 := (heat σ).1 (ht onHeat (by simp))
    have h2 := (power σ).1 (ht onPower (by simp))
    rw [h1] at h2
    exact absurd h2 (by decide)

/-- The hypotheses of `C45_built_partial` are met with a condition on technologies. -/
example : ∃ m, equationMask twoCarriers ["techs"] onHeat [.atom (.isIn [.str "x"] "techs")] = .ok m ∧
    ∃ a, evalTree twoCarriers (.atom (.isIn [.str "x"] "techs")) = .ok a ∧ ∀ d ∈ a.dims, d ∈ ["techs"] :=
  ⟨_, rfl, _, rfl, by decide⟩

end Where
end Calliope
