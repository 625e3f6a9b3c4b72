import Verif.Proofs.Costs
import Verif.Spec.Limits

/-!
What a constraint of one equation says.
-/

namespace Calliope
namespace BaseMath

open Grid Infix Expr Expand Build Where

variable {V : Type}

section
variable [Field V] {W : Where.Env} {E : Expr.Env V} {enum : List String → List String}
  {b : Arr (Option (Cell V))} {ρ : Point}

/-- A constraint of one equation without references. -/
theorem single_cmp (hE : WellFormed E) (henum : Traverses enum) {name : String} {o : String}
    {sets : List String} {top : Cond} {l r : Ex V} (hn : sets.Nodup)
    (hb : buildConstraint W E enum (single name sets top (.cmp l o r)) = .ok b) (hρ : Valid W ρ)
    (hu : findSubs (.cmp l o r) = [] ∧ bodySlices (.cmp l o r) = []) (hl : Ok l ∧ Apart sets l)
    (hr : Ok r ∧ Apart sets r) :
    (b.at ρ ≠ none ↔ Present W sets top ρ) ∧
      (Present W sets top ρ → b.at ρ = some ⟨plain E l ρ, o, plain E r ρ⟩) := by
  have hloc : LocalCases W (single name sets top (.cmp l o r)) := by
    refine ⟨?_, by simp [single], by simp [single]⟩
    intro p hp
    simp only [single, List.mem_singleton] at hp
    subst hp
    trivial
  have hres : resolved (single name sets top (.cmp l o r)).defn = true := by
    simp [resolved, single, hu]
  have hi : ∀ t : Ex V, inline (fun n => List.lookup n ([] : List (String × Ex V))) t = t :=
    inline_none (fun _ => rfl)
  obtain ⟨h1, h2⟩ := constraint_present hE henum (by simpa [single] using hn) hres hb hloc hρ
  have hread : Reads W (single name sets top (.cmp l o r)) ρ (.cmp l o r) [] [] :=
    reads_nil (w := always) (by simp [single]) (by simp) hu.1 hu.2
  refine ⟨?_, ?_⟩
  · rw [h1]
    exact ⟨fun h => h.1, fun h => ⟨h, _, _, _, hread⟩⟩
  · intro hp
    rw [h2 l o r [] [] hp hread (by rw [hi]; exact hl.1) (by rw [hi]; exact hl.2) (by rw [hi]; exact hr.1)
      (by rw [hi]; exact hr.2), readAs_nil, readAs_nil]

theorem val_bin4 {sl : String → Option SliceDef} (a b c d : Ex V) (o p q : Arith.Op) (ρ : Point) :
    val E sl (.chain a (.more o b (.more p c (.one q d)))) ρ =
      E.op q (E.op p (E.op o (val E sl a ρ) (val E sl b ρ)) (val E sl c ρ)) (val E sl d ρ) := by
  simp only [val, mean, meanRest, mask_true]

/-- For an item in the model that meets a condition on its own labels. -/
theorem single_le (hE : WellFormed E) (henum : Traverses enum) [LE V] {name : String} {sets : List String} {top : Cond}
    {l r : Ex V} {x y : V} (hn : sets.Nodup)
    (hb : buildConstraint W E enum (single name sets top (.cmp l "<=" r)) = .ok b) (hρ : Valid W ρ)
    (hu : findSubs (.cmp l "<=" r) = [] ∧ bodySlices (.cmp l "<=" r) = []) (hl : Ok l ∧ Apart sets l)
    (hr : Ok r ∧ Apart sets r) (hp : Present W sets top ρ) (hs : Satisfied b ρ) (hx : plain E l ρ = some x)
    (hy : plain E r ρ = some y) : x ≤ y := by
  have := (single_cmp hE henum hn hb hρ hu hl hr).2 hp
  rw [hx, hy] at this
  exact satisfied_le hs this

theorem single_ge (hE : WellFormed E) (henum : Traverses enum) [LE V] {name : String} {sets : List String} {top : Cond}
    {l r : Ex V} {x y : V} (hn : sets.Nodup)
    (hb : buildConstraint W E enum (single name sets top (.cmp l ">=" r)) = .ok b) (hρ : Valid W ρ)
    (hu : findSubs (.cmp l ">=" r) = [] ∧ bodySlices (.cmp l ">=" r) = []) (hl : Ok l ∧ Apart sets l)
    (hr : Ok r ∧ Apart sets r) (hp : Present W sets top ρ) (hs : Satisfied b ρ) (hx : plain E l ρ = some x)
    (hy : plain E r ρ = some y) : y ≤ x := by
  have := (single_cmp hE henum hn hb hρ hu hl hr).2 hp
  rw [hx, hy] at this
  exact satisfied_ge hs this

theorem single_eq (hE : WellFormed E) (henum : Traverses enum) [LE V] {name : String} {sets : List String} {top : Cond}
    {l r : Ex V} {x y : V} (hn : sets.Nodup)
    (hb : buildConstraint W E enum (single name sets top (.cmp l "==" r)) = .ok b) (hρ : Valid W ρ)
    (hu : findSubs (.cmp l "==" r) = [] ∧ bodySlices (.cmp l "==" r) = []) (hl : Ok l ∧ Apart sets l)
    (hr : Ok r ∧ Apart sets r) (hp : Present W sets top ρ) (hs : Satisfied b ρ) (hx : plain E l ρ = some x)
    (hy : plain E r ρ = some y) : x = y := by
  have := (single_cmp hE henum hn hb hρ hu hl hr).2 hp
  rw [hx, hy] at this
  exact satisfied_eq hs this

end

theorem local_built {W : Where.Env} {sets : List String} {n : String} (h : ResultWithin W sets n) :
    Local W sets (built n) := h

theorem local_given {W : Where.Env} {sets : List String} {n : String} (h : Within W sets [n]) :
    Local W sets (given n) := h n (by simp)

theorem ResultWithin.more {W : Where.Env} {sets sets' : List String} {n : String} (h : ResultWithin W sets n)
    (hs : ∀ d ∈ sets, d ∈ sets') : ResultWithin W sets' n := fun a ha d hd => hs d (h a ha d hd)

theorem present_built {W : Where.Env} {sets : List String} {n : String} {ρ : Point} (hw : ResultWithin W sets n)
    (h1 : InModel W sets ρ) (h2 : Exists W n ρ) : Present W sets (built n) ρ :=
  (present_local (local_built hw)).2 ⟨h1, (truth_built' n ρ).2 h2⟩

theorem present_given {W : Where.Env} {sets : List String} {n : String} {ρ : Point} (hw : Within W sets [n])
    (h1 : InModel W sets ρ) (h2 : GivenAt W n ρ) : Present W sets (given n) ρ :=
  (present_local (local_given hw)).2 ⟨h1, (truth_given' n ρ).2 h2⟩

end BaseMath
end Calliope
