import Verif.Props.SaveLoad

/-!
# Property of new models (C93)

What initialisation does to the inputs of a model for the first time: all that the configuration asks for, in this order
and once.
-/

namespace Calliope
namespace SaveLoad

open Imports (mathPriority)

variable {D μ β : Type}

/-- `d'` is what the step `f` gives for `d` if it is asked for, and else `d`. -/
def Applied (asked : Prop) (f : D → Except Err D) (d d' : D) : Prop :=
  (asked → f d = .ok d') ∧ (¬ asked → d' = d)

/-- **C93** A new model has the math of its configuration and inputs that are cleaned, given colours and distances, cut
to the subsets, resampled, completed by inferred time parameters, clustered and typed, in this order, subsets, resampling
and clustering only if the configuration asks for them.  It is neither built nor solved. -/
theorem C93_new {S : Steps D μ β} {build : β → Except Err D} {c : Init} {mi : μ} {m : Model D μ β}
    (h : readDict S build c mi = .ok m) :
    m.attrs.config = c ∧ m.isBuilt = false ∧ m.isSolved = false ∧ m.results = S.empty ∧
    S.buildMath (["base"] ++ (if c.mode ≠ "base" then [c.mode] else []) ++ c.extraMath) mi = .ok m.attrs.mathBuild ∧
    ∃ inputs, build m.attrs.mathBuild = .ok inputs ∧ (S.hasData inputs = false → m.inputs = inputs) ∧
    (S.hasData inputs = true →
      ∃ d1 d2 d3 d4 d5 d6, S.undefined m.attrs.mathBuild inputs = .ok d1 ∧ S.distances (S.colours d1) = .ok d2 ∧
        S.dated d2 = true ∧
        Applied (c.subset ≠ []) (S.subset m.attrs.mathBuild c.subset) d2 d3 ∧
        Applied (c.resample ≠ []) (S.resample m.attrs.mathBuild c.resample) d3 d4 ∧
        S.infer d4 = .ok d5 ∧
        (∀ p, c.timeCluster = some p → S.cluster p d5 = .ok d6) ∧ (c.timeCluster = none → d6 = d5) ∧
        S.types m.attrs.mathBuild d6 = .ok m.inputs) := by
  have hp : mathPriority c.mode c.extraMath =
      ["base"] ++ (if c.mode ≠ "base" then [c.mode] else []) ++ c.extraMath := by
    rw [priority_eq]
    by_cases h : c.mode = "base" <;> simp [h]
  rw [← hp]
  unfold readDict at h
  rcases hb : S.buildMath (mathPriority c.mode c.extraMath) mi with e | b
  · simp [hb] at h
  simp only [hb] at h
  rcases hi : build b with e | inputs
  · simp [hi] at h
  simp only [hi] at h
  unfold init withMath at h
  simp only [id, ne_eq, not_true_eq_false, if_false] at h
  rcases hd : S.hasData inputs with _ | _
  · simp only [hd, Bool.false_eq_true, if_false, Except.ok.injEq] at h
    subst h
    exact ⟨rfl, rfl, rfl, rfl, rfl, inputs, hi, fun _ => rfl, fun h => by simp [hd] at h⟩
  simp only [hd, if_true] at h
  unfold clean tidy at h
  rcases h1 : S.undefined b inputs with e | d1
  · simp [h1] at h
  simp only [h1] at h
  rcases h2 : S.distances (S.colours d1) with e | d2
  · simp [h2] at h
  simp only [h2] at h
  unfold dimensions at h
  rcases h3 : S.dated d2 with _ | _
  · simp [h3] at h
  simp only [h3, Bool.true_eq_false, if_false] at h
  have hsub : ∃ d3, Applied (c.subset ≠ []) (S.subset b c.subset) d2 d3 ∧
      stepSubset S c b
        { Runtime.default with priority := mathPriority c.mode c.extraMath } d2 =
      .ok (d3, { Runtime.default with
        priority := mathPriority c.mode c.extraMath
        subset := c.subset }) := by
    unfold stepSubset at h ⊢
    by_cases hs : c.subset = []
    · refine ⟨d2, ⟨fun h => absurd hs h, fun _ => rfl⟩, ?_⟩
      simp [Runtime.default, hs]
    · rcases h4 : S.subset b c.subset d2 with e | d3
      · simp [Runtime.default, hs, h4] at h
      · exact ⟨d3, ⟨fun _ => h4, fun h => absurd hs h⟩, by simp [Runtime.default, hs]⟩
  obtain ⟨d3, a3, e3⟩ := hsub
  simp only [e3] at h
  have hres : ∃ d4, Applied (c.resample ≠ []) (S.resample b c.resample) d3 d4 ∧
      stepResample S c b { Runtime.default with
        priority := mathPriority c.mode c.extraMath
        subset := c.subset } d3 =
      .ok (d4, { Runtime.default with
        priority := mathPriority c.mode c.extraMath
        subset := c.subset
        resample := c.resample }) := by
    unfold stepResample at h ⊢
    by_cases hs : c.resample = []
    · refine ⟨d3, ⟨fun h => absurd hs h, fun _ => rfl⟩, ?_⟩
      simp [Runtime.default, hs]
    · rcases h4 : S.resample b c.resample d3 with e | d4
      · simp [Runtime.default, hs, h4] at h
      · exact ⟨d4, ⟨fun _ => h4, fun h => absurd hs h⟩, by simp [Runtime.default, hs]⟩
  obtain ⟨d4, a4, e4⟩ := hres
  simp only [e4] at h
  rcases h5 : S.infer d4 with e | d5
  · simp [stepInfer, Runtime.default, h5] at h
  simp only [stepInfer, Runtime.default, h5, Bool.false_eq_true, if_false] at h
  unfold stepCluster at h
  rcases hc : c.timeCluster with _ | p
  · simp only [hc] at h
    rcases h6 : S.types b d5 with e | d6
    · simp [h6] at h
    simp only [h6, Except.ok.injEq] at h
    subst h
    refine ⟨rfl, rfl, rfl, rfl, rfl, inputs, hi, fun h => (by simp [hd] at h), fun _ => ⟨d1, d2, d3, d4, d5, d5,
      h1, h2, h3, a3, a4, h5, ?_, fun _ => rfl, h6⟩⟩
    intro p hp'
    cases hp'
  · simp only [hc] at h
    rcases h7 : S.cluster p d5 with e | d6
    · simp [h7] at h
    simp only [h7] at h
    rcases h6 : S.types b d6 with e | d7
    · simp [h6] at h
    simp only [h6, Except.ok.injEq] at h
    subst h
    refine ⟨rfl, rfl, rfl, rfl, rfl, inputs, hi, fun h => (by simp [hd] at h), fun _ => ⟨d1, d2, d3, d4, d5, d6,
      h1, h2, h3, a3, a4, h5, ?_, ?_, h6⟩⟩
    · intro q hq
      simp only [Option.some.injEq] at hq
      subst hq; exact h7
    · intro hn
      cases hn

/-! ### Example -/

namespace NewDemo

/-- Steps that leave their names in the data. -/
def S : Steps (List String) Unit Unit where
  empty := []
  hasData d := !d.isEmpty
  noMath := ()
  noBuild := ()
  buildMath _ _ := .ok ()
  undefined _ d := .ok (d ++ ["undefined"])
  colours d := d ++ ["colours"]
  distances d := .ok (d ++ ["distances"])
  dated _ := true
  subset _ _ d := .ok (d ++ ["subset"])
  resample _ _ d := .ok (d ++ ["resample"])
  infer d := .ok (d ++ ["infer"])
  cluster p d := .ok (d ++ ["cluster " ++ p])
  types _ d := .ok (d ++ ["types"])

/-- The inputs of a new model with time steps resampled, and clustered. -/
def made (cluster : Option String) : Option (List String) :=
  match readDict S (fun _ => .ok ["data"]) ⟨[], [("timesteps", some "6h")], cluster, "base", [], 0⟩ () with
  | .ok m => some m.inputs
  | .error _ => none

example : made (some "days") =
    some ["data", "undefined", "colours", "distances", "resample", "infer", "cluster days", "types"] := by decide +kernel

example : made none = some ["data", "undefined", "colours", "distances", "resample", "infer", "types"] := by
  decide +kernel

end NewDemo

end SaveLoad
end Calliope
