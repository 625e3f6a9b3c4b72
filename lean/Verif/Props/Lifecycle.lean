import Verif.Model.Lifecycle
import Mathlib.Tactic.Linarith

/-!
# Properties C29 and C30: life cycle of a model, zero threshold
-/

namespace Calliope
namespace Lifecycle

/-- A call whose work was carried out completely. -/
def didBuild : Call → Bool
  | .build _ .succeeds => true
  | _ => false

/-- C29, guards.  In whatever state a model is:

* solving an unbuilt model, building a built one without `force` and solving one with results
  without `force` raise and change nothing;
* otherwise the call goes ahead. -/
theorem C29_guards (m : Model) :
    (∀ f r, m.built = false → solve m f r = (m, .guardError)) ∧
    (∀ r, m.built = true → build m false r = (m, .guardError)) ∧
    (∀ r, m.results.isSome → solve m false r = (m, .guardError)) ∧
    (∀ f r, (build m f r).2 = .guardError → m.built = true ∧ f = false) ∧
    (∀ f r, (solve m f r).2 = .guardError → m.built = false ∨ (m.results.isSome ∧ f = false)) := by
  refine ⟨?_, ?_, ?_, ?_, ?_⟩
  · intro f r h; simp [solve, h]
  · intro r h; simp [build, h]
  · intro r h; cases hb : m.built <;> simp [solve, hb, h]
  · intro f r h
    cases hb : m.built <;> cases f <;> cases r <;> simp [build, hb] at h ⊢
  · intro f r h
    cases hb : m.built <;> cases hr : m.results <;> cases f <;> cases r <;> simp [solve, hb, hr] at h ⊢

theorem runs_append (m : Model) (xs ys : List Call) : runs m (xs ++ ys) = runs (runs m xs) ys := by
  induction xs generalizing m with
  | nil => rfl
  | cons x xs ih => simp [runs, ih]

/-- C29, over histories: a model counts as built exactly when some earlier build call was carried
out, and then it has a backend; so a solve is only ever carried out on a backend, after a build. -/
theorem C29_histories (res : Option (Option Nat)) (cs : List Call) :
    ((runs (new res) cs).built = true ↔ ∃ pre c post, cs = pre ++ c :: post ∧
      (step (runs (new res) pre) c).2 = .returned ∧ ∃ f r, c = .build f r) ∧
    ((runs (new res) cs).built = true → (runs (new res) cs).backend.isSome) := by
  have key : ∀ (cs : List Call) (m : Model), (m.built = true → m.backend.isSome) →
      (((runs m cs).built = true ↔ (m.built = true ∨ ∃ pre c post, cs = pre ++ c :: post ∧
        (step (runs m pre) c).2 = .returned ∧ ∃ f r, c = .build f r)) ∧
      ((runs m cs).built = true → (runs m cs).backend.isSome)) := by
    intro cs
    induction cs with
    | nil => intro m h; simp [runs]; exact h
    | cons c cs ih =>
      intro m h
      have hstep : ((step m c).1.built = true ↔
          (m.built = true ∨ ((step m c).2 = .returned ∧ ∃ f r, c = .build f r))) ∧
          ((step m c).1.built = true → (step m c).1.backend.isSome) := by
        cases c with
        | build f r =>
          cases hb : m.built <;> cases f <;> cases r <;> simp [step, build, hb] at h ⊢ <;> exact h
        | solve f r =>
          cases hb : m.built <;> cases hr : m.results <;> cases f <;> cases r <;>
            simp [step, solve, hb, hr] at h ⊢ <;> exact h
      obtain ⟨i1, i2⟩ := ih (step m c).1 hstep.2
      refine ⟨?_, i2⟩
      simp only [runs]
      rw [i1, hstep.1]
      constructor
      · rintro ((h | h) | ⟨pre, c', post, rfl, h⟩)
        · exact .inl h
        · exact .inr ⟨[], c, cs, rfl, h⟩
        · exact .inr ⟨c :: pre, c', post, rfl, h⟩
      · rintro (h | ⟨pre, c', post, e, h⟩)
        · exact .inl (.inl h)
        · cases pre with
          | nil => simp at e; obtain ⟨rfl, rfl⟩ := e; exact .inl (.inr h)
          | cons p pre =>
            simp at e; obtain ⟨rfl, rfl⟩ := e
            exact .inr ⟨pre, c', post, rfl, h⟩
  have := key cs (new res) (by simp [new])
  simpa [new] using this

/-- C29: what an accepted call does.  A build that returns replaces the backend by a new, complete
one; a solve that returns records the model as solved, with new results if optimal and no results
otherwise; a solve never touches the backend. -/
theorem C29_effects (m : Model) :
    (∀ f r, (build m f r).2 = .returned →
      ∃ b, (build m f r).1.backend = some b ∧ b.complete = true ∧ b.id = m.fresh ∧ (build m f r).1.built = true) ∧
    (∀ f r, (solve m f r).2 = .returned → (solve m f r).1.solved = true ∧
      (r = .optimal → (solve m f r).1.results = some m.fresh) ∧
      (r = .nonOptimal → (solve m f r).1.results = none)) ∧
    (∀ f r, (solve m f r).1.backend = m.backend ∧ (solve m f r).1.built = m.built) ∧
    (∀ f, (solve m f .raises).1 = m) := by
  refine ⟨?_, ?_, ?_, ?_⟩
  · intro f r h
    cases hb : m.built <;> cases f <;> cases r <;> simp [build, hb] at h ⊢
  · intro f r h
    cases hb : m.built <;> cases hr : m.results <;> cases f <;> cases r <;> simp [solve, hb, hr] at h ⊢
  · intro f r
    cases hb : m.built <;> cases hr : m.results <;> cases f <;> cases r <;> simp [solve, hb, hr]
  · intro f
    cases hb : m.built <;> cases hr : m.results <;> cases f <;> simp [solve, hb, hr]

example : ∃ m, m = runs (new none) [.build false .succeeds, .solve false .nonOptimal, .solve false .optimal] ∧
    m.built = true ∧ m.solved = true ∧ m.results = some 1 ∧ m.backend = some ⟨0, true⟩ :=
  ⟨_, rfl, rfl, rfl, rfl, rfl⟩

/-- C29 fails at a crash point: when a forced rebuild raises while components are being added, the
model still counts as built, on a new backend that is incomplete, and a solve is carried out on
it. -/
theorem C29_failed_rebuild : ∃ cs : List Call, ∃ m, m = runs (new none) cs ∧
    (step (runs (new none) [.build false .succeeds]) (.build true .componentsFail)).2 = .otherError ∧
    cs = [.build false .succeeds, .build true .componentsFail] ∧
    m.built = true ∧ m.backend = some ⟨1, false⟩ ∧ (solve m false .optimal).2 = .returned :=
  ⟨_, _, rfl, rfl, rfl, rfl, rfl, rfl⟩

/-- C29 fails: a solved model can be solved again without `force` when the first solution was not
optimal; and a forced rebuild keeps the results of the old problem. -/
theorem C29_solved_again : ∃ m, m = runs (new none) [.build false .succeeds, .solve false .nonOptimal] ∧
    m.solved = true ∧ (solve m false .optimal).2 = .returned ∧
    (runs m [.solve false .optimal, .build true .succeeds]).results = some 1 ∧
    (runs m [.solve false .optimal, .build true .succeeds]).backend = some ⟨2, true⟩ :=
  ⟨_, rfl, rfl, rfl, rfl, rfl⟩

/-- C29 fails for a model read from a file: it counts as solved although it has no results. -/
theorem C29_read_counts_as_solved : (new (some none)).solved = true ∧ (new (some none)).results = none :=
  ⟨rfl, rfl⟩

/-! ## C30 -/

/-- C30: with a threshold `t`, optimal or feasible results with absolute value below `t` become
zero and everything else (including NaN) is kept, array by array and element by element; applying
it again changes nothing; no sign is flipped. -/
theorem C30_zero_threshold (cond : String) (hc : cond = "optimal" ∨ cond = "feasible") (t : Rat)
    (res : List (String × List (Option Rat))) :
    ∃ out, postprocess cond t res = out ∧ out.map Prod.fst = res.map Prod.fst ∧
      (∀ (i : Nat) n l, res[i]? = some (n, l) → ∃ l', out[i]? = some (n, l') ∧ l'.length = l.length ∧
        ∀ (j : Nat) v, l[j]? = some v → ∃ v', l'[j]? = some v' ∧
          (v = none → v' = none) ∧
          (∀ x, v = some x → |x| < t → t ≠ 0 → v' = some 0) ∧
          (∀ x, v = some x → t ≤ |x| ∨ t = 0 → v' = some x) ∧
          (∀ x y, v = some x → v' = some y → 0 ≤ x * y)) ∧
      postprocess cond t out = out := by
  have hz : ∀ v, zeroElem t (zeroElem t v) = zeroElem t v := by
    intro v
    cases v with
    | none => rfl
    | some x =>
      simp only [zeroElem]
      by_cases h : |x| < t
      · simp only [h, if_true, zeroElem, abs_zero]; split <;> rfl
      · simp [h, zeroElem]
  refine ⟨_, rfl, ?_, ?_, ?_⟩
  · simp only [postprocess, hc, if_true, zeroThreshold]
    split
    · simp [List.map_map, Function.comp_def]
    · rfl
  · intro i n l hi
    simp only [postprocess, hc, if_true, zeroThreshold]
    split
    · next ht =>
      refine ⟨l.map (zeroElem t), by simp [hi], by simp, ?_⟩
      intro j v hj
      refine ⟨zeroElem t v, by simp [hj], ?_, ?_, ?_, ?_⟩
      · rintro rfl; rfl
      · rintro x rfl hx _; simp [zeroElem, hx]
      · rintro x rfl hx
        rcases hx with hx | hx
        · simp [zeroElem, not_lt.2 hx]
        · exact absurd hx ht
      · rintro x y rfl hy
        simp only [zeroElem] at hy
        split at hy
        · cases hy; simp
        · cases hy; exact mul_self_nonneg x
    · next ht =>
      simp only [ne_eq, Decidable.not_not] at ht
      refine ⟨l, hi, rfl, ?_⟩
      intro j v hj
      refine ⟨v, hj, id, ?_, ?_, ?_⟩
      · intro x _ _ h; exact absurd ht h
      · rintro x rfl _; rfl
      · rintro x y rfl ⟨⟩; exact mul_self_nonneg x
  · simp only [postprocess, hc, if_true, zeroThreshold]
    split
    · simp [List.map_map, Function.comp_def, hz]
    · rfl

example : postprocess "optimal" (1 / 2) [("a", [some (1 / 4), none, some (-3)])]
    = [("a", [some 0, none, some (-3)])] := by
  decide +kernel

/-- C30 fails for runs that end with more than one termination condition: operate and SPORES runs
join them to one text, which is neither "optimal" nor "feasible" (model.py:574-580, 694-700). -/
theorem C30_joined_conditions : postprocess "optimal,feasible" 1 [("a", [some (1 / 2)])]
    = [("a", [some (1 / 2)])] := by
  decide +kernel

end Lifecycle
end Calliope
