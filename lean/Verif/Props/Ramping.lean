import Mathlib.Tactic.Ring
import Verif.Props.Supply

/-!
# Ramping
-/

namespace Calliope
namespace BaseMath

open Grid Infix Expr Expand Build Where

variable {V : Type}

/-- The cases of the flow that ramping limits. -/
abbrev rampCases : List (Cond × Ex V) :=
  [((both (given "carrier_out") (no (given "carrier_in"))), bin (.comp "flow_out") .div (.comp "timestep_resolution")),
    ((both (given "carrier_in") (no (given "carrier_out"))), bin (.comp "flow_in") .div (.comp "timestep_resolution")),
    ((both (given "carrier_in") (given "carrier_out")), bin (bin (.comp "flow_out") .minus (.comp "flow_in")) .div
      (.comp "timestep_resolution"))]

section
variable [Field V] [LinearOrder V] [IsStrictOrderedRing V] {W : Where.Env} {E : Expr.Env V} {pw : V → V → V}
  {enum : List String → List String} {ρ : Point} (S : Setting W E pw) (henum : Traverses enum) (P : Plant W E)
  (R : Ramps W E) {up down : Arr (Option (Cell V))}

include S in
theorem previous_valid (hρ : Valid W ρ) : Valid W (previous W ρ) :=
  set_valid hρ (rolled_mem _ S.steps 1 _ (hρ _))

theorem ramp_local {c : Component V} (R : Ramps W E) (hf : c.foreach = ["nodes", "techs", "carriers", "timesteps"])
    (hs : c.defn.subs = [("flow", rampCases)]) (hsl : c.defn.slices = [])
    (he : ∀ p ∈ c.defn.equations, p.1 = always) : LocalCases W c := by
  have hi : ∀ n ∈ ["flow_ramping", "carrier_in", "carrier_out"], ∀ d ∈ (W.input n).arr.dims, d ∈ c.foreach := by
    intro n hn d hd
    rw [hf]
    exact (by decide : ∀ d ∈ ["nodes", "techs", "carriers"], d ∈ ["nodes", "techs", "carriers", "timesteps"]) d
      (R.within n hn d hd)
  refine ⟨fun p hp => by rw [he p hp]; trivial, ?_, by simp [hsl]⟩
  rw [hs]
  intro q hq p hp
  rw [List.mem_singleton] at hq
  subst hq
  simp only [List.mem_cons, List.not_mem_nil, or_false] at hp
  rcases hp with rfl | rfl | rfl
  · exact ⟨hi _ (by simp), hi _ (by simp)⟩
  · exact ⟨hi _ (by simp), hi _ (by simp)⟩
  · exact ⟨hi _ (by simp), hi _ (by simp)⟩

theorem ramp_present (S : Setting W E pw) (R : Ramps W E)
    (hin : InModel W ["nodes", "techs", "carriers", "timesteps"] ρ) (hg : GivenAt W "flow_ramping" ρ)
    (hf : ¬ First W ρ) :
    Present W ["nodes", "techs", "carriers", "timesteps"] (both (given "flow_ramping") (no firstStep)) ρ := by
  have hl : Local W ["nodes", "techs", "carriers", "timesteps"] (both (given "flow_ramping") (no firstStep)) := by
    refine ⟨fun d hd => ?_, ?_⟩
    · exact (by decide : ∀ d ∈ ["nodes", "techs", "carriers"], d ∈ ["nodes", "techs", "carriers", "timesteps"]) d
        (R.within _ (by simp) d hd)
    · simp [firstStep, Local, LocalRest, LocalLeaf, LocalLhs, no]
  exact (present_local hl).2 ⟨hin, (truth_both _ _ _).2 ⟨(truth_given' _ ρ).2 hg,
    (truth_no _ _).2 fun h => hf ((truth_first S.time ρ).1 h)⟩⟩

/-- What the two constraints compare, for one of the cases of the flow. -/
theorem ramp_case (S : Setting W E pw) (henum : Traverses enum) (P : Plant W E) (R : Ramps W E)
    (h1 : buildConstraint W E enum rampingUp = .ok up) (h2 : buildConstraint W E enum rampingDown = .ok down)
    (hρ : Valid W ρ) (hin : InModel W ["nodes", "techs", "carriers", "timesteps"] ρ) (hg : GivenAt W "flow_ramping" ρ)
    (hf : ¬ First W ρ) {v : Cond} {t : Ex V} (hv : (v, t) ∈ rampCases) (ht : Truth W ρ v) {q : Point → V}
    (hq : ∀ σ, Valid W σ → ∀ sl, val E sl t σ = some (q σ)) (hok : Ok t ∧ sliceRefs t = []) :
    up.at ρ = some ⟨some (q ρ - q (previous W ρ)), "<=", some (R.ramping ρ * P.cap ρ)⟩ ∧
    down.at ρ = some ⟨some (-1 * R.ramping ρ * P.cap ρ), "<=", some (q ρ - q (previous W ρ))⟩ := by
  have hp := ramp_present S R hin hg hf
  have hap : Apart ["nodes", "techs", "carriers", "timesteps"] t := by
    simp only [List.mem_cons, List.not_mem_nil, or_false, Prod.mk.injEq] at hv
    rcases hv with ⟨_, rfl⟩ | ⟨_, rfl⟩ | ⟨_, rfl⟩ <;> simp [bin, Apart, ApartRest]
  have hl1 : LocalCases W (rampingUp (V := V)) := ramp_local R rfl rfl rfl (by simp [rampingUp])
  have hl2 : LocalCases W (rampingDown (V := V)) := ramp_local R rfl rfl rfl (by simp [rampingDown])
  have hdiff : ∀ sl, val E sl (bin t .minus (.roll t [("timesteps", 1)])) ρ = some (q ρ - q (previous W ρ)) := by
    intro sl
    have hr : set ρ "timesteps" (rolled (E.coords "timesteps") 1 (ρ "timesteps")) = previous W ρ := by
      rw [S.coords]; rfl
    rw [val_bin, val_roll, hr, hq ρ hρ, hq _ (previous_valid S hρ), S.numbers.minus]
  have hcap : valueAt E "flow_cap" ρ = some (P.cap ρ) := P.capIs.at ρ
  have picks : ∀ (l r : Ex V) (o : String), findSubs (.cmp l o r) ≠ [] → (∀ m ∈ findSubs (.cmp l o r), m = "flow") →
      Picks W ρ [("flow", (rampCases : List (Cond × Ex V)))] (findSubs (.cmp l o r)) [("flow", t)] := by
    intro l r o hne hall
    obtain ⟨m, hm⟩ := List.exists_mem_of_ne_nil _ hne
    have := hall m hm
    subst this
    exact picks_one hm hall (lookup_hit _ _ _) hv ht
  refine ⟨?_, ?_⟩
  · have hr : Reads W rampingUp ρ (.cmp (bin (.sub "flow") .minus (.roll (.sub "flow") [("timesteps", 1)])) "<="
        (bin (.comp "flow_ramping") .times (.comp "flow_cap")) : Body V) [("flow", t)] [] := by
      refine ⟨⟨always, List.mem_cons_self .., by simp⟩, picks _ _ _ (by simp [findSubs, bin, subRefs, subRefsRest])
        (by simp [findSubs, bin, subRefs, subRefsRest]), ?_⟩
      have : bodySlices (.cmp (bin (.sub "flow") .minus (.roll (.sub "flow") [("timesteps", 1)])) "<="
          (bin (.comp "flow_ramping") .times (.comp "flow_cap")) : Body V) ++
            [("flow", t)].flatMap (fun p => sliceRefs p.2) = [] := by
        simp [bodySlices, bin, sliceRefs, sliceRefsRest, hok.2]
      rw [this]
      exact picks_nil
    rw [(constraint_present S.wf henum (by simp [rampingUp]) (by rfl) h1 hl1 hρ).2 _ _ _ _ _ hp hr
      (by simpa [Expr.inline, Expr.inlineRest, bin, Ok, OkRest, List.lookup] using hok.1)
      (by simpa [Expr.inline, Expr.inlineRest, bin, Apart, ApartRest, List.lookup, rampingUp, rampingDown] using hap)
      (by simp [Expr.inline, Expr.inlineRest, bin, Ok, OkRest])
      (by simp [Expr.inline, Expr.inlineRest, bin, Apart, ApartRest]), readAs_val, readAs_val, inline_bin, inline_bin]
    simp only [Expr.inline, lookup_hit, Option.getD_some]
    rw [hdiff, val_bin, val_comp, val_comp, R.isRamping.at, hcap, S.numbers.times]
  · have hr : Reads W rampingDown ρ (.cmp (bin3 (.sign .minus (.num 1)) .times (.comp "flow_ramping") .times
        (.comp "flow_cap")) "<=" (bin (.sub "flow") .minus (.roll (.sub "flow") [("timesteps", 1)])) : Body V)
        [("flow", t)] [] := by
      refine ⟨⟨always, List.mem_cons_self .., by simp⟩, picks _ _ _
        (by simp [findSubs, bin, bin3, subRefs, subRefsRest])
        (by simp [findSubs, bin, bin3, subRefs, subRefsRest]), ?_⟩
      have : bodySlices (.cmp (bin3 (.sign .minus (.num 1)) .times (.comp "flow_ramping") .times
          (.comp "flow_cap")) "<=" (bin (.sub "flow") .minus (.roll (.sub "flow") [("timesteps", 1)])) : Body V) ++
            [("flow", t)].flatMap (fun p => sliceRefs p.2) = [] := by
        simp [bodySlices, bin, bin3, sliceRefs, sliceRefsRest, hok.2]
      rw [this]
      exact picks_nil
    rw [(constraint_present S.wf henum (by simp [rampingDown]) (by rfl) h2 hl2 hρ).2 _ _ _ _ _ hp hr
      (by simp [Expr.inline, Expr.inlineRest, bin3, Ok, OkRest])
      (by simp [Expr.inline, Expr.inlineRest, bin3, Apart, ApartRest])
      (by simpa [Expr.inline, Expr.inlineRest, bin, Ok, OkRest, List.lookup] using hok.1)
      (by simpa [Expr.inline, Expr.inlineRest, bin, Apart, ApartRest, List.lookup, rampingUp, rampingDown] using hap),
      readAs_val, readAs_val, inline_bin, inline_bin3]
    simp only [Expr.inline, lookup_hit, Option.getD_some]
    have hone : ∀ sl, val E sl (.sign .minus (.num 1)) ρ = some (-1) := by
      intro sl
      simp only [val, mean, if_pos]
      exact R.minus 1
    rw [hdiff, val_bin3, val_comp, val_comp, R.isRamping.at, hcap, hone, S.numbers.times, S.numbers.times]

include S henum in
/-- C85: the two constraints hold exactly if the net flow per hour changes from one time step to the next by at most the
ramping rate times the capacity. -/
theorem C85_step (h1 : buildConstraint W E enum rampingUp = .ok up) (h2 : buildConstraint W E enum rampingDown = .ok down)
    (hρ : Valid W ρ) (hin : InModel W ["nodes", "techs", "carriers", "timesteps"] ρ) (hg : GivenAt W "flow_ramping" ρ)
    (hf : ¬ First W ρ) (hio : GivenAt W "carrier_in" ρ ∨ GivenAt W "carrier_out" ρ) :
    (Satisfied up ρ ∧ Satisfied down ρ) ↔ |P.power ρ - P.power (previous W ρ)| ≤ R.ramping ρ * P.cap ρ := by
  have hh : ∀ σ, Valid W σ → P.hours σ ≠ 0 := by
    intro σ hσ h0
    obtain ⟨a, ha, hv, _⟩ := P.isHours
    exact R.hours a ha σ hσ (by rw [hv, h0])
  have hhv : ∀ σ, valueAt E "timestep_resolution" σ = some (P.hours σ) := fun σ => P.isHours.at σ
  have hov : ∀ σ, valueAt E "flow_out" σ = some (P.out σ) := fun σ => P.isOut.decision.is.at σ
  have hiv : ∀ σ, valueAt E "flow_in" σ = some (P.inn σ) := fun σ => P.isInn.decision.is.at σ
  have hsame : SameAlong ["nodes", "techs", "carriers"] ρ (previous W ρ) := sameAlong_set (by decide) _
  -- no flow where the technology does not have the carrier
  have zero : ∀ (n : String) (v : Variable V) (f : Point → V), n ∈ ["flow_ramping", "carrier_in", "carrier_out"] →
      Solves W E v f → v.foreach = ["nodes", "techs", "carriers", "timesteps"] → v.top = given n →
      ¬ GivenAt W n ρ → f ρ = 0 ∧ f (previous W ρ) = 0 := by
    intro n v f hn hs hvf hvt hno
    have key : ∀ σ, Valid W σ → SameAlong ["nodes", "techs", "carriers"] ρ σ → f σ = 0 := by
      intro σ hσ hsσ
      refine (C79_values hs hσ).2 ?_
      rintro ⟨_, τ, g2, g3, _, g5⟩
      rw [hvt, truth_given'] at g5
      refine hno ((givenAt_same (R.within n hn) hsσ).1 ((givenAt_same (R.within n hn) ?_).1 g5))
      intro d hd
      exact g3 d (by
        rw [hvf]
        exact (by decide : ∀ d ∈ ["nodes", "techs", "carriers"], d ∈ ["nodes", "techs", "carriers", "timesteps"]) d hd)
    exact ⟨key ρ hρ fun _ _ => rfl, key _ (previous_valid S hρ) hsame⟩
  have fin : ∀ d : V, (d ≤ R.ramping ρ * P.cap ρ ∧ -1 * R.ramping ρ * P.cap ρ ≤ d) ↔ |d| ≤ R.ramping ρ * P.cap ρ := by
    intro d
    rw [abs_le, show -1 * R.ramping ρ * P.cap ρ = -(R.ramping ρ * P.cap ρ) by ring]
    exact and_comm
  by_cases hi : GivenAt W "carrier_in" ρ
  · by_cases ho : GivenAt W "carrier_out" ρ
    · obtain ⟨e1, e2⟩ := ramp_case S henum P R h1 h2 hρ hin hg hf (v := both (given "carrier_in") (given "carrier_out"))
        (t := bin (bin (.comp "flow_out") .minus (.comp "flow_in")) .div (.comp "timestep_resolution")) (by simp)
        ((truth_both _ _ _).2 ⟨(truth_given' _ ρ).2 hi, (truth_given' _ ρ).2 ho⟩) (q := P.power)
        (by
          intro σ hσ sl
          rw [val_bin, val_bin, val_comp, val_comp, val_comp, hov, hiv, hhv, S.numbers.minus,
            S.numbers.div _ _ (hh σ hσ)]
          rfl) (by simp [bin, Ok, OkRest, sliceRefs, sliceRefsRest])
      rw [satisfied_iff_le e1, satisfied_iff_le e2, fin]
    · obtain ⟨e1, e2⟩ := ramp_case S henum P R h1 h2 hρ hin hg hf
        (v := both (given "carrier_in") (no (given "carrier_out")))
        (t := bin (.comp "flow_in") .div (.comp "timestep_resolution")) (by simp)
        ((truth_both _ _ _).2 ⟨(truth_given' _ ρ).2 hi, (truth_no _ _).2 fun h => ho ((truth_given' _ ρ).1 h)⟩)
        (q := fun σ => P.inn σ / P.hours σ)
        (by
          intro σ hσ sl
          rw [val_bin, val_comp, val_comp, hiv, hhv, S.numbers.div _ _ (hh σ hσ)])
        (by simp [bin, Ok, OkRest, sliceRefs, sliceRefsRest])
      rw [satisfied_iff_le e1, satisfied_iff_le e2, fin]
      obtain ⟨z1, z2⟩ := zero "carrier_out" flowOutVar P.out (by simp) P.isOut rfl rfl ho
      rw [← abs_neg]
      have : -(P.inn ρ / P.hours ρ - P.inn (previous W ρ) / P.hours (previous W ρ)) =
          P.power ρ - P.power (previous W ρ) := by
        unfold Plant.power
        rw [z1, z2]
        ring
      rw [this]
  · have ho : GivenAt W "carrier_out" ρ := hio.resolve_left hi
    obtain ⟨e1, e2⟩ := ramp_case S henum P R h1 h2 hρ hin hg hf
      (v := both (given "carrier_out") (no (given "carrier_in")))
      (t := bin (.comp "flow_out") .div (.comp "timestep_resolution")) (by simp)
      ((truth_both _ _ _).2 ⟨(truth_given' _ ρ).2 ho, (truth_no _ _).2 fun h => hi ((truth_given' _ ρ).1 h)⟩)
      (q := fun σ => P.out σ / P.hours σ)
      (by
        intro σ hσ sl
        rw [val_bin, val_comp, val_comp, hov, hhv, S.numbers.div _ _ (hh σ hσ)])
      (by simp [bin, Ok, OkRest, sliceRefs, sliceRefsRest])
    rw [satisfied_iff_le e1, satisfied_iff_le e2, fin]
    obtain ⟨z1, z2⟩ := zero "carrier_in" flowInVar P.inn (by simp) P.isInn rfl rfl hi
    have : P.out ρ / P.hours ρ - P.out (previous W ρ) / P.hours (previous W ρ) =
        P.power ρ - P.power (previous W ρ) := by
      unfold Plant.power
      rw [z1, z2]
      ring
    rw [this]

include S henum in
/-- C85, longer times: between any two time steps the net flow per hour changes by at most what is allowed for each of
the steps between. -/
theorem C85_steps (h1 : buildConstraint W E enum rampingUp = .ok up) (h2 : buildConstraint W E enum rampingDown = .ok down)
    (s1 : ∀ σ, Valid W σ → Satisfied up σ) (s2 : ∀ σ, Valid W σ → Satisfied down σ) (hρ : Valid W ρ)
    (hin : InModel W ["nodes", "techs", "carriers", "timesteps"] ρ) (hg : GivenAt W "flow_ramping" ρ)
    (hio : GivenAt W "carrier_in" ρ ∨ GivenAt W "carrier_out" ρ) {pre post later : List Label} {t : Label}
    (hT : W.coords "timesteps" = pre ++ (t :: later) ++ post)
    (hm : ∀ d ∈ W.matrix.dims, d ∈ ["nodes", "techs", "carriers"]) :
    |P.power (set ρ "timesteps" ((t :: later).getLast (by simp))) - P.power (set ρ "timesteps" t)| ≤
      sumSteps later (fun σ => R.ramping σ * P.cap σ) ρ := by
  induction later generalizing pre t with
  | nil => simp [sumSteps]
  | cons u later ih =>
    have hT' : W.coords "timesteps" = (pre ++ [t]) ++ (u :: later) ++ post := by rw [hT]; simp
    have hu : u ∈ W.coords "timesteps" := by rw [hT]; simp
    have hv : Valid W (set ρ "timesteps" u) := set_valid hρ hu
    have hs : SameAlong ["nodes", "techs", "carriers"] ρ (set ρ "timesteps" u) := sameAlong_set (by decide) _
    have hprev : previous W (set ρ "timesteps" u) = set ρ "timesteps" t := by
      have hc := rolled_chain (B := t :: u :: later) S.steps hT
      have : rolled (W.coords "timesteps") 1 u = t := by
        rw [List.isChain_cons_cons] at hc
        exact hc.1
      unfold previous
      simp only [set_same, this, set_set]
    have hnf : ¬ First W (set ρ "timesteps" u) := by
      unfold First
      rw [set_same, hT]
      intro h
      have hn := S.steps
      rw [hT] at hn
      cases pre with
      | nil =>
        simp only [List.nil_append, List.cons_append, List.head?_cons, Option.some.injEq] at h
        subst h
        simp at hn
      | cons a pre =>
        simp only [List.cons_append, List.head?_cons, Option.some.injEq] at h
        subst h
        simp at hn
    have hin' : InModel W ["nodes", "techs", "carriers", "timesteps"] (set ρ "timesteps" u) := by
      obtain ⟨g0, σ, g1, g2, g3⟩ := hin
      refine ⟨g0, set σ "timesteps" u, set_valid g1 hu, ?_, ?_⟩
      · intro d hd
        by_cases hx : d = "timesteps"
        · subst hx; simp
        · rw [set_other _ _ hx, set_other _ _ hx]
          exact g2 d hd
      · rw [← g3]
        apply at_congr
        intro d hd
        refine set_other _ _ ?_
        rintro rfl
        exact absurd (hm _ hd) (by decide)
    have one := (C85_step S henum P R h1 h2 hv hin' ((givenAt_same (R.within _ (by simp)) hs).2 hg) hnf (by
      rw [givenAt_same (R.within "carrier_in" (by simp)) hs, givenAt_same (R.within "carrier_out" (by simp)) hs]
      exact hio)).1 ⟨s1 _ hv, s2 _ hv⟩
    rw [hprev] at one
    have rest := ih hT'
    rw [List.getLast_cons (by simp)]
    have : sumSteps (u :: later) (fun σ => R.ramping σ * P.cap σ) ρ =
        R.ramping (set ρ "timesteps" u) * P.cap (set ρ "timesteps" u) +
          sumSteps later (fun σ => R.ramping σ * P.cap σ) ρ := by simp [sumSteps]
    rw [this]
    calc _ ≤ |P.power (set ρ "timesteps" ((u :: later).getLast (by simp))) - P.power (set ρ "timesteps" u)| +
          |P.power (set ρ "timesteps" u) - P.power (set ρ "timesteps" t)| := abs_sub_le _ _ _
      _ ≤ _ := by rw [add_comm]; exact add_le_add one rest

end

end BaseMath
end Calliope
