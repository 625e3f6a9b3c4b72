import Verif.Spec.SporesObjective
import Verif.Props.CostDemo
import Verif.Props.Spores
import Verif.Proofs.Postprocess

/-!
# C126: the objective of SPORES mode
-/

namespace Calliope

/-! ### Scores of a run -/

namespace Spores

open Classical in
/-- In how many of these results a technology has significant capacity. -/
noncomputable def times (c : Cfg) (i : Item) : List Result → Nat
  | [] => 0
  | r :: rs => (if Significant c r.cap i then 1 else 0) + times c i rs

theorem times_append (c : Cfg) (i : Item) (rs : List Result) (r : Result) [Decidable (Significant c r.cap i)] :
    times c i (rs ++ [r]) = times c i rs + if Significant c r.cap i then 1 else 0 := by
  induction rs with
  | nil => by_cases h : Significant c r.cap i <;> simp [times, h]
  | cons x rs ih => simp only [List.cons_append, times, ih, Nat.add_assoc]

theorem times_pos (c : Cfg) (i : Item) (rs : List Result) : 0 < times c i rs ↔ ∃ r ∈ rs, Significant c r.cap i := by
  induction rs with
  | nil => simp [times]
  | cons x rs ih =>
    by_cases h : Significant c x.cap i
    · simp [times, h]
    · simp [times, h, ih]

/-- C126, scores: with integer scoring, the score with which plan number `m` is looked for is 1000 times the number of
plans found before it that have significant capacity there; a technology that is not tracked has no score. -/
theorem C126_count (c : Cfg) (S : Solver) (prior : Prior) (b : Backend) (o : Outcome) (hf : c.useLatest = false)
    (ha : c.algorithm = .integer) (hfac : 0 ≤ c.factor) (h : run c S prior b = .ok o) (i : Item) (hi : i ∈ c.items)
    (m : Nat) (y : Call) (hy : o.calls[m]? = some y) :
    m ≤ o.results.length ∧
    (y.backend.score i).getD 0 =
      if c.tracked i = true then 1000 * (times c i ((o.results.take m).map Prod.snd) : Rat) else 0 := by
  obtain ⟨k, hk, hl, hr, h1, h2, x0, base, hx0, -, hs0, -⟩ := C31_run c S prior b o hf h
  have hlen : o.results.length = k + 1 := by
    have := congrArg List.length hl
    simpa using this
  have hcalls : o.calls.length ≤ k + 2 := by
    rcases lt_or_eq_of_le hk with h | h
    · exact le_of_eq (h2 h).1
    · rw [h1 h]
      omega
  have hm : m < o.calls.length := (List.getElem?_eq_some_iff.1 hy).1
  refine ⟨by omega, ?_⟩
  induction m generalizing y with
  | zero =>
    rw [hx0] at hy
    cases hy
    rw [hs0]
    simp [times]
  | succ m ih =>
    obtain ⟨x, r, s, hx, hres, hxr, -⟩ := hr m (by omega)
    have ih := ih x hx (by omega)
    obtain ⟨s1, s2, s3, -⟩ := C31_integer_scores c S prior b o hf ha hfac h m x y r hx hy hxr i hi
    have htake : o.results.take (m + 1) = o.results.take m ++ [((m : Int), r)] := by
      rw [List.take_add_one, hres]
      rfl
    cases ht : c.tracked i with
    | false =>
      rw [s1 ht, ih, ht]
      simp
    | true =>
      rw [ht] at ih
      simp only [if_true] at ih ⊢
      rw [htake, List.map_append, List.map_singleton]
      classical
      rw [times_append]
      by_cases hs : Significant c r.cap i
      · rw [s2 ht hs]
        simp only [Option.getD_some, hs, if_true, ih]
        push_cast
        ring
      · rw [s3 ht hs]
        simp only [Option.getD_some, hs, if_false, ih, Nat.add_zero]

end Spores

namespace BaseMath

open Grid Infix Expr Expand Build Where

variable {V : Type}

section
variable [Field V] {W : Where.Env} {E : Expr.Env V} {pw : V → V → V} {enum : List String → List String}
  {b : Arr (Option V)} {ρ : Point}

theorem points_three {E : Expr.Env V} (d e g : String) (f : Point → V) (ρ : Point) :
    ((points E.coords [d, e, g] ρ).map f).sum = sumOver E d (sumOver E e (sumOver E g f)) ρ := by
  rw [show points E.coords [d, e, g] ρ = (E.coords d).flatMap (fun l => points E.coords [e, g] (set ρ d l)) from rfl,
    List.map_flatMap]
  rw [sumOver]
  induction E.coords d with
  | nil => rfl
  | cons a l ih =>
    rw [List.flatMap_cons, List.sum_append, ih, points_two, List.map_cons, List.sum_cons]

section
variable (S : Setting W E pw) (F : Frame W) (henum : Traverses enum) (O : ObjectiveData E)
  {cap score weight : Point → V}
include S F henum

theorem scored_den (sl : String → Option SliceDef) (hcap : Is E "flow_cap" ["nodes", "techs", "carriers"] cap)
    (hs : Is E "spores_score" [] score) :
    ∀ ρ, val E sl (.sum (bin (.comp "flow_cap") .times (.comp "spores_score")) ["nodes", "techs", "carriers"]) ρ =
      some (scored E cap score ρ) := by
  intro ρ
  have h1 := den_times_left S.numbers (den_comp (sl := sl) hcap) (den_comp (sl := sl) hs)
  have := mean_sum_exprs (over := ["nodes", "techs", "carriers"]) h1.1 h1.2 (by decide)
    (by
      intro d hd
      refine coords_ne S F henum ?_
      simp only [List.mem_cons, List.not_mem_nil, or_false] at hd ⊢
      rcases hd with rfl | rfl | rfl <;> simp) ρ
  rw [points_three] at this
  exact this

/-- C126, objective: the SPORES objective is the sum of all capacities, each times its score, and the penalty on demand
that is not met and supply that is not used. -/
theorem C126_objective (hne : ∃ σ, Valid W σ ∧ W.matrix.at σ = true)
    (hcap : Is E "flow_cap" ["nodes", "techs", "carriers"] cap) (hs : Is E "spores_score" [] score)
    (hwt : Is E "timestep_weights" ["timesteps"] weight)
    (hb : buildExpression W E enum minSpores = .ok b) (hρ : Valid W ρ) :
    b.at ρ = some (scored E cap score ρ + O.fine weight ρ) := by
  have hloc : LocalCases W (minSpores (V := V)) := by
    refine ⟨?_, ?_, by simp [minSpores]⟩
    · intro p hp
      simp only [minSpores, List.mem_singleton] at hp
      subst hp
      trivial
    · intro s hs p hp
      simp only [minSpores, List.mem_singleton] at hs
      subst hs
      simp only [List.mem_singleton] at hp
      subst hp
      trivial
  obtain ⟨_, h2⟩ := expression_present S.wf S.coords henum (by simp [minSpores]) (by rfl) hb hloc hρ
  have hp : Present W (minSpores (V := V)).foreach (minSpores (V := V)).top ρ := by
    obtain ⟨σ, h1, h2⟩ := hne
    exact ⟨by simp [minSpores], σ, h1, by simp [minSpores, SameAlong], h2, by simp [minSpores]⟩
  have hr : Reads W minSpores ρ (.arith (bin (.sum (bin (.comp "flow_cap") .times (.comp "spores_score")) ["nodes",
        "techs", "carriers"]) .plus (.sub "unmet_demand")) : Body V)
      [("unmet_demand", bin (.sum (bin (.sum (bin (.comp "unmet_demand") .minus (.comp "unused_supply")) ["carriers",
          "nodes"]) .times (.comp "timestep_weights")) ["timesteps"]) .times (.comp "bigM"))] [] := by
    refine ⟨⟨always, by simp [minSpores], by simp⟩, ?_, picks_nil⟩
    exact picks_one (n := "unmet_demand") (by simp [findSubs, under, bin, subRefs, subRefsRest])
      (by simp [findSubs, under, bin, subRefs, subRefsRest]) (w := always) (by rfl) (List.mem_singleton.2 rfl) (by simp)
  rw [h2 _ _ _ hp hr
    (by simp [Expr.inline, Expr.inlineRest, bin, Ok, OkRest, List.lookup])
    (by simp [Expr.inline, Expr.inlineRest, bin, Apart, ApartRest, List.lookup, minSpores]),
    readAs_val, inline_bin, val_bin]
  simp only [Expr.inline, inline_bin, lookup_hit, Option.getD_some]
  rw [scored_den S F henum _ hcap hs, penalty_den S F henum O _ hwt, S.numbers.plus]
  rfl

end

/-! ### Plans that avoid what has a score -/

section
variable [LinearOrder V] [IsStrictOrderedRing V] {cap score weight : Point → V}

/-- Capacities and scores are not negative, at all places. -/
def Positive (E : Expr.Env V) (cap score : Point → V) (ρ : Point) : Prop :=
  ∀ n ∈ E.coords "nodes", ∀ t ∈ E.coords "techs", ∀ c ∈ E.coords "carriers",
    0 ≤ cap (place ρ n t c) ∧ 0 ≤ score (place ρ n t c)

theorem scored_nonneg (h : Positive E cap score ρ) : 0 ≤ scored E cap score ρ :=
  sumOver_nonneg (E := E) (d := "nodes") (f := sumOver E "techs" (sumOver E "carriers" fun σ => cap σ * score σ))
    fun n hn => sumOver_nonneg fun t ht => sumOver_nonneg fun c hc =>
      mul_nonneg (h n hn t ht c hc).1 (h n hn t ht c hc).2

/-- C126, avoiding: the first part of the objective is never negative, and it is zero exactly if the plan has no
capacity anywhere with a score. -/
theorem C126_avoids (h : Positive E cap score ρ) :
    0 ≤ scored E cap score ρ ∧
    (scored E cap score ρ = 0 ↔ ∀ n ∈ E.coords "nodes", ∀ t ∈ E.coords "techs", ∀ c ∈ E.coords "carriers",
      score (place ρ n t c) ≠ 0 → cap (place ρ n t c) = 0) := by
  refine ⟨scored_nonneg h, ?_, ?_⟩
  · intro h0 n hn t ht c hc hs
    have e1 := sumOver_eq_zero_iff (E := E) (d := "nodes")
      (f := sumOver E "techs" (sumOver E "carriers" fun σ => cap σ * score σ))
      (fun n hn => sumOver_nonneg fun t ht => sumOver_nonneg fun c hc =>
        mul_nonneg (h n hn t ht c hc).1 (h n hn t ht c hc).2) (le_of_eq h0) n hn
    have e2 := sumOver_eq_zero_iff (E := E) (d := "techs") (fun t ht => sumOver_nonneg fun c hc =>
      mul_nonneg (h n hn t ht c hc).1 (h n hn t ht c hc).2) (le_of_eq e1) t ht
    have e3 := sumOver_eq_zero_iff (E := E) (d := "carriers") (fun c hc =>
      mul_nonneg (h n hn t ht c hc).1 (h n hn t ht c hc).2) (le_of_eq e2) c hc
    exact (mul_eq_zero.1 e3).resolve_right hs
  · intro h0
    refine List.sum_eq_zero fun x hx => ?_
    obtain ⟨n, hn, rfl⟩ := List.mem_map.1 hx
    refine List.sum_eq_zero fun x hx => ?_
    obtain ⟨t, ht, rfl⟩ := List.mem_map.1 hx
    refine List.sum_eq_zero fun x hx => ?_
    obtain ⟨c, hc, rfl⟩ := List.mem_map.1 hx
    by_cases hs : score (place ρ n t c) = 0
    · rw [hs, mul_zero]
    · rw [h0 n hn t ht c hc hs, zero_mul]

omit [LinearOrder V] [IsStrictOrderedRing V] in
/-- C126, first plan: without scores the objective is the penalty alone. -/
theorem C126_unscored (O : ObjectiveData E) (h : ∀ n ∈ E.coords "nodes", ∀ t ∈ E.coords "techs", ∀ c ∈ E.coords "carriers",
    score (place ρ n t c) = 0) : scored E cap score ρ + O.fine weight ρ = O.fine weight ρ := by
  have : scored E cap score ρ = 0 := by
    refine List.sum_eq_zero fun x hx => ?_
    obtain ⟨n, hn, rfl⟩ := List.mem_map.1 hx
    refine List.sum_eq_zero fun x hx => ?_
    obtain ⟨t, ht, rfl⟩ := List.mem_map.1 hx
    refine List.sum_eq_zero fun x hx => ?_
    obtain ⟨c, hc, rfl⟩ := List.mem_map.1 hx
    rw [h n hn t ht c hc, mul_zero]
  rw [this, zero_add]

/-- C126, more: a plan with more capacity never has the lower score. -/
theorem C126_more {cap' : Point → V} (h : Positive E cap score ρ)
    (hle : ∀ n ∈ E.coords "nodes", ∀ t ∈ E.coords "techs", ∀ c ∈ E.coords "carriers",
      cap (place ρ n t c) ≤ cap' (place ρ n t c)) : scored E cap score ρ ≤ scored E cap' score ρ :=
  sumOver_le (E := E) (d := "nodes") (f := sumOver E "techs" (sumOver E "carriers" fun σ => cap σ * score σ))
    (g := sumOver E "techs" (sumOver E "carriers" fun σ => cap' σ * score σ))
    fun n hn => sumOver_le fun t ht => sumOver_le fun c hc =>
      mul_le_mul_of_nonneg_right (hle n hn t ht c hc) (h n hn t ht c hc).2

end
end

/-! ### Plans of a run -/

/-- C126, alternatives: in a run from scratch with integer scoring, the first part of the objective with which plan
number `m` is looked for is zero exactly for the plans that use no tracked technology at a place where a plan found
before has significant capacity. -/
theorem C126_alternative {E : Expr.Env Rat} {cap score : Point → Rat} {ρ : Point} (c : Spores.Cfg) (S : Spores.Solver)
    (prior : Spores.Prior) (b : Spores.Backend) (o : Spores.Outcome) (hf : c.useLatest = false)
    (ha : c.algorithm = .integer) (hfac : 0 ≤ c.factor) (h : Spores.run c S prior b = .ok o) (m : Nat)
    (y : Spores.Call) (hy : o.calls[m]? = some y) (hs : Scores y.backend.score score)
    (hi : ∀ n ∈ E.coords "nodes", ∀ t ∈ E.coords "techs", ∀ k ∈ E.coords "carriers", ⟨n, t, k⟩ ∈ c.items)
    (hc : ∀ n ∈ E.coords "nodes", ∀ t ∈ E.coords "techs", ∀ k ∈ E.coords "carriers", 0 ≤ cap (place ρ n t k)) :
    scored E cap score ρ = 0 ↔
      ∀ r ∈ (o.results.take m).map Prod.snd, ∀ n ∈ E.coords "nodes", ∀ t ∈ E.coords "techs",
        ∀ k ∈ E.coords "carriers", c.tracked ⟨n, t, k⟩ = true → Spores.Significant c r.cap ⟨n, t, k⟩ →
          cap (place ρ n t k) = 0 := by
  have hv : ∀ n ∈ E.coords "nodes", ∀ t ∈ E.coords "techs", ∀ k ∈ E.coords "carriers",
      score (place ρ n t k) = if c.tracked ⟨n, t, k⟩ = true then
        1000 * (Spores.times c ⟨n, t, k⟩ ((o.results.take m).map Prod.snd) : Rat) else 0 := by
    intro n hn t ht k hk
    rw [hs]
    exact (Spores.C126_count c S prior b o hf ha hfac h _ (hi n hn t ht k hk) m y hy).2
  have hp : Positive E cap score ρ := by
    intro n hn t ht k hk
    refine ⟨hc n hn t ht k hk, ?_⟩
    rw [hv n hn t ht k hk]
    split
    · exact mul_nonneg (by norm_num) (Nat.cast_nonneg _)
    · exact le_refl _
  rw [(C126_avoids hp).2]
  constructor
  · intro h0 r hr n hn t ht k hk htr hsig
    refine h0 n hn t ht k hk ?_
    rw [hv n hn t ht k hk, if_pos htr]
    have := (Spores.times_pos c ⟨n, t, k⟩ _).2 ⟨r, hr, hsig⟩
    have : (0 : Rat) < (Spores.times c ⟨n, t, k⟩ ((o.results.take m).map Prod.snd) : Rat) := Nat.cast_pos.2 this
    exact ne_of_gt (mul_pos (by norm_num) this)
  · intro h0 n hn t ht k hk hne
    rw [hv n hn t ht k hk] at hne
    cases htr : c.tracked ⟨n, t, k⟩ with
    | false => simp [htr] at hne
    | true =>
      simp only [htr, if_true] at hne
      have h3 : 0 < Spores.times c ⟨n, t, k⟩ ((o.results.take m).map Prod.snd) := by
        rcases Nat.eq_zero_or_pos (Spores.times c ⟨n, t, k⟩ ((o.results.take m).map Prod.snd)) with h | h
        · rw [h] at hne
          simp at hne
        · exact h
      obtain ⟨r, hr, hsig⟩ := (Spores.times_pos c ⟨n, t, k⟩ _).1 h3
      exact h0 r hr n hn t ht k hk htr hsig

/-! ### A model -/

namespace CostDemo

open Mini

/-- C126: the 4 units of `pv` with a score of 1000, the 2 units of `bat` with a score of 2000, and 365000 for the demand
that is not met. -/
example : (model.expr minSpores).at (spot "a" "pv") = some (4 * 1000 + 2 * 2000 + 365000) := by
  rw [C126_objective (setting ok) frame traverses objective some_item (cap := quantity "flow_cap")
    (score := quantity "spores_score") (is _ (ds' := ["nodes", "techs", "carriers"]) (by decide +kernel) (by simp))
    (is _ (ds' := ["nodes", "techs", "carriers"]) (by decide +kernel) (by simp)) costs.isWeight
    (expr_ok (by decide +kernel)) (spot_valid (by decide) (by decide))]
  have : scored model.E (quantity "flow_cap") (quantity "spores_score") (spot "a" "pv") +
      objective.fine costs.weight (spot "a" "pv") = 4 * 1000 + 2 * 2000 + 365000 := by decide +kernel
  rw [this]

/-- C126: a plan with other capacities, in the same model, avoids what has a score. -/
example : 0 < scored model.E (quantity "flow_cap") (quantity "spores_score") (spot "a" "pv") ∧
    scored model.E (fun σ => if σ "techs" = "line" then 3 else 0) (quantity "spores_score") (spot "a" "pv") = 0 := by
  have h1 : Positive model.E (quantity "flow_cap") (quantity "spores_score") (spot "a" "pv") := by
    unfold Positive
    decide +kernel
  have h2 : Positive model.E (fun σ => if σ "techs" = "line" then 3 else 0) (quantity "spores_score")
      (spot "a" "pv") := by
    unfold Positive
    decide +kernel
  refine ⟨lt_of_le_of_ne (C126_avoids h1).1 fun h => ?_, (C126_avoids h2).2.2 (by decide +kernel)⟩
  exact absurd ((C126_avoids h1).2.1 h.symm "a" (by decide +kernel) "pv" (by decide +kernel) "e" (by decide +kernel)
    (by decide +kernel)) (by decide +kernel)

end CostDemo

/-- The places of the toy run of `Props.Spores`, for the objective. -/
def toyEnv : Expr.Env Rat := { CostDemo.model.E with coords := fun d =>
  if d = "nodes" then ["n"] else if d = "techs" then ["wind", "solar"] else if d = "carriers" then ["power"] else [] }

/-- C126: in the toy run the second plan is looked for after a plan with wind; the plan with solar only is one for
which the objective is zero, the plan with wind is not. -/
example : ∃ o y, Spores.run (Spores.toy .integer 3 false) Spores.cheapest .nothing Spores.built = .ok o ∧
    o.calls[1]? = some y ∧ ∀ score, Scores y.backend.score score → ∀ cap : Point → Rat, (∀ σ, 0 ≤ cap σ) →
      (scored toyEnv cap score (fun _ => "") = 0 ↔ cap (place (fun _ => "") "n" "wind" "power") = 0) := by
  refine ⟨_, _, rfl, rfl, ?_⟩
  intro score hs cap hc
  rw [C126_alternative (Spores.toy .integer 3 false) Spores.cheapest .nothing Spores.built _ rfl rfl (by decide +kernel)
    rfl 1 _ rfl hs (by decide +kernel) (fun n _ t _ k _ => hc _)]
  have hw : Spores.Significant (Spores.toy .integer 3 false) (fun i => if i = Spores.wind then some 5 else some 0)
      Spores.wind := by
    refine ⟨5, by decide, ?_⟩
    intro i' v' _ _ _ h
    change (if i' = Spores.wind then some 5 else some 0) = some v' at h
    by_cases hi : i' = Spores.wind
    · rw [if_pos hi] at h
      cases h
      decide +kernel
    · rw [if_neg hi] at h
      cases h
      decide +kernel
  constructor
  · intro h
    exact h _ (List.mem_cons_self ..) "n" (by decide) "wind" (by decide) "power" (by decide) rfl hw
  · intro h r hr n hn t ht k hk _ hsig
    have hn : n = "n" := by simpa [toyEnv] using hn
    have hk : k = "power" := by simpa [toyEnv] using hk
    have ht : t = "wind" ∨ t = "solar" := by simpa [toyEnv] using ht
    subst hn hk
    rcases ht with rfl | rfl
    · exact h
    · exfalso
      obtain ⟨v, hv, hall⟩ := hsig
      have hr := List.mem_singleton.1 (show r ∈ [_] from hr)
      subst hr
      have hv0 : v = 0 := by
        have : (some 0 : Option Rat) = some v := hv
        cases this
        rfl
      have := hall Spores.wind 5 (by decide) rfl rfl rfl
      rw [hv0] at this
      exact absurd this (by decide +kernel)

end BaseMath
end Calliope
