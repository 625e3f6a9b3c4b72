import Verif.Proofs.LoosenBuild
import Verif.Props.Linear

/-!
# C119: looser limits and lower prices
-/

namespace Calliope
namespace Loosen

open Grid Expr Build BaseMath Assemble Infix MathText
open Linear (Plain Feasible Satisfied Within IsObjective SamePlace mem_index index_of_length)
open Units (Items)

section General

variable {V : Type} [Field V] [LinearOrder V] [IsStrictOrderedRing V] {D : String → Way} {s s' : State V}
  {g : Given V} {M : Math V} {P : Problem V}

/-- What held still holds. -/
theorem satisfied_moved {a b : Option (Cell V)} (h : MovedCell a b) {x y : Cell V} (ha : a = some x)
    (hb : b = some y) (hx : Satisfied x) : Satisfied y := by
  cases h with
  | missing => cases ha
  | present o hap l r =>
    cases ha
    cases hb
    obtain ⟨p, q, hp, hq, h⟩ := hx
    simp only at hp hq h
    subst hp hq
    cases l with
    | present l => cases r with
      | present r =>
        refine ⟨_, _, rfl, rfl, ?_⟩
        simp only [apart] at hap
        rcases h with ⟨rfl, h⟩ | ⟨rfl, h⟩ | ⟨rfl, h⟩
        · simp only [if_true, Bool.and_eq_true] at hap
          exact .inl ⟨rfl, (show _ ≤ _ from l.fits hap.1).trans (h.trans (r.fits hap.2))⟩
        · have hn : ¬ ((">=" : String) = "<=") := by decide
          simp only [hn, if_false, if_true, Bool.and_eq_true] at hap
          exact .inr (.inl ⟨rfl, (show _ ≤ _ from r.fits hap.2).trans (h.trans (l.fits hap.1))⟩)
        · have hn : ¬ (("==" : String) = "<=") := by decide
          have hn' : ¬ (("==" : String) = ">=") := by decide
          simp only [hn, hn', if_false, Bool.and_eq_true] at hap
          exact .inr (.inr ⟨rfl, by rw [l.fixed hap.1, r.fixed hap.2, h]⟩)

theorem within_moved {a b : Option (Limits V)} (h : MovedLimits a b) {l l' : Limits V} (ha : a = some l) (hb : b = some l')
    {x : V} (hx : Within x l) : Within x l' := by
  cases h with
  | missing => cases ha
  | present p q =>
    cases ha
    cases hb
    refine ⟨fun c hc => ?_, fun c hc => ?_⟩
    · simp only at hc
      subst hc
      cases p with
      | present p => exact (show _ ≤ _ from p).trans (hx.1 _ rfl)
    · simp only at hc
      subst hc
      cases q with
      | present q => exact (hx.2 _ rfl).trans q

/-- C119: if the math lets limits move apart, then every plan is still a plan after upper limits were raised, lower limits were
lowered and prices were lowered, and it does not cost more. -/
theorem C119_plans (hM : Loosens D M) (hE : Plain s.E) (hG : Grows s.E) (hs : Looser D s s') (hg : Signed D g)
    (h : Feasible g M s P) : ∃ P', Feasible g M s' P' ∧
      ∀ i v, IsObjective P i v → ∃ v', IsObjective P' i v' ∧ v' ≤ v := by
  rcases (assemble_rel hM hE hG hs hg).cases with ⟨e, e1, _⟩ | ⟨Q, P', e1, e2, h1, h2⟩
  · rw [h.builds] at e1
    cases e1
  rw [h.builds] at e1
  cases e1
  refine ⟨P', ⟨e2, ?_, ?_⟩, ?_⟩
  · intro b hb c hc q hq
    obtain ⟨i, hi⟩ := mem_index hb
    obtain ⟨a, ha⟩ := index_of_length (h1.2.1.trans h1.1.symm).symm hi
    obtain ⟨m, hm⟩ := index_of_length h1.1.symm ha
    have hr := h1.2.2 i m a b hm ha hi
    have hsome := (hr.2 c).some
    rw [hq] at hsome
    obtain ⟨p, hp⟩ := Option.isSome_iff_exists.1 hsome.symm
    exact satisfied_moved (hr.2 c) hp hq
      (h.constraints a (List.mem_of_getElem? ha) c (by rwa [← hr.1, ← hs.coords]) p hp)
  · intro before v after r hv hr b hb c hc l hl
    have hmem : ∀ w ∈ before, w ∈ M.vars := fun w hw => hv ▸ List.mem_append_left _ hw
    have hvm : v ∈ M.vars := hv ▸ List.mem_append_right _ List.mem_cons_self
    rcases (addAll_rel (add := addVariable g) before (states_start hE hG hs)
      fun w hw _ _ h => addVariable_rel h hg (hM.vars w (hmem w hw))).cases with ⟨_, _, e4⟩ | ⟨q, q', e3, e4, hq⟩
    · rw [hr] at e4
      cases e4
    rw [hr] at e4
    cases e4
    rcases (buildVariable_rel hq (hM.vars v hvm)).cases with ⟨_, _, e4⟩ | ⟨d, d', e5, e6, hi⟩
    · rw [hb] at e4
      cases e4
    rw [hb] at e6
    cases e6
    have hsome : (d.val c).isSome = true := by
      have := hi.2 c
      rw [hl] at this
      generalize d.val c = z at this
      cases this
      rfl
    obtain ⟨l0, hl0⟩ := Option.isSome_iff_exists.1 hsome
    obtain ⟨hw, hz⟩ := h.bounds before v after q hv e3 d e5 c (by rwa [← hi.1, ← hs.coords]) l0 hl0
    exact ⟨within_moved (hi.2 c) hl0 hl hw, hz⟩
  · rintro i v ⟨A, hA, ha⟩
    obtain ⟨B, hB⟩ := index_of_length (h2.2.1.trans h2.1.symm) hA
    obtain ⟨c, hc⟩ := index_of_length h2.1.symm hA
    have hr := (h2.2.2 i c A B hc hA hB).2 []
    rw [ha] at hr
    cases hz : B.val [] with
    | none =>
      rw [hz] at hr
      cases hr
    | some w =>
      rw [hz] at hr
      exact ⟨w, ⟨B, hB, hz⟩, moved_iff.1 hr⟩

/-- C119: so the best plan does not get worse: what no plan costs less than after, no plan cost less than before. -/
theorem C119_best (hM : Loosens D M) (hE : Plain s.E) (hG : Grows s.E) (hs : Looser D s s') {i : Nat} {v' : V}
    (best : ∀ h Q w, SamePlace g h → Feasible h M s' Q → IsObjective Q i w → v' ≤ w) {h : Given V} (hp : SamePlace g h)
    (hh : Signed D h) {Q : Problem V} {w : V} (hQ : Feasible h M s Q) (hw : IsObjective Q i w) : v' ≤ w := by
  obtain ⟨Q', hQ', hO⟩ := C119_plans hM hE hG hs hh hQ
  obtain ⟨w', hw', hle⟩ := hO i w hw
  exact (best h Q' w' hp hQ' hw').trans hle

/-- C119: a problem can be built after exactly if it could before. -/
theorem C119_fails (hM : Loosens D M) (hE : Plain s.E) (hG : Grows s.E) (hs : Looser D s s') (hg : Signed D g) (e : Err) :
    assemble g M s = .error e ↔ assemble g M s' = .error e := by
  rcases (assemble_rel hM hE hG hs hg).cases with ⟨e', e1, e2⟩ | ⟨a, b, e1, e2, _⟩
  · rw [e1, e2]
  · rw [e1, e2]
    constructor <;> intro h <;> cases h

end General

/-! ### The shipped math -/

def loosensB (D : String → Way) (M : Math Rat) : Bool :=
  M.vars.all (variableOk D) &&
  M.globals.all (fun c => steady D c &&
    c.defn.equations.all (fun e => expressionOk D (subWay D c.defn.subs) (D c.defn.name) e.2)) &&
  M.constraints.all (fun c => steady D c && c.defn.equations.all (fun e => constraintOk D (subWay D c.defn.subs) e.2)) &&
  M.objectives.all (fun c => steady D c && c.defn.equations.all (fun e => expressionOk D (subWay D c.defn.subs) .down e.2))

theorem loosensB_sound {D : String → Way} {M : Math Rat} (h : loosensB D M = true) : Loosens D M := by
  simp only [loosensB, Bool.and_eq_true, List.all_eq_true] at h
  exact ⟨h.1.1.1, h.1.1.2, h.1.2, h.2⟩

def look (t : List (String × Way)) (n : String) : Way := (t.lookup n).getD .same

/-- Upper limits. -/
def upper : List String := ["flow_cap_max_systemwide", "area_use_max", "available_area", "source_cap_max", "storage_cap_max",
  "export_max", "sink_use_max", "source_use_max", "flow_cap_per_storage_cap_max", "flow_ramping",
  "purchased_units_max", "purchased_units_max_systemwide"]

/-- Lower limits. -/
def lower : List String := ["flow_cap_min", "flow_cap_min_systemwide", "area_use_min", "source_cap_min", "storage_cap_min",
  "export_min", "sink_use_min", "source_use_min", "flow_cap_per_storage_cap_min", "flow_out_min_relative",
  "storage_discharge_depth", "purchased_units_min", "purchased_units_min_systemwide"]

/-- Prices, and expressions of costs. -/
def prices : List String := ["cost_flow_cap", "cost_flow_cap_per_distance", "cost_export", "cost_om_annual", "cost_flow_in",
  "cost_flow_out", "cost_source_use", "cost_source_cap", "cost_storage_cap", "cost_area_use", "cost_purchase",
  "cost_purchase_per_distance", "cost_operation_variable", "cost_investment_flow_cap", "cost_investment_storage_cap",
  "cost_investment_source_cap", "cost_investment_area_use", "cost_investment_purchase", "cost_investment",
  "cost_investment_annualised", "cost_operation_fixed", "cost"]

/-- Decisions and inputs that are not negative. -/
def positive : List String := ["flow_cap", "flow_out", "flow_in", "flow_export", "area_use", "source_use", "source_cap",
  "storage_cap", "storage", "purchased_units", "operating_units", "available_flow_cap", "timestep_resolution",
  "timestep_weights", "objective_cost_weights", "distance", "cost_depreciation_rate", "cost_interest_rate", "lifetime",
  "cost_om_annual_investment_fraction", "spores_baseline_cost", "flow_cap_per_unit"]

/-- The other inputs and decisions stay. -/
def table : List (String × Way) :=
  upper.map (·, Way.up) ++ lower.map (·, Way.down) ++ prices.map (·, Way.down) ++ positive.map (·, Way.nonneg)

/-- All upper limits are raised, all lower limits and prices are lowered. -/
def looser : String → Way := look (("flow_cap_max", .up) :: ("spores_slack", .up) :: table)

/-- The same, but the upper limit of capacity stays. -/
def looserMilp : String → Way := look (("flow_cap_max", .nonneg) :: table)

/-- C119: in the base math limits move apart. -/
theorem C119_base : ∃ M, (buildMath shipped (priority (chars! "base") [])).bind File.read = some M ∧
    Loosens looser (ofRead M) := ⟨_, C103_base, loosensB_sound (by decide +kernel)⟩

theorem C119_operate : ∃ M, (buildMath shipped (priority (chars! "operate") [])).bind File.read = some M ∧
    Loosens looser (ofRead M) := ⟨_, C103_operate, loosensB_sound (by decide +kernel)⟩

/-- C119: in SPORES mode the slack is such a limit. -/
theorem C119_spores : ∃ M, (buildMath shipped (priority (chars! "spores") [])).bind File.read = some M ∧
    Loosens looser (ofRead M) := ⟨_, C103_spores, loosensB_sound (by decide +kernel)⟩

theorem C119_inter_cluster :
    ∃ M, (buildMath shipped (priority (chars! "base") [chars! "storage_inter_cluster"])).bind File.read = some M ∧
      Loosens looser (ofRead M) := ⟨_, C103_inter_cluster, loosensB_sound (by decide +kernel)⟩

theorem C119_milp : ∃ M, (buildMath shipped (priority (chars! "base") [chars! "milp"])).bind File.read = some M ∧
    Loosens looserMilp (ofRead M) := ⟨_, C103_milp, loosensB_sound (by decide +kernel)⟩

/-! ### A small problem -/

section Demo

open Linear (plan plan_holds plan_bounds plain_mini holdsB_sound objectiveB_sound)

theorem grows_mini (M : Mini) : Grows M.E := by
  intro x y c hx hy h
  cases x with
  | none => cases y <;> cases h
  | some a => cases y with
    | none => cases h
    | some b =>
      simp only [Mini.E, Mini.op, Option.some.injEq] at h
      rw [← h]
      exact one_le_pow₀ (hx a rfl)

/-- The limit is raised, the demand is lowered. -/
def demoLooser : String → Way := look [("limit", .up), ("demand", .down), ("need", .down), ("out", .nonneg)]

/-- The small problem of C111 with a limit of 4 in place of 3, and a demand of 1 in place of 5. -/
def easyMini : Mini where
  labels := [("techs", ["a", "b"])]
  data := [("limit", ["techs"], fun _ => 4), ("demand", [], fun _ => 1)]
  lookups := []
  inputs := [("limit", ⟨.number, ⟨["techs"], fun _ => .num 4⟩, .nan⟩), ("demand", ⟨.number, scalar (.num 1), .nan⟩)]
  results := []
  along := ["techs"]
  items := [["a"], ["b"]]

def easyState : State Rat := ⟨easyMini.W, easyMini.E⟩

theorem demo_loosens : Loosens demoLooser demoMath := loosensB_sound (by decide +kernel)

theorem demo_looser : Looser demoLooser (demoState 5) easyState where
  dims := rfl
  coords := rfl
  config := rfl
  matrix := rfl
  arith := rfl
  result := rfl
  number := by
    funext n
    show easyMini.number n = (demoMini 5).number n
    simp [easyMini, demoMini, Mini.number, List.lookup]
  sums := rfl
  signs n := by
    by_cases h : n = "limit"
    · subst h
      exact ⟨rfl, rfl, fun _ => .number (by norm_num) (by norm_num), .same _⟩
    · by_cases h' : n = "demand"
      · subst h'
        exact ⟨rfl, rfl, fun _ => .number (by norm_num) (by norm_num), .same _⟩
      · have : easyState.W.input n = (demoState 5).W.input n := by
          simp [easyState, easyMini, demoState, demoMini, Mini.W, List.lookup, beq_false_of_ne h, beq_false_of_ne h']
        rw [this]
        exact ⟨rfl, rfl, fun _ => .same _, .same _⟩
  plain n hn := by
    by_cases h : n = "limit"
    · subst h
      cases hn
    · by_cases h' : n = "demand"
      · subst h'
        cases hn
      · simp [easyState, easyMini, demoState, demoMini, Mini.W, List.lookup, beq_false_of_ne h, beq_false_of_ne h']
  ecoords := rfl
  isDim := rfl
  period := rfl
  op := rfl
  neg := rfl
  truthy := rfl
  lookup := rfl
  carrier := rfl
  comp n := by
    by_cases h : n = "limit"
    · subst h
      refine .inr ⟨_, _, rfl, rfl, rfl, fun _ => ?_⟩
      exact .present (show (3 : Rat) ≤ 4 by norm_num)
    · by_cases h' : n = "demand"
      · subst h'
        refine .inr ⟨_, _, rfl, rfl, rfl, fun _ => ?_⟩
        exact .present (show (1 : Rat) ≤ 5 by norm_num)
      · left
        constructor <;> simp [easyState, easyMini, demoState, demoMini, Mini.E, List.lookup, beq_false_of_ne h,
          beq_false_of_ne h']

theorem plan_signed : Signed demoLooser (plan 2) where
  x n c := by
    show Goes (demoLooser n) (2 : Rat) 2
    by_cases h : n = "out"
    · subst h
      exact ⟨rfl, by norm_num⟩
    · by_cases h1 : n = "limit"
      · subst h1
        exact le_refl (2 : Rat)
      · by_cases h2 : n = "demand"
        · subst h2
          exact le_refl (2 : Rat)
        · by_cases h3 : n = "need"
          · subst h3
            exact le_refl (2 : Rat)
          · have : demoLooser n = .same := by
              simp [demoLooser, look, List.lookup, beq_false_of_ne h, beq_false_of_ne h1, beq_false_of_ne h2,
                beq_false_of_ne h3]
            rw [this]
            rfl
  default n d hd := by cases hd

/-- An outflow of 2 of both technologies is a plan of cost 4, and still is one of at most that cost. -/
example : ∃ P v, Feasible (plan 2) demoMath easyState P ∧ IsObjective P 0 v ∧ v ≤ 4 := by
  obtain ⟨h1, _, h3, _⟩ := plan_holds
  obtain ⟨P, e1, c1⟩ := holdsB_sound h1
  rw [e1] at h3
  obtain ⟨P', hP', ho⟩ := C119_plans demo_loosens (plain_mini _) (grows_mini _) demo_looser plan_signed
    ⟨e1, c1, plan_bounds 2 (by norm_num)⟩
  obtain ⟨v, hv, hle⟩ := ho 0 4 (objectiveB_sound h3)
  exact ⟨P', v, hP', hv, hle⟩

end Demo

end Loosen
end Calliope
