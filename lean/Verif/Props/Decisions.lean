import Verif.Props.Assemble
import Verif.Props.MathFiles
import Verif.Spec.OperateMilp

/-!
# C112: constraints are about decisions
-/

namespace Calliope
namespace Assemble

open Grid Expr Build BaseMath Infix MathText

/-- The decisions of a problem. -/
def IsDecision {V : Type} (M : Math V) (n : String) : Prop := ∃ v ∈ M.vars, v.name = n

/-- Every equation of a constraint compares something that depends on a decision: a variable or a global expression that
depends on one stands in it, or in every entry of a sub-expression that it refers to. -/
def AboutDecisions {V : Type} (M : Math V) (c : Component V) : Prop :=
  ∀ e ∈ c.defn.equations, (∃ n ∈ BodyNames e.2, Affected M (IsDecision M) n) ∨
    ∃ t ∈ e.2.sides, ∃ k ∈ Expand.AllSubs t, ∃ l, (k, l) ∈ c.defn.subs ∧ l ≠ [] ∧
      ∀ q ∈ l, ∃ n ∈ Names q.2, Affected M (IsDecision M) n

/-! ### Computing what depends on decisions -/

/-- The global expressions that depend on decisions, among those that are built in this order. -/
def reached {V : Type} : List String → List (Component V) → List String
  | known, [] => known
  | known, c :: cs =>
    reached (if (ComponentNames c).any (known.contains ·) then c.defn.name :: known else known) cs

theorem reached_sound {V : Type} {M : Math V} : ∀ (cs : List (Component V)) {known : List String},
    (∀ c ∈ cs, c ∈ M.globals) → (∀ n ∈ known, Affected M (IsDecision M) n) →
    ∀ n ∈ reached known cs, Affected M (IsDecision M) n
  | [], _, _, hk, n, hn => hk n hn
  | c :: cs, known, hc, hk, n, hn => by
    refine reached_sound cs (fun a ha => hc a (List.mem_cons_of_mem _ ha)) ?_ n hn
    intro m hm
    split at hm
    · rename_i hany
      simp only [List.any_eq_true, List.contains_iff_mem] at hany
      obtain ⟨k, hk1, hk2⟩ := hany
      rcases List.mem_cons.1 hm with rfl | hm
      · exact .byGlobal (hc c List.mem_cons_self) hk1 (hk k hk2)
      · exact hk m hm
    · exact hk m hm

/-- One of the names is known. -/
def hits (known l : List String) : Bool := l.any (known.contains ·)

/-- All constraints are about decisions. -/
def allAbout {V : Type} (M : Math V) : Bool :=
  M.constraints.all (fun c => c.defn.equations.all (fun e =>
    hits (reached (M.vars.map (·.name)) M.globals) (BodyNames e.2) ||
      e.2.sides.any (fun t => (Expand.AllSubs t).any (fun k => c.defn.subs.any (fun p =>
        decide (p.1 = k) && !p.2.isEmpty &&
          p.2.all (fun q => hits (reached (M.vars.map (·.name)) M.globals) (Names q.2)))))))

theorem allAbout_sound {V : Type} {M : Math V} (h : allAbout M = true) : ∀ c ∈ M.constraints, AboutDecisions M c := by
  have hh : ∀ l, hits (reached (M.vars.map (·.name)) M.globals) l = true →
      ∃ n ∈ l, Affected M (IsDecision M) n := by
    intro l hl
    simp only [hits, List.any_eq_true, List.contains_iff_mem] at hl
    obtain ⟨n, hn, hr⟩ := hl
    refine ⟨n, hn, reached_sound M.globals (fun _ h => h) ?_ n hr⟩
    intro m hm
    obtain ⟨v, hv, rfl⟩ := List.mem_map.1 hm
    exact .start ⟨v, hv, rfl⟩
  intro c hc e he
  have h := List.all_eq_true.1 (List.all_eq_true.1 h c hc) e he
  rcases Bool.or_eq_true _ _ ▸ h with h | h
  · exact .inl (hh _ h)
  · obtain ⟨t, ht, h⟩ := List.any_eq_true.1 h
    obtain ⟨k, hk, h⟩ := List.any_eq_true.1 h
    obtain ⟨⟨k', l⟩, hl, h⟩ := List.any_eq_true.1 h
    simp only [Bool.and_eq_true, decide_eq_true_eq, Bool.not_eq_true', List.isEmpty_eq_false_iff] at h
    obtain ⟨⟨rfl, hne⟩, hq⟩ := h
    exact .inr ⟨t, ht, k', hk, l, hl, hne, fun q hm => hh _ (List.all_eq_true.1 hq q hm)⟩

/-! ### The shipped math -/

/-- C112: in base mode every constraint is about decisions. -/
theorem C112_base : ∃ M, (buildMath shipped (priority (chars! "base") [])).bind File.read = some M ∧
    ∀ c ∈ M.constraints, AboutDecisions (ofRead M) c :=
  ⟨_, C103_base, allAbout_sound (M := ofRead baseMath) (by decide +kernel)⟩

/-- C112: so it is with `milp`. -/
theorem C112_milp : ∃ M, (buildMath shipped (priority (chars! "base") [chars! "milp"])).bind File.read = some M ∧
    ∀ c ∈ M.constraints, AboutDecisions (ofRead M) c :=
  ⟨_, C103_milp, allAbout_sound (M := ofRead milpMath) (by decide +kernel)⟩

/-- C112: in operate mode, where capacities are inputs. -/
theorem C112_operate : ∃ M, (buildMath shipped (priority (chars! "operate") [])).bind File.read = some M ∧
    ∀ c ∈ M.constraints, AboutDecisions (ofRead M) c :=
  ⟨_, C103_operate, allAbout_sound (M := ofRead operateMath) (by decide +kernel)⟩

/-- C112: in SPORES mode. -/
theorem C112_spores : ∃ M, (buildMath shipped (priority (chars! "spores") [])).bind File.read = some M ∧
    ∀ c ∈ M.constraints, AboutDecisions (ofRead M) c :=
  ⟨_, C103_spores, allAbout_sound (M := ofRead sporesMath) (by decide +kernel)⟩

/-- C112: with `storage_inter_cluster`. -/
theorem C112_inter_cluster :
    ∃ M, (buildMath shipped (priority (chars! "base") [chars! "storage_inter_cluster"])).bind File.read = some M ∧
      ∀ c ∈ M.constraints, AboutDecisions (ofRead M) c :=
  ⟨_, C103_inter_cluster, allAbout_sound (M := ofRead interClusterMath) (by decide +kernel)⟩

/-! ### Operate mode with `milp` -/

theorem built_operateMilp : buildMath shipped (priority (chars! "operate") [chars! "milp"]) =
    some ((baseFile.over operateFile).over milpFile) := by kernel_rfl

theorem read_operateMilp : ((baseFile.over operateFile).over milpFile).read = some operateMilpMath := by kernel_rfl

/-- The math of operate mode with `milp` as extra math, with capacities as inputs. -/
theorem C112_operate_milp_math : (buildMath shipped (priority (chars! "operate") [chars! "milp"])).bind File.read =
    some operateMilpMath :=
  bind_read built_operateMilp read_operateMilp

/-- An array that is no component of the problem is reached only if it changes. -/
theorem not_affected {V : Type} {M : Math V} {n : String} (h1 : n ∉ M.vars.map (·.name))
    (h2 : n ∉ M.globals.map (·.defn.name)) : ¬Affected M (IsDecision M) n := by
  intro h
  cases h with
  | start h =>
    obtain ⟨v, hv, rfl⟩ := h
    exact h1 (List.mem_map.2 ⟨v, hv, rfl⟩)
  | byVariable hv _ _ => exact h1 (List.mem_map.2 ⟨_, hv, rfl⟩)
  | byGlobal hc _ _ => exact h2 (List.mem_map.2 ⟨_, hc, rfl⟩)

theorem limits_inputs : capacityLimits.all (fun c => (ComponentNames c).all (fun n =>
    !((ofRead operateMilpMath).vars.map (·.name)).contains n &&
      !((ofRead operateMilpMath).globals.map (·.defn.name)).contains n)) = true := by decide +kernel

theorem limits_there : capacityLimits.all (fun c => (operateMilpMath.constraints.map (·.defn.name)).contains c.defn.name) =
    true := by decide +kernel

/-- C112, negation: operate mode with `milp` has six constraints in which nothing but inputs stands. -/
theorem C112_capacity_limits {c : Component Rat} (hc : c ∈ capacityLimits) :
    c ∈ operateMilpMath.constraints ∧ ¬AboutDecisions (ofRead operateMilpMath) c ∧
      ∀ n ∈ ComponentNames c, ¬Affected (ofRead operateMilpMath) (IsDecision (ofRead operateMilpMath)) n := by
  have hn : ∀ n ∈ ComponentNames c,
      ¬Affected (ofRead operateMilpMath) (IsDecision (ofRead operateMilpMath)) n := by
    intro n hn
    have h := limits_inputs
    simp only [List.all_eq_true, Bool.and_eq_true, Bool.not_eq_true', ← Bool.not_eq_true,
      List.contains_iff_mem] at h
    exact not_affected (h c hc n hn).1 (h c hc n hn).2
  refine ⟨?_, ?_, hn⟩
  · simp only [capacityLimits, List.map_cons, List.map_nil, List.mem_cons, List.not_mem_nil, or_false] at hc
    simp only [operateMilpMath, List.map_cons, List.map_nil, List.mem_cons, List.not_mem_nil, or_false]
    rcases hc with rfl | rfl | rfl | rfl | rfl | rfl <;> simp
  · intro h
    have hne : ∃ e, e ∈ c.defn.equations := by
      simp only [capacityLimits, List.map_cons, List.map_nil, List.mem_cons, List.not_mem_nil, or_false] at hc
      rcases hc with rfl | rfl | rfl | rfl | rfl | rfl <;> exact ⟨_, List.mem_cons_self⟩
    obtain ⟨e, he⟩ := hne
    rcases h e he with ⟨n, hb, ha⟩ | ⟨_, _, k, _, l, hl, hne, h⟩
    · refine hn n ?_ ha
      simp only [ComponentNames, List.mem_append, List.mem_flatMap]
      exact .inl (.inl (.inr ⟨e, he, .inr hb⟩))
    · obtain ⟨q, hq⟩ := List.exists_mem_of_ne_nil l hne
      obtain ⟨n, hb, ha⟩ := h q hq
      refine hn n ?_ ha
      simp only [ComponentNames, List.mem_append, List.mem_flatMap]
      exact .inl (.inr ⟨_, hl, q, hq, .inr hb⟩)

/-- C112, negation: whatever is decided, these constraints are the same: they hold for all decisions or for none. -/
theorem C112_fixed {g g' : Given Rat} (he : g.enum = g'.enum)
    (hd : ∀ n, ¬IsDecision (ofRead operateMilpMath) n → g.default n = g'.default n) {s : State Rat} {P P' : Problem Rat}
    (h1 : assemble g (ofRead operateMilpMath) s = .ok P) (h2 : assemble g' (ofRead operateMilpMath) s = .ok P')
    (hx : ∀ n, ¬IsDecision (ofRead operateMilpMath) n → g.x n = g'.x n)
    {c : Component Rat} (hc : c ∈ capacityLimits) {i : Nat} (hi : operateMilpMath.constraints[i]? = some c) :
    P.constraints[i]? = P'.constraints[i]? :=
  C111_constraint (changed := IsDecision (ofRead operateMilpMath)) ⟨hx, hd, he⟩
    { dims := rfl, coords := rfl, config := rfl, matrix := rfl, arith := rfl, input := fun _ _ => rfl
      result := fun _ _ => rfl, number := fun _ _ => rfl, sums := fun _ _ => rfl, ecoords := rfl, isDim := rfl
      period := rfl, op := rfl, neg := rfl, truthy := rfl, comp := fun _ _ => rfl, lookup := fun _ _ => rfl
      carrier := fun _ _ => rfl }
    h1 h2 hi (C112_capacity_limits hc).2.2

/-! ### A capacity below its minimum -/

/-- One technology with a capacity of 1, and a minimum of 2. -/
def lowCapacity : Mini where
  labels := [("nodes", ["n"]), ("techs", ["t"]), ("carriers", ["c"]), ("timesteps", ["1"])]
  data := [("flow_cap", ["nodes", "techs", "carriers"], fun _ => 1),
    ("flow_cap_min", ["techs"], fun _ => 2)]
  lookups := []
  inputs := [("flow_cap", ⟨.number, ⟨["nodes", "techs", "carriers"], fun _ => .num 1⟩, .posInf⟩),
    ("flow_cap_min", ⟨.number, ⟨["techs"], fun _ => .num 2⟩, .num 0⟩)]
  results := []
  along := ["nodes", "techs", "carriers"]
  items := [["n", "t", "c"]]
  config := [("ensure_feasibility", .bool true)]

/-- The problem with one variable and this one constraint of operate mode with `milp`. -/
def lowMath : Math Rat where
  vars := (ofRead operateMilpMath).vars.filter (fun v => v.name == "unmet_demand")
  globals := []
  constraints := operateMilpMath.constraints.filter (fun c => c.defn.name == "flow_capacity_minimum")
  objectives := []

/-- C112, witness: the minimum is asked of the given capacity, and is not met whatever is decided. -/
theorem C112_low_capacity (x : String → List Label → Rat) :
    cellAt (assemble ⟨x, fun _ => none, List.dedup⟩ lowMath ⟨lowCapacity.W, lowCapacity.E⟩) 0 ["n", "t", "c"] =
      some (some (some 1, ">=", some 2)) := by kernel_rfl

end Assemble
end Calliope
