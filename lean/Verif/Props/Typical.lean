import Verif.Proofs.TypicalBuild
import Verif.Props.Rename

/-!
# C121: typical time steps
-/

namespace Calliope
namespace Typical

open Grid Expr Build BaseMath Assemble Infix MathText
open Linear (Feasible IsObjective SamePlace)
open Rename (Retold Limited Distinct Same condOk)

section General

variable {V : Type} [Field V] [LinearOrder V] {T : Choice} {w w' : Label → V} {s s' : State V} {g g' : Given V} {M : Math V}
  {P P' : Problem V}

/-- The bounds of variables, of all steps and of typical steps. -/
theorem bounds_like (hM : Single T M) (hs : Stands T w w' s s') (hl : Limited M s) (hg : Retold T.names s.W.coords M g g')
    {before after : List (Variable V)} {v : Variable V} (hv : M.vars = before ++ v :: after) :
    Units.Both (fun b b' => Same T.names s.W.coords b b' ∧ (b.dims = v.foreach ∨ b = scalar none))
      (match addAll (addVariable g) s before with | .ok q => buildVariable q.W q.E v | .error e => .error e)
      (match addAll (addVariable g') s' before with | .ok q => buildVariable q.W q.E v | .error e => .error e) := by
  have hmem : ∀ w ∈ before, w ∈ M.vars := fun w hw => hv ▸ List.mem_append_left _ hw
  have hvm : v ∈ M.vars := hv ▸ List.mem_append_right _ List.mem_cons_self
  rcases (Rename.addAll_same (T := fun x x' => States T w w' s.W.coords s'.W.coords x x' ∧ Limited M x) (add := addVariable g)
    (add' := addVariable g') before ⟨states_start hs, hl⟩
    fun u hu x x' h => addVariable_like h.1 hg h.2 (hmem u hu) (hM.vars u (hmem u hu))).cases
    with ⟨y, e1, e2⟩ | ⟨q, q', e1, e2, hq⟩
  · simp only [e1, e2]; exact rfl
  · simp only [e1, e2]
    exact (buildVariable_like hq.1 (fun v hv n hn => (hq.2 v hv n hn).2) hvm (hM.vars v hvm)).mono fun _ _ h => ⟨h.1, h.2.1⟩

omit [LinearOrder V] in
theorem single_nodup (hM : Single T M) : ∀ v ∈ M.vars, v.foreach.Nodup := fun v hv => variable_nodup (hM.vars v hv)

theorem plan_like (hM : Single T M) (hs : Stands T w w' s s') (hl : Limited M s) (hg : Retold T.names s.W.coords M g g')
    (hP : Rename.Problems T.names s.W.coords P P') (e1 : assemble g M s = .ok P) (e2 : assemble g' M s' = .ok P') :
    Feasible g M s P ↔ Feasible g' M s' P' :=
  Rename.plan_of (states_start hs).E.labels.covers (single_nodup hM) (fun _ _ _ hv => bounds_like hM hs hl hg hv) hg hP e1 e2

/-- C121: if the math of a model is that of single steps, then the decisions of typical steps, repeated in every step they
stand for, are a plan exactly if they are a plan for the model of typical steps; and each objective has the same value. -/
theorem C121_plans (hM : Single T M) (hs : Stands T w w' s s') (hl : Limited M s) (h0 : NoOther T g)
    (hg : Retold T.names s.W.coords M g g') :
    ((∃ P, Feasible g M s P) ↔ ∃ P', Feasible g' M s' P') ∧
    ∀ i v, (∃ P, Feasible g M s P ∧ IsObjective P i v) ↔ ∃ P', Feasible g' M s' P' ∧ IsObjective P' i v := by
  rcases (assemble_like hM hs hl h0 hg).cases with ⟨e, e1, e2⟩ | ⟨Q, Q', e1, e2, h⟩
  · have n1 : ∀ P, ¬ Feasible g M s P := fun P h => by
      have := h.builds
      rw [e1] at this
      cases this
    have n2 : ∀ P, ¬ Feasible g' M s' P := fun P h => by
      have := h.builds
      rw [e2] at this
      cases this
    exact ⟨⟨fun ⟨P, h⟩ => (n1 P h).elim, fun ⟨P, h⟩ => (n2 P h).elim⟩,
      fun i v => ⟨fun ⟨P, h, _⟩ => (n1 P h).elim, fun ⟨P, h, _⟩ => (n2 P h).elim⟩⟩
  · have p1 : ∀ P, Feasible g M s P → P = Q := fun P h => by
      have := h.builds
      rw [e1] at this
      cases this
      rfl
    have p2 : ∀ P, Feasible g' M s' P → P = Q' := fun P h => by
      have := h.builds
      rw [e2] at this
      cases this
      rfl
    have hp := plan_like hM hs hl hg h e1 e2
    refine ⟨⟨fun ⟨P, hP⟩ => ⟨Q', hp.1 (p1 P hP ▸ hP)⟩, fun ⟨P, hP⟩ => ⟨Q, hp.2 (p2 P hP ▸ hP)⟩⟩, fun i v => ⟨?_, ?_⟩⟩
    · rintro ⟨P, hP, hv⟩
      cases p1 P hP
      exact ⟨Q', hp.1 hP, (Rename.objective_same h i v).1 hv⟩
    · rintro ⟨P, hP, hv⟩
      cases p2 P hP
      exact ⟨Q, hp.2 hP, (Rename.objective_same h i v).2 hv⟩

/-- C121: the constraints at a step hold the values of the constraints at its typical step. -/
theorem C121_constraints (hM : Single T M) (hs : Stands T w w' s s') (hl : Limited M s) (h0 : NoOther T g)
    (hg : Retold T.names s.W.coords M g g') (e1 : assemble g M s = .ok P) (e2 : assemble g' M s' = .ok P') :
    List.Forall₂ (fun a a' => a'.dims = a.dims ∧
        ∀ ρ, (∀ d ∈ a.dims, ρ d ∈ s.W.coords d) → a'.at (fun d => if d = "timesteps" then T.of (ρ d) else ρ d) = a.at ρ)
      P.constraints P'.constraints := by
  have h := assemble_like hM hs hl h0 hg
  rw [e1, e2] at h
  exact h.constraints.imp fun a b h => h.1

/-- C121: a problem of typical steps can be built exactly if that of all steps can, with the same error otherwise. -/
theorem C121_fails (hM : Single T M) (hs : Stands T w w' s s') (hl : Limited M s) (h0 : NoOther T g)
    (hg : Retold T.names s.W.coords M g g') (e : Err) : assemble g M s = .error e ↔ assemble g' M s' = .error e := by
  rcases (assemble_like hM hs hl h0 hg).cases with ⟨e', e1, e2⟩ | ⟨a, b, e1, e2, _⟩
  · rw [e1, e2]
  · rw [e1, e2]
    constructor <;> intro h <;> cases h

/-- C121: so to every plan of the model of typical steps there is a plan of the model of all steps with the same value of the
objective. -/
theorem C121_repeat (hM : Single T M) (hD : Distinct M) (hs : Stands T w w' s s') (hl : Limited M s) (h0 : NoOther T g')
    (hP : Feasible g' M s' P') {i : Nat} {v : V} (hv : IsObjective P' i v) :
    ∃ g P, SamePlace g' g ∧ Retold T.names s.W.coords M g g' ∧ Feasible g M s P ∧ IsObjective P i v := by
  obtain ⟨g, h1, h2, hr⟩ := Rename.retold_back hD (single_nodup hM) s.W.coords g'
  have h0' : NoOther T g := fun n hn => by
    rw [h1]
    exact h0 n hn
  obtain ⟨P, hP, hv⟩ := ((C121_plans hM hs hl h0' hr).2 i v).2 ⟨P', hP, hv⟩
  exact ⟨g, P, ⟨h1, h2⟩, hr, hP, hv⟩

/-- C121: and the best plan for all steps costs no more than any plan for typical steps. -/
theorem C121_no_worse (hM : Single T M) (hD : Distinct M) (hs : Stands T w w' s s') (hl : Limited M s) (h0 : NoOther T g')
    (hP : Feasible g' M s' P') {i : Nat} {v best : V} (hv : IsObjective P' i v)
    (hbest : ∀ g P u, SamePlace g' g → Feasible g M s P → IsObjective P i u → best ≤ u) : best ≤ v := by
  obtain ⟨g, P, h1, _, hP, hv⟩ := C121_repeat hM hD hs hl h0 hP hv
  exact hbest g P v h1 hP hv

end General

/-! ### The shipped math -/

section Any

variable {V : Type} {T : Choice} {of : Label → Label}

/-- The same with other typical steps. -/
def Choice.standing (T : Choice) (of : Label → Label) : Choice := { T with of := of }

theorem lhsOk_any : ∀ l : Where.Lhs, Rename.lhsOk (T.standing of).names l = Rename.lhsOk T.names l
  | .op _ l r => by simp only [Rename.lhsOk, lhsOk_any l, lhsOk_any r]
  | .dim _ | .valAt _ _ | .input _ => rfl
  | .num _ | .config _ | .result _ | .total _ _ => by simp only [Rename.lhsOk]

theorem leafOk_any (l : Where.Leaf) : Rename.leafOk (T.standing of).names l = Rename.leafOk T.names l := by
  cases l <;> first | rfl | skip
  rename_i l o r
  have hd : Rename.dateOk (T.standing of).names l o r = Rename.dateOk T.names l o r := by
    cases l <;> cases o <;> cases r <;> rfl
  simp only [Rename.leafOk, lhsOk_any l, hd]
  cases r <;> rfl

mutual
theorem condOk_any : ∀ t : Tree Where.Op Where.Leaf, condOk (T.standing of).names t = condOk T.names t
  | .atom l => by simp only [condOk]; exact leafOk_any l
  | .pre _ t => by simp only [condOk, condOk_any t]
  | .chain t r => by simp only [condOk, condOk_any t, condRestOk_any r]
theorem condRestOk_any : ∀ r : Rest Where.Op Where.Leaf, Rename.condRestOk (T.standing of).names r = Rename.condRestOk T.names r
  | .one _ t => by simp only [Rename.condRestOk, condOk_any t]
  | .more _ t r => by simp only [Rename.condRestOk, condOk_any t, condRestOk_any r]
end

mutual
theorem kind_any (sub : String → Option Kind) : ∀ t : Ex V, kind (T.standing of) sub t = kind T sub t
  | .num _ | .comp _ | .sub _ | .sliced _ _ | .roll _ _ | .groupSum _ _ _ | .groupDatetime _ _ _ | .sumNextN _ _ _
  | .select _ _ => rfl
  | .sign _ t | .reduceCarrier t _ | .sum t _ => by simp only [kind, kind_any sub t]
  | .cond t c => by simp only [kind, kind_any sub t, kind_any sub c]
  | .chain t r => by
    simp only [kind, kind_any sub t]
    congr 1
    funext k
    exact kindRest_any sub k r
theorem kindRest_any (sub : String → Option Kind) (j : Kind) : ∀ r : ExRest V,
    kindRest (T.standing of) sub j r = kindRest T sub j r
  | .one o t => by simp only [kindRest, kind_any sub t]
  | .more o t r => by
    simp only [kindRest, kind_any sub t]
    congr 1
    funext k
    exact kindRest_any sub k r
end

theorem single_any (k : Kind) (c : Component V) : single (T.standing of) k c = single T k c := by
  have h1 : condOk (T.standing of).names = condOk T.names := funext condOk_any
  have h2 : subKind (T.standing of) c.defn.subs = subKind T c.defn.subs := by
    funext n
    simp only [subKind, kind_any]
  have h3 : ∀ b : Expand.Body V, bodyKind (T.standing of) (subKind T c.defn.subs) b = bodyKind T (subKind T c.defn.subs) b := by
    intro b
    cases b <;> simp only [bodyKind, kind_any]
  simp only [single, h1, h2, h3]

mutual
theorem nowhere_any : ∀ t : Tree Where.Op Where.Leaf, nowhere (T.standing of) t = nowhere T t
  | .atom l => by cases l <;> simp only [nowhere] <;> rfl
  | .pre _ _ => rfl
  | .chain t r => by simp only [nowhere, nowhere_any t, nowhereRest_any]
theorem nowhereRest_any (b : Bool) : ∀ r : Rest Where.Op Where.Leaf, nowhereRest (T.standing of) b r = nowhereRest T b r
  | .one _ t => by simp only [nowhereRest, nowhere_any t]
  | .more _ t r => by simp only [nowhereRest, nowhere_any t, nowhereRest_any _ r]
end

theorem leafAlike_any (l : Where.Leaf) : leafAlike (T.standing of) l = leafAlike T l := by
  unfold leafAlike
  split <;> simp only [leafOk_any]

mutual
theorem alike_any : ∀ t : Tree Where.Op Where.Leaf, alike (T.standing of) t = alike T t
  | .atom l => by simp only [alike]; exact leafAlike_any l
  | .pre _ t => by simp only [alike, alike_any t]
  | .chain t r => by simp only [alike, alike_any t, alikeRest_any r]
theorem alikeRest_any : ∀ r : Rest Where.Op Where.Leaf, alikeRest (T.standing of) r = alikeRest T r
  | .one _ t => by simp only [alikeRest, alike_any t]
  | .more _ t r => by simp only [alikeRest, alike_any t, alikeRest_any r]
end

theorem empty_any (t : Tree Where.Op Where.Leaf) : empty (T.standing of) t = empty T t := by
  simp only [empty, nowhere_any, alike_any]

theorem componentOk_any (k : Kind) (c : Component V) : componentOk (T.standing of) k c = componentOk T k c := by
  simp only [componentOk, single_any, empty_any]

theorem kindOf_any (n : String) : kindOf (T.standing of) n = kindOf T n := rfl

theorem variableOk_any (v : Variable V) : variableOk (T.standing of) v = variableOk T v := by
  simp only [variableOk, condOk_any, empty_any, kindOf_any]
  rfl

end Any

/-- The names of components that are not those of single steps. -/
def coupling (T : Choice) (M : Math Rat) : List String :=
  (M.vars.filter (fun v => !variableOk T v)).map (fun v => v.name) ++
  (M.globals.filter (fun c => !(componentOk T (kindOf T c.defn.name) c &&
    (!T.gone.contains c.defn.name || empty T c.top)))).map (fun c => c.defn.name) ++
  (M.constraints.filter (fun c => !componentOk T .plain c)).map (fun c => c.defn.name) ++
  (M.objectives.filter (fun c => !(componentOk T .plain c && decide (c.foreach = [])))).map (fun c => c.defn.name)

theorem filter_not_nil {α : Type} {p : α → Bool} {l : List α} {f : α → String} (h : (l.filter (fun a => !p a)).map f = []) :
    ∀ a ∈ l, p a = true := by
  intro a ha
  have := List.filter_eq_nil_iff.1 (List.map_eq_nil_iff.1 h) a ha
  simpa using this

theorem coupling_sound {T : Choice} {M : Math Rat} (h : coupling T M = []) (of : Label → Label) : Single (T.standing of) M := by
  simp only [coupling, List.append_eq_nil_iff] at h
  obtain ⟨⟨⟨h1, h2⟩, h3⟩, h4⟩ := h
  refine ⟨fun v hv => ?_, fun c hc => ?_, fun c hc => ?_, fun c hc => ?_⟩
  · rw [variableOk_any]
    exact filter_not_nil h1 v hv
  · have := filter_not_nil (p := fun c => componentOk T (kindOf T c.defn.name) c &&
      (!T.gone.contains c.defn.name || empty T c.top)) h2 c hc
    simp only [Bool.and_eq_true, Bool.or_eq_true, Bool.not_eq_true', List.contains_eq_mem, decide_eq_false_iff_not] at this
    rw [componentOk_any, kindOf_any, empty_any]
    exact ⟨this.1, fun hm => this.2.resolve_left (fun hn => hn hm)⟩
  · rw [componentOk_any]
    exact filter_not_nil h3 c hc
  · have := filter_not_nil (p := fun c => componentOk T .plain c && decide (c.foreach = [])) h4 c hc
    simp only [Bool.and_eq_true, decide_eq_true_eq] at this
    rw [componentOk_any]
    exact this

/-- Models without storage, without technologies that store, and without limits on ramping. -/
def apart : Choice where
  of := id
  scaled := ["timestep_weights", "cost_operation_variable"]
  odd := ["timestep_weights", "timestep_cluster", "cluster_first_timestep", "lookup_cluster_last_timestep", "lookup_datestep_cluster",
    "lookup_datestep_last_cluster_timestep"]
  never := [.cmp (.input "base_tech") .eq (.str "storage"), .cmp (.input "include_storage") .eq (.bool true),
    .input "flow_ramping"]
  gone := ["storage", "storage_cap"]

/-- Any models. -/
def whole : Choice := { apart with never := [], gone := [] }

/-- C121: the base math is that of single steps, as long as nothing stores and ramping is not limited. -/
theorem C121_base : ∃ M, (buildMath shipped (priority (chars! "base") [])).bind File.read = some M ∧
    Distinct (ofRead M) ∧ ∀ of, Single (apart.standing of) (ofRead M) :=
  ⟨_, C103_base, by decide +kernel, coupling_sound (by decide +kernel)⟩

theorem C121_operate : ∃ M, (buildMath shipped (priority (chars! "operate") [])).bind File.read = some M ∧
    Distinct (ofRead M) ∧ ∀ of, Single (apart.standing of) (ofRead M) :=
  ⟨_, C103_operate, by decide +kernel, coupling_sound (by decide +kernel)⟩

theorem C121_spores : ∃ M, (buildMath shipped (priority (chars! "spores") [])).bind File.read = some M ∧
    Distinct (ofRead M) ∧ ∀ of, Single (apart.standing of) (ofRead M) :=
  ⟨_, C103_spores, by decide +kernel, coupling_sound (by decide +kernel)⟩

theorem C121_milp : ∃ M, (buildMath shipped (priority (chars! "base") [chars! "milp"])).bind File.read = some M ∧
    Distinct (ofRead M) ∧ ∀ of, Single (apart.standing of) (ofRead M) :=
  ⟨_, C103_milp, by decide +kernel, coupling_sound (by decide +kernel)⟩

theorem C121_inter_cluster :
    ∃ M, (buildMath shipped (priority (chars! "base") [chars! "storage_inter_cluster"])).bind File.read = some M ∧
      Distinct (ofRead M) ∧ ∀ of, Single (apart.standing of) (ofRead M) :=
  ⟨_, C103_inter_cluster, by decide +kernel, coupling_sound (by decide +kernel)⟩

/-- C121: of the base math, these constraints depend on more than one step, and no others. -/
theorem C121_coupling : ∃ M, (buildMath shipped (priority (chars! "base") [])).bind File.read = some M ∧
    coupling whole (ofRead M) =
      ["balance_supply_with_storage", "balance_storage", "set_storage_initial", "ramping_up", "ramping_down"] :=
  ⟨_, C103_base, by decide +kernel⟩

/-! ### A small problem -/

section Demo

open Linear (holdsB holdsB_sound objectiveB objectiveB_sound plain_mini Within)

/-- Time steps with a demand each. -/
def dayMini (labels : List Label) (weight : Label → Rat) : Mini where
  labels := [("timesteps", labels)]
  data := [("demand", ["timesteps"], fun c => if c = ["night"] then 5 else 3),
    ("timestep_weights", ["timesteps"], fun c => weight (c.headD ""))]
  lookups := []
  inputs := [("demand", ⟨.number, ⟨["timesteps"], fun c => .num (if c = ["night"] then 5 else 3)⟩, .nan⟩)]
  results := []
  along := ["timesteps"]
  items := labels.map (fun l => [l])

def dayState (labels : List Label) (weight : Label → Rat) : State Rat := ⟨(dayMini labels weight).W, (dayMini labels weight).E⟩

def one (_ : Label) : Rat := 1

/-- The morning stands for the evening. -/
def standFor (l : Label) : Label := if l = "evening" then "morning" else l

def two (l : Label) : Rat := if l = "morning" then 2 else 1

def allSteps : State Rat := dayState ["morning", "evening", "night"] one

def fewSteps : State Rat := dayState ["morning", "night"] two

/-- The demand is met, at a price for each unit. -/
def dayMath : Math Rat where
  vars := [⟨"out", ["timesteps"], .atom (.bool true), false, .num 0, .unbounded⟩]
  globals := [BaseMath.single "cost_operation_variable" ["timesteps"] (.atom (.bool true))
    (.arith (.chain (.comp "timestep_weights") (.one .times (.comp "out"))))]
  constraints := [BaseMath.single "balance" ["timesteps"] (.atom (.input "demand")) (.cmp (.comp "out") "==" (.comp "demand")),
    BaseMath.single "total" [] (.atom (.bool true)) (.cmp (.sum (.comp "cost_operation_variable") ["timesteps"]) "<=" (.num 11))]
  objectives := [BaseMath.single "cost" [] (.atom (.bool true)) (.arith (.sum (.comp "cost_operation_variable") ["timesteps"]))]

def dayPlan : Given Rat := ⟨fun _ c => if c = ["night"] then 5 else 3, fun _ => none, List.dedup⟩

def dayChoice : Choice := apart.standing standFor

theorem day_single : Single dayChoice dayMath := coupling_sound (by decide +kernel) _

theorem steps_all {ρ : Point} (h : ρ "timesteps" ∈ allSteps.W.coords "timesteps") :
    ρ "timesteps" = "morning" ∨ ρ "timesteps" = "evening" ∨ ρ "timesteps" = "night" := by
  have : allSteps.W.coords "timesteps" = ["morning", "evening", "night"] := rfl
  rw [this] at h
  simpa using h

theorem day_demand {α : Type} (f : Rat → α) : Same dayChoice.names allSteps.W.coords
    ⟨["timesteps"], fun c => f (if c = ["night"] then 5 else 3)⟩ ⟨["timesteps"], fun c => f (if c = ["night"] then 5 else 3)⟩ := by
  refine ⟨rfl, fun ρ hρ => ?_⟩
  rcases steps_all (hρ "timesteps" (by simp)) with h | h | h <;>
    simp [Arr.at, Rename.Renaming.move, Choice.names, dayChoice, Choice.standing, standFor, h]

theorem day_coords {d : String} (h : d ≠ "timesteps") : fewSteps.W.coords d = allSteps.W.coords d := by
  show (dayMini _ _).coords d = (dayMini _ _).coords d
  simp [Mini.coords, dayMini, List.lookup, beq_false_of_ne h]

theorem day_inputs (n : String) : n = "demand" ∨ fewSteps.W.input n = allSteps.W.input n ∧ (allSteps.W.input n).arr.dims = [] ∧
    allSteps.W.input n = ⟨.number, scalar .nan, .nan⟩ := by
  by_cases h : n = "demand"
  · exact .inl h
  · right
    simp [fewSteps, allSteps, dayState, dayMini, Mini.W, List.lookup, beq_false_of_ne h, scalar]

theorem day_none {α : Type} {a : Arr α} (h : a.dims = []) : Same dayChoice.names allSteps.W.coords a a :=
  ⟨rfl, fun ρ _ => by simp [Arr.at, h]⟩

theorem day_number (labels : List Label) (weight : Label → Rat) (n : String) : (dayState labels weight).W.number n = none := by
  show (dayMini _ _).number n = none
  simp [Mini.number, dayMini]

theorem never_day {labels : List Label} {weight : Label → Rat} {l : Where.Leaf} (hl : l ∈ dayChoice.never) (a : Arr Bool)
    (ha : Where.evalLeaf (dayState labels weight).W l = .ok a) (ρ : Point) : a.at ρ = false := by
  simp only [dayChoice, Choice.standing, apart, List.mem_cons, List.not_mem_nil, or_false] at hl
  rcases hl with rfl | rfl | rfl
  · cases ha
    rfl
  · cases ha
    rfl
  · cases ha
    rfl

theorem day_stands : Stands dayChoice one two allSteps fewSteps where
  kept d hd := day_coords hd
  steps l' := by
    show l' ∈ ["morning", "night"] ↔ ∃ l ∈ ["morning", "evening", "night"], standFor l = l'
    simp [standFor, eq_comm]
  once := (by decide : ["morning", "night"].Nodup)
  weight l' hl := by
    have : l' = "morning" ∨ l' = "night" := by
      have : fewSteps.W.coords "timesteps" = ["morning", "night"] := rfl
      rw [this] at hl
      simpa using hl
    rcases this with rfl | rfl <;> decide +kernel
  ecoords := ⟨rfl, rfl⟩
  dims := rfl
  config := rfl
  arith := rfl
  matrix := by
    refine ⟨rfl, fun ρ hρ => ?_⟩
    rcases steps_all (hρ "timesteps" (by simp [allSteps, dayState, dayMini, Mini.W])) with h | h | h <;>
      simp [Arr.at, allSteps, fewSteps, dayState, dayMini, Mini.W, Rename.Renaming.move, Choice.names, dayChoice,
        Choice.standing, standFor, h]
  kind n _ := by
    rcases day_inputs n with rfl | h
    · rfl
    · rw [h.1]
  default n _ := by
    rcases day_inputs n with rfl | h
    · rfl
    · rw [h.1]
  input n _ := by
    rcases day_inputs n with rfl | h
    · exact day_demand _
    · rw [h.1]
      exact day_none h.2.1
  result n := .none
  number n := by
    rw [allSteps, fewSteps, day_number, day_number]
    exact .none
  sums n over := .none
  isDim := rfl
  op := rfl
  neg := rfl
  truthy := rfl
  numbers := plain_mini _
  carrier n := .none
  comp n hn := by
    by_cases h : n = "demand"
    · subst h
      exact .some ⟨rfl, day_demand some, by decide⟩
    · have h' : n ≠ "timestep_weights" := by
        rintro rfl
        exact hn (by decide)
      have h1 : ∀ labels weight, (dayState labels weight).E.comp n = none := by
        intro labels weight
        simp [dayState, dayMini, Mini.E, List.lookup, beq_false_of_ne h, beq_false_of_ne h']
      rw [allSteps, fewSteps, h1, h1]
      exact .none
  weights := ⟨_, _, rfl, rfl, rfl, rfl, fun _ _ => rfl, fun _ _ => rfl⟩
  others n hn hw := by
    simp only [dayChoice, Choice.standing, apart, List.mem_cons, List.not_mem_nil, or_false] at hn
    rcases hn with rfl | rfl
    · exact absurd rfl hw
    · exact ⟨rfl, rfl⟩
  never l hl := ⟨fun a ha ρ _ => never_day hl a ha ρ, fun a ha ρ _ => never_day hl a ha ρ⟩
  gone n _ := by
    refine ⟨fun a ha => ?_, fun a ha => ?_⟩
    · cases ha
    · cases ha

theorem day_limited : Limited dayMath allSteps := by
  intro v hv n hn
  simp only [dayMath, List.mem_singleton] at hv
  subst hv
  simp [BoundNames] at hn

theorem day_retold : Retold dayChoice.names allSteps.W.coords dayMath dayPlan dayPlan where
  x v hv ρ hρ := by
    simp only [dayMath, List.mem_singleton] at hv
    subst hv
    rcases steps_all (hρ "timesteps" (by simp)) with h | h | h <;>
      simp [dayPlan, Rename.Renaming.move, Choice.names, dayChoice, Choice.standing, standFor, h]
  default := rfl
  enum := rfl

theorem day_holds : holdsB fewSteps.W.coords (assemble dayPlan dayMath fewSteps) = true ∧
    objectiveB (assemble dayPlan dayMath fewSteps) 0 = some 11 := by decide +kernel

theorem day_bounds : ∀ before v after s', dayMath.vars = before ++ v :: after →
    addAll (addVariable dayPlan) fewSteps before = .ok s' →
    ∀ b, buildVariable s'.W s'.E v = .ok b → ∀ c ∈ cells fewSteps.W.coords b.dims, ∀ l, b.val c = some l →
      Within (dayPlan.x v.name c) l ∧ (v.integer = true → ∃ z : Int, dayPlan.x v.name c = z) := by
  intro before v after s' hv hs b hb c hc l hl
  have : before = [] ∧ v = ⟨"out", ["timesteps"], .atom (.bool true), false, .num 0, .unbounded⟩ := by
    cases before with
    | nil =>
      simp only [dayMath, List.nil_append, List.cons.injEq] at hv
      exact ⟨rfl, hv.1.symm⟩
    | cons w before => simp [dayMath] at hv
  obtain ⟨rfl, rfl⟩ := this
  simp only [addAll, Except.ok.injEq] at hs
  subst hs
  refine ⟨?_, by simp⟩
  have hx : 0 ≤ dayPlan.x "out" c := by
    simp only [dayPlan]
    split <;> norm_num
  simp only [buildVariable] at hb
  split at hb
  · cases hb
  · split at hb
    · simp only [boundArr, Except.ok.injEq] at hb
      subst hb
      simp only [zip, scalar] at hl
      rename_i m _ _
      rcases Bool.eq_false_or_eq_true (m.val (pick (joinDims m.dims (joinDims [] [])) c m.dims)) with hm | hm
      · simp only [hm, if_true, Option.some.injEq] at hl
        subst hl
        refine ⟨fun a ha => ?_, fun a ha => by cases ha⟩
        cases ha
        exact hx
      · simp only [hm, Bool.false_eq_true, if_false] at hl
        cases hl
    · simp only [Except.ok.injEq] at hb
      subst hb
      cases hl

/-- Three units in a morning that counts twice and five at night are a plan of cost 11: so are three in the morning, three in
the evening and five at night. -/
example : ∃ P, Feasible dayPlan dayMath allSteps P ∧ IsObjective P 0 11 := by
  obtain ⟨h1, h2⟩ := day_holds
  obtain ⟨P, e1, c1⟩ := holdsB_sound h1
  rw [e1] at h2
  exact ((C121_plans day_single day_stands day_limited (fun _ _ => .inl rfl) day_retold).2 0 11).2
    ⟨P, ⟨e1, c1, day_bounds⟩, objectiveB_sound h2⟩

example : ∃ g P, SamePlace dayPlan g ∧ Retold dayChoice.names allSteps.W.coords dayMath g dayPlan ∧
    Feasible g dayMath allSteps P ∧ IsObjective P 0 11 := by
  obtain ⟨h1, h2⟩ := day_holds
  obtain ⟨P, e1, c1⟩ := holdsB_sound h1
  rw [e1] at h2
  exact C121_repeat day_single (by decide +kernel) day_stands day_limited (fun _ _ => .inl rfl)
    ⟨e1, c1, day_bounds⟩ (objectiveB_sound h2)

/-- A limit of the sum over steps without their weights. -/
def plainSum : Math Rat where
  vars := dayMath.vars
  globals := []
  constraints := [BaseMath.single "total" [] (.atom (.bool true)) (.cmp (.sum (.comp "out") ["timesteps"]) "<=" (.num 8))]
  objectives := []

/-- A limit of the change from one step to the next. -/
def ramping : Math Rat where
  vars := dayMath.vars
  globals := []
  constraints := [BaseMath.single "ramp" ["timesteps"] (.atom (.bool true)) (.cmp (.chain (.comp "out") (.one .minus
    (.roll (.comp "out") [("timesteps", 1)]))) "<=" (.num 1))]
  objectives := []

/-- C121: weights matter: the sum of 3 and 5 is within the limit of 8, the sum of 3, 3 and 5 is not. -/
theorem C121_unweighted : holdsB fewSteps.W.coords (assemble dayPlan plainSum fewSteps) = true ∧
    holdsB allSteps.W.coords (assemble dayPlan plainSum allSteps) = false ∧ coupling apart plainSum = ["total"] ∧
    coupling apart ramping = ["ramp"] := by decide +kernel

end Demo

end Typical
end Calliope
