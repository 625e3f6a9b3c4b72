import Verif.Props.Rename
import Mathlib.Logic.Equiv.Basic

/-!
# C128: a model moved to other dates
-/

namespace Calliope
namespace Dates

open Grid Expr Build BaseMath Assemble Infix MathText Rename
open Linear (Feasible Satisfied Within IsObjective)
open Units (Cheapest)

/-- The lookups whose values are time steps. -/
def stepLookups : List String := ["lookup_cluster_last_timestep", "lookup_datestep_last_cluster_timestep"]

/-- Other dates: every time step, and every day of the year that typical days stand for, gets another label. -/
def calendar (f g : Label → Label) : Renaming where
  of d l := if d = "timesteps" then f l else if d = "datesteps" then g l else l
  free d := d = "timesteps" ∨ d = "datesteps"
  held := stepLookups
  odd := []
  dated d := d = "timesteps" ∨ d = "datesteps"
  dates n := if n ∈ stepLookups then some "timesteps" else none

/-- The labels of a model at other dates: dates stay different from each other and in the same order. -/
theorem relabelled {f g : Label → Label} (hf : ∀ l l', f l = f l' → l = l') (hg : ∀ l l', g l = g l' → l = l')
    {coords coords' : String → List Label} (hk : ∀ d, d ≠ "timesteps" → d ≠ "datesteps" → coords' d = coords d)
    (ht : coords' "timesteps" = (coords "timesteps").map f) (hd : coords' "datesteps" = (coords "datesteps").map g) :
    Relabelled (calendar f g) coords coords' := by
  have hne : "datesteps" ≠ "timesteps" := by decide
  refine ⟨fun d h => ?_, fun d => ?_, fun d h => ?_⟩
  · have h : d ≠ "timesteps" ∧ d ≠ "datesteps" := by simpa [calendar] using h
    exact ⟨hk d h.1 h.2, fun l => by simp [calendar, h]⟩
  · by_cases h : d = "timesteps"
    · subst h
      rw [ht]
      exact List.Perm.of_eq (by simp [calendar])
    · by_cases h' : d = "datesteps"
      · subst h'
        rw [hd]
        exact List.Perm.of_eq (by simp [calendar])
      · rw [hk d h h']
        exact List.Perm.of_eq (by simp [calendar, h, h'])
  · have h : d = "timesteps" ∨ d = "datesteps" := by simpa [calendar] using h
    rcases h with rfl | rfl
    · exact ⟨by rw [ht]; simp [calendar], fun l l' e => hf l l' (by simpa [calendar] using e)⟩
    · exact ⟨by rw [hd]; simp [calendar], fun l l' e => hg l l' (by simpa [calendar] using e)⟩

section General

variable {V : Type} [Field V] [LinearOrder V] {f h : Label → Label} {s s' : State V} {g g' : Given V} {M : Math V}

/-- C128: the same decisions at other dates are a plan exactly if they were one, at the same value of each objective. -/
theorem C128_plans (hM : Nameless (calendar f h) M) (hs : Renamed (calendar f h) s s') (hl : Limited M s)
    (hg : Retold (calendar f h) s.W.coords M g g') :
    ((∃ P, Feasible g M s P) ↔ ∃ P', Feasible g' M s' P') ∧
    ∀ i v, (∃ P, Feasible g M s P ∧ IsObjective P i v) ↔ ∃ P', Feasible g' M s' P' ∧ IsObjective P' i v :=
  C120_plans hM hs hl hg

/-- C128: the problem can be built exactly if it could before, with the same error otherwise. -/
theorem C128_fails (hM : Nameless (calendar f h) M) (hs : Renamed (calendar f h) s s') (hl : Limited M s)
    (hg : Retold (calendar f h) s.W.coords M g g') (e : Err) :
    assemble g M s = .error e ↔ assemble g' M s' = .error e := C120_fails hM hs hl hg e

/-- C128: best plans stay best plans. -/
theorem C128_best (hM : Nameless (calendar f h) M) (hD : Distinct M) (hs : Renamed (calendar f h) s s')
    (hn : ∀ d, (s'.W.coords d).Nodup) (hl : Limited M s) (hg : Retold (calendar f h) s.W.coords M g g') (i : Nat) :
    Cheapest g M s i ↔ Cheapest g' M s' i := C120_best hM hD hs hn hl hg i

end General

/-! ### The shipped math -/

def datelessB (M : Math Rat) : Bool :=
  M.vars.all (variableOk (calendar id id)) && M.globals.all (componentOk (calendar id id)) &&
  M.constraints.all (componentOk (calendar id id)) &&
  M.objectives.all (fun c => componentOk (calendar id id) c && decide (c.foreach = []))

theorem datelessB_sound {M : Math Rat} (h : datelessB M = true) (f g : Label → Label) : Nameless (calendar f g) M := by
  simp only [datelessB, Bool.and_eq_true, List.all_eq_true, decide_eq_true_eq] at h
  refine ⟨fun v hv => ?_, fun c hc => ?_, fun c hc => ?_, fun c hc => ⟨?_, (h.2 c hc).2⟩⟩
  · exact (variableOk_any (R := calendar id id) v).trans (h.1.1.1 v hv)
  · exact (componentOk_any (R := calendar id id) c).trans (h.1.1.2 c hc)
  · exact (componentOk_any (R := calendar id id) c).trans (h.1.2 c hc)
  · exact (componentOk_any (R := calendar id id) c).trans (h.2 c hc).1

/-- C128: the base math names no time step. -/
theorem C128_base : ∃ M, (buildMath shipped (priority (chars! "base") [])).bind File.read = some M ∧
    Distinct (ofRead M) ∧ ∀ f g, Nameless (calendar f g) (ofRead M) :=
  ⟨_, C103_base, by decide +kernel, datelessB_sound (by decide +kernel)⟩

theorem C128_operate : ∃ M, (buildMath shipped (priority (chars! "operate") [])).bind File.read = some M ∧
    Distinct (ofRead M) ∧ ∀ f g, Nameless (calendar f g) (ofRead M) :=
  ⟨_, C103_operate, by decide +kernel, datelessB_sound (by decide +kernel)⟩

theorem C128_spores : ∃ M, (buildMath shipped (priority (chars! "spores") [])).bind File.read = some M ∧
    Distinct (ofRead M) ∧ ∀ f g, Nameless (calendar f g) (ofRead M) :=
  ⟨_, C103_spores, by decide +kernel, datelessB_sound (by decide +kernel)⟩

theorem C128_milp : ∃ M, (buildMath shipped (priority (chars! "base") [chars! "milp"])).bind File.read = some M ∧
    Distinct (ofRead M) ∧ ∀ f g, Nameless (calendar f g) (ofRead M) :=
  ⟨_, C103_milp, by decide +kernel, datelessB_sound (by decide +kernel)⟩

theorem C128_inter_cluster :
    ∃ M, (buildMath shipped (priority (chars! "base") [chars! "storage_inter_cluster"])).bind File.read = some M ∧
    Distinct (ofRead M) ∧ ∀ f g, Nameless (calendar f g) (ofRead M) :=
  ⟨_, C103_inter_cluster, by decide +kernel, datelessB_sound (by decide +kernel)⟩

/-! ### A store that is filled and emptied -/

section Demo

open Linear (holdsB holdsB_sound objectiveB objectiveB_sound)

/-- What comes into a store and leaves it at each time step. -/
def twoSteps (labels : List Label) (inflow : List Label → Rat) : Mini where
  labels := [("timesteps", labels)]
  data := [("inflow", ["timesteps"], inflow)]
  lookups := []
  inputs := [("inflow", ⟨.number, ⟨["timesteps"], fun c => .num (inflow c)⟩, .nan⟩)]
  results := []
  along := ["timesteps"]
  items := labels.map (fun l => [l])

def stepState (labels : List Label) (inflow : List Label → Rat) : State Rat :=
  ⟨(twoSteps labels inflow).W, (twoSteps labels inflow).E⟩

/-- Two days of 2005: one unit comes in on the second. -/
def then2005 : State Rat := stepState ["2005-01-01", "2005-01-02"] (fun c => if c = ["2005-01-02"] then 1 else 0)

/-- Two days of 2030. -/
def then2030 : State Rat := stepState ["2030-06-01", "2030-06-02"] (fun c => if c = ["2030-06-02"] then 1 else 0)

def demoDates (l : Label) : Label :=
  Equiv.swap "2005-01-01" "2030-06-01" (Equiv.swap "2005-01-02" "2030-06-02" l)

theorem demoDates_inj (l l' : Label) (h : demoDates l = demoDates l') : l = l' :=
  (Equiv.swap _ _).injective ((Equiv.swap _ _).injective h)

theorem demoDates_first : demoDates "2005-01-01" = "2030-06-01" := by decide +kernel

theorem demoDates_second : demoDates "2005-01-02" = "2030-06-02" := by decide +kernel

/-- The store starts with 2 units; after that it holds what it held one step before and what came in. -/
def storeMath : Math Rat where
  vars := [⟨"level", ["timesteps"], .atom (.bool true), false, .num 0, .unbounded⟩]
  globals := []
  constraints := [single "start" ["timesteps"] firstStep (.cmp (.comp "level") "==" (.num 2)),
    single "later" ["timesteps"] (no firstStep) (.cmp (.comp "level") "=="
      (.chain (.roll (.comp "level") [("timesteps", 1)]) (.one .plus (.comp "inflow"))))]
  objectives := [single "total" [] (.atom (.bool true)) (.arith (.sum (.comp "level") ["timesteps"]))]

def plan2005 : Given Rat := ⟨fun _ c => if c = ["2005-01-02"] then 3 else 2, fun _ => none, List.dedup⟩

def plan2030 : Given Rat := ⟨fun _ c => if c = ["2030-06-02"] then 3 else 2, fun _ => none, List.dedup⟩

theorem store_dateless : Nameless (calendar demoDates id) storeMath := datelessB_sound (by decide +kernel) _ _

theorem steps_old {ρ : Point} (h : ρ "timesteps" ∈ then2005.W.coords "timesteps") :
    ρ "timesteps" = "2005-01-01" ∨ ρ "timesteps" = "2005-01-02" := by
  have : then2005.W.coords "timesteps" = ["2005-01-01", "2005-01-02"] := rfl
  rw [this] at h
  simpa using h

theorem move_step (ρ : Point) : (calendar demoDates id).move ρ "timesteps" = demoDates (ρ "timesteps") := rfl

theorem store_inflow {α : Type} (f : Rat → α) : Same (calendar demoDates id) then2005.W.coords
    ⟨["timesteps"], fun c => f (if c = ["2005-01-02"] then 1 else 0)⟩
    ⟨["timesteps"], fun c => f (if c = ["2030-06-02"] then 1 else 0)⟩ := by
  refine ⟨rfl, fun ρ hρ => ?_⟩
  rcases steps_old (hρ "timesteps" (by simp)) with h | h <;>
    simp [Arr.at, move_step, h, demoDates_first, demoDates_second]

theorem store_coords {d : String} (h : d ≠ "timesteps") : then2030.W.coords d = then2005.W.coords d := by
  show (twoSteps _ _).coords d = (twoSteps _ _).coords d
  simp [Mini.coords, twoSteps, List.lookup, beq_false_of_ne h]

theorem store_inputs (n : String) :
    n = "inflow" ∨ then2030.W.input n = then2005.W.input n ∧ (then2005.W.input n).arr.dims = [] := by
  by_cases h : n = "inflow"
  · exact .inl h
  · right
    simp [then2030, then2005, stepState, twoSteps, Mini.W, List.lookup, beq_false_of_ne h, scalar]

theorem same_none {α : Type} {a : Arr α} (h : a.dims = []) : Same (calendar demoDates id) then2005.W.coords a a :=
  ⟨rfl, fun ρ _ => by simp [Arr.at, h]⟩

theorem store_renamed : Renamed (calendar demoDates id) then2005 then2030 where
  labels := relabelled demoDates_inj (fun _ _ h => h) (fun _ h _ => store_coords h)
    (by
      show ["2030-06-01", "2030-06-02"] = [demoDates "2005-01-01", demoDates "2005-01-02"]
      rw [demoDates_first, demoDates_second])
    rfl
  ecoords := ⟨rfl, rfl⟩
  dims := rfl
  config := rfl
  arith := rfl
  matrix := by
    refine ⟨rfl, fun ρ hρ => ?_⟩
    have hρ := steps_old (hρ "timesteps" (by simp [then2005, stepState, twoSteps, Mini.W]))
    rcases hρ with h | h <;>
      simp [Arr.at, then2005, then2030, stepState, twoSteps, Mini.W, move_step, h, demoDates_first, demoDates_second]
  kind n _ := by
    rcases store_inputs n with rfl | h
    · rfl
    · rw [h.1]
  default n _ := by
    rcases store_inputs n with rfl | h
    · rfl
    · rw [h.1]
  input n _ _ := by
    rcases store_inputs n with rfl | h
    · exact store_inflow _
    · rw [h.1]
      exact same_none h.2
  held n _ := by
    rcases store_inputs n with rfl | h
    · refine ⟨rfl, fun ρ hρ => ?_⟩
      have h := (store_inflow Where.Val.num).2 ρ hρ
      show NameOrSame _ (Arr.at (Arr.mk ["timesteps"] fun c => Where.Val.num (if c = ["2030-06-02"] then 1 else 0)) _)
      rw [h]
      exact .same _
    · rw [h.1]
      refine ⟨rfl, fun ρ hρ => ?_⟩
      rw [(same_none h.2).2 ρ hρ]
      exact .same _
  result n := .none
  number n := by
    have h1 : then2005.W.number n = none := by
      show (twoSteps _ _).number n = none
      simp [Mini.number, twoSteps]
    have h2 : then2030.W.number n = none := by
      show (twoSteps _ _).number n = none
      simp [Mini.number, twoSteps]
    rw [h1, h2]
    exact .none
  sums n over := .none
  isDim := rfl
  period := rfl
  op := rfl
  neg := rfl
  truthy := rfl
  lookup n _ := .none
  dates _ _ _ := .none
  carrier n := .none
  comp n := by
    by_cases h : n = "inflow"
    · subst h
      exact .some ⟨rfl, store_inflow some⟩
    · have h1 : then2005.E.comp n = none := by
        simp [then2005, stepState, twoSteps, Mini.E, List.lookup, beq_false_of_ne h]
      have h2 : then2030.E.comp n = none := by
        simp [then2030, stepState, twoSteps, Mini.E, List.lookup, beq_false_of_ne h]
      rw [h1, h2]
      exact .none

theorem store_limited : Limited storeMath then2005 := by
  intro v hv n hn
  simp only [storeMath, List.mem_singleton] at hv
  subst hv
  simp [BoundNames] at hn

theorem store_retold : Retold (calendar demoDates id) then2005.W.coords storeMath plan2005 plan2030 where
  x v hv ρ hρ := by
    simp only [storeMath, List.mem_singleton] at hv
    subst hv
    rcases steps_old (hρ "timesteps" (by simp)) with h | h <;>
      simp [plan2005, plan2030, move_step, h, demoDates_first, demoDates_second]
  default := rfl
  enum := rfl

theorem store_holds : holdsB then2005.W.coords (assemble plan2005 storeMath then2005) = true ∧
    objectiveB (assemble plan2005 storeMath then2005) 0 = some 5 := by decide +kernel

theorem store_bounds : ∀ before v after s', storeMath.vars = before ++ v :: after →
    addAll (addVariable plan2005) then2005 before = .ok s' →
    ∀ b, buildVariable s'.W s'.E v = .ok b → ∀ c ∈ cells then2005.W.coords b.dims, ∀ l, b.val c = some l →
      Within (plan2005.x v.name c) l ∧ (v.integer = true → ∃ z : Int, plan2005.x v.name c = z) := by
  intro before v after s' hv hs b hb c hc l hl
  have : before = [] ∧ v = ⟨"level", ["timesteps"], .atom (.bool true), false, .num 0, .unbounded⟩ := by
    cases before with
    | nil =>
      simp only [storeMath, List.nil_append, List.cons.injEq] at hv
      exact ⟨rfl, hv.1.symm⟩
    | cons w before => simp [storeMath] at hv
  obtain ⟨rfl, rfl⟩ := this
  simp only [addAll, Except.ok.injEq] at hs
  subst hs
  refine ⟨?_, by simp⟩
  have hx : 0 ≤ plan2005.x "level" c := by
    simp only [plan2005]
    split <;> norm_num
  simp only [buildVariable] at hb
  split at hb
  · cases hb
  · split at hb
    · simp only [boundArr, Except.ok.injEq] at hb
      subst hb
      simp only [zip, scalar] at hl
      rename_i m _ _
      rcases Bool.eq_false_or_eq_true (m.val (pick (joinDims m.dims (joinDims [] [])) c m.dims)) with hm | hm
      · simp only [hm, if_true, Option.some.injEq] at hl
        subst hl
        refine ⟨fun a ha => ?_, fun a ha => by cases ha⟩
        cases ha
        exact hx
      · simp only [hm, Bool.false_eq_true, if_false] at hl
        cases hl
    · simp only [Except.ok.injEq] at hb
      subst hb
      cases hl

/-- 2 units, then 3, is a plan for 2005: so it is for 2030. -/
example : ∃ P, Feasible plan2030 storeMath then2030 P ∧ IsObjective P 0 5 := by
  obtain ⟨h1, h2⟩ := store_holds
  obtain ⟨P, e1, c1⟩ := holdsB_sound h1
  rw [e1] at h2
  exact ((C128_plans store_dateless store_renamed store_limited store_retold).2 0 5).1
    ⟨P, ⟨e1, c1, store_bounds⟩, objectiveB_sound h2⟩

example : Cheapest plan2005 storeMath then2005 0 ↔ Cheapest plan2030 storeMath then2030 0 := by
  refine C128_best store_dateless (by decide +kernel) store_renamed (fun d => ?_) store_limited store_retold 0
  by_cases h : d = "timesteps"
  · subst h
    exact (by decide : ["2030-06-01", "2030-06-02"].Nodup)
  · show ((twoSteps _ _).coords d).Nodup
    simp [Mini.coords, twoSteps, List.lookup, beq_false_of_ne h]

/-- A level only for one day. -/
def datedMath : Math Rat where
  vars := storeMath.vars
  globals := []
  constraints := [single "max" ["timesteps"] (.atom (.isIn [.str "2005-01-02"] "timesteps"))
    (.cmp (.comp "level") "<=" (.num 2))]
  objectives := []

/-- C128: math that names a day depends on the date: 3 units are too much on that day, on another they are not. -/
theorem C128_named : holdsB then2005.W.coords (assemble plan2005 datedMath then2005) = false ∧
    holdsB then2030.W.coords (assemble plan2030 datedMath then2030) = true := by decide +kernel

example : ¬ Nameless (calendar demoDates id) datedMath := fun h => by
  have := h.constraints _ List.mem_cons_self
  revert this
  decide

/-- The sum over a month: how much comes in depends on which days are in one month. -/
def monthMath : Math Rat where
  vars := storeMath.vars
  globals := []
  constraints := [single "max" ["months"] (.atom (.bool true))
    (.cmp (.groupDatetime (.comp "level") "timesteps" "months") "<=" (.num 4))]
  objectives := []

example : ¬ Nameless (calendar demoDates id) monthMath := fun h => by
  have := h.constraints _ List.mem_cons_self
  revert this
  decide

end Demo

end Dates
end Calliope
