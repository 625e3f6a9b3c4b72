import Verif.Model.SolverObjects

/-!
# C37 (one active objective), C38 (variable bounds), C39 (fixing variables)
-/

namespace Calliope
namespace SolverObjects

/-! ## C37 -/

/-- The objectives the solver sees. -/
def activeNames (s : Objectives) : List String := (s.objs.filter (fun e => e.2)).map Prod.fst

/-- What all reachable states share. -/
structure ObjInv (s : Objectives) : Prop where
  nodup : (s.objs.map Prod.fst).Nodup
  active : ∀ e ∈ s.objs, e.2 = true → e.1 = s.current
  sync : s.config = s.current

theorem switch_names (n : String) (b : Bool) (l : List (String × Bool)) :
    (switch n b l).map Prod.fst = l.map Prod.fst := by
  induction l with
  | nil => rfl
  | cons e l ih =>
    obtain ⟨m, a⟩ := e
    simp only [switch, List.map_cons, ih]
    split <;> rfl

theorem mem_switch {n : String} {b : Bool} {l : List (String × Bool)} {e : String × Bool} :
    e ∈ switch n b l → (e.1 = n ∧ e.2 = b) ∨ (e.1 ≠ n ∧ e ∈ l) := by
  induction l with
  | nil => intro h; cases h
  | cons x l ih =>
    obtain ⟨m, a⟩ := x
    intro h
    rw [switch, List.mem_cons] at h
    rcases h with rfl | h
    · by_cases hm : m = n
      · rw [if_pos hm]; exact Or.inl ⟨hm, rfl⟩
      · rw [if_neg hm]; exact Or.inr ⟨hm, by simp⟩
    · rcases ih h with h | ⟨h1, h2⟩
      · exact Or.inl h
      · exact Or.inr ⟨h1, by simp [h2]⟩

theorem switch_mem {n : String} {b : Bool} {l : List (String × Bool)}
    (h : n ∈ l.map Prod.fst) : (n, b) ∈ switch n b l := by
  induction l with
  | nil => cases h
  | cons x l ih =>
    obtain ⟨m, a⟩ := x
    rw [switch, List.mem_cons]
    by_cases hm : m = n
    · left; rw [if_pos hm, hm]
    · right
      refine ih ?_
      simp only [List.map_cons, List.mem_cons] at h
      rcases h with h | h
      · exact absurd h.symm hm
      · exact h

theorem objStep_inv {s : Objectives} (h : ObjInv s) (o : ObjOp) : ObjInv (objStep s o).1 := by
  cases o with
  | add n =>
    simp only [objStep, addObjective]
    split
    · exact h
    · rename_i hn
      refine ⟨?_, ?_, h.sync⟩
      · simp only [List.map_append, List.map_cons, List.map_nil]
        rw [List.nodup_append]
        refine ⟨h.nodup, by simp, ?_⟩
        intro a ha b hb hab
        rw [List.mem_singleton] at hb
        subst hb hab
        exact hn (by simpa [Objectives.has] using ha)
      · intro e he hact
        rcases List.mem_append.1 he with he | he
        · exact h.active e he hact
        · rw [List.mem_singleton] at he
          subst he
          simpa using hact
  | set n =>
    simp only [objStep, setObjective]
    split
    · split
      · refine ⟨?_, ?_, rfl⟩
        · rw [switch_names, switch_names]; exact h.nodup
        · intro e he hact
          rcases mem_switch he with ⟨h1, _⟩ | ⟨_, h2⟩
          · exact h1
          · rcases mem_switch h2 with ⟨_, h3⟩ | ⟨h3, h4⟩
            · rw [h3] at hact; cases hact
            · exact absurd (h.active e h4 hact) h3
      · refine ⟨by rw [switch_names]; exact h.nodup, ?_, h.sync⟩
        intro e he hact
        rcases mem_switch he with ⟨_, h3⟩ | ⟨h3, h4⟩
        · rw [h3] at hact; cases hact
        · exact h.active e h4 hact
    · exact h
  | delete n =>
    refine ⟨?_, ?_, h.sync⟩
    · exact h.nodup.sublist (List.filter_sublist.map _)
    · intro e he hact
      exact h.active e (List.mem_filter.1 he).1 hact

theorem objRun_inv (os : List ObjOp) : ∀ s, ObjInv s → ObjInv (objRun s os) := by
  induction os with
  | nil => intro s h; exact h
  | cons o os ih => intro s h; exact ih _ (objStep_inv h o)

theorem active_le_one {s : Objectives} (h : ObjInv s) :
    activeNames s = [] ∨ activeNames s = [s.current] := by
  have hnd : (activeNames s).Nodup := h.nodup.sublist (List.filter_sublist.map _)
  have hall : ∀ x ∈ activeNames s, x = s.current := by
    intro x hx
    obtain ⟨e, he, rfl⟩ := List.mem_map.1 hx
    obtain ⟨h1, h2⟩ := List.mem_filter.1 he
    exact h.active e h1 h2
  match hl : activeNames s with
  | [] => exact Or.inl rfl
  | [x] => right; rw [hall x (by rw [hl]; simp)]
  | x :: y :: r =>
    exfalso
    have hx := hall x (by rw [hl]; simp)
    have hy := hall y (by rw [hl]; simp)
    rw [hl] at hnd
    simp [hx, hy] at hnd

/-- C37: after any calls that add, delete or set objectives, failing ones included, the solver sees
no objective but the one named by `objective`, and the configuration names the same. -/
theorem C37_at_most_one (configured : String) (os : List ObjOp) :
    (activeNames (objRun (noObjectives configured) os) = [] ∨
      activeNames (objRun (noObjectives configured) os)
        = [(objRun (noObjectives configured) os).current]) ∧
    (objRun (noObjectives configured) os).config = (objRun (noObjectives configured) os).current := by
  have h := objRun_inv os (noObjectives configured)
    ⟨List.nodup_nil, (by intro e he; cases he), rfl⟩
  exact ⟨active_le_one h, h.sync⟩

/-- C37: a `set_objective` call that returns leaves exactly the objective asked for. -/
theorem C37_set_exactly_one (configured : String) (os : List ObjOp) (n : String) (s : Objectives)
    (h : setObjective (objRun (noObjectives configured) os) n = (s, .returned)) :
    activeNames s = [n] ∧ s.current = n := by
  have hinv := objRun_inv os (noObjectives configured)
    ⟨List.nodup_nil, (by intro e he; cases he), rfl⟩
  have hs : ObjInv s := by
    have := objStep_inv hinv (.set n)
    simp only [objStep, h] at this
    exact this
  have hmem : (n, true) ∈ s.objs ∧ s.current = n := by
    unfold setObjective at h
    split at h
    · dsimp only at h
      split at h
      · rename_i h2
        cases h
        refine ⟨switch_mem ?_, rfl⟩
        simpa [Objectives.has] using h2
      · cases h
    · cases h
  refine ⟨?_, hmem.2⟩
  rcases active_le_one hs with h' | h'
  · have : n ∈ activeNames s := List.mem_map.2 ⟨(n, true), List.mem_filter.2 ⟨hmem.1, rfl⟩, rfl⟩
    rw [h'] at this
    cases this
  · rw [h', hmem.2]

/-- C37: the configured objective is the active one as soon as it has been built. -/
theorem C37_build_activates (configured : String) (ns : List String) (hn : ns.Nodup)
    (hc : configured ∈ ns) :
    activeNames (objRun (noObjectives configured) (ns.map .add)) = [configured] := by
  have key : ∀ (ns : List String) (s : Objectives), (∀ n ∈ ns, n ∉ s.objs.map Prod.fst) →
      ns.Nodup → (objRun s (ns.map .add)).objs = s.objs ++ ns.map (fun n => (n, decide (n = s.current)))
        ∧ (objRun s (ns.map .add)).current = s.current := by
    intro ns
    induction ns with
    | nil => intro s _ _; simp [objRun]
    | cons n ns ih =>
      intro s h1 h2
      rw [List.nodup_cons] at h2
      have hno : s.has n = false := by
        have := h1 n (by simp)
        simpa [Objectives.has] using this
      have hstep : (objStep s (.add n)).1 = { s with objs := s.objs ++ [(n, decide (n = s.current))] } := by
        simp only [objStep, addObjective, hno]
        rfl
      simp only [List.map_cons, objRun, hstep]
      obtain ⟨i1, i2⟩ := ih { s with objs := s.objs ++ [(n, decide (n = s.current))] } (by
        intro m hm
        simp only [List.map_append, List.map_cons, List.map_nil, List.mem_append,
          List.mem_singleton, not_or]
        refine ⟨h1 m (by simp [hm]), ?_⟩
        rintro rfl
        exact h2.1 hm) h2.2
      exact ⟨by rw [i1]; simp, i2⟩
  have hk := key ns (noObjectives configured) (by simp [noObjectives]) hn
  rcases (C37_at_most_one configured (ns.map .add)).1 with h | h
  · exfalso
    have : configured ∈ activeNames (objRun (noObjectives configured) (ns.map .add)) := by
      refine List.mem_map.2 ⟨(configured, true), List.mem_filter.2 ⟨?_, rfl⟩, rfl⟩
      rw [hk.1]
      refine List.mem_append.2 (Or.inr (List.mem_map.2 ⟨configured, hc, ?_⟩))
      simp [noObjectives]
    rw [h] at this
    cases this
  · rw [h, hk.2]; rfl

/-- A failing `set_objective` is not harmless: when the objective asked for is not there, the call
raises with no objective active at all, although `objective` still names the old one. -/
theorem C37_failed_set_leaves_none (configured : String) (os : List ObjOp) (n : String)
    (hc : (objRun (noObjectives configured) os).has (objRun (noObjectives configured) os).current = true)
    (hn : (objRun (noObjectives configured) os).has n = false) :
    ∃ s, setObjective (objRun (noObjectives configured) os) n = (s, .raised) ∧
      activeNames s = [] ∧ s.current = (objRun (noObjectives configured) os).current ∧
      s.has s.current = true := by
  have hinv := objRun_inv os (noObjectives configured)
    ⟨List.nodup_nil, (by intro e he; cases he), rfl⟩
  generalize objRun (noObjectives configured) os = s0 at *
  refine ⟨{ s0 with objs := switch s0.current false s0.objs }, ?_, ?_, rfl, ?_⟩
  · unfold setObjective
    rw [if_pos hc]
    dsimp only
    rw [if_neg]
    unfold Objectives.has at hn ⊢
    dsimp only
    rw [switch_names, hn]
    simp
  · rcases List.eq_nil_or_concat (activeNames { s0 with objs := switch s0.current false s0.objs })
      with h | ⟨l, x, h⟩
    · exact h
    · exfalso
      have hx : x ∈ activeNames { s0 with objs := switch s0.current false s0.objs } := by
        rw [h]; simp
      obtain ⟨e, he, _⟩ := List.mem_map.1 hx
      obtain ⟨h1, h2⟩ := List.mem_filter.1 he
      rcases mem_switch h1 with ⟨_, h3⟩ | ⟨h3, h4⟩
      · rw [h3] at h2; cases h2
      · exact h3 (hinv.active e h4 h2)
  · unfold Objectives.has at hc ⊢
    dsimp only
    rw [switch_names]
    exact hc

/-- C37 with Gurobi: after any calls the objective in the solver model, if any, is one that was named by
`objective`; it is the current one unless that has not been built. -/
theorem C37_gurobi (configured : String) (os : List ObjOp) (hd : ∀ n, .delete n ∉ os) :
    let s := gRun ⟨[], none, configured, configured⟩ os
    (s.current ∈ s.exprs → s.inSolver = some s.current) ∧
    (s.current ∉ s.exprs → s.inSolver = none) := by
  have key : ∀ (os : List ObjOp) (s : GObjectives), (∀ n, .delete n ∉ os) →
      ((s.current ∈ s.exprs → s.inSolver = some s.current) ∧
        (s.current ∉ s.exprs → s.inSolver = none)) →
      (((gRun s os).current ∈ (gRun s os).exprs → (gRun s os).inSolver = some (gRun s os).current) ∧
        ((gRun s os).current ∉ (gRun s os).exprs → (gRun s os).inSolver = none)) := by
    intro os
    induction os with
    | nil => intro s _ h; exact h
    | cons o os ih =>
      intro s hd h
      refine ih _ (fun n hn => hd n (by simp [hn])) ?_
      cases o with
      | add n =>
        simp only [gStep, gAddObjective]
        split
        · exact h
        · rename_i hn
          dsimp only
          by_cases hc : n = s.current
          · subst hc; simp
          · rw [if_neg hc]
            have : s.current ∈ s.exprs ++ [n] ↔ s.current ∈ s.exprs := by
              simp [Ne.symm hc]
            rw [this]
            exact h
      | set n =>
        simp only [gStep, gSetObjective]
        split
        · rename_i hn
          dsimp only
          have hn' : n ∈ s.exprs := by simpa using hn
          exact ⟨fun _ => rfl, fun h => absurd hn' h⟩
        · exact h
      | delete n => exact absurd (by simp) (hd n)
  exact key os _ hd ⟨(by intro h; cases h), fun _ => rfl⟩

/-- C37 with Gurobi, any calls: if the current objective is there, it is the one in the solver model. -/
theorem C37_gurobi_current (configured : String) (os : List ObjOp) :
    (gRun ⟨[], none, configured, configured⟩ os).current ∈ (gRun ⟨[], none, configured, configured⟩ os).exprs →
    (gRun ⟨[], none, configured, configured⟩ os).inSolver =
      some (gRun ⟨[], none, configured, configured⟩ os).current := by
  have key : ∀ (os : List ObjOp) (s : GObjectives),
      (s.current ∈ s.exprs → s.inSolver = some s.current) →
      ((gRun s os).current ∈ (gRun s os).exprs → (gRun s os).inSolver = some (gRun s os).current) := by
    intro os
    induction os with
    | nil => intro s h; exact h
    | cons o os ih =>
      intro s h
      refine ih _ ?_
      cases o with
      | add n =>
        simp only [gStep, gAddObjective]
        split
        · exact h
        · dsimp only
          by_cases hc : n = s.current
          · subst hc; simp
          · rw [if_neg hc]
            have : s.current ∈ s.exprs ++ [n] ↔ s.current ∈ s.exprs := by
              simp [Ne.symm hc]
            rw [this]
            exact h
      | set n =>
        simp only [gStep, gSetObjective]
        split
        · exact fun _ => rfl
        · exact h
      | delete n =>
        simp only [gStep, gDeleteObjective]
        intro hm
        exact h (List.mem_filter.1 hm).1
  exact key os _ (by intro h; cases h)

/-- C37 with Gurobi: an objective that is deleted is not there any more and cannot be chosen again, but the solver
model goes on using it. -/
theorem C37_gurobi_deleted_stays (s : GObjectives) (n : String) (h : s.inSolver = some n) :
    n ∉ (gStep s (.delete n)).1.exprs ∧ (gStep (gStep s (.delete n)).1 (.set n)).2 = .raised ∧
      (gStep s (.delete n)).1.inSolver = some n ∧
      ∀ m, m ≠ n → (m ∈ (gStep s (.delete n)).1.exprs ↔ m ∈ s.exprs) := by
  have hn : n ∉ (gStep s (.delete n)).1.exprs := by
    simp [gStep, gDeleteObjective]
  refine ⟨hn, ?_, h, ?_⟩
  · show (gSetObjective (gStep s (.delete n)).1 n).2 = _
    unfold gSetObjective
    rw [if_neg (by simpa using hn)]
  · intro m hm
    simp [gStep, gDeleteObjective, hm]

example : (gRun ⟨[], none, "cost", "cost"⟩ [.add "cost", .add "spores", .delete "cost"]).inSolver = some "cost" := by
  decide

/-- With Gurobi `set_objective` does not change the configuration, unlike with Pyomo. -/
theorem C37_gurobi_config_stale (s : GObjectives) (n : String) (h : n ∈ s.exprs)
    (hn : n ≠ s.config) : (gSetObjective s n).1.config ≠ (gSetObjective s n).1.current := by
  unfold gSetObjective
  rw [if_pos (by simpa using h)]
  exact Ne.symm hn

/-- A history with a failing call. -/
example : let s := objRun (noObjectives "cost") [.add "spores", .add "cost", .set "spores", .add "cost",
      .set "cost", .delete "spores", .add "spores"]
    activeNames s = ["cost"] ∧ s.has "spores" = true ∧
    activeNames (objRun s [.set "nothing"]) = [] ∧ (objRun s [.set "nothing"]).current = "cost" ∧
    activeNames (objRun s [.set "nothing", .set "spores"]) = ["spores"] := by decide

/-! ## C38 -/

variable {ι V : Type}

/-- The bounds a user expects: new ones where given, the old ones elsewhere. -/
def expectedBounds (min max : Option (ι → Option V)) (j : ι) (v : Var V) : Var V :=
  { v with
    lb := ((min.bind (fun f => f j)).getD v.lb)
    ub := ((max.bind (fun f => f j)).getD v.ub) }

/-- C38: a call that returns has changed exactly the bounds of the items with a new value. -/
theorem C38_returned (minParam maxParam : Bool) (a a' : Arr ι V) (min max : Option (ι → Option V))
    (h : updateBounds minParam maxParam a min max = (a', .returned)) (j : ι) :
    a' j = (a j).map (expectedBounds min max j) := by
  have hl : ∀ (a : Arr ι V) (new : ι → Option V), setLb a new j =
      (a j).map (fun v => { v with lb := (new j).getD v.lb }) := by
    intro a new
    unfold setLb
    cases a j <;> cases new j <;> rfl
  have hu : ∀ (a : Arr ι V) (new : ι → Option V), setUb a new j =
      (a j).map (fun v => { v with ub := (new j).getD v.ub }) := by
    intro a new
    unfold setUb
    cases a j <;> cases new j <;> rfl
  unfold updateBounds at h
  cases min with
  | some new =>
    dsimp only at h
    split at h
    · cases h
    · cases max with
      | some new' =>
        dsimp only at h
        split at h
        · cases h
        · cases h
          rw [hu, hl, Option.map_map]
          rfl
      | none =>
        cases h
        rw [hl]
        rfl
  | none =>
    cases max with
    | some new' =>
      dsimp only at h
      split at h
      · cases h
      · cases h
        rw [hu]
        rfl
    | none =>
      cases h
      cases a j <;> rfl

/-- C38: it refuses exactly when a bound to be changed is set by a parameter. -/
theorem C38_refuses (minParam maxParam : Bool) (a : Arr ι V) (min max : Option (ι → Option V)) :
    (updateBounds minParam maxParam a min max).2 = .raised ↔
      (min.isSome = true ∧ minParam = true) ∨ (max.isSome = true ∧ maxParam = true) := by
  unfold updateBounds
  cases min <;> cases max <;> cases minParam <;> cases maxParam <;> simp

/-- C38, refusals: nothing has changed.  Missing against the full property: the case of
`C38_min_changed_on_refusal`. -/
theorem C38_refusal_partial (minParam maxParam : Bool) (a a' : Arr ι V)
    (min max : Option (ι → Option V))
    (h : updateBounds minParam maxParam a min max = (a', .raised))
    (hm : min.isSome = true → minParam = true) : a' = a := by
  unfold updateBounds at h
  cases min with
  | some new =>
    rw [hm rfl] at h
    cases h
    rfl
  | none =>
    cases max with
    | some new' =>
      dsimp only at h
      split at h
      · cases h; rfl
      · cases h
    | none => cases h

/-- C38 fails when the lower bound may be changed and the upper may not: the call is refused after
the lower bounds have been changed. -/
theorem C38_min_changed_on_refusal (a : Arr ι V) (new new' : ι → Option V) :
    (updateBounds false true a (some new) (some new')).2 = .raised ∧
    ∀ j v x, a j = some v → new j = some x →
      (updateBounds false true a (some new) (some new')).1 j = some { v with lb := x } := by
  refine ⟨rfl, ?_⟩
  intro j v x h1 h2
  show setLb a new j = _
  unfold setLb
  rw [h1, h2]

/-- Three items: one without a variable, one without a new value. -/
example :
    let a : Arr Nat Int := fun j => if j = 1 then none else some ⟨0, 10, some 4, false⟩
    let new : Nat → Option Int := fun j => if j = 2 then none else some 7
    (updateBounds false false a (some new) (some (fun _ => some 8))).2 = .returned ∧
    [0, 1, 2].map (updateBounds false false a (some new) (some (fun _ => some 8))).1
      = [some ⟨7, 8, some 4, false⟩, none, some ⟨0, 8, some 4, false⟩] ∧
    (updateBounds false true a (some new) (some (fun _ => some 8))).2 = .raised ∧
    [0, 1, 2].map (updateBounds false true a (some new) (some (fun _ => some 8))).1
      = [some ⟨7, 10, some 4, false⟩, none, some ⟨0, 10, some 4, false⟩] := by decide

/-! ## C39 -/

theorem fixLoop_spec [DecidableEq ι] (sel : ι → Bool) (js : List ι) :
    ∀ (a : Arr ι V), js.Nodup →
    (∀ j, ((fixLoop sel js a).1 j = a j) ∨
      (j ∈ js ∧ sel j = true ∧ (fixLoop sel js a).1 j = (a j).map (setFixed true))) ∧
    ((fixLoop sel js a).2 = .returned ↔ ∀ j ∈ js, sel j = true → ∀ v, a j = some v → v.value.isSome = true) ∧
    ((fixLoop sel js a).2 = .returned → ∀ j ∈ js, sel j = true →
      (fixLoop sel js a).1 j = (a j).map (setFixed true)) := by
  induction js with
  | nil => intro a _; exact ⟨fun j => Or.inl rfl, by simp [fixLoop], by simp⟩
  | cons i js ih =>
    intro a hn
    rw [List.nodup_cons] at hn
    unfold fixLoop
    by_cases hs : sel i = true
    · rw [if_pos hs]
      cases ha : a i with
      | none =>
        dsimp only
        obtain ⟨h1, h2, h3⟩ := ih a hn.2
        refine ⟨?_, ?_, ?_⟩
        · intro j
          rcases h1 j with h | ⟨x, y, z⟩
          · exact Or.inl h
          · exact Or.inr ⟨by simp [x], y, z⟩
        · rw [h2]
          constructor
          · intro h j hj hsj v hv
            rcases List.mem_cons.1 hj with rfl | hj
            · rw [ha] at hv; cases hv
            · exact h j hj hsj v hv
          · exact fun h j hj => h j (by simp [hj])
        · intro hr j hj hsj
          rcases List.mem_cons.1 hj with rfl | hj
          · rcases h1 j with h | ⟨x, _, _⟩
            · rw [h, ha]; rfl
            · exact absurd x hn.1
          · exact h3 hr j hj hsj
      | some v =>
        dsimp only
        cases hv : v.value with
        | none =>
          refine ⟨fun j => Or.inl rfl, ?_, by intro h; cases h⟩
          constructor
          · intro h; cases h
          · intro h
            have := h i (by simp) hs v ha
            rw [hv] at this
            cases this
        | some x =>
          dsimp only
          obtain ⟨h1, h2, h3⟩ := ih (fun k => if k = i then some (setFixed true v) else a k) hn.2
          refine ⟨?_, ?_, ?_⟩
          · intro j
            by_cases hj : j = i
            · right
              subst hj
              refine ⟨by simp, hs, ?_⟩
              rcases h1 j with h | ⟨hmem, _, _⟩
              · rw [h, ha]; simp
              · exact absurd hmem hn.1
            · rcases h1 j with h | ⟨hmem, y, z⟩
              · left; rw [h, if_neg hj]
              · right
                refine ⟨by simp [hmem], y, ?_⟩
                rw [z, if_neg hj]
          · rw [h2]
            constructor
            · intro h j hj hsj w hw
              rcases List.mem_cons.1 hj with rfl | hj'
              · rw [ha] at hw; cases hw; rw [hv]; rfl
              · refine h j hj' hsj w ?_
                have : j ≠ i := by rintro rfl; exact hn.1 hj'
                rw [if_neg this]
                exact hw
            · intro h j hj hsj w hw
              have : j ≠ i := by rintro rfl; exact hn.1 hj
              rw [if_neg this] at hw
              exact h j (by simp [hj]) hsj w hw
          · intro hr j hj hsj
            by_cases hji : j = i
            · subst hji
              rcases h1 j with h | ⟨hmem, _, _⟩
              · rw [h, ha]; simp
              · exact absurd hmem hn.1
            · rcases List.mem_cons.1 hj with hj | hj
              · exact absurd hj hji
              · rw [h3 hr j hj hsj, if_neg hji]
    · rw [if_neg hs]
      obtain ⟨h1, h2, h3⟩ := ih a hn.2
      refine ⟨?_, ?_, ?_⟩
      · intro j
        rcases h1 j with h | ⟨x, y, z⟩
        · exact Or.inl h
        · exact Or.inr ⟨by simp [x], y, z⟩
      · rw [h2]
        constructor
        · intro h j hj hsj
          rcases List.mem_cons.1 hj with rfl | hj
          · exact absurd hsj hs
          · exact h j hj hsj
        · exact fun h j hj => h j (by simp [hj])
      · intro hr j hj hsj
        rcases List.mem_cons.1 hj with rfl | hj
        · exact absurd hsj hs
        · exact h3 hr j hj hsj

/-- C39: however the call ends, items that are not selected are untouched (a NaN in the selection is
no selection), and of the others nothing but `fixed` changes. -/
theorem C39_fix_outside [DecidableEq ι] (is : List ι) (hn : is.Nodup) (a : Arr ι V)
    (w : ι → Option Bool) (j : ι) :
    (w j ≠ some true → (fixVariable is a (some w)).1 j = a j) ∧
    ((fixVariable is a (some w)).1 j = a j ∨
      (fixVariable is a (some w)).1 j = (a j).map (setFixed true)) := by
  obtain ⟨h1, _, _⟩ := fixLoop_spec (chosen (some w)) is a hn
  constructor
  · intro hw
    rcases h1 j with h | ⟨_, h, _⟩
    · exact h
    · change (w j).getD false = true at h
      cases hj : w j with
      | none => rw [hj] at h; cases h
      | some b =>
        rw [hj] at h
        simp only [Option.getD_some] at h
        subst h
        exact absurd hj hw
  · rcases h1 j with h | ⟨_, _, h⟩
    · exact Or.inl h
    · exact Or.inr h

/-- C39: it fails exactly when a selected variable has no value from a solve. -/
theorem C39_fix_fails [DecidableEq ι] (is : List ι) (hn : is.Nodup) (a : Arr ι V)
    (w : ι → Option Bool) :
    (fixVariable is a (some w)).2 = .raised ↔
      ∃ j ∈ is, w j = some true ∧ ∃ v, a j = some v ∧ v.value = none := by
  obtain ⟨_, h2, _⟩ := fixLoop_spec (chosen (some w)) is a hn
  have hc : ∀ j, chosen (some w) j = true ↔ w j = some true := by
    intro j
    show (w j).getD false = true ↔ _
    cases w j <;> simp
  constructor
  · intro h
    apply Classical.byContradiction
    intro hne
    have : (fixVariable is a (some w)).2 = .returned := h2.2 (by
      intro j hj hs v hv
      cases hval : v.value with
      | some _ => rfl
      | none => exact absurd ⟨j, hj, (hc j).1 hs, v, hv, hval⟩ hne)
    rw [h] at this
    cases this
  · rintro ⟨j, hj, hw, v, hv, hval⟩
    cases hr : (fixVariable is a (some w)).2 with
    | raised => rfl
    | returned =>
      have := h2.1 hr j hj ((hc j).2 hw) v hv
      rw [hval] at this
      cases this

/-- C39: fixing and then unfixing over the same selection returns every selected variable to free and
leaves everything else as it was. -/
theorem C39_inverse [DecidableEq ι] (is : List ι) (hn : is.Nodup) (his : ∀ j, j ∈ is) (a a' : Arr ι V)
    (w : Option (ι → Option Bool)) (h : fixVariable is a w = (a', .returned)) (j : ι) :
    unfixVariable a' w j = (a j).map (fun v => if chosen w j then setFixed false v else v) ∧
    ((chosen w j = true) → a' j = (a j).map (setFixed true)) := by
  obtain ⟨h1, h2, h3⟩ := fixLoop_spec (chosen w) is a hn
  have e : fixLoop (chosen w) is a = (a', .returned) := h
  rw [e] at h1 h2 h3
  have hsel : chosen w j = true → a' j = (a j).map (setFixed true) := fun hs => h3 rfl j (his j) hs
  refine ⟨?_, hsel⟩
  unfold unfixVariable
  by_cases hs : chosen w j = true
  · rw [hsel hs]
    cases a j with
    | none => rfl
    | some v => simp [hs, setFixed]
  · have : a' j = a j := by
      rcases h1 j with h | ⟨_, h, _⟩
      · exact h
      · exact absurd h hs
    rw [this]
    cases a j with
    | none => rfl
    | some v => simp [hs]

/-- C39: if the selected variables were free, fixing and unfixing changes nothing at all. -/
theorem C39_round_trip [DecidableEq ι] (is : List ι) (hn : is.Nodup) (his : ∀ j, j ∈ is) (a a' : Arr ι V)
    (w : Option (ι → Option Bool)) (h : fixVariable is a w = (a', .returned))
    (hfree : ∀ j v, chosen w j = true → a j = some v → v.fixed = false) :
    unfixVariable a' w = a := by
  funext j
  rw [(C39_inverse is hn his a a' w h j).1]
  cases ha : a j with
  | none => rfl
  | some v =>
    by_cases hs : chosen w j = true
    · have := hfree j v hs ha
      rw [Option.map_some, if_pos hs]
      cases v
      cases this
      rfl
    · simp [hs]

/-- A failing `fix_variable` has fixed what came before the first variable without a value. -/
theorem C39_failed_fix_keeps [DecidableEq ι] (pre post : List ι) (i : ι) (a : Arr ι V)
    (hn : (pre ++ i :: post).Nodup)
    (hpre : ∀ j ∈ pre, ∃ v, a j = some v ∧ v.value.isSome = true)
    (v : Var V) (hi : a i = some v) (hv : v.value = none) :
    (fixVariable (pre ++ i :: post) a none).2 = .raised ∧
    ∀ j ∈ pre, (fixVariable (pre ++ i :: post) a none).1 j
      = (a j).map (setFixed true) := by
  have key : ∀ (pre : List ι) (a : Arr ι V), (pre ++ i :: post).Nodup →
      (∀ j ∈ pre, ∃ v, a j = some v ∧ v.value.isSome = true) → a i = some v →
      (fixLoop (chosen none) (pre ++ i :: post) a).2 = .raised ∧
      (∀ j ∈ pre, (fixLoop (chosen none) (pre ++ i :: post) a).1 j
        = (a j).map (setFixed true)) := by
    intro pre
    induction pre with
    | nil =>
      intro a _ _ hi
      rw [List.nil_append]
      unfold fixLoop
      have hch : chosen (none : Option (ι → Option Bool)) i = true := rfl
      rw [if_pos hch, hi]
      dsimp only
      rw [hv]
      exact ⟨rfl, by simp⟩
    | cons k pre ih =>
      intro a hn hpre hi
      rw [List.cons_append, List.nodup_cons] at hn
      obtain ⟨u, hu, huv⟩ := hpre k (by simp)
      obtain ⟨x, hx⟩ := Option.isSome_iff_exists.1 huv
      have hki : i ≠ k := by rintro rfl; exact hn.1 (by simp)
      rw [List.cons_append]
      unfold fixLoop
      have hch : chosen (none : Option (ι → Option Bool)) k = true := rfl
      rw [if_pos hch, hu]
      dsimp only
      rw [hx]
      dsimp only
      obtain ⟨i1, i2⟩ := ih (fun m => if m = k then some (setFixed true u) else a m) hn.2
        (fun j hj => by
          have : j ≠ k := by rintro rfl; exact hn.1 (by simp [hj])
          obtain ⟨w, hw⟩ := hpre j (by simp [hj])
          exact ⟨w, by rw [if_neg this]; exact hw.1, hw.2⟩) (by rw [if_neg hki]; exact hi)
      refine ⟨i1, ?_⟩
      intro j hj
      by_cases hjk : j = k
      · subst hjk
        have hsp := (fixLoop_spec (chosen (none : Option (ι → Option Bool))) (pre ++ i :: post)
          (fun m => if m = j then some (setFixed true u) else a m) hn.2).1 j
        rcases hsp with h | ⟨hm, _, _⟩
        · rw [h, hu]; simp
        · exact absurd hm hn.1
      · rcases List.mem_cons.1 hj with h | h
        · exact absurd h hjk
        · rw [i2 j h, if_neg hjk]
  exact key pre a hn hpre hi

/-- With Gurobi fixing needs an optimal solution, leaves the items outside `where` alone, and is
one-way: it replaces both bounds by the value and unfixing always raises, so that the bounds are
lost. -/
theorem C39_gurobi_one_way (a : Arr ι V) (w w' : Option (ι → Option Bool)) :
    gFixVariable false a w = (a, .raised) ∧
    (gFixVariable true a w).2 = .returned ∧
    (∀ j, chosen w j = false → (gFixVariable true a w).1 j = a j) ∧
    (∀ (j : ι) (v : Var V) (x : V), a j = some v → v.value = some x → chosen w j = true →
      (gFixVariable true a w).1 j = some { v with lb := x, ub := x }) ∧
    (∀ b : Arr ι V, (gUnfixVariable b w').2 = .raised ∧ (gUnfixVariable b w').1 = b) := by
  refine ⟨rfl, rfl, ?_, ?_, fun _ => ⟨rfl, rfl⟩⟩
  · intro j hj
    simp only [gFixVariable, if_true, hj]
    cases a j <;> rfl
  · intro j v x ha hx hw
    simp only [gFixVariable, if_true, ha, hw, gFixOne, hx]

/-- Four items: undefined, selected, not selected, NaN in the selection. -/
example :
    let a : Arr (Fin 4) Int := fun j => if j = 0 then none else some ⟨0, 10, some 4, false⟩
    let w : Fin 4 → Option Bool := fun j => if j = 3 then none else some (j != 2)
    (fixVariable [0, 1, 2, 3] a (some w)).2 = .returned ∧
    [0, 1, 2, 3].map (fixVariable [0, 1, 2, 3] a (some w)).1
      = [none, some ⟨0, 10, some 4, true⟩, some ⟨0, 10, some 4, false⟩, some ⟨0, 10, some 4, false⟩] ∧
    (fixVariable [0, 1, 2, 3] (fun j => if j = 2 then some ⟨0, 10, none, false⟩ else a j) none).2
      = .raised ∧
    (fixVariable [0, 1, 2, 3] (fun j => if j = 2 then some ⟨0, 10, none, false⟩ else a j) none).1 1
      = some ⟨0, 10, some 4, true⟩ := by decide

end SolverObjects
end Calliope
