import Verif.Proofs.Update

/-!
# C35, C36: `update_input` and reference tracking
-/

namespace Calliope
namespace Update

variable {ι V S : Type}

theorem expected_one (i : Inputs ι V) (p : String) (new : ι → Option V) :
    setAt i p (merge new (i p)) = fun n j => if n = p then (new j).or (i n j) else i n j := by
  funext n j
  unfold setAt merge
  by_cases h : n = p
  · subst h
    simp only [if_true]
    cases new j <;> rfl
  · simp only [if_neg h]

/-- C35, NaN entries: however the call ends, the input that was written holds the new value where
one was given and its previous value elsewhere; no other input changes. -/
theorem C35_nan_keeps (isIn : String → Bool) (defs : List (String × Comp ι V S)) (fuel : Nat)
    (b : Backend) (k : Kind) (nd : Bool) (is : List ι) (s : State ι V S) (p : String)
    (new : ι → Option V) (hp : isIn p = true) :
    (updateInput isIn defs fuel b k nd is s p new).1.inputs =
      fun n j => if n = p then (new j).or (s.inputs n j) else s.inputs n j := by
  rw [← expected_one]
  have hadd : ∀ (x : String) (c : Comp ι V S) (u u' : State ι V S), add isIn x c u = some u' →
      u'.inputs = u.inputs := by
    intro x c u u' h
    unfold add at h
    cases hr : c.run u.inputs u.held with
    | none => rw [hr] at h; cases h
    | some vr =>
      rw [hr] at h
      have := Option.some.inj h
      subst this
      rfl
  have hlist : ∀ (xs : List String) (u : State ι V S),
      (rebuildList isIn defs xs u).1.inputs = u.inputs := by
    intro xs
    induction xs with
    | nil => intro u; rfl
    | cons x xs ih =>
      intro u
      unfold rebuildList
      cases defs.lookup x with
      | none => rfl
      | some c =>
        dsimp only
        cases ha : add isIn x c (delete x u) with
        | none => rfl
        | some u' =>
          dsimp only
          rw [ih u', hadd _ _ _ _ ha]
          rfl
  have hgroups : ∀ (R : List String) (gs : List Nat) (u : State ι V S),
      (rebuildGroups isIn defs R gs u).1.inputs = u.inputs := by
    intro R gs
    induction gs with
    | nil => intro u; rfl
    | cons g gs ih =>
      intro u
      unfold rebuildGroups
      have h1 := hlist (u.order.filter (selected defs R g)) u
      split
      · rename_i s' he
        rw [he] at h1
        rw [ih, h1]
      · exact h1
  unfold updateInput
  rw [if_pos hp]
  split
  · split
    · rfl
    · unfold updateRebuild
      dsimp only
      split
      · rfl
      · rfl
      · rw [hgroups]
  · rfl

/-- C35, the first update after a build: the rebuild branch returns and leaves exactly what a build
from scratch with the new input gives, whatever the components read and however what they read
depends on the data. -/
theorem C35_first_update (isIn : String → Bool) (defs : List (String × Comp ι V S))
    (hm : Math isIn defs) (i : Inputs ι V) (s t : State ι V S) (p : String) (new : ι → Option V)
    (hp : isIn p = true) (hs : scratch isIn defs i = some s)
    (ht : scratch isIn defs (fun n j => if n = p then (new j).or (i n j) else i n j) = some t)
    (fuel : Nat) (hf : defs.length < fuel) :
    ∃ s', updateRebuild isIn defs fuel s p new = (s', .returned) ∧ s'.held = t.held ∧
      s'.inputs = t.inputs := by
  obtain ⟨hg, ho, hi⟩ := scratch_good hm hs
  rw [← expected_one, ← hi] at ht
  obtain ⟨s', L, h1, h2, h3, _⟩ := update_step hm hg hp ht hf (fun x n hr _ hn _ _ => by
    rw [ho]
    exact precedes_of_back hm (scratch_good hm ht).1 (good_reads (scratch_good hm ht).1 hr) hn)
  exact ⟨s', h1, h2, h3⟩

theorem fine_call {isIn : String → Bool} {defs : List (String × Comp ι V S)}
    (hm : Math isIn defs) (hst : Static defs) {s t : State ι V S} (hs : Fine isIn defs s)
    (b : Backend) (is : List ι) (his : ∀ j, j ∈ is) (u : Call ι V)
    (hp : isIn u.name = true) (hk : b = .pyomo → u.kind = .parameter ∧ ShapeOnly defs u.name)
    (ht : scratch isIn defs (fun n j => if n = u.name then (u.new j).or (s.inputs n j)
      else s.inputs n j) = some t) {fuel : Nat} (hf : defs.length < fuel) :
    ∃ s', updateInput isIn defs fuel b u.kind u.newDims is s u.name u.new = (s', .returned) ∧
      s'.held = t.held ∧ s'.inputs = t.inputs ∧ Fine isIn defs s' := by
  rw [← expected_one] at ht
  obtain ⟨htg, _, hti⟩ := scratch_good hm ht
  unfold updateInput
  rw [if_pos hp]
  by_cases hr : mustRebuild b u.kind u.newDims is (s.inputs u.name) u.new = true
  · rw [if_pos hr, if_neg]
    · exact fine_step hm hst hs hp ht hf
    · rintro ⟨h1, h2⟩
      rw [(hk h1).1] at h2
      cases h2
  · rw [if_neg hr]
    have hb : b = .pyomo := by
      cases b
      · rfl
      · exact absurd (by simp [mustRebuild]) hr
    have hfine := inPlace_fine (new := u.new) hs (hk hb).2 (by
      intro j hj
      cases hn : u.new j with
      | none => rfl
      | some v =>
        refine absurd ?_ hr
        have : is.any (fun j => (s.inputs u.name j).isNone && (u.new j).isSome) = true :=
          List.any_eq_true.2 ⟨j, his j, by simp [hj, hn]⟩
        simp [mustRebuild, this])
    refine ⟨_, rfl, ?_, hti.symm, hfine⟩
    have := good_unique hm hfine.good htg (by rw [hti]; rfl)
    exact this

theorem calls_fine {isIn : String → Bool} {defs : List (String × Comp ι V S)}
    (hm : Math isIn defs) (hst : Static defs) (b : Backend) (is : List ι) (his : ∀ j, j ∈ is)
    (fuel : Nat) (hf : defs.length < fuel) :
    ∀ (us : List (Call ι V)) (s : State ι V S), Fine isIn defs s →
      (∀ u ∈ us, isIn u.name = true) →
      (b = .pyomo → ∀ u ∈ us, u.kind = .parameter ∧ ShapeOnly defs u.name) →
      (∀ pre post, us = pre ++ post →
        (scratch isIn defs (expected pre s.inputs)).isSome = true) →
      ∀ t, scratch isIn defs (expected us s.inputs) = some t →
      ∃ s', calls isIn defs fuel b is us s = (s', .returned) ∧ s'.held = t.held ∧
        s'.inputs = t.inputs ∧ Fine isIn defs s' := by
  intro us
  induction us with
  | nil =>
    intro s hs _ _ _ t ht
    obtain ⟨h1, _, h3⟩ := scratch_good hm ht
    exact ⟨s, rfl, good_unique hm hs.good h1 h3.symm, h3.symm, hs⟩
  | cons u us ih =>
    intro s hs hp hk hok t ht
    obtain ⟨t1, ht1⟩ := Option.isSome_iff_exists.1 (hok [u] us rfl)
    obtain ⟨s1, a1, _, a3, a4⟩ := fine_call hm hst hs b is his u (hp u (by simp))
      (fun h => hk h u (by simp)) ht1 hf
    obtain ⟨_, _, b3⟩ := scratch_good hm ht1
    have hin : s1.inputs = (fun n j => if n = u.name then (u.new j).or (s.inputs n j)
        else s.inputs n j) := a3.trans b3
    obtain ⟨s', c1, c2, c3, c4⟩ := ih s1 a4 (fun v hv => hp v (by simp [hv]))
      (fun h v hv => hk h v (by simp [hv]))
      (fun pre post he => by
        rw [hin]; exact hok (u :: pre) post (by rw [he]; rfl)) t (by rw [hin]; exact ht)
    refine ⟨s', ?_, c2, c3, c4⟩
    unfold calls
    rw [a1]
    exact c1

/-- C35 over histories: any sequence of updates, rebuilding or in place, returns and leaves exactly
the arrays and inputs of a build from scratch with the inputs a user expects.  Missing against
the full property: what a component reads may depend on the data (`C35_stale_after_reorder`),
arrays that depend on the values of a parameter updated in place (`C35_in_place_where`), lookups
with Pyomo (`C35_pyomo_lookup`), unreported reads (`C35_hidden_read`) and deleted components
(`C35_after_delete`). -/
theorem C35_history_partial (isIn : String → Bool) (defs : List (String × Comp ι V S))
    (hm : Math isIn defs) (hst : Static defs) (b : Backend) (is : List ι) (his : ∀ j, j ∈ is)
    (fuel : Nat) (hf : defs.length < fuel) (us : List (Call ι V))
    (hp : ∀ u ∈ us, isIn u.name = true)
    (hk : b = .pyomo → ∀ u ∈ us, u.kind = .parameter ∧ ShapeOnly defs u.name)
    (i : Inputs ι V)
    (hok : ∀ pre post, us = pre ++ post → (scratch isIn defs (expected pre i)).isSome = true)
    (s t : State ι V S) (hs : scratch isIn defs i = some s)
    (ht : scratch isIn defs (expected us i) = some t) :
    ∃ s', calls isIn defs fuel b is us s = (s', .returned) ∧ s'.held = t.held ∧
      s'.inputs = t.inputs := by
  obtain ⟨s', h1, h2, h3, _⟩ := calls_fine hm hst b is his fuel hf us s (scratch_fine hm hs) hp hk
    (by rw [(scratch_good hm hs).2.2]; exact hok) t (by rw [(scratch_good hm hs).2.2]; exact ht)
  exact ⟨s', h1, h2, h3⟩

/-! ### C36 -/

/-- C36, any reference graph: whenever the search returns, it has found exactly what can be reached
by following references. -/
theorem C36_collects (kn : String → Bool) (refs : String → List String) (fuel : Nat)
    (start R : List String) (h : findAll kn refs fuel start = some (.ok R)) (x : String) :
    x ∈ R ↔ ∃ y ∈ start, Reach refs y x :=
  (findAll_reach fuel start R h).1 x

/-- C36, termination: if references only ever point forward in some list of known names, the search
returns. -/
theorem C36_acyclic_returns (kn : String → Bool) (refs : String → List String) (nm : List String)
    (hn : nm.Nodup) (hk : ∀ x ∈ nm, kn x = true)
    (hb : ∀ y ∈ nm, ∀ z ∈ refs y, [y, z].Sublist nm) (start : List String)
    (hs : ∀ x ∈ start, x ∈ nm) (fuel : Nat) (hf : nm.length < fuel) :
    ∃ R, findAll kn refs fuel start = some (.ok R) := by
  have := findAll_total hn hk hb (fuel - 1) [] nm start (by simp) (by omega) hs
  have e : fuel - 1 + 1 = fuel := by omega
  rwa [e] at this

theorem walk_append {refs : String → List String} {k l : Nat} {x y z : String}
    (h1 : Walk refs k x y) (h2 : Walk refs l y z) : Walk refs (k + l) x z := by
  induction h1 with
  | here => simpa using h2
  | @step k' a b c hm _ ih =>
    have e : k' + 1 + l = (k' + l) + 1 := by omega
    rw [e]
    exact .step hm (ih h2)

theorem walk_cycle {refs : String → List String} {y : String} {k : Nat} (h : Walk refs (k + 1) y y)
    (m : Nat) : Walk refs (m * (k + 1)) y y := by
  induction m with
  | zero => simpa using Walk.here y
  | succ m ih =>
    rw [Nat.succ_mul]
    exact walk_append ih h

theorem reach_walk {refs : String → List String} {x y : String} (h : Reach refs x y) :
    ∃ k, Walk refs k x y := by
  induction h with
  | here => exact ⟨0, .here _⟩
  | step hm _ ih =>
    obtain ⟨k, hk⟩ := ih
    exact ⟨k + 1, .step hm hk⟩

/-- C36, cycles: a cycle of references that can be reached is never got through, however deep the
calls may nest. -/
theorem C36_cycle_never_returns (kn : String → Bool) (refs : String → List String)
    (start : List String) (x y : String) (hx : x ∈ start) (hr : Reach refs x y) (k : Nat)
    (hc : Walk refs (k + 1) y y) (fuel : Nat) (R : List String) :
    findAll kn refs fuel start ≠ some (.ok R) := by
  intro h
  obtain ⟨l, hl⟩ := reach_walk hr
  have h1 := findAll_walk fuel start R h x hx _ _ (walk_append hl (walk_cycle hc fuel))
  have h2 : fuel ≤ fuel * (k + 1) := Nat.le_mul_of_pos_right _ (by omega)
  omega

/-- A cycle, and a diamond. -/
example : Reach (fun n => if n = "a" then ["b"] else if n = "b" then ["c"] else ["b"]) "a" "b" ∧
    Walk (fun n => if n = "a" then ["b"] else if n = "b" then ["c"] else ["b"]) 2 "b" "b" :=
  ⟨.step (by decide) (.here _), .step (y := "c") (by decide) (.step (by decide) (.here _))⟩

example : findAll (fun _ => true) (fun n => if n = "p" then ["a", "b"] else
    if n = "a" ∨ n = "b" then ["c"] else []) 4 ["a", "b"] = some (.ok ["a", "b", "c"]) := by decide

theorem reach_depends {isIn : String → Bool} {defs : List (String × Comp ι V S)}
    {s : State ι V S} (he : Exact defs s) (p x : String) :
    (∃ y ∈ s.refs p, Reach s.refs y x) ↔ DependsOn defs s p x := by
  have htrans : ∀ y z, Reach s.refs y z → DependsOn defs s p y → DependsOn defs s p z := by
    intro y z h
    induction h with
    | here => exact id
    | step hm _ ih => exact fun hd => ih (.through hd ((he _ _).1 hm))
  have hsnoc : ∀ y z w, Reach s.refs y z → w ∈ s.refs z → Reach s.refs y w := by
    intro y z w h hw
    induction h with
    | here => exact .step hw (.here _)
    | step hm _ ih => exact .step hm (ih hw)
  constructor
  · rintro ⟨y, hy, h⟩
    exact htrans y x h (.direct ((he _ _).1 hy))
  · intro h
    induction h with
    | direct h => exact ⟨_, (he _ _).2 h, .here _⟩
    | through _ hr ih =>
      obtain ⟨y, hy, h⟩ := ih
      exact ⟨y, hy, hsnoc _ _ _ h ((he _ _).2 hr)⟩

/-- C36 on a new backend: an update deletes and rebuilds exactly the components that depend on the
input, directly or through others; the rest keep their place in the dataset. -/
theorem C36_rebuilds_dependents (isIn : String → Bool) (defs : List (String × Comp ι V S))
    (hm : Math isIn defs) (i : Inputs ι V) (s t : State ι V S) (p : String) (new : ι → Option V)
    (hp : isIn p = true) (hs : scratch isIn defs i = some s)
    (ht : scratch isIn defs (fun n j => if n = p then (new j).or (i n j) else i n j) = some t)
    (fuel : Nat) (hf : defs.length < fuel) :
    ∃ s' L, updateRebuild isIn defs fuel s p new = (s', .returned) ∧ L.Nodup ∧
      s'.order = s.order.filter (fun y => !L.contains y) ++ L ∧
      ∀ x, x ∈ L ↔ DependsOn defs s p x := by
  obtain ⟨hg, ho, hi⟩ := scratch_good hm hs
  rw [← expected_one, ← hi] at ht
  obtain ⟨s', L, h1, _, _, _, h5, h6, h7, _⟩ := update_step hm hg hp ht hf
    (fun x n hr _ hn _ _ => by
      rw [ho]
      exact precedes_of_back hm (scratch_good hm ht).1 (good_reads (scratch_good hm ht).1 hr) hn)
  exact ⟨s', L, h1, h6, h5, fun x => (h7 x).trans (reach_depends (isIn := isIn) (scratch_exact hm hs) p x)⟩

/-- C36 over histories: after any sequence of updates the next one rebuilds exactly the components
that depend on its input.  Missing against the full property: definitions whose reads depend on
the data, which may be rebuilt without need (`C36_stale_reference`) or be missed
(`C35_stale_after_reorder`). -/
theorem C36_history_partial (isIn : String → Bool) (defs : List (String × Comp ι V S))
    (hm : Math isIn defs) (hst : Static defs) (b : Backend) (is : List ι) (his : ∀ j, j ∈ is)
    (fuel : Nat) (hf : defs.length < fuel) (us : List (Call ι V))
    (hp : ∀ u ∈ us, isIn u.name = true)
    (hk : b = .pyomo → ∀ u ∈ us, u.kind = .parameter ∧ ShapeOnly defs u.name)
    (i : Inputs ι V)
    (hok : ∀ pre post, us = pre ++ post → (scratch isIn defs (expected pre i)).isSome = true)
    (s t : State ι V S) (hs : scratch isIn defs i = some s) (p : String) (hpp : isIn p = true)
    (new : ι → Option V)
    (ht : scratch isIn defs (fun n j => if n = p then (new j).or (expected us i n j)
      else expected us i n j) = some t) :
    ∃ s1 s' L, calls isIn defs fuel b is us s = (s1, .returned) ∧
      updateRebuild isIn defs fuel s1 p new = (s', .returned) ∧ L.Nodup ∧
      s'.order = s1.order.filter (fun y => !L.contains y) ++ L ∧
      ∀ x, x ∈ L ↔ DependsOn defs s1 p x := by
  obtain ⟨t0, ht0⟩ := Option.isSome_iff_exists.1 (hok us [] (by simp))
  have hi := (scratch_good hm hs).2.2
  obtain ⟨s1, h1, _, h3, h4⟩ := calls_fine hm hst b is his fuel hf us s (scratch_fine hm hs) hp hk
    (by rw [hi]; exact hok) t0 (by rw [hi]; exact ht0)
  have hin : s1.inputs = expected us i := h3.trans (scratch_good hm ht0).2.2
  rw [← hin, ← expected_one] at ht
  obtain ⟨s', L, a1, _, _, _, a5, a6, a7, _⟩ := update_step hm h4.good hpp ht hf
    (fun x n hr _ hn _ _ => h4.tidy n x (good_reads h4.good (static_reads hst h4.good hr)) hn)
  exact ⟨s1, s', L, h1, a1, a6, a5, fun x => (a7 x).trans (reach_depends (isIn := isIn) h4.exact p x)⟩

/-! ### Where `update_input` is not a rebuild -/

/-- An input of one item. -/
def one (l : List (String × Nat)) : Inputs Unit Nat := fun n _ => l.lookup n

/-- Adds up what it reads: some inputs and some components. -/
def sumOf (g : Nat) (is cs : List String) : Comp Unit Nat Nat :=
  { group := g
    run := fun i h =>
      if is.all (fun n => (i n ()).isSome) && cs.all (fun n => (h n).isSome) then
        some ((is.map (fun n => (i n ()).getD 0)).sum + (cs.map (fun n => (h n).getD 0)).sum,
          is ++ cs)
      else none }

theorem sumOf_run {g : Nat} {is cs : List String} {i : Inputs Unit Nat} {h : String → Option Nat}
    {v : Nat} {r : List String} : (sumOf g is cs).run i h = some (v, r) ↔
    (∀ n ∈ is, (i n ()).isSome = true) ∧ (∀ n ∈ cs, (h n).isSome = true) ∧
    v = (is.map (fun n => (i n ()).getD 0)).sum + (cs.map (fun n => (h n).getD 0)).sum ∧
    r = is ++ cs := by
  unfold sumOf
  dsimp only
  constructor
  · intro hh
    split at hh
    · rename_i hc
      rw [Bool.and_eq_true, List.all_eq_true, List.all_eq_true] at hc
      have := Option.some.inj hh
      exact ⟨hc.1, hc.2, (congrArg Prod.fst this).symm, (congrArg Prod.snd this).symm⟩
    · cases hh
  · rintro ⟨h1, h2, rfl, rfl⟩
    rw [if_pos]
    rw [Bool.and_eq_true, List.all_eq_true, List.all_eq_true]
    exact ⟨h1, h2⟩

theorem sumOf_honest {isIn : String → Bool} {g : Nat} {is cs : List String}
    (hi : ∀ n ∈ is, isIn n = true) : Honest isIn (sumOf g is cs) := by
  refine ⟨?_, ?_⟩
  · intro i i' h h' v r hr ha
    obtain ⟨h1, h2, h3, rfl⟩ := sumOf_run.1 hr
    refine sumOf_run.2 ⟨?_, ?_, ?_, rfl⟩
    · intro n hn; rw [← (ha n (by simp [hn])).1]; exact h1 n hn
    · intro n hn; rw [← (ha n (by simp [hn])).2]; exact h2 n hn
    · have e1 : is.map (fun n => (i n ()).getD 0) = is.map (fun n => (i' n ()).getD 0) :=
        List.map_congr_left (fun n hn => by rw [(ha n (by simp [hn])).1])
      have e2 : cs.map (fun n => (h n).getD 0) = cs.map (fun n => (h' n).getD 0) :=
        List.map_congr_left (fun n hn => by rw [(ha n (by simp [hn])).2])
      rw [h3, e1, e2]
  · intro i h v r hr n hn
    obtain ⟨_, h2, _, rfl⟩ := sumOf_run.1 hr
    rcases List.mem_append.1 hn with hn | hn
    · exact Or.inl (hi n hn)
    · exact Or.inr (h2 n hn)

/-- A small model: two variables, an expression, a constraint, an objective. -/
def smallMath : List (String × Comp Unit Nat Nat) :=
  [("v", sumOf 0 ["cap"] []), ("w", sumOf 0 ["lim"] []), ("e", sumOf 1 ["eff"] ["v"]),
   ("f", sumOf 1 [] ["e", "w"]), ("k", sumOf 2 ["cap"] ["f"]), ("o", sumOf 4 [] ["f", "e"])]

def smallIn (n : String) : Bool := ["cap", "lim", "eff"].contains n

theorem smallMath_math : Math smallIn smallMath := by
  refine ⟨by decide, by decide, by decide, by decide, ?_⟩
  intro d hd
  simp only [smallMath, List.mem_cons, List.not_mem_nil, or_false] at hd
  rcases hd with rfl | rfl | rfl | rfl | rfl | rfl <;> exact sumOf_honest (by decide)

theorem smallMath_static : Static smallMath := by
  intro d hd i h v r i' h' v' r' h1 h2 n
  simp only [smallMath, List.mem_cons, List.not_mem_nil, or_false] at hd
  rcases hd with rfl | rfl | rfl | rfl | rfl | rfl <;>
  · obtain ⟨_, _, _, rfl⟩ := sumOf_run.1 h1
    obtain ⟨_, _, _, rfl⟩ := sumOf_run.1 h2
    rfl

/-- `C35_first_update` and `C36_rebuilds_dependents` at work. -/
example : ∃ s t, scratch smallIn smallMath (one [("cap", 1), ("lim", 2), ("eff", 3)]) = some s ∧
    scratch smallIn smallMath (fun n j => if n = "eff" then ((fun _ => some 5) j).or
      (one [("cap", 1), ("lim", 2), ("eff", 3)] n j)
      else one [("cap", 1), ("lim", 2), ("eff", 3)] n j) = some t ∧
    smallMath.map (fun d => s.held d.1) = [some 1, some 2, some 4, some 6, some 7, some 10] ∧
    smallMath.map (fun d => t.held d.1) = [some 1, some 2, some 6, some 8, some 9, some 14] ∧
    (updateRebuild smallIn smallMath 7 s "eff" (fun _ => some 5)).1.order
      = ["v", "w", "e", "f", "k", "o"] ∧
    (updateRebuild smallIn smallMath 7 s "lim" (fun _ => some 5)).1.order
      = ["v", "e", "w", "f", "k", "o"] := by
  refine ⟨_, _, rfl, rfl, ?_, ?_, ?_, ?_⟩ <;> decide

/-- `C35_history_partial` and `C36_history_partial` at work. -/
example : ∃ s s' t, scratch smallIn smallMath (one [("cap", 1), ("lim", 2), ("eff", 3)]) = some s ∧
    calls smallIn smallMath 7 .gurobi [()]
      [⟨.parameter, false, "lim", fun _ => some 4⟩, ⟨.lookup, false, "cap", fun _ => none⟩,
       ⟨.parameter, false, "cap", fun _ => some 10⟩] s = (s', .returned) ∧
    scratch smallIn smallMath (one [("cap", 10), ("lim", 4), ("eff", 3)]) = some t ∧
    smallMath.map (fun d => s'.held d.1) = smallMath.map (fun d => t.held d.1) ∧
    smallMath.map (fun d => t.held d.1) = [some 10, some 4, some 13, some 17, some 27, some 30] := by
  refine ⟨_, _, _, rfl, rfl, rfl, ?_, ?_⟩ <;> decide

/-- A variable whose array says where it exists (items of a parameter that have a value). -/
def shapeOf (g : Nat) (n : String) : Comp Unit Nat Nat :=
  { group := g, run := fun i _ => some (if (i n ()).isSome then 1 else 0, [n]) }

/-- The hypotheses of `C35_history_partial` with Pyomo. -/
example : Math (fun n => n == "p") [("x", shapeOf 0 "p")] ∧ Static [("x", shapeOf 0 "p")] ∧
    ShapeOnly [("x", shapeOf 0 "p")] "p" := by
  refine ⟨⟨by decide, by decide, by decide, by decide, ?_⟩, ?_, ?_⟩
  · intro d hd
    rw [List.mem_singleton] at hd
    subst hd
    refine ⟨?_, ?_⟩
    · intro i i' h h' v r hr ha
      have := Option.some.inj hr
      cases this
      have e := (ha "p" (by simp)).1
      show some (if (i' "p" ()).isSome then 1 else 0, ["p"]) = _
      rw [← e]
    · intro i h v r hr n hn
      have := Option.some.inj hr
      cases this
      rw [List.mem_singleton] at hn
      subst hn
      exact Or.inl rfl
  · intro d hd i h v r i' h' v' r' h1 h2 n
    rw [List.mem_singleton] at hd
    subst hd
    cases Option.some.inj h1
    cases Option.some.inj h2
    rfl
  · intro d hd i i' h _ hs
    rw [List.mem_singleton] at hd
    subst hd
    show some (if (i "p" ()).isSome then 1 else 0, ["p"]) = some (if (i' "p" ()).isSome then 1 else 0, ["p"])
    rw [hs ()]

/-- Where a condition compares the value of a parameter (`where: p > 5`). -/
def whereAbove : Comp Unit Nat Nat :=
  { group := 2, run := fun i _ => some (if 5 < (i "p" ()).getD 0 then 1 else 0, ["p"]) }

/-- C35 fails in place: a condition on the value of a parameter is not looked at again when Pyomo
updates the parameter without a rebuild.  The call returns, and the constraint that a new build
would have is missing. -/
theorem C35_in_place_where :
    ∃ s s' t, scratch (fun n => n == "p") [("x", whereAbove)] (one [("p", 3)]) = some s ∧
      updateInput (fun n => n == "p") [("x", whereAbove)] 9 .pyomo .parameter false [()] s "p"
        (fun _ => some 7) = (s', .returned) ∧
      scratch (fun n => n == "p") [("x", whereAbove)] (one [("p", 7)]) = some t ∧
      s'.inputs "p" () = t.inputs "p" () ∧ s'.held "x" = some 0 ∧ t.held "x" = some 1 :=
  ⟨_, _, _, rfl, rfl, rfl, by decide, by decide, by decide⟩

/-- `y` uses `x` only where `t` is large: outside, the equation that has `x` in it applies nowhere and
is not evaluated (backend_model.py:445-446). -/
def lateReader : Comp Unit Nat Nat :=
  { group := 1
    run := fun i h =>
      match i "t" () with
      | none => none
      | some t =>
        if 5 < t then (h "x").map (fun v => (v, ["t", "x"])) else some (0, ["t"]) }

def lateMath : List (String × Comp Unit Nat Nat) := [("x", sumOf 1 ["p", "t"] []), ("y", lateReader)]

def lateIn (n : String) : Bool := ["p", "t"].contains n

theorem lateMath_math : Math lateIn lateMath := by
  refine ⟨by decide, by decide, by decide, by decide, ?_⟩
  intro d hd
  simp only [lateMath, List.mem_cons, List.not_mem_nil, or_false] at hd
  rcases hd with rfl | rfl
  · exact sumOf_honest (by decide)
  · refine ⟨?_, ?_⟩
    · intro i i' h h' v r hr ha
      unfold lateReader at hr ⊢
      dsimp only at hr ⊢
      cases ht : i "t" () with
      | none => rw [ht] at hr; cases hr
      | some t =>
        rw [ht] at hr
        dsimp only at hr
        have key : ∀ n ∈ r, i n = i' n ∧ h n = h' n := ha
        split at hr
        · rename_i h5
          cases hx : h "x" with
          | none => rw [hx] at hr; cases hr
          | some w =>
            rw [hx] at hr
            have e := Option.some.inj hr
            cases e
            have e1 := (key "t" (by simp)).1
            have e2 := (key "x" (by simp)).2
            rw [← e1, ht]
            dsimp only
            rw [if_pos h5, ← e2, hx]
            rfl
        · rename_i h5
          have e := Option.some.inj hr
          cases e
          have e1 := (key "t" (by simp)).1
          rw [← e1, ht]
          dsimp only
          rw [if_neg h5]
    · intro i h v r hr n hn
      unfold lateReader at hr
      dsimp only at hr
      cases ht : i "t" () with
      | none => rw [ht] at hr; cases hr
      | some t =>
        rw [ht] at hr
        dsimp only at hr
        split at hr
        · cases hx : h "x" with
          | none => rw [hx] at hr; cases hr
          | some w =>
            rw [hx] at hr
            cases Option.some.inj hr
            simp only [List.mem_cons, List.not_mem_nil, or_false] at hn
            rcases hn with rfl | rfl
            · exact Or.inl (by decide)
            · exact Or.inr (by simp [hx])
        · cases Option.some.inj hr
          simp only [List.mem_cons, List.not_mem_nil, or_false] at hn
          subst hn
          exact Or.inl (by decide)

/-- C35 fails after a rebuild has moved a component behind one of its later readers: all
hypotheses of `C35_history_partial` hold but `Static`.  `y` is rebuilt before `x` and holds the
old value of `x`; the reference from `x` to `y` is lost as well, so that later updates of `p` do
not repair `y`. -/
theorem C35_stale_after_reorder :
    Math lateIn lateMath ∧
    ∃ s s' t s'' t', scratch lateIn lateMath (one [("p", 1), ("t", 1)]) = some s ∧
      calls lateIn lateMath 9 .gurobi [()]
        [⟨.parameter, false, "p", fun _ => some 2⟩, ⟨.parameter, false, "t", fun _ => some 10⟩] s
        = (s', .returned) ∧
      scratch lateIn lateMath (one [("p", 2), ("t", 10)]) = some t ∧
      s'.held "x" = some 12 ∧ s'.held "y" = some 3 ∧ t.held "y" = some 12 ∧
      calls lateIn lateMath 9 .gurobi [()] [⟨.parameter, false, "p", fun _ => some 4⟩] s'
        = (s'', .returned) ∧
      scratch lateIn lateMath (one [("p", 4), ("t", 10)]) = some t' ∧
      s''.held "y" = some 3 ∧ t'.held "y" = some 14 :=
  ⟨lateMath_math, _, _, _, _, _, rfl, rfl, rfl, by decide, by decide, by decide, rfl, rfl,
    by decide, by decide⟩

/-- As `lateMath`, but `x` does not read `t`. -/
def staleMath : List (String × Comp Unit Nat Nat) :=
  [("x", sumOf 1 ["p"] []), ("y", lateReader), ("z", sumOf 1 ["p", "t"] [])]

/-- C36 fails to be exact when what is read depends on the data: once `y` has stopped reading `x`, it
does not depend on `p`, but `x` still lists it and an update of `p` deletes it and builds it
again (behind `z`, which was built last before that). -/
theorem C36_stale_reference :
    ∃ s s1 s2, scratch lateIn staleMath (one [("p", 1), ("t", 10)]) = some s ∧
      updateRebuild lateIn staleMath 9 s "t" (fun _ => some 1) = (s1, .returned) ∧
      ¬ DependsOn staleMath s1 "p" "y" ∧
      updateRebuild lateIn staleMath 9 s1 "p" (fun _ => some 2) = (s2, .returned) ∧
      findAll (known lateIn s1.held) s1.refs 9 (s1.refs "p") = some (.ok ["x", "z", "y"]) := by
  refine ⟨_, _, _, rfl, rfl, ?_, rfl, by decide⟩
  intro h
  generalize hs : (⟨_, _, _, _⟩ : State Unit Nat Nat) = s1 at h
  have hin : s1.inputs "t" () = some 1 := by rw [← hs]; rfl
  have hreads : ∀ n, ¬ Reads staleMath s1 "y" n ∨ n = "t" := by
    intro n
    by_cases hn : n = "t"
    · exact Or.inr hn
    · left
      rintro ⟨c, v, r, h1, h2, h3⟩
      have hc : staleMath.lookup "y" = some lateReader := rfl
      rw [lookup_of_mem staleMath (by decide) h1] at hc
      cases hc
      unfold lateReader at h2
      dsimp only at h2
      rw [hin] at h2
      cases Option.some.inj h2
      rw [List.mem_singleton] at h3
      exact hn h3
  cases h with
  | direct h =>
    rcases hreads "p" with h' | h'
    · exact h' h
    · revert h'; decide
  | through hd h =>
    rename_i y
    rcases hreads y with h' | h'
    · exact h' h
    · subst h'
      have hno : ∀ x, DependsOn staleMath s1 "p" x → x ∈ names staleMath := by
        intro x hx
        cases hx with
        | direct h => obtain ⟨c, _, _, h1, _⟩ := h; exact List.mem_map.2 ⟨_, h1, rfl⟩
        | through _ h => obtain ⟨c, _, _, h1, _⟩ := h; exact List.mem_map.2 ⟨_, h1, rfl⟩
      exact absurd (hno "t" hd) (by decide)

/-- Reads an input without reporting it, as the helper functions `reduce_carrier_dim`
(helper_functions.py:427) and `defined` (helper_functions.py:315) do. -/
def hiddenReader : Comp Unit Nat Nat :=
  { group := 1, run := fun i h =>
      match i "carrier_out" (), h "x" with
      | some k, some v => some (v * k, ["x"])
      | _, _ => none }

def hiddenMath : List (String × Comp Unit Nat Nat) :=
  [("x", sumOf 0 ["cap"] []), ("y", hiddenReader)]

/-- C35 fails for inputs that helper functions read behind the scenes: nothing is rebuilt. -/
theorem C35_hidden_read :
    ∃ s s' t, scratch (fun n => ["cap", "carrier_out"].contains n) hiddenMath
        (one [("cap", 3), ("carrier_out", 1)]) = some s ∧
      updateInput (fun n => ["cap", "carrier_out"].contains n) hiddenMath 9 .gurobi .lookup false
        [()] s "carrier_out" (fun _ => some 2) = (s', .returned) ∧
      scratch (fun n => ["cap", "carrier_out"].contains n) hiddenMath
        (one [("cap", 3), ("carrier_out", 2)]) = some t ∧
      s'.held "y" = some 3 ∧ t.held "y" = some 6 :=
  ⟨_, _, _, rfl, rfl, rfl, by decide, by decide⟩

/-- A build that raises can be got round by an update: here `y` starts to use `x`, which is built after
it, so a build raises, but the update uses the `x` that is there from before. -/
theorem C35_update_hides_error :
    ∃ s s', scratch lateIn lateMath.reverse (one [("p", 1), ("t", 1)]) = some s ∧
      updateInput lateIn lateMath.reverse 9 .gurobi .parameter false [()] s "t" (fun _ => some 10)
        = (s', .returned) ∧
      (scratch lateIn lateMath.reverse (one [("p", 1), ("t", 10)])).isNone = true ∧
      s'.held "x" = some 11 ∧ s'.held "y" = some 2 :=
  ⟨_, _, rfl, rfl, by decide, by decide, by decide⟩

/-- With Pyomo a lookup cannot be updated: the call raises, for every lookup and every value, and
leaves the new values in the inputs although no component was rebuilt. -/
theorem C35_pyomo_lookup (isIn : String → Bool) (defs : List (String × Comp ι V S)) (fuel : Nat)
    (nd : Bool) (is : List ι) (s : State ι V S) (p : String) (new : ι → Option V)
    (hp : isIn p = true) :
    (updateInput isIn defs fuel .pyomo .lookup nd is s p new).2 = .raised ∧
    (updateInput isIn defs fuel .pyomo .lookup nd is s p new).1.held = s.held ∧
    (updateInput isIn defs fuel .pyomo .lookup nd is s p new).1.inputs =
      fun n j => if n = p then (new j).or (s.inputs n j) else s.inputs n j := by
  refine ⟨?_, ?_, C35_nan_keeps isIn defs fuel .pyomo .lookup nd is s p new hp⟩
  · unfold updateInput
    rw [if_pos hp, if_pos (by simp [mustRebuild]), if_pos ⟨rfl, rfl⟩]
  · unfold updateInput
    rw [if_pos hp, if_pos (by simp [mustRebuild]), if_pos ⟨rfl, rfl⟩]
    rfl

theorem rebuildGroups_nil (isIn : String → Bool) (defs : List (String × Comp ι V S))
    (gs : List Nat) (u : State ι V S) : rebuildGroups isIn defs [] gs u = (u, .returned) := by
  induction gs with
  | nil => rfl
  | cons g gs ih =>
    unfold rebuildGroups
    have : u.order.filter (selected defs [] g) = [] := by
      rw [List.filter_eq_nil_iff]
      intro y _
      simp [selected]
    rw [this]
    exact ih

/-- After a component was deleted, an update of an input it read does not return; the new values
stay in the inputs and the input has lost its references: from then on updates of it return and
rebuild nothing. -/
theorem C35_after_delete (isIn : String → Bool) (defs : List (String × Comp ι V S)) (fuel : Nat)
    (s : State ι V S) (p x : String) (new new' : ι → Option V) (hx : x ∈ s.refs p)
    (hi : isIn x = false) (hh : s.held x = none) (s' : State ι V S) (r : Result)
    (h : updateRebuild isIn defs fuel s p new = (s', r)) :
    r ≠ .returned ∧ s'.held = s.held ∧
    s'.inputs = (fun n j => if n = p then (new j).or (s.inputs n j) else s.inputs n j) ∧
    ∃ s'', updateRebuild isIn defs (fuel + 1) s' p new' = (s'', .returned) ∧ s''.held = s.held := by
  have hno : ∀ R, findAll (known isIn (written s p new).held) (written s p new).refs fuel (s.refs p)
      ≠ some (.ok R) := by
    intro R hR
    obtain ⟨h1, h2⟩ := findAll_reach _ _ _ hR
    have := h2 x ((h1 x).2 ⟨x, hx, .here x⟩)
    unfold known at this
    rw [hi] at this
    rw [show (written s p new).held x = s.held x from rfl, hh] at this
    cases this
  have hcases : s' = written s p new ∧ r ≠ .returned := by
    change (match findAll (known isIn (written s p new).held) (written s p new).refs fuel (s.refs p) with
      | none => (written s p new, Result.diverged)
      | some (.error _) => (written s p new, .raised)
      | some (.ok R) => rebuildGroups isIn defs R groups (written s p new)) = (s', r) at h
    cases hR : findAll (known isIn (written s p new).held) (written s p new).refs fuel (s.refs p) with
    | none =>
      rw [hR] at h
      cases h
      exact ⟨rfl, by decide⟩
    | some e =>
      rw [hR] at h
      cases e with
      | error e =>
        cases h
        exact ⟨rfl, by decide⟩
      | ok R => exact absurd hR (hno R)
  obtain ⟨rfl, hr⟩ := hcases
  refine ⟨hr, rfl, expected_one _ _ _, written (written s p new) p new', ?_, rfl⟩
  have hrefs : (written s p new).refs p = [] := by
    unfold written setAt; dsimp only; rw [if_pos rfl]
  show (match findAll _ _ (fuel + 1) ((written s p new).refs p) with
      | none => _
      | some (.error _) => _
      | some (.ok R) => rebuildGroups isIn defs R groups (written (written s p new) p new')) = _
  rw [hrefs]
  exact rebuildGroups_nil ..

/-- Such a state: `w` deleted, then `lim` updated. -/
example : ∃ s, scratch smallIn smallMath (one [("cap", 1), ("lim", 2), ("eff", 3)]) = some s ∧
    "w" ∈ (delete "w" s).refs "lim" ∧ (delete "w" s).held "w" = none ∧
    (updateRebuild smallIn smallMath 7 (delete "w" s) "lim" (fun _ => some 9)).2 = .raised := by
  refine ⟨_, rfl, ?_, ?_, ?_⟩ <;> decide

end Update
end Calliope
