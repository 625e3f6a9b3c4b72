import Verif.Model.SporeFiles
import Verif.Props.Spores
import Mathlib.Data.List.Induction

/-!
# Files of single SPORES (C97)
-/

namespace Calliope
namespace Spores

/-! ### Effects on the folder -/

theorem after_append (d : Folder) (a b : List Effect) : after d (a ++ b) = after (after d a) b := List.foldl_append

/-- The file that an effect touches. -/
def Touches (l : Int) : Effect → Prop
  | .solved _ => False
  | .write x _ => x = l

theorem after_untouched (d : Folder) (es : List Effect) (l : Int) (h : ∀ e ∈ es, ¬ Touches l e) : after d es l = d l := by
  induction es generalizing d with
  | nil => rfl
  | cons e es ih =>
    show after (apply d e) es l = d l
    rw [ih _ (fun x hx => h x (List.mem_cons_of_mem _ hx))]
    cases e with
    | solved _ => rfl
    | write x p =>
      have : l ≠ x := fun e => h _ List.mem_cons_self e.symm
      show (if l = x then _ else _) = _
      rw [if_neg this]

theorem effectsOf_touch (e : Event) (x : Effect) (hx : x ∈ effectsOf e) (l : Int) (h : Touches l x) :
    l = e.label := by
  unfold effectsOf saveSpore at hx
  rcases List.mem_cons.1 hx with rfl | hx
  · exact h.elim
  · split at hx
    · split at hx
      · simp at hx
      · unfold writesOf at hx
        split at hx <;> simp only [List.mem_cons, List.not_mem_nil, or_false] at hx
        · rcases hx with rfl | rfl | rfl <;> exact h.symm
        · rcases hx with rfl | rfl <;> exact h.symm
    · simp at hx

theorem effects_touch (es : List Event) (x : Effect) (hx : x ∈ effects es) (l : Int) (h : Touches l x) :
    ∃ e ∈ es, l = e.label := by
  obtain ⟨e, he, hxe⟩ := List.mem_flatMap.1 hx
  exact ⟨e, he, effectsOf_touch e x hxe l h⟩

theorem effectsOf_solved (e : Event) (l : Int) (h : Effect.solved l ∈ effectsOf e) : l = e.label := by
  unfold effectsOf saveSpore at h
  rcases List.mem_cons.1 h with h | h
  · cases h
    rfl
  · split at h
    · split at h
      · simp at h
      · unfold writesOf at h
        split at h <;> simp at h
    · simp at h

theorem effects_solved (es : List Event) (l : Int) (h : Effect.solved l ∈ effects es) : ∃ e ∈ es, l = e.label := by
  obtain ⟨e, he, hx⟩ := List.mem_flatMap.1 h
  exact ⟨e, he, effectsOf_solved e l hx⟩

/-- After a conclusive call, its file is complete. -/
theorem effectsOf_saved (d : Folder) (e : Event) (r : Result) (hs : conclusive e.status = true) (hr : e.result = some r) :
    after d (effectsOf e) e.label = ⟨some r, true, decide (e.label = 0)⟩ := by
  unfold effectsOf saveSpore
  rw [if_pos hs, hr]
  simp only [writesOf]
  by_cases h0 : e.label = 0
  · rw [if_pos h0]
    simp [after, apply, put, h0]
  · rw [if_neg h0]
    simp [after, apply, put, h0]

/-- After a call without conclusion, nothing has changed. -/
theorem effectsOf_unsaved (d : Folder) (e : Event) (h : ¬ (conclusive e.status = true ∧ e.result.isSome = true)) :
    after d (effectsOf e) = d := by
  unfold effectsOf saveSpore
  split
  · rename_i hs
    split
    · rfl
    · rename_i hr
      exact absurd ⟨hs, by rw [hr]; rfl⟩ h
  · rfl

theorem effects_file (es : List Event) (hs : es.Pairwise (fun a b => a.label < b.label)) (d : Folder) (e : Event)
    (he : e ∈ es) : after d (effects es) e.label = after d (effectsOf e) e.label := by
  induction es generalizing d with
  | nil => simp at he
  | cons x xs ih =>
    rw [List.pairwise_cons] at hs
    have hsplit : effects (x :: xs) = effectsOf x ++ effects xs := rfl
    rw [hsplit, after_append]
    rcases List.mem_cons.1 he with rfl | he
    · refine after_untouched _ _ _ ?_
      intro y hy ht
      obtain ⟨e', he', hl⟩ := effects_touch xs y hy _ ht
      have := hs.1 e' he'
      omega
    · rw [ih hs.2 _ he]
      have hlt := hs.1 e he
      have hu : after d (effectsOf x) e.label = d e.label := by
        refine after_untouched _ _ _ ?_
        intro y hy ht
        have := effectsOf_touch x y hy _ ht
        omega
      by_cases hc : conclusive e.status = true ∧ e.result.isSome = true
      · obtain ⟨r, hr⟩ := Option.isSome_iff_exists.1 hc.2
        rw [effectsOf_saved _ e r hc.1 hr, effectsOf_saved _ e r hc.1 hr]
      · rw [effectsOf_unsaved _ e hc, effectsOf_unsaved _ e hc, hu]

/-- The files of spores solved before the last call that was made are complete, wherever the run stops. -/
theorem effects_crash (es : List Event) (hs : es.Pairwise (fun a b => a.label < b.label)) (d : Folder)
    (done todo : List Effect) (h : effects es = done ++ todo) (e : Event) (he : e ∈ es) (r : Result)
    (hc : conclusive e.status = true) (hr : e.result = some r) (l : Int) (hl : e.label < l)
    (hd : Effect.solved l ∈ done) : after d done e.label = ⟨some r, true, decide (e.label = 0)⟩ := by
  induction es generalizing d done with
  | nil => simp at he
  | cons x xs ih =>
    rw [List.pairwise_cons] at hs
    have hx : ∀ y ∈ x :: xs, x.label ≤ y.label := by
      intro y hy
      rcases List.mem_cons.1 hy with rfl | hy
      · exact Int.le_refl _
      · exact Int.le_of_lt (hs.1 y hy)
    have hsplit : effects (x :: xs) = effectsOf x ++ effects xs := rfl
    rw [hsplit] at h
    rcases List.append_eq_append_iff.1 h with ⟨m, rfl, h2⟩ | ⟨m, h1, _⟩
    · rw [after_append]
      have hd' : Effect.solved l ∈ m := by
        rcases List.mem_append.1 hd with hd | hd
        · have := effectsOf_solved x l hd
          have := hx e he
          omega
        · exact hd
      rcases List.mem_cons.1 he with rfl | he
      · rw [after_untouched]
        · exact effectsOf_saved d e r hc hr
        · intro y hy ht
          obtain ⟨e', he', hl'⟩ := effects_touch xs y (h2 ▸ List.mem_append_left _ hy) _ ht
          have := hs.1 e' he'
          omega
      · exact ih hs.2 _ m h2 he hd'
    · have := effectsOf_solved x l (h1 ▸ List.mem_append_left _ hd)
      have := hx e he
      omega

/-- Wherever the run stops, the results in a file are those of its spore, or what was there before. -/
theorem effects_content (es : List Event) (d : Folder) (done : List Effect) (h : ∀ x ∈ done, x ∈ effects es) (l : Int) :
    (after d done l).results = (d l).results ∨
      ∃ e ∈ es, e.label = l ∧ e.result.isSome = true ∧ (after d done l).results = e.result := by
  induction done using List.reverseRecOn with
  | nil => exact .inl rfl
  | append_singleton done x ih =>
    rw [after_append]
    have hx : x ∈ effects es := h x (List.mem_append_right _ (List.mem_singleton.2 rfl))
    have ih := ih (fun y hy => h y (List.mem_append_left _ hy))
    cases x with
    | solved _ => exact ih
    | write l' p =>
      by_cases hl : l = l'
      · subst hl
        have he : after (after d done) [Effect.write l p] l = put (after d done l) p := by
          show (if l = l then _ else _) = _
          rw [if_pos rfl]
        rw [he]
        cases p with
        | attrs => exact ih
        | inputs => exact ih
        | results r =>
          right
          obtain ⟨e, hes, hxe⟩ := List.mem_flatMap.1 hx
          refine ⟨e, hes, ?_⟩
          have hl := effectsOf_touch e _ hxe l rfl
          refine ⟨hl.symm, ?_⟩
          unfold effectsOf saveSpore at hxe
          rcases List.mem_cons.1 hxe with hxe | hxe
          · cases hxe
          · split at hxe
            · split at hxe
              · simp at hxe
              · rename_i r' hr'
                have : r = r' := by
                  unfold writesOf at hxe
                  split at hxe <;> simp at hxe <;> exact hxe.2
                subst this
                rw [hr']
                exact ⟨rfl, rfl⟩
            · simp at hxe
      · have he : after (after d done) [Effect.write l' p] l = after d done l := by
          show (if l = l' then _ else _) = _
          rw [if_neg hl]
        rw [he]
        exact ih

/-! ### The calls of a run -/

theorem loopEvents_labels (c : Cfg) (S : Solver) (T : Status) (ss : List Int) (k : Nat) (rs : List Result)
    (latest : Result) (b : Backend) : ((loopEvents c S T ss k rs latest b).map Event.label).Sublist ss := by
  induction ss generalizing k rs latest b with
  | nil => exact List.Sublist.slnil
  | cons s ss ih =>
    unfold loopEvents
    split
    · exact List.nil_sublist _
    split
    · simp
    · rw [List.map_cons]
      exact (ih _ _ _ _).cons_cons s

theorem sporeRange_pairwise (a n : Int) : (sporeRange a n).Pairwise (· < ·) := by
  unfold sporeRange
  rw [List.pairwise_map]
  exact List.pairwise_lt_range.imp (fun h => by omega)

theorem sporeRange_gt (a n x : Int) (h : x ∈ sporeRange a n) : a < x ∧ x ≤ n := by
  unfold sporeRange at h
  obtain ⟨i, hi, rfl⟩ := List.mem_map.1 h
  rw [List.mem_range] at hi
  omega

theorem exploreEvents_labels (c : Cfg) (S : Solver) (T : Status) (latest : Int) (base : Option Result) (k : Nat)
    (b : Backend) :
    ((exploreEvents c S T latest base k b).map Event.label).Sublist (sporeRange latest c.number) := by
  unfold exploreEvents
  split
  · exact List.nil_sublist _
  split
  · exact List.nil_sublist _
  · exact loopEvents_labels ..

theorem exploreEvents_sorted (c : Cfg) (S : Solver) (T : Status) (latest : Int) (base : Option Result) (k : Nat)
    (b : Backend) : (exploreEvents c S T latest base k b).Pairwise (fun x y => x.label < y.label) :=
  List.pairwise_map.1 ((sporeRange_pairwise latest c.number).sublist (exploreEvents_labels c S T latest base k b))

theorem exploreEvents_gt (c : Cfg) (S : Solver) (T : Status) (latest : Int) (base : Option Result) (k : Nat)
    (b : Backend) (e : Event) (h : e ∈ exploreEvents c S T latest base k b) : latest < e.label ∧ e.label ≤ c.number :=
  sporeRange_gt _ _ _ ((exploreEvents_labels c S T latest base k b).subset (List.mem_map_of_mem h))

theorem runEvents_sorted (c : Cfg) (S : Solver) (T : Status) (prior : Prior) (b : Backend) :
    (runEvents c S T prior b).Pairwise (fun x y => x.label < y.label) := by
  unfold runEvents
  split
  · split <;> exact exploreEvents_sorted ..
  · rw [List.pairwise_cons]
    exact ⟨fun e he => (exploreEvents_gt c S T _ _ _ _ e he).1, exploreEvents_sorted ..⟩

theorem loopEvents_get (c : Cfg) (S : Solver) (T : Status) (ss : List Int) (k : Nat) (rs : List Result)
    (latest : Result) (b b2 : Backend) (calls : List Call) (out : List Result)
    (h : loop c S ss k rs latest b = .ok (b2, calls, out)) :
    (loopEvents c S T ss k rs latest b).length = calls.length ∧
    ∀ (j : Nat) (x : Call), calls[j]? = some x → ∃ s, ss[j]? = some s ∧
      (loopEvents c S T ss k rs latest b)[j]? = some ⟨s, T (k + j) x.backend, x.result⟩ := by
  induction ss generalizing k rs latest b b2 calls out with
  | nil =>
    simp only [loop, Except.ok.injEq, Prod.mk.injEq] at h
    obtain ⟨_, rfl, _⟩ := h
    exact ⟨rfl, by simp⟩
  | cons s ss ih =>
    rw [loop] at h
    unfold loopEvents
    cases hn : newScore c k rs latest b with
    | error e =>
      rw [hn] at h
      cases h
    | ok sc =>
      rw [hn] at h
      simp only [] at h ⊢
      cases hs : solveWith c S k { b with score := updScore b.score sc } with
      | none =>
        rw [hs] at h
        cases h
        refine ⟨rfl, ?_⟩
        intro j x hx
        cases j with
        | zero =>
          cases hx
          exact ⟨s, rfl, rfl⟩
        | succ j => simp at hx
      | some r =>
        rw [hs] at h
        simp only [] at h ⊢
        cases hl : loop c S ss (k + 1) (rs ++ [r]) r { b with score := updScore b.score sc } with
        | error e =>
          rw [hl] at h
          cases h
        | ok t =>
          obtain ⟨b3, calls3, out3⟩ := t
          rw [hl] at h
          cases h
          obtain ⟨i1, i2⟩ := ih _ _ _ _ _ _ _ hl
          refine ⟨by simp [i1], ?_⟩
          intro j x hx
          cases j with
          | zero =>
            cases hx
            exact ⟨s, rfl, rfl⟩
          | succ j =>
            obtain ⟨s', h1, h2⟩ := i2 j x (by simpa using hx)
            refine ⟨s', by simpa using h1, ?_⟩
            rw [List.getElem?_cons_succ, h2]
            congr 3
            omega

/-- The calls of a successful exploration. -/
theorem exploreEvents_get (c : Cfg) (S : Solver) (T : Status) (latest : Int) (base : Option Result) (pre : List Call)
    (before : Option (List (Int × Result))) (b : Backend) (o : Outcome)
    (h : explore c S latest base pre before b = .ok o) :
    o.calls.length = pre.length + (exploreEvents c S T latest base pre.length b).length ∧
    ∀ (j : Nat) (x : Call), o.calls[pre.length + j]? = some x →
      (exploreEvents c S T latest base pre.length b)[j]? =
        some ⟨latest + 1 + (j : Int), T (pre.length + j) x.backend, x.result⟩ := by
  obtain ⟨hn, base', rfl, calls, out, hl, hc, _⟩ := explore_ok h
  obtain ⟨h1, h2⟩ := loopEvents_get c S T _ _ _ _ _ _ _ _ hl
  have he : exploreEvents c S T latest (some base') pre.length b = loopEvents c S T (sporeRange latest c.number)
      pre.length [base'] base' { b with cost := some (constrainingCost c base'), objective := "min_spores" } := by
    unfold exploreEvents
    rw [if_neg (by omega)]
  rw [he, h1, hc]
  refine ⟨by simp, ?_⟩
  intro j x hx
  rw [List.getElem?_append_right (by omega), Nat.add_sub_cancel_left] at hx
  obtain ⟨s, hs, hg⟩ := h2 j x hx
  rw [hg]
  have hj : j < (c.number - latest).toNat := by
    have := (List.getElem?_eq_some_iff.1 hs).1
    rwa [sporeRange_length] at this
  rw [sporeRange_get latest c.number j hj] at hs
  cases hs
  rfl

/-- The calls of a run from scratch. -/
theorem runEvents_fresh (c : Cfg) (S : Solver) (T : Status) (prior : Prior) (b : Backend) (o : Outcome)
    (hf : c.useLatest = false) (h : run c S prior b = .ok o) :
    o.calls.length = (runEvents c S T prior b).length ∧
    ∀ (j : Nat) (x : Call), o.calls[j]? = some x →
      (runEvents c S T prior b)[j]? = some ⟨(j : Int), T j x.backend, x.result⟩ := by
  have he : runEvents c S T prior b = ⟨0, T 0 { reset b with objective := c.objective },
      solveWith c S 0 { reset b with objective := c.objective }⟩ ::
      exploreEvents c S T 0 (solveWith c S 0 { reset b with objective := c.objective }) 1
        { reset b with objective := c.objective } := by
    unfold runEvents
    rw [if_neg (by rw [hf]; simp)]
  rw [run_fresh hf] at h
  obtain ⟨h1, h2⟩ := exploreEvents_get c S T _ _ _ _ _ _ h
  obtain ⟨_, _, _, calls, _, _, hc, _⟩ := explore_ok h
  simp only [List.length_singleton] at h1 h2
  rw [he]
  refine ⟨by rw [h1, List.length_cons, Nat.add_comm], ?_⟩
  intro j x hx
  cases j with
  | zero =>
    rw [hc] at hx
    simp only [List.singleton_append, List.getElem?_cons_zero, Option.some.injEq] at hx
    subst hx
    rfl
  | succ j =>
    rw [List.getElem?_cons_succ, h2 j x (by rwa [Nat.add_comm])]
    rw [Nat.add_comm 1 j]
    congr 2
    push_cast
    omega

/-- The calls of a run that continues. -/
theorem runEvents_restart (c : Cfg) (S : Solver) (T : Status) (rs : List (Int × Result)) (b : Backend) (o : Outcome)
    (hf : c.useLatest = true) (h : run c S (.spores rs) b = .ok o) :
    o.calls.length = (runEvents c S T (.spores rs) b).length ∧
    ∀ (j : Nat) (x : Call), o.calls[j]? = some x →
      (runEvents c S T (.spores rs) b)[j]? = some ⟨maxLabel rs + 1 + (j : Int), T j x.backend, x.result⟩ := by
  unfold run at h
  rw [if_pos hf] at h
  simp only [] at h
  have := exploreEvents_get c S T _ _ _ _ _ _ h
  simp only [List.length_nil, Nat.zero_add] at this
  unfold runEvents
  rw [if_pos hf]
  simp only []
  cases hq : Option.map Prod.snd (List.find? (fun e => decide (e.1 = maxLabel rs)) rs) with
  | none =>
    rw [hq] at this
    exact this
  | some r =>
    rw [hq] at this
    exact this

/-! ### C97 -/

/-- The file of spore `l` is complete, with the results `r`: results and attributes, and for the baseline the inputs. -/
def Saved (d : Folder) (l : Int) (r : Result) : Prop := d l = ⟨some r, true, decide (l = 0)⟩

/-- C97, crashes (partial: for calls that end with `optimal` or `feasible`): wherever a run stops, because the solver or
anything else fails or the process ends, each spore solved before the last call of the solver has its file, with the
results of that call. -/
theorem C97_crash_partial (c : Cfg) (S : Solver) (T : Status) (prior : Prior) (b : Backend) (d : Folder)
    (done todo : List Effect) (h : effects (runEvents c S T prior b) = done ++ todo) (e : Event)
    (he : e ∈ runEvents c S T prior b) (r : Result) (hc : e.status = "optimal" ∨ e.status = "feasible")
    (hr : e.result = some r) (l : Int) (hl : e.label < l) (hd : Effect.solved l ∈ done) :
    Saved (after d done) e.label r :=
  effects_crash _ (runEvents_sorted c S T prior b) d done todo h e he r
    (by unfold conclusive; rcases hc with h | h <;> simp [h]) hr l hl hd

/-- C97, crashes: wherever a run stops, a file has no results but those of its spore, or those from before. -/
theorem C97_content (c : Cfg) (S : Solver) (T : Status) (prior : Prior) (b : Backend) (d : Folder)
    (done todo : List Effect) (h : effects (runEvents c S T prior b) = done ++ todo) (l : Int) :
    (after d done l).results = (d l).results ∨ ∃ e ∈ runEvents c S T prior b,
      e.label = l ∧ e.result.isSome = true ∧ (after d done l).results = e.result :=
  effects_content _ d done (fun x hx => h ▸ List.mem_append_left _ hx) l

/-- C97 (partial: for calls that end with `optimal` or `feasible`): after a run from scratch, the results with number `j`
are in the file with that number. -/
theorem C97_saved_partial (c : Cfg) (S : Solver) (T : Status) (prior : Prior) (b : Backend) (o : Outcome) (d : Folder)
    (hf : c.useLatest = false) (h : run c S prior b = .ok o) (j : Nat) (r : Result)
    (hr : o.results[j]? = some ((j : Int), r))
    (hc : ∀ x, o.calls[j]? = some x → T j x.backend = "optimal" ∨ T j x.backend = "feasible") :
    Saved (after d (effects (runEvents c S T prior b))) j r := by
  obtain ⟨k, hk, hlab, hres, _⟩ := C31_run c S prior b o hf h
  have hjk : j ≤ k := by
    have h1 := (List.getElem?_eq_some_iff.1 hr).1
    have h2 := congrArg List.length hlab
    simp at h2
    omega
  obtain ⟨x, r', _, hx, hr', hxr, _⟩ := hres j hjk
  rw [hr] at hr'
  cases hr'
  obtain ⟨_, hev⟩ := runEvents_fresh c S T prior b o hf h
  have he := List.mem_of_getElem? (hev j x hx)
  have := effects_file _ (runEvents_sorted c S T prior b) d _ he
  simp only [] at this
  unfold Saved
  rw [this]
  refine effectsOf_saved d ⟨(j : Int), T j x.backend, x.result⟩ r ?_ hxr
  unfold conclusive
  rcases hc x hx with h | h <;> simp [h]

/-- C97 (partial, likewise): a run that continues from earlier results saves those it adds. -/
theorem C97_restart_partial (c : Cfg) (S : Solver) (T : Status) (rs : List (Int × Result)) (b : Backend) (o : Outcome)
    (d : Folder) (hf : c.useLatest = true) (h : run c S (.spores rs) b = .ok o) (j : Nat) (x : Call) (r : Result)
    (hx : o.calls[j]? = some x) (hr : x.result = some r)
    (hc : T j x.backend = "optimal" ∨ T j x.backend = "feasible") :
    Saved (after d (effects (runEvents c S T (.spores rs) b))) (maxLabel rs + 1 + j) r ∧
      ∀ l, l ≤ maxLabel rs → after d (effects (runEvents c S T (.spores rs) b)) l = d l := by
  obtain ⟨_, hev⟩ := runEvents_restart c S T rs b o hf h
  have he := List.mem_of_getElem? (hev j x hx)
  constructor
  · have := effects_file _ (runEvents_sorted c S T (.spores rs) b) d _ he
    simp only [] at this
    unfold Saved
    rw [this]
    refine effectsOf_saved d ⟨maxLabel rs + 1 + (j : Int), T j x.backend, x.result⟩ r ?_ hr
    unfold conclusive
    rcases hc with h | h <;> simp [h]
  · intro l hl
    refine after_untouched _ _ _ ?_
    intro y hy ht
    obtain ⟨e, hm, hle⟩ := effects_touch _ y hy l ht
    have hgt : maxLabel rs < e.label := by
      unfold runEvents at hm
      rw [if_pos hf] at hm
      exact (exploreEvents_gt c S T _ _ _ _ e hm).1
    omega

/-- C97 is false for spores whose solver stopped early with a solution, say at a time limit: the results are in memory,
but no file is written; if there was one with that number, it stays. -/
theorem C97_unsaved (c : Cfg) (S : Solver) (T : Status) (prior : Prior) (b : Backend) (o : Outcome) (d : Folder)
    (hf : c.useLatest = false) (h : run c S prior b = .ok o) (j : Nat) (x : Call) (hx : o.calls[j]? = some x)
    (h1 : T j x.backend ≠ "optimal") (h2 : T j x.backend ≠ "feasible") :
    after d (effects (runEvents c S T prior b)) j = d j := by
  obtain ⟨_, hev⟩ := runEvents_fresh c S T prior b o hf h
  have he := List.mem_of_getElem? (hev j x hx)
  have := effects_file _ (runEvents_sorted c S T prior b) d _ he
  simp only [] at this
  rw [this, effectsOf_unsaved]
  rintro ⟨hc, _⟩
  unfold conclusive at hc
  simp [h1, h2] at hc

/-- C97: files with other numbers stay as they were, also if they are of an earlier run with more spores: what is in the
folder then is a mixture. -/
theorem C97_stale (c : Cfg) (S : Solver) (T : Status) (prior : Prior) (b : Backend) (d : Folder) (hf : c.useLatest = false)
    (l : Int) (hl : l < 0 ∨ (0 < l ∧ c.number < l)) : after d (effects (runEvents c S T prior b)) l = d l := by
  refine after_untouched _ _ _ ?_
  intro y hy ht
  obtain ⟨e, hm, hle⟩ := effects_touch _ y hy l ht
  unfold runEvents at hm
  rw [if_neg (by rw [hf]; simp)] at hm
  rcases List.mem_cons.1 hm with rfl | hm
  · simp only at hle
    omega
  · have := exploreEvents_gt c S T _ _ _ _ e hm
    omega

/-- `y` is `x`, or zero if `x` is nearer to zero than `t`. -/
def Rounded (t : Rat) (x y : Option Rat) : Prop :=
  (x = none ∧ y = none) ∨ ∃ v, x = some v ∧ ((|v| < t ∧ y = some 0) ∨ (t ≤ |v| ∧ y = some v))

theorem rounded_threshold (t : Rat) (x : Option Rat) : Rounded t x (threshold t x) := by
  cases x with
  | none => exact .inl ⟨rfl, rfl⟩
  | some v =>
    unfold threshold
    by_cases hlt : |v| < t
    · exact .inr ⟨v, rfl, .inl ⟨hlt, by simp only [if_pos hlt]⟩⟩
    · exact .inr ⟨v, rfl, .inr ⟨not_lt.1 hlt, by simp only [if_neg hlt]⟩⟩

theorem rounded_zero (x : Option Rat) : Rounded 0 x x := by
  cases x with
  | none => exact .inl ⟨rfl, rfl⟩
  | some v => exact .inr ⟨v, rfl, .inr ⟨abs_nonneg v, rfl⟩⟩

/-- C97: what is in memory after a run is what is in the files, spore by spore, with numbers nearer to zero than the
threshold set to zero, which those in the files are not. -/
theorem C97_memory (t : Rat) (joined : String) (hj : joined = "optimal" ∨ joined = "feasible")
    (results : List (Int × Result)) :
    (inMemory t joined results).map Prod.fst = results.map Prod.fst ∧
    ∀ (k : Nat) (l : Int) (r : Result), results[k]? = some (l, r) →
      ∃ r', (inMemory t joined results)[k]? = some (l, r') ∧
        (∀ i, Rounded t (r.cap i) (r'.cap i)) ∧ Rounded t (some r.value) (some r'.value) ∧
        (∀ i, Rounded t (r.scoreTracked i) (r'.scoreTracked i)) ∧
        (match r.costTracked, r'.costTracked with
          | none, none => True
          | some x, some y => Rounded t x y
          | _, _ => False) := by
  have hc : conclusive joined = true := by
    unfold conclusive
    rcases hj with h | h <;> simp [h]
  have he : inMemory t joined results = results.map (fun e => (e.1, thresholded t e.2)) := by
    unfold inMemory
    rw [if_pos hc]
  rw [he]
  refine ⟨by rw [List.map_map]; rfl, ?_⟩
  intro k l r h
  refine ⟨thresholded t r, by rw [List.getElem?_map, h]; rfl, ?_⟩
  unfold thresholded
  by_cases ht : t = 0
  · rw [if_pos ht]
    subst ht
    refine ⟨fun i => rounded_zero _, rounded_zero _, fun i => rounded_zero _, ?_⟩
    cases r.costTracked with
    | none => trivial
    | some x => exact rounded_zero x
  · rw [if_neg ht]
    refine ⟨fun i => rounded_threshold _ _, ?_, fun i => rounded_threshold _ _, ?_⟩
    · show Rounded t (some r.value) (some ((threshold t (some r.value)).getD 0))
      have hs : threshold t (some r.value) = some ((threshold t (some r.value)).getD 0) := by
        show (if |r.value| < t then some 0 else some r.value) =
          some ((if |r.value| < t then some 0 else some r.value : Option Rat).getD 0)
        split <;> rfl
      rw [← hs]
      exact rounded_threshold t _
    · cases r.costTracked with
      | none => trivial
      | some x => exact rounded_threshold t x

/-! ### Examples -/

section Files

/-- An empty folder. -/
def noFiles : Folder := fun _ => ⟨none, false, false⟩

/-- All calls are conclusive. -/
def fine : Status := fun _ _ => "optimal"

/-- The last call stops at its time limit. -/
def slow : Status := fun k _ => if k = 2 then "maxTimeLimit" else "optimal"

/-- What is in a folder. -/
def listing (d : Folder) (ls : List Int) : List (Int × Option (Option Rat) × Bool × Bool) :=
  ls.map (fun l => (l, (d l).results.map (fun r => r.cap wind), (d l).attrs, (d l).inputs))

example : listing (after noFiles (effects (runEvents (toy .integer 2 false) cheapest fine .nothing built)))
      [0, 1, 2, 3] =
    [(0, some (some 5), true, true), (1, some (some 0), true, false), (2, some (some 5), true, false),
     (3, none, false, false)] := by
  decide +kernel

/-- The hypotheses of `C97_crash_partial`: the run stops while spore 2 is solved or saved. -/
example : ∃ done todo e, effects (runEvents (toy .integer 2 false) cheapest fine .nothing built) = done ++ todo ∧
    e ∈ runEvents (toy .integer 2 false) cheapest fine .nothing built ∧ e.status = "optimal" ∧ e.label = 1 ∧
    e.result.isSome = true ∧ Effect.solved 2 ∈ done :=
  ⟨(effects (runEvents (toy .integer 2 false) cheapest fine .nothing built)).take 8,
    (effects (runEvents (toy .integer 2 false) cheapest fine .nothing built)).drop 8, _, (List.take_append_drop _ _).symm,
    List.mem_cons_of_mem _ List.mem_cons_self, rfl, rfl, rfl,
    List.mem_of_getElem? (i := 7) rfl⟩

/-- C97 is false: spore 2 is among the results, but has no file. -/
theorem C97_time_limit : ∃ o, run (toy .integer 2 false) cheapest .nothing built = .ok o ∧
    (∃ r, o.results[2]? = some (2, r)) ∧
    after noFiles (effects (runEvents (toy .integer 2 false) cheapest slow .nothing built)) 2 = noFiles 2 :=
  ⟨_, rfl, ⟨_, rfl⟩, C97_unsaved (toy .integer 2 false) cheapest slow .nothing built _ noFiles rfl rfl 2 _ rfl
    (by simp [slow]) (by simp [slow])⟩

/-- A run that continues from spore 1. -/
example : ∃ o rs, run (toy .integer 2 true) cheapest (.spores rs) built = .ok o ∧ rs ≠ [] ∧ o.calls.length = 1 ∧
    listing (after noFiles (effects (runEvents (toy .integer 2 true) cheapest fine (.spores rs) built))) [0, 1, 2] =
      [(0, none, false, false), (1, none, false, false), (2, some (some 5), true, false)] := by
  refine ⟨_, [(0, ⟨fun _ => some 5, 100, fun _ => some 0, some none⟩),
    (1, ⟨fun i => if i = wind then some 0 else some 5, 100, fun i => if i = wind then some 1000 else some 0,
      some (some 100)⟩)], rfl, by simp, by decide +kernel, by decide +kernel⟩

end Files

end Spores
end Calliope
