import Verif.Spec.Results
import Verif.Props.Operate

/-!
# C90: results and shadow prices
-/

namespace Calliope
namespace Results

section

variable {A : Type} {arrays : Arrays A} {post : List (String × A) → List (String × A)}

/-! ### Dictionaries -/

theorem lookup_assign (d : List (String × A)) (k : String) (v : A) (n : String) :
    (assign d k v).lookup n = if n = k then some v else d.lookup n := by
  induction d with
  | nil =>
    by_cases h : n = k
    · simp [assign, List.lookup, h]
    · simp [assign, List.lookup, h, beq_false_of_ne h]
  | cons p r ih =>
    obtain ⟨k', v'⟩ := p
    simp only [assign]
    by_cases hk : k' = k
    · subst hk
      by_cases h : n = k'
      · simp [h]
      · simp [List.lookup, h, beq_false_of_ne h]
    · rw [if_neg hk]
      by_cases h : n = k'
      · subst h
        simp [hk]
      · rw [List.lookup_cons, beq_false_of_ne h, ih, List.lookup_cons, beq_false_of_ne h]

theorem keys_assign (d : List (String × A)) (k : String) (v : A) (h : (d.map Prod.fst).Nodup) :
    ((assign d k v).map Prod.fst).Nodup ∧ ∀ n, n ∈ (assign d k v).map Prod.fst ↔ n = k ∨ n ∈ d.map Prod.fst := by
  induction d with
  | nil => simp [assign]
  | cons p r ih =>
    obtain ⟨k', v'⟩ := p
    simp only [List.map_cons, List.nodup_cons] at h
    obtain ⟨ih1, ih2⟩ := ih h.2
    simp only [assign]
    by_cases hk : k' = k
    · subst hk
      simp only [if_true, List.map_cons, List.nodup_cons, List.mem_cons]
      exact ⟨h, fun n => by tauto⟩
    · rw [if_neg hk]
      simp only [List.map_cons, List.nodup_cons, List.mem_cons, ih2]
      exact ⟨⟨fun hm => hm.elim hk h.1, ih1⟩, fun n => by tauto⟩

theorem keys_merge (e d : List (String × A)) (h : (d.map Prod.fst).Nodup) : ((merge d e).map Prod.fst).Nodup := by
  induction e generalizing d with
  | nil => exact h
  | cons p r ih => exact ih _ (keys_assign d p.1 p.2 h).1

/-- Names that a dictionary does not have stay as they are. -/
theorem lookup_merge_other (e : List (String × A)) (n : String) (hn : n ∉ e.map Prod.fst) (d : List (String × A)) :
    (merge d e).lookup n = d.lookup n := by
  induction e generalizing d with
  | nil => rfl
  | cons p r ih =>
    simp only [List.map_cons, List.mem_cons, not_or] at hn
    show (merge (assign d p.1 p.2) r).lookup n = _
    rw [ih hn.2, lookup_assign, if_neg hn.1]

/-- Names that it has are as it has them. -/
theorem lookup_merge (e : List (String × A)) (hd : (e.map Prod.fst).Nodup) (n : String) (v : A)
    (hv : e.lookup n = some v) (d : List (String × A)) : (merge d e).lookup n = some v := by
  induction e generalizing d with
  | nil => cases hv
  | cons p r ih =>
    obtain ⟨k, w⟩ := p
    simp only [List.map_cons, List.nodup_cons] at hd
    show (merge (assign d k w) r).lookup n = _
    by_cases h : n = k
    · subst h
      rw [lookup_merge_other r n hd.1, lookup_assign, if_pos rfl]
      simpa using hv
    · rw [List.lookup_cons, beq_false_of_ne h] at hv
      exact ih hd.2 hv _

theorem lookup_filter (d : List (String × A)) (p : A → Bool) (hd : (d.map Prod.fst).Nodup) (n : String) :
    (d.filter (fun q => p q.2)).lookup n = (d.lookup n).filter p := by
  induction d with
  | nil => rfl
  | cons q r ih =>
    obtain ⟨k, v⟩ := q
    simp only [List.map_cons, List.nodup_cons] at hd
    have hr : k ∉ (r.filter (fun q => p q.2)).map Prod.fst := fun h => hd.1 (by
      obtain ⟨x, hx, rfl⟩ := List.mem_map.1 h
      exact List.mem_map.2 ⟨x, (List.mem_filter.1 hx).1, rfl⟩)
    have hnone : ∀ {l : List (String × A)}, k ∉ l.map Prod.fst → l.lookup k = none := by
      intro l hl
      rw [List.lookup_eq_none_iff]
      intro x hx
      simp only [bne_iff_ne]
      exact fun e => hl (List.mem_map.2 ⟨x, hx, e.symm⟩)
    by_cases h : n = k
    · subst h
      simp only [List.filter_cons, List.lookup_cons, beq_self_eq_true]
      cases hp : p v
      · simp only [Bool.false_eq_true, if_false, Option.filter_some, hp]
        exact hnone hr
      · simp [Option.filter_some, hp]
    · simp only [List.filter_cons, List.lookup_cons, beq_false_of_ne h]
      split
      · rw [List.lookup_cons, beq_false_of_ne h, ih hd.2]
      · exact ih hd.2

/-! ### Names -/

theorem price_inj {c d : String} (h : "shadow_price_" ++ c = "shadow_price_" ++ d) : c = d := by
  have := congrArg String.toList h
  rw [String.toList_append, String.toList_append] at this
  exact String.toList_inj.1 (List.append_cancel_left this)

theorem prices_nodup {b : Backend A} (h : b.tracked.Nodup) :
    ((b.tracked.map (fun c => ("shadow_price_" ++ c, getPrice arrays b c))).map Prod.fst).Nodup := by
  rw [List.map_map]
  exact List.Pairwise.map _ (fun _ _ hne he => hne (price_inj he)) h

theorem prices_lookup {b : Backend A} (c : String) :
    (b.tracked.map (fun c => ("shadow_price_" ++ c, getPrice arrays b c))).lookup ("shadow_price_" ++ c) =
      if c ∈ b.tracked then some (getPrice arrays b c) else none := by
  induction b.tracked with
  | nil => rfl
  | cons d r ih =>
    simp only [List.map_cons, List.lookup_cons, List.mem_cons]
    by_cases h : c = d
    · subst h
      simp
    · rw [beq_false_of_ne (fun e => h (price_inj e)), ih]
      simp [h]

theorem mem_keys {l : List (String × A)} {n : String} : n ∈ l.map Prod.fst ↔ ∃ v, l.lookup n = some v := by
  constructor
  · intro h
    cases hl : l.lookup n with
    | some v => exact ⟨v, rfl⟩
    | none =>
      rw [List.lookup_eq_none_iff] at hl
      obtain ⟨x, hx, rfl⟩ := List.mem_map.1 h
      simpa using hl x hx
  · rintro ⟨v, hv⟩
    by_contra hn
    have : l.lookup n = none := by
      rw [List.lookup_eq_none_iff]
      intro x hx
      simp only [bne_iff_ne]
      exact fun e => hn (List.mem_map.2 ⟨x, hx, e.symm⟩)
    rw [this] at hv
    cases hv

/-- The results, as they are put together. -/
theorem load_lookup (f : Found A) (b : Backend A) (postprocess : Bool) {n : String}
    (hpost : ∀ r, n ∉ (post r).map Prod.fst) :
    (loadResults arrays post postprocess f b).lookup n =
      ((merge (merge (merge (merge [] f.decisions) f.expressions)
        (b.tracked.map (fun c => ("shadow_price_" ++ c, getPrice arrays b c)))) f.objectives).lookup n).filter
        arrays.hasValue := by
  have hk : ((merge (merge (merge (merge [] f.decisions) f.expressions)
      (b.tracked.map (fun c => ("shadow_price_" ++ c, getPrice arrays b c)))) f.objectives).map Prod.fst).Nodup :=
    keys_merge _ _ (keys_merge _ _ (keys_merge _ _ (keys_merge _ _ List.nodup_nil)))
  simp only [loadResults]
  cases postprocess
  · exact lookup_filter _ _ hk n
  · simp only [if_true]
    rw [lookup_filter _ _ (keys_merge _ _ hk), lookup_merge_other _ _ (hpost _)]

theorem tracked_of (asked : List String) (b : Backend A) :
    (trackConstraints asked b).1.tracked = asked.filter (fun c => decide (c ∈ b.constraints)) := rfl

theorem tracked_solve (cfg : SolveConfig) (found : Option (Found A)) (b : Backend A) :
    (solveBackend arrays post cfg found b).1.tracked = b.tracked := by
  unfold solveBackend loadSolution deactivate
  split <;> split <;> simp <;> split <;> rfl

/-- C90, values: the results have the value that the solver found of every decision variable, global expression and
objective, under its name, unless it is empty. -/
theorem C90_values (cfg : SolveConfig) (f : Found A) (b : Backend A) (h : Apart post f cfg.shadowPrices) {n : String}
    {v : A} (hn : f.values.lookup n = some v) :
    ∃ r, (solve arrays post cfg (some f) b).2 = some r ∧
      r.lookup n = if arrays.hasValue v then some v else none := by
  refine ⟨_, rfl, ?_⟩
  have hmem : n ∈ f.values.map Prod.fst := mem_keys.2 ⟨v, hn⟩
  rw [load_lookup _ _ _ (fun r => h.postValues r n hmem)]
  have hv := h.values
  simp only [Found.values, List.map_append, List.nodup_append] at hv
  obtain ⟨⟨h1, h2, h3⟩, h4, h5⟩ := hv
  have key : ∀ P : List (String × A), (∀ p ∈ P, ∃ c ∈ cfg.shadowPrices, p.1 = "shadow_price_" ++ c) →
      (merge (merge (merge (merge [] f.decisions) f.expressions) P) f.objectives).lookup n = some v := by
    intro P hP
    have hnP : n ∉ P.map Prod.fst := by
      intro hm
      obtain ⟨p, hp, rfl⟩ := List.mem_map.1 hm
      obtain ⟨c, hc, he⟩ := hP p hp
      exact h.prices c hc (he ▸ hmem)
    simp only [Found.values] at hn
    rw [List.lookup_append, List.lookup_append] at hn
    by_cases ho : n ∈ f.objectives.map Prod.fst
    · obtain ⟨w, hw⟩ := mem_keys.1 ho
      have hd : f.decisions.lookup n = none := by
        by_contra hne
        obtain ⟨x, hx⟩ := Option.ne_none_iff_exists'.1 hne
        exact h5 n (List.mem_append_left _ (mem_keys.2 ⟨x, hx⟩)) n ho rfl
      have he : f.expressions.lookup n = none := by
        by_contra hne
        obtain ⟨x, hx⟩ := Option.ne_none_iff_exists'.1 hne
        exact h5 n (List.mem_append_right _ (mem_keys.2 ⟨x, hx⟩)) n ho rfl
      rw [hd, he, hw] at hn
      simp only [Option.none_or, Option.some.injEq] at hn
      subst hn
      exact lookup_merge _ h4 n w hw _
    · rw [lookup_merge_other _ _ ho, lookup_merge_other _ _ hnP]
      have ho' : f.objectives.lookup n = none := by
        by_contra hne
        obtain ⟨x, hx⟩ := Option.ne_none_iff_exists'.1 hne
        exact ho (mem_keys.2 ⟨x, hx⟩)
      rw [ho', Option.or_none] at hn
      by_cases he : n ∈ f.expressions.map Prod.fst
      · obtain ⟨w, hw⟩ := mem_keys.1 he
        have hd : f.decisions.lookup n = none := by
          by_contra hne
          obtain ⟨x, hx⟩ := Option.ne_none_iff_exists'.1 hne
          exact h3 n (mem_keys.2 ⟨x, hx⟩) n he rfl
        rw [hd, hw] at hn
        simp only [Option.none_or, Option.some.injEq] at hn
        subst hn
        exact lookup_merge _ h2 n w hw _
      · rw [lookup_merge_other _ _ he]
        have he' : f.expressions.lookup n = none := by
          by_contra hne
          obtain ⟨x, hx⟩ := Option.ne_none_iff_exists'.1 hne
          exact he (mem_keys.2 ⟨x, hx⟩)
        rw [he', Option.or_none] at hn
        exact lookup_merge _ h1 n v hn _
  rw [key _ ?_]
  · rfl
  · intro p hp
    obtain ⟨c, hc, rfl⟩ := List.mem_map.1 hp
    refine ⟨c, ?_, rfl⟩
    have : c ∈ (solveBackend arrays post cfg (some f) (trackConstraints cfg.shadowPrices b).1).1.tracked := hc
    rw [tracked_solve, tracked_of] at this
    exact (List.mem_filter.1 this).1

/-- What the results have under the name of a shadow price that was asked for. -/
theorem price_of (f : Found A) (b : Backend A) (postprocess : Bool) (asked : List String) (h : Apart post f asked)
    (hn : b.tracked.Nodup) {c : String} (hc : c ∈ asked) :
    (loadResults arrays post postprocess f b).lookup ("shadow_price_" ++ c) =
      if c ∈ b.tracked then (some (getPrice arrays b c)).filter arrays.hasValue else none := by
  rw [load_lookup _ _ _ (fun r => h.postPrices r c hc)]
  have hnot := h.prices c hc
  simp only [Found.values, List.map_append, List.mem_append, not_or] at hnot
  rw [lookup_merge_other _ _ hnot.2]
  by_cases ht : c ∈ b.tracked
  · rw [if_pos ht, lookup_merge _ (prices_nodup hn) _ _ (by rw [prices_lookup, if_pos ht])]
  · rw [if_neg ht, lookup_merge_other, lookup_merge_other _ _ hnot.1.2, lookup_merge_other _ _ hnot.1.1]
    · rfl
    · intro hm
      obtain ⟨v, hv⟩ := mem_keys.1 hm
      rw [prices_lookup, if_neg ht] at hv
      cases hv

/-- C90, shadow prices: whatever was solved before, after a solve by another solver than CBC of a model without integer
variables the results have the duals that were found, for exactly the constraints of the model that are asked for. -/
theorem C90_prices_partial (cfg : SolveConfig) (f : Found A) (b : Backend A) (h : Apart post f cfg.shadowPrices)
    (hn : cfg.shadowPrices.Nodup) (hs : cfg.solver ≠ "cbc") (hi : b.integer = false)
    (hd : arrays.hasValue arrays.nothing = false) {c : String} (hc : c ∈ cfg.shadowPrices) (v : A) :
    ∃ r, (solve arrays post cfg (some f) b).2 = some r ∧
      (r.lookup ("shadow_price_" ++ c) = some v ↔
        c ∈ b.constraints ∧ f.duals.lookup c = some v ∧ arrays.hasValue v = true) := by
  refine ⟨_, rfl, ?_⟩
  rw [price_of (asked := cfg.shadowPrices) _ _ _ h ?_ hc]
  · have ht : (loadSolution f (if cfg.solver = "cbc" ∧ (trackConstraints cfg.shadowPrices b).1.active = true then
        deactivate (trackConstraints cfg.shadowPrices b).1 else (trackConstraints cfg.shadowPrices b).1)).tracked =
        cfg.shadowPrices.filter (fun c => decide (c ∈ b.constraints)) := tracked_solve (arrays := arrays) (post := post) cfg (some f) _
    rw [ht]
    by_cases hcc : c ∈ b.constraints
    · have hne : cfg.shadowPrices.filter (fun c => decide (c ∈ b.constraints)) ≠ [] :=
        List.ne_nil_of_mem (List.mem_filter.2 ⟨hc, by simpa using hcc⟩)
      have hact : (trackConstraints cfg.shadowPrices b).1.active = true := by
        simp only [trackConstraints, activate]
        rw [if_pos hne, hi]
        rfl
      rw [if_pos (List.mem_filter.2 ⟨hc, by simpa using hcc⟩), if_neg (fun e => hs e.1)]
      simp only [loadSolution, hact, if_true, getPrice, hcc, true_and]
      cases hl : f.duals.lookup c with
      | none => simp [Option.filter_some, hd]
      | some w =>
        simp only [Option.getD_some, Option.filter_some, Option.some.injEq]
        constructor
        · intro he
          split at he
          · rename_i hw
            cases he
            exact ⟨rfl, hw⟩
          · cases he
        · rintro ⟨rfl, hw⟩
          rw [if_pos hw]
    · rw [if_neg (fun hm => hcc (by simpa using (List.mem_filter.1 hm).2))]
      simp [hcc]
  · have := tracked_solve (arrays := arrays) (post := post) cfg (some f) (trackConstraints cfg.shadowPrices b).1
    rw [tracked_of] at this
    show (Backend.tracked (loadSolution f _)).Nodup
    exact this ▸ hn.filter _

/-! ### Where it is false -/

/-- C90 is false of the code after a change of the solver: the duals of an earlier solve are in the results of a later one
by CBC, which has none, whatever CBC finds. -/
theorem C90_stale (cfg cfg' : SolveConfig) (f f' : Found A) (b : Backend A) {c : String} {v : A}
    (h : Apart post f' cfg'.shadowPrices) (hn : cfg'.shadowPrices.Nodup) (hs : cfg.solver ≠ "cbc")
    (hs' : cfg'.solver = "cbc") (hi : b.integer = false) (hc : c ∈ cfg.shadowPrices) (hc' : c ∈ cfg'.shadowPrices)
    (hcc : c ∈ b.constraints) (hv : f.duals.lookup c = some v) (hval : arrays.hasValue v = true) :
    ∃ r, (solve arrays post cfg' (some f') (solve arrays post cfg (some f) b).1).2 = some r ∧
      r.lookup ("shadow_price_" ++ c) = some v := by
  have hne : cfg.shadowPrices.filter (fun c => decide (c ∈ b.constraints)) ≠ [] :=
    List.ne_nil_of_mem (List.mem_filter.2 ⟨hc, by simpa using hcc⟩)
  have h1 : (solve arrays post cfg (some f) b).1 = { b with
      tracked := cfg.shadowPrices.filter (fun c => decide (c ∈ b.constraints)), active := true, store := f.duals } := by
    have ht : (trackConstraints cfg.shadowPrices b).1 = { b with
        tracked := cfg.shadowPrices.filter (fun c => decide (c ∈ b.constraints)), active := true } := by
      simp only [trackConstraints, activate, if_pos hne, hi, Bool.false_eq_true, if_false]
    unfold solve
    rw [ht]
    simp [solveBackend, hs, loadSolution]
  rw [h1]
  have hne' : cfg'.shadowPrices.filter (fun c => decide (c ∈ b.constraints)) ≠ [] :=
    List.ne_nil_of_mem (List.mem_filter.2 ⟨hc', by simpa using hcc⟩)
  refine ⟨_, rfl, ?_⟩
  rw [price_of (asked := cfg'.shadowPrices) _ _ _ h ?_ hc']
  · simp only [trackConstraints, activate, if_pos hne', hi, Bool.false_eq_true, if_false, hs', true_and, if_true,
      deactivate, loadSolution, getPrice, hv, Option.getD_some, Option.filter_some, hval, hc', hcc, List.mem_filter,
      decide_true, and_self]
  · simp only [trackConstraints, activate, if_pos hne', hi, Bool.false_eq_true, if_false, hs', true_and, if_true,
      deactivate, loadSolution]
    exact hn.filter _

/-- C90, integer variables: a model with integer or binary variables never has shadow prices. -/
theorem C90_integer (cs : List String) (history : List (SolveConfig × Option (Found A))) (cfg : SolveConfig) (f : Found A)
    (h : Apart post f cfg.shadowPrices) (hn : cfg.shadowPrices.Nodup) (hd : arrays.hasValue arrays.nothing = false)
    {c : String} (hc : c ∈ cfg.shadowPrices) :
    ∃ r, (solve arrays post cfg (some f) (afterSolves arrays post (newBackend cs true) history)).2 = some r ∧
      r.lookup ("shadow_price_" ++ c) = none := by
  have keep : ∀ (cfg : SolveConfig) (found : Option (Found A)) (b : Backend A),
      b.integer = true ∧ b.active = false ∧ b.store = [] →
      (solve arrays post cfg found b).1.integer = true ∧ (solve arrays post cfg found b).1.active = false ∧
        (solve arrays post cfg found b).1.store = [] := by
    rintro cfg found b ⟨h1, h2, h3⟩
    have ht : (trackConstraints cfg.shadowPrices b).1 = { b with
        tracked := cfg.shadowPrices.filter (fun c => decide (c ∈ b.constraints)) } := by
      simp only [trackConstraints, activate, h1, if_true, ite_self]
    unfold solve
    rw [ht]
    cases found <;> simp [solveBackend, loadSolution, h1, h2, h3]
  have inv : ∀ (history : List (SolveConfig × Option (Found A))) (b : Backend A),
      b.integer = true ∧ b.active = false ∧ b.store = [] →
      (afterSolves arrays post b history).integer = true ∧ (afterSolves arrays post b history).active = false ∧
        (afterSolves arrays post b history).store = [] := by
    intro history
    induction history with
    | nil => exact fun _ h => h
    | cons x rest ih => exact fun b hb => ih _ (keep x.1 x.2 b hb)
  have hb := inv history (newBackend cs true) ⟨rfl, rfl, rfl⟩
  generalize afterSolves arrays post (newBackend cs true) history = b at hb
  obtain ⟨h1, h2, h3⟩ := hb
  have ht : (trackConstraints cfg.shadowPrices b).1 = { b with
      tracked := cfg.shadowPrices.filter (fun c => decide (c ∈ b.constraints)) } := by
    simp only [trackConstraints, activate, h1, if_true, ite_self]
  refine ⟨_, rfl, ?_⟩
  rw [ht]
  simp only [h2, Bool.false_eq_true, and_false, if_false, loadSolution]
  rw [price_of (asked := cfg.shadowPrices) f { b with
      tracked := cfg.shadowPrices.filter (fun c => decide (c ∈ b.constraints)), active := false } _ h (hn.filter _) hc]
  split
  · simp [getPrice, h3, Option.filter_some, hd]
  · rfl

/-! ### Operate mode -/

/-- Results of windows: those of one after another. -/
theorem operateLoop_cons (cfg : SolveConfig) (b : Backend A) (rebuild : Bool) (f : Found A)
    (rest : List (Bool × Found A)) :
    operateLoop arrays post cfg b ((rebuild, f) :: rest) =
      ((solveBackend arrays post cfg (some f) (if rebuild then newBackend b.constraints b.integer else b)).2.getD []) ::
        operateLoop arrays post cfg
          (solveBackend arrays post cfg (some f) (if rebuild then newBackend b.constraints b.integer else b)).1 rest := rfl

/-- Nothing is tracked: no shadow price is in the results of this window or any later one. -/
theorem untracked (cfg : SolveConfig) {c : String} (hc : c ∈ cfg.shadowPrices) :
    ∀ (windows : List (Bool × Found A)) (b : Backend A), b.tracked = [] →
      (∀ w ∈ windows, Apart post w.2 cfg.shadowPrices) →
      ∀ r ∈ operateLoop arrays post cfg b windows, r.lookup ("shadow_price_" ++ c) = none := by
  intro windows
  induction windows with
  | nil =>
    intro b _ _ r hr
    cases hr
  | cons w rest ih =>
    obtain ⟨rebuild, f⟩ := w
    intro b hb hw r hr
    have hb' : (if rebuild then newBackend b.constraints b.integer else b).tracked = [] := by
      cases rebuild
      · exact hb
      · rfl
    rw [operateLoop_cons] at hr
    have ht := tracked_solve (arrays := arrays) (post := post) cfg (some f)
      (if rebuild then newBackend b.constraints b.integer else b)
    rw [hb'] at ht
    rcases List.mem_cons.1 hr with rfl | hr
    · show (loadResults arrays post cfg.postprocessing f _).lookup _ = none
      rw [price_of (asked := cfg.shadowPrices) f _ _ (hw (rebuild, f) (by simp)) ?_ hc]
      · rw [if_neg]
        intro hm
        have : c ∈ (solveBackend arrays post cfg (some f)
          (if rebuild then newBackend b.constraints b.integer else b)).1.tracked := hm
        rw [ht] at this
        cases this
      · have : (solveBackend arrays post cfg (some f)
          (if rebuild then newBackend b.constraints b.integer else b)).1.tracked.Nodup := ht ▸ List.nodup_nil
        exact this
    · exact ih _ ht (fun w hw' => hw w (List.mem_cons_of_mem _ hw')) r hr

/-- C90 is false of the code in operate mode, first part: when a model is solved again, no window has any of the shadow
prices that are asked for. -/
theorem C90_operate_again (cfg : SolveConfig) (first : Found A) (later : List (Bool × Found A)) (b : Backend A)
    (hw : ∀ w ∈ (true, first) :: later, Apart post w.2 cfg.shadowPrices) {c : String} (hc : c ∈ cfg.shadowPrices) :
    ∀ r ∈ solveOperate arrays post cfg true first later b, r.lookup ("shadow_price_" ++ c) = none := by
  intro r hr
  have key := untracked (arrays := arrays) (post := post) cfg hc ((true, first) :: later)
    (newBackend (trackConstraints cfg.shadowPrices b).1.constraints (trackConstraints cfg.shadowPrices b).1.integer) rfl hw r
  exact key hr

/-- C90 is false of the code in operate mode, second part: from the first window on that has another number of time steps
than the one before, no window has any of the shadow prices that are asked for. -/
theorem C90_operate_lost (cfg : SolveConfig) (again : Bool) (first f : Found A) (before after : List (Bool × Found A))
    (b : Backend A) (hw : ∀ w ∈ (again, first) :: before ++ (true, f) :: after, Apart post w.2 cfg.shadowPrices)
    {c : String} (hc : c ∈ cfg.shadowPrices) :
    ∀ r ∈ (solveOperate arrays post cfg again first (before ++ (true, f) :: after) b).drop (before.length + 1),
      r.lookup ("shadow_price_" ++ c) = none := by
  have key : ∀ (before : List (Bool × Found A)) (b : Backend A),
      (∀ w ∈ before ++ (true, f) :: after, Apart post w.2 cfg.shadowPrices) →
      ∀ r ∈ (operateLoop arrays post cfg b (before ++ (true, f) :: after)).drop before.length,
        r.lookup ("shadow_price_" ++ c) = none := by
    intro before
    induction before with
    | nil =>
      intro b hw r hr
      exact untracked (arrays := arrays) (post := post) cfg hc ((true, f) :: after)
        (newBackend b.constraints b.integer) rfl hw r hr
    | cons w rest ih =>
      intro b hw r hr
      exact ih _ (fun w' h => hw w' (List.mem_cons_of_mem _ h)) r hr
  exact key ((again, first) :: before) _ hw

/-- C90 in operate mode, if all windows have the same number of time steps and the model is solved for the first time. -/
theorem C90_operate_partial (cfg : SolveConfig) (first : Found A) (later : List (Bool × Found A)) (b : Backend A)
    (hw : ∀ w ∈ (false, first) :: later, Apart post w.2 cfg.shadowPrices) (hsame : ∀ w ∈ later, w.1 = false)
    (hn : cfg.shadowPrices.Nodup) (hs : cfg.solver ≠ "cbc") (hi : b.integer = false)
    (hd : arrays.hasValue arrays.nothing = false) {c : String} (hc : c ∈ cfg.shadowPrices) (hcc : c ∈ b.constraints)
    (v : A) :
    List.Forall₂ (fun f r => r.lookup ("shadow_price_" ++ c) = some v ↔
        f.duals.lookup c = some v ∧ arrays.hasValue v = true)
      (first :: later.map Prod.snd) (solveOperate arrays post cfg false first later b) := by
  have key : ∀ (windows : List (Bool × Found A)) (b : Backend A), b.active = true → b.tracked.Nodup → c ∈ b.tracked →
      (∀ w ∈ windows, Apart post w.2 cfg.shadowPrices) → (∀ w ∈ windows, w.1 = false) →
      List.Forall₂ (fun f r => r.lookup ("shadow_price_" ++ c) = some v ↔
        f.duals.lookup c = some v ∧ arrays.hasValue v = true)
        (windows.map Prod.snd) (operateLoop arrays post cfg b windows) := by
    intro windows
    induction windows with
    | nil => exact fun _ _ _ _ _ _ => .nil
    | cons w rest ih =>
      obtain ⟨rebuild, f⟩ := w
      intro b hb ht hct hw hsame
      have : rebuild = false := hsame (rebuild, f) (by simp)
      subst this
      have hsol : solveBackend arrays post cfg (some f) b =
          ({ b with store := f.duals }, some (loadResults arrays post cfg.postprocessing f { b with store := f.duals })) := by
        simp [solveBackend, hs, loadSolution, hb]
      rw [operateLoop_cons]
      simp only [Bool.false_eq_true, if_false, hsol, Option.getD_some, List.map_cons]
      refine .cons ?_ (ih _ hb ht hct (fun w h => hw w (List.mem_cons_of_mem _ h))
        (fun w h => hsame w (List.mem_cons_of_mem _ h)))
      rw [price_of (asked := cfg.shadowPrices) f { b with store := f.duals } _ (hw (false, f) (by simp)) ht hc,
        if_pos hct]
      simp only [getPrice]
      cases hl : f.duals.lookup c with
      | none => simp [Option.filter_some, hd]
      | some w =>
        simp only [Option.getD_some, Option.filter_some, Option.some.injEq]
        constructor
        · intro he
          split at he
          · rename_i hw
            cases he
            exact ⟨rfl, hw⟩
          · cases he
        · rintro ⟨rfl, hw⟩
          rw [if_pos hw]
  have hne : cfg.shadowPrices.filter (fun c => decide (c ∈ b.constraints)) ≠ [] :=
    List.ne_nil_of_mem (List.mem_filter.2 ⟨hc, by simpa using hcc⟩)
  refine key ((false, first) :: later) _ ?_ (hn.filter _) (List.mem_filter.2 ⟨hc, by simpa using hcc⟩) hw ?_
  · simp only [trackConstraints, activate]
    rw [if_pos hne, hi]
    rfl
  · intro w h
    rcases List.mem_cons.1 h with rfl | h
    · rfl
    · exact hsame w h

/-! ### When a window has another number of time steps -/

theorem length_between (w h : Int) (hw : 0 ≤ w) : ∀ n : Nat,
    (((List.range n).map (fun i : Nat => (i : Int))).filter (fun t => decide (w ≤ t ∧ t ≤ h))).length =
      (min (h + 1) n - w).toNat
  | 0 => by simp; omega
  | n + 1 => by
    rw [List.range_succ, List.map_append, List.filter_append, List.length_append, length_between w h hw n]
    simp only [List.map_cons, List.map_nil, List.filter_cons, List.filter_nil]
    by_cases hin : w ≤ (n : Int) ∧ (n : Int) ≤ h
    · simp only [hin, and_self, decide_true, if_true, List.length_cons, List.length_nil]
      push_cast
      omega
    · simp only [hin, decide_false, Bool.false_eq_true, if_false, List.length_nil]
      push_cast
      omega

theorem same_lengths {L : Type} (c : Operate.Cfg L) : ∀ (ws : List Int) (w : Int), true ∉ rebuilds c (w :: ws) →
    ∀ w' ∈ ws, (Operate.windowTimes c w').length = (Operate.windowTimes c w).length
  | [], _, _ => by simp
  | w' :: ws, w, h => by
    simp only [rebuilds, List.mem_cons, not_or] at h
    have h1 : (Operate.windowTimes c w').length = (Operate.windowTimes c w).length := by
      by_contra hne
      exact h.1 (by simp [hne])
    intro x hx
    rcases List.mem_cons.1 hx with rfl | hx
    · exact h1
    · exact (same_lengths c ws w' h.2 x hx).trans h1

/-- With regular time steps, more than one window and a horizon that is longer than a window, as in the examples of the
documentation, the model is built again for some window: C90_operate_lost applies. -/
theorem C90_rebuild {L : Type} (c : Operate.Cfg L) (n : Nat) (hax : c.axis = (List.range n).map (fun i : Nat => (i : Int)))
    (h1 : 1 ≤ c.window) (h2 : c.window < c.horizon) (h3 : c.window < n) :
    true ∈ rebuilds c (Operate.windowsteps c) := by
  obtain ⟨m, rfl⟩ : ∃ m, n = m + 1 := ⟨n - 1, by omega⟩
  have hlast : c.axis.getLast? = some (m : Int) := by
    rw [hax, List.range_succ, List.map_append]
    simp
  have hhead : c.axis.head? = some 0 := by
    rw [hax, List.range_succ_eq_map]
    simp
  have hsteps : Operate.windowsteps c = (List.range (((m : Int) / c.window).toNat + 1)).map
      (fun i : Nat => (i : Int) * c.window) := by
    simp only [Operate.windowsteps, hhead, hlast, Operate.dateRange, sub_zero, zero_add]
  have hlen : ∀ w : Int, 0 ≤ w → (Operate.windowTimes c w).length =
      (min (min (w + c.horizon) (m + 1)) ((m + 1 : Nat) : Int) - w).toNat := by
    intro w hw
    have : Operate.horizonstep c w = min (w + c.horizon) (m + 1) - 1 := by simp [Operate.horizonstep, hlast]
    rw [Operate.windowTimes, hax, this, length_between w _ hw]
    congr 3
    omega
  by_contra hno
  have hq : 1 ≤ (m : Int) / c.window := by
    rw [Int.le_ediv_iff_mul_le (by omega)]
    push_cast at h3
    omega
  obtain ⟨q, hq'⟩ : ∃ q : Nat, (m : Int) / c.window = (q : Int) + 1 := ⟨((m : Int) / c.window - 1).toNat, by omega⟩
  have hlist : Operate.windowsteps c = 0 :: (List.range (q + 1)).map (fun i : Nat => ((i : Int) + 1) * c.window) := by
    rw [hsteps, hq', show ((q : Int) + 1).toNat + 1 = (q + 1) + 1 by omega, List.range_succ_eq_map, List.map_cons,
      List.map_map]
    simp only [Nat.cast_zero, zero_mul, Function.comp_def, Nat.succ_eq_add_one, Nat.cast_add, Nat.cast_one]
  rw [hlist] at hno
  have hmem : ((q : Int) + 1) * c.window ∈ (List.range (q + 1)).map (fun i : Nat => ((i : Int) + 1) * c.window) :=
    List.mem_map.2 ⟨q, List.mem_range.2 (by omega), rfl⟩
  have heq := same_lengths c _ _ hno _ hmem
  have hmul := Int.mul_ediv_add_emod (m : Int) c.window
  have hmod := Int.emod_lt_of_pos (m : Int) (show 0 < c.window by omega)
  have hmod0 := Int.emod_nonneg (m : Int) (show c.window ≠ 0 by omega)
  rw [hq', mul_comm] at hmul
  have hpos : 0 ≤ ((q : Int) + 1) * c.window := mul_nonneg (by omega) (by omega)
  rw [hlen _ hpos, hlen 0 le_rfl] at heq
  push_cast at h3 heq
  omega

/-- C90: starting from a solution has no effect with Pyomo: the solver is called in the same way. -/
theorem C90_warmstart (cfg : SolveConfig) : (solverCall cfg true).1 = (solverCall cfg false).1 := rfl

theorem lookup_nodup {o : List (String × String)} (h : (o.map Prod.fst).Nodup) {k v : String} :
    o.lookup k = some v ↔ (k, v) ∈ o := by
  induction o with
  | nil => simp
  | cons x o ih =>
    obtain ⟨k', v'⟩ := x
    simp only [List.map_cons, List.nodup_cons] at h
    by_cases e : k = k'
    · subst e
      rw [List.lookup_cons_self]
      constructor
      · intro hv
        rw [Option.some.inj hv]
        exact List.mem_cons_self
      · intro hv
        rcases List.mem_cons.1 hv with hv | hv
        · rw [(Prod.mk.inj hv).2]
        · exact absurd (List.mem_map_of_mem (f := Prod.fst) hv) h.1
    · rw [List.lookup_cons, beq_false_of_ne e]
      simp only []
      rw [ih h.2]
      simp [e]

theorem setParams_eq {o : List (String × String)} (h : (o.map Prod.fst).Nodup) (p : String → String) (k : String) :
    o.foldl (fun p x => setParam p x.1 x.2) p k = (o.lookup k).getD (p k) := by
  induction o generalizing p with
  | nil => rfl
  | cons x o ih =>
    obtain ⟨k', v'⟩ := x
    simp only [List.map_cons, List.nodup_cons] at h
    rw [List.foldl_cons, ih h.2, setParam]
    by_cases e : k = k'
    · subst e
      have : o.lookup k = none := by
        cases hl : o.lookup k with
        | none => rfl
        | some v =>
          exact absurd (List.mem_map_of_mem (f := Prod.fst) ((lookup_nodup h.2).1 hl)) h.1
      rw [this, List.lookup_cons_self]
      simp
    · rw [List.lookup_cons, beq_false_of_ne e]
      simp [e]

/-- C90: the solver is given the options of this solve, all of them and no others, whatever was solved before (with
Pyomo, which makes a new solver object). -/
theorem C90_options (cfg : SolveConfig) (warmstart : Bool) (hd : (cfg.options.map Prod.fst).Nodup) (k v : String) :
    (solverCall cfg warmstart).1.solver = cfg.solver ∧
    ((solverCall cfg warmstart).1.options.lookup k = some v ↔ (k, v) ∈ cfg.options) ∧
    ((solverCall cfg warmstart).1.keepFiles = true ↔ ∃ d, cfg.saveLogs = some d) := by
  refine ⟨rfl, ?_, ?_⟩
  · rw [← lookup_nodup hd]
    simp only [solverCall]
    cases hl : cfg.options.lookup k with
    | some w => rw [lookup_merge _ hd k w hl]
    | none =>
      rw [lookup_merge_other _ k]
      · simp
      · intro hm
        obtain ⟨x, hx, e⟩ := List.mem_map.1 hm
        have := (lookup_nodup hd (k := k) (v := x.2)).2 (by rw [← e]; exact hx)
        rw [hl] at this
        exact absurd this (by simp)
  · simp [solverCall, Option.isSome_iff_exists]

/-- C90: so it is with Gurobi, which resets the parameters of the one model that it has, after any number of solves;
except that `LPWarmStart` is 0 unless a warm start is asked for, and `LogFile` is in the folder for logs. -/
theorem C90_gurobi_options_partial (defaults p : String → String) (before : List (SolveConfig × Bool))
    (cfg : SolveConfig) (warmstart : Bool) (hd : (cfg.options.map Prod.fst).Nodup) (k : String)
    (hw : k = "LPWarmStart" → warmstart = true) (hl : k = "LogFile" → cfg.saveLogs = none) :
    (∀ v, (k, v) ∈ cfg.options → gurobiAfter defaults p (before ++ [(cfg, warmstart)]) k = v) ∧
    ((∀ v, (k, v) ∉ cfg.options) → gurobiAfter defaults p (before ++ [(cfg, warmstart)]) k = defaults k) := by
  have last : ∀ (before : List (SolveConfig × Bool)) (p : String → String),
      gurobiAfter defaults p (before ++ [(cfg, warmstart)]) k = (cfg.options.lookup k).getD (defaults k) := by
    intro before
    induction before with
    | nil =>
      intro p
      simp only [List.nil_append, gurobiAfter, gurobiParams]
      have h1 : (if warmstart = true then cfg.options.foldl (fun p x => setParam p x.1 x.2) defaults
          else setParam (cfg.options.foldl (fun p x => setParam p x.1 x.2) defaults) "LPWarmStart" "0") k =
          (cfg.options.lookup k).getD (defaults k) := by
        rw [← setParams_eq hd]
        cases warmstart with
        | true => rfl
        | false =>
          have : k ≠ "LPWarmStart" := fun e => absurd (hw e) (by decide)
          simp [setParam, this]
      cases hs : cfg.saveLogs with
      | none => exact h1
      | some d =>
        have : k ≠ "LogFile" := fun e => by
          have := hl e
          rw [hs] at this
          exact absurd this (by simp)
        simp only []
        rw [setParam, if_neg this]
        exact h1
    | cons c before ih => exact fun p => ih _
  refine ⟨fun v hv => ?_, fun hn => ?_⟩
  · rw [last, (lookup_nodup hd).2 hv]
    rfl
  · have : cfg.options.lookup k = none := by
      cases hl : cfg.options.lookup k with
      | none => rfl
      | some v => exact absurd ((lookup_nodup hd).1 hl) (hn v)
    rw [last, this]
    rfl

/-- C90: with Gurobi, a value of `LPWarmStart` among the options is not used. -/
theorem C90_gurobi_warmstart (defaults p : String → String) (before : List (SolveConfig × Bool)) (cfg : SolveConfig)
    (_asked : ("LPWarmStart", "1") ∈ cfg.options) :
    gurobiAfter defaults p (before ++ [(cfg, false)]) "LPWarmStart" = "0" := by
  induction before generalizing p with
  | nil =>
    simp only [List.nil_append, gurobiAfter, gurobiParams]
    cases cfg.saveLogs with
    | none => simp [setParam]
    | some d => simp [setParam]
  | cons c before ih => exact ih _

example : gurobiAfter (fun _ => "") (fun _ => "") [(⟨"gurobi", [("Threads", "2"), ("LPWarmStart", "1")], none, true, []⟩, false),
    (⟨"gurobi", [("MIPGap", "1")], some "logs", true, []⟩, true)] "Threads" = "" := by decide

example : gurobiAfter (fun _ => "") (fun _ => "") [(⟨"gurobi", [("MIPGap", "1")], some "logs", true, []⟩, true)] "MIPGap"
    = "1" := by decide

end

/-! ### Examples -/

namespace Demo

/-- Arrays of numbers, along one dimension. -/
def arrays : Arrays (List Nat) := ⟨[], fun l => !l.isEmpty⟩
def post (_ : List (String × List Nat)) : List (String × List Nat) := [("capacity_factor", [1])]
def found : Found (List Nat) :=
  ⟨[("flow", [3, 4]), ("unused", [])], [("cost", [7])], [("min_cost", [7])], [("balance", [2, 1]), ("limit", [0, 5])]⟩
def other : Found (List Nat) := { found with duals := [("balance", [9, 9])] }
def backend : Backend (List Nat) := newBackend ["balance", "limit"] false
def cfg : SolveConfig := { solver := "glpk", shadowPrices := ["balance", "nonsense"] }

theorem apart (f : Found (List Nat)) (h : f.values = found.values) : Apart post f cfg.shadowPrices := by
  refine ⟨?_, ?_, ?_, ?_⟩
  · rw [h]; decide
  · rw [h]; decide
  · intro r
    rw [h]
    show ∀ n ∈ found.values.map Prod.fst, n ∉ [("capacity_factor", [1])].map Prod.fst
    decide
  · intro r
    show ∀ c ∈ cfg.shadowPrices, "shadow_price_" ++ c ∉ [("capacity_factor", [1])].map Prod.fst
    decide

example : ∃ r, (solve arrays post cfg (some found) backend).2 = some r ∧ r.lookup "cost" = some [7] :=
  C90_values cfg found backend (apart found rfl) (n := "cost") (v := [7]) (by decide)
example : ∃ r, (solve arrays post cfg (some found) backend).2 = some r ∧ r.lookup "unused" = none :=
  C90_values cfg found backend (apart found rfl) (n := "unused") (v := []) (by decide)
example : ∃ r, (solve arrays post cfg (some found) backend).2 = some r ∧
    r.lookup "shadow_price_balance" = some [2, 1] := by
  obtain ⟨r, h1, h2⟩ := C90_prices_partial (arrays := arrays) cfg found backend (apart found rfl) (by decide) (by decide)
    rfl rfl (c := "balance") (by decide) [2, 1]
  exact ⟨r, h1, h2.2 (by decide)⟩

/-- C90_stale: the prices of the first solve, although the second one is another problem. -/
example : ∃ r, (solve arrays post { cfg with solver := "cbc" } (some other)
    (solve arrays post cfg (some found) backend).1).2 = some r ∧ r.lookup "shadow_price_balance" = some [2, 1] :=
  C90_stale cfg { cfg with solver := "cbc" } (c := "balance") (v := [2, 1]) found other backend (apart other rfl) (by decide) (by decide) rfl rfl (by decide) (by decide) (by decide)
    (by decide) (by decide)

example : ∃ r, (solve arrays post cfg (some found) (afterSolves arrays post (newBackend ["balance", "limit"] true)
    [(cfg, some found), (cfg, none)])).2 = some r ∧ r.lookup "shadow_price_balance" = none :=
  C90_integer _ _ cfg found (apart found rfl) (c := "balance") (by decide) rfl (by decide)

/-- C90 is false of the code for a global expression with the name of a shadow price: it is lost. -/
theorem C90_overwritten : ∃ f : Found (List Nat), (f.values.map Prod.fst).Nodup ∧
    f.values.lookup "shadow_price_balance" = some [8] ∧
    ∃ r, (solve arrays post cfg (some f) backend).2 = some r ∧ r.lookup "shadow_price_balance" = some [2, 1] :=
  ⟨{ found with expressions := [("shadow_price_balance", [8])] }, by decide, by decide, _, rfl, by decide⟩

/-- Two windows of the same length, then a shorter one. -/
def windows : List (Bool × Found (List Nat)) := [(false, other), (true, found)]

theorem windows_apart (again : Bool) : ∀ w ∈ (again, found) :: windows, Apart post w.2 cfg.shadowPrices := by
  intro w hw
  simp only [windows, List.mem_cons, List.not_mem_nil, or_false] at hw
  rcases hw with rfl | rfl | rfl
  · exact apart _ rfl
  · exact apart _ rfl
  · exact apart _ rfl

example : ∀ r ∈ (solveOperate arrays post cfg false found windows backend).drop 2,
    r.lookup "shadow_price_balance" = none :=
  C90_operate_lost cfg false found found [(false, other)] [] backend (windows_apart false) (c := "balance") (by decide)
example : ∀ r ∈ solveOperate arrays post cfg true found windows backend, r.lookup "shadow_price_balance" = none :=
  C90_operate_again cfg found windows backend (windows_apart true) (c := "balance") (by decide)
example : (solveOperate arrays post cfg false found windows backend).map (fun r => r.lookup "shadow_price_balance") =
    [some [2, 1], some [9, 9], none] := by decide
example : List.Forall₂ (fun f r => r.lookup "shadow_price_balance" = some [9, 9] ↔
      f.duals.lookup "balance" = some [9, 9] ∧ arrays.hasValue [9, 9] = true)
    [found, other] (solveOperate arrays post cfg false found [(false, other)] backend) :=
  C90_operate_partial cfg found [(false, other)] backend (by
    intro w hw
    exact windows_apart false w (by
      simp only [windows, List.mem_cons, List.not_mem_nil, or_false] at hw ⊢
      tauto)) (c := "balance") (by decide) (by decide) (by decide) rfl rfl (by decide) (by decide) _

/-- C90_rebuild: a day of 24 steps, windows of 12 and a horizon of 18. -/
example (solver : List (Option Rat) → List Bool → Option Rat → Option (List (Option Rat))) :
    true ∈ rebuilds ⟨(List.range 24).map (fun i : Nat => (i : Int)), 12, 18, fun _ => none, fun _ => true, none, none,
      solver⟩ (Operate.windowsteps ⟨(List.range 24).map (fun i : Nat => (i : Int)), 12, 18, fun _ => none, fun _ => true,
      none, none, solver⟩) :=
  C90_rebuild _ 24 rfl (show (1 : Int) ≤ 12 by decide) (show (12 : Int) < 18 by decide)
    (show (12 : Int) < (24 : Nat) by decide)

end Demo

end Results
end Calliope
