import Verif.Model.Spores
import Mathlib.Tactic.Linarith

/-!
# Properties C31 and C67: SPORES mode
-/

namespace Calliope
namespace Spores

/-! ## The loop -/

/-- Consecutive calls: the scores of a call come from the call before and its result. -/
inductive Linked (c : Cfg) : Nat → List Result → Result → Backend → List Call → Prop
  | nil {k rs latest b} : Linked c k rs latest b []
  | stop {k rs latest b sc} (call : Call) :
      newScore c k rs latest b = .ok sc →
      call.backend = { b with score := updScore b.score sc } → call.result = none →
      Linked c k rs latest b [call]
  | step {k rs latest b sc r} (call : Call) (rest : List Call) :
      newScore c k rs latest b = .ok sc →
      call.backend = { b with score := updScore b.score sc } → call.result = some r →
      Linked c (k + 1) (rs ++ [r]) r call.backend rest →
      Linked c k rs latest b (call :: rest)

theorem solveWith_none {c : Cfg} {S : Solver} {k : Nat} {b : Backend} :
    solveWith c S k b = none ↔ S k b = none := by
  unfold solveWith; split <;> simp_all

theorem solveWith_some {c : Cfg} {S : Solver} {k : Nat} {b : Backend} {r : Result}
    (h : solveWith c S k b = some r) : ∃ s, S k b = some s ∧ r.cap = s.cap ∧ r.value = s.value ∧
      r.costTracked = some b.cost ∧
      r.scoreTracked = (fun i => if c.defined i then some ((b.score i).getD 0) else none) := by
  unfold solveWith at h
  split at h
  · exact absurd h (by simp)
  · next s hs => cases h; exact ⟨s, hs, rfl, rfl, rfl, rfl⟩

theorem loop_spec (c : Cfg) (S : Solver) : ∀ (ss : List Int) (k : Nat) (rs : List Result) (latest : Result)
    (b b2 : Backend) (calls : List Call) (out : List Result),
    loop c S ss k rs latest b = .ok (b2, calls, out) →
    out.length ≤ ss.length ∧
    (∀ (j : Nat) (r : Result), out[j]? = some r → ∃ x : Call, calls[j]? = some x ∧ x.result = some r) ∧
    (out.length < ss.length → calls.length = out.length + 1 ∧
      ∃ x, calls[out.length]? = some x ∧ x.result = none) ∧
    (out.length = ss.length → calls.length = out.length) ∧
    (∀ (j : Nat) (x : Call), calls[j]? = some x → x.result = solveWith c S (k + j) x.backend ∧
      x.backend.cost = b.cost ∧ x.backend.objective = b.objective) ∧
    Linked c k rs latest b calls ∧ b2.cost = b.cost ∧ b2.objective = b.objective := by
  intro ss
  induction ss with
  | nil =>
    intro k rs latest b b2 calls out h
    simp only [loop, Except.ok.injEq, Prod.mk.injEq] at h
    obtain ⟨rfl, rfl, rfl⟩ := h
    simp [Linked.nil]
  | cons s ss ih =>
    intro k rs latest b b2 calls out h
    simp only [loop] at h
    split at h
    · simp at h
    · next sc hsc =>
      split at h
      · next hn =>
        simp only [Except.ok.injEq, Prod.mk.injEq] at h
        obtain ⟨rfl, rfl, rfl⟩ := h
        refine ⟨by simp, by simp, by simp, by simp, ?_, ?_, rfl, rfl⟩
        · intro j x hx
          cases j with
          | zero => simp at hx; subst hx; exact ⟨hn.symm, rfl, rfl⟩
          | succ j => simp at hx
        · exact .stop _ hsc rfl rfl
      · next r hr =>
        split at h
        · simp at h
        · next b3 cs o hl =>
          simp only [Except.ok.injEq, Prod.mk.injEq] at h
          obtain ⟨rfl, rfl, rfl⟩ := h
          obtain ⟨i1, i2, i3, i4, i5, i6, i7, i8⟩ := ih _ _ _ _ _ _ _ hl
          refine ⟨by simpa using i1, ?_, ?_, ?_, ?_, ?_, ?_, ?_⟩
          · intro j r' hj
            cases j with
            | zero => simp at hj; subst hj; exact ⟨_, rfl, rfl⟩
            | succ j => simpa using i2 j r' (by simpa using hj)
          · intro hlt
            obtain ⟨a, x, e, f⟩ := i3 (by simpa using hlt)
            exact ⟨by simp [a], x, by simpa using e, f⟩
          · intro he; simpa using i4 (by simpa using he)
          · intro j x hx
            cases j with
            | zero => simp at hx; subst hx; exact ⟨hr.symm, rfl, rfl⟩
            | succ j =>
              obtain ⟨a, d, e⟩ := i5 j x (by simpa using hx)
              rw [show k + (j + 1) = k + 1 + j by omega]
              exact ⟨a, d, e⟩
          · exact .step _ _ hsc rfl rfl i6
          · exact i7
          · exact i8

theorem sporeRange_get (latest number : Int) (i : Nat) (h : i < (number - latest).toNat) :
    (sporeRange latest number)[i]? = some (latest + 1 + (i : Int)) := by
  simp [sporeRange, h]

theorem sporeRange_length (latest number : Int) : (sporeRange latest number).length = (number - latest).toNat := by
  simp [sporeRange]

theorem labels_eq (latest number : Int) (n : Nat) (h : n ≤ (number - latest).toNat) :
    (latest :: (sporeRange latest number).take n) = (List.range (n + 1)).map (fun i : Nat => latest + (i : Int)) := by
  apply List.ext_getElem?
  intro i
  cases i with
  | zero => simp
  | succ i =>
    by_cases hi : i < n
    · have e : (sporeRange latest number)[i]? = some (latest + 1 + (i : Int)) :=
        sporeRange_get latest number i (by omega)
      have : i + 1 < n + 1 := by omega
      simp [hi, e]
      omega
    · have h1 : (List.range (n + 1))[i + 1]? = none := by simp; omega
      simp [hi]

/-- A successful exploration, unpacked. -/
theorem explore_ok {c : Cfg} {S : Solver} {latest : Int} {baseline : Option Result} {pre : List Call}
    {before : Option (List (Int × Result))} {b : Backend} {o : Outcome}
    (h : explore c S latest baseline pre before b = .ok o) :
    latest < c.number ∧ ∃ base, baseline = some base ∧ ∃ calls out,
      loop c S (sporeRange latest c.number) pre.length [base] base
        { b with cost := some (constrainingCost c base), objective := "min_spores" }
        = .ok (o.backend, calls, out) ∧ o.calls = pre ++ calls ∧
      o.results = joinResults latest before
        ((latest :: (sporeRange latest c.number).take out.length).zip (base :: out)) := by
  unfold explore at h
  split at h
  · simp at h
  · next hn =>
    split at h
    · simp at h
    · rename_i base
      simp only at h
      split at h
      · simp at h
      · next b2 calls out hl =>
        cases h
        exact ⟨by omega, base, rfl, calls, out, hl, rfl, rfl⟩

theorem run_fresh {c : Cfg} {S : Solver} {prior : Prior} {b : Backend} (hf : c.useLatest = false) :
    run c S prior b = explore c S 0 (solveWith c S 0 { reset b with objective := c.objective })
      [⟨{ reset b with objective := c.objective }, solveWith c S 0 { reset b with objective := c.objective }⟩]
      none { reset b with objective := c.objective } := by
  simp [run, hf]

/-- C31, results of a run from scratch.  There is a number `k ≤ number` such that the results are
labelled 0, ..., k in order: result 0 is the baseline, found with the configured objective and
no scores; result `j` is what the solver found in call `j` for the SPORES objective under the cost
limit; the run ends after `number` spores or at the first call without a solution. -/
theorem C31_run (c : Cfg) (S : Solver) (prior : Prior) (b : Backend) (o : Outcome)
    (hf : c.useLatest = false) (h : run c S prior b = .ok o) :
    ∃ k : Nat, (k : Int) ≤ c.number ∧
      o.results.map Prod.fst = (List.range (k + 1)).map (fun i : Nat => (i : Int)) ∧
      (∀ j : Nat, j ≤ k → ∃ x r s, o.calls[j]? = some x ∧ o.results[j]? = some ((j : Int), r) ∧
        x.result = some r ∧ S j x.backend = some s ∧ r.cap = s.cap ∧ r.value = s.value) ∧
      ((k : Int) = c.number → o.calls.length = k + 1) ∧
      ((k : Int) < c.number → o.calls.length = k + 2 ∧
        ∃ x, o.calls[k + 1]? = some x ∧ S (k + 1) x.backend = none) ∧
      (∃ x base, o.calls[0]? = some x ∧ x.backend.objective = c.objective ∧
        (∀ i, x.backend.score i = some 0) ∧ x.backend.cost = b.cost ∧ x.result = some base ∧
        ∀ (j : Nat) y, o.calls[j + 1]? = some y → y.backend.objective = "min_spores" ∧
          y.backend.cost = some (constrainingCost c base)) := by
  rw [run_fresh hf] at h
  obtain ⟨hn, base, hb, calls, out, hl, hc, hr⟩ := explore_ok h
  obtain ⟨i1, i2, i3, i4, i5, i6, i7, i8⟩ := loop_spec c S _ _ _ _ _ _ _ _ hl
  rw [sporeRange_length] at i1 i3 i4
  simp only [Int.sub_zero] at i1 i3 i4
  obtain ⟨s0, hs0, e1, e2, -, -⟩ := solveWith_some hb
  have hr' : o.results = ((List.range (out.length + 1)).map (fun i : Nat => (i : Int))).zip (base :: out) := by
    rw [hr, joinResults, labels_eq 0 c.number out.length (by simpa using i1)]
    simp
  refine ⟨out.length, by omega, ?_, ?_, ?_, ?_, ?_⟩
  · rw [hr', List.map_fst_zip (by simp)]
  · intro j hj
    cases j with
    | zero =>
      refine ⟨_, base, s0, by rw [hc]; rfl, ?_, hb, hs0, e1, e2⟩
      rw [hr']
      simp
    | succ j =>
      have hj' : j < out.length := by omega
      obtain ⟨x, hx, hxr⟩ := i2 j _ (List.getElem?_eq_getElem hj')
      obtain ⟨a, -, -⟩ := i5 j x hx
      rw [hxr] at a
      obtain ⟨s, q1, q2, q3, -, -⟩ := solveWith_some a.symm
      refine ⟨x, out[j], s, by rw [hc]; simpa using hx, ?_, hxr, ?_, q2, q3⟩
      · rw [hr']
        simp only [List.getElem?_zip_eq_some]
        constructor
        · simp [hj']
        · simp [hj']
      · simpa [Nat.add_comm] using q1
  · intro he
    have := i4 (by omega)
    simp [hc, this]
  · intro hlt
    obtain ⟨a, x, hx, hxr⟩ := i3 (by omega)
    refine ⟨by simp [hc, a], x, by rw [hc]; simpa using hx, ?_⟩
    obtain ⟨a', -, -⟩ := i5 _ x hx
    rw [hxr] at a'
    simpa [Nat.add_comm] using solveWith_none.1 a'.symm
  · refine ⟨_, base, by rw [hc]; rfl, rfl, fun i => rfl, rfl, hb, ?_⟩
    intro j y hy
    rw [hc] at hy
    obtain ⟨-, a, d⟩ := i5 j y (by simpa using hy)
    exact ⟨d, a⟩

/-- C31, when a run from scratch is refused: exactly when no spore is asked for or there is no
baseline solution (the relative method also needs capacity limits). -/
theorem C31_refused (c : Cfg) (S : Solver) (prior : Prior) (b : Backend) (hf : c.useLatest = false)
    (ha : c.algorithm ≠ .relativeDeployment) :
    (∃ e, run c S prior b = .error e) ↔
      (c.number ≤ 0 ∨ S 0 { reset b with objective := c.objective } = none) := by
  have hloop : ∀ (ss : List Int) k rs latest (b : Backend), ∃ x, loop c S ss k rs latest b = .ok x := by
    intro ss
    induction ss with
    | nil => intros; exact ⟨_, rfl⟩
    | cons s ss ih =>
      intro k rs latest b
      have : ∃ sc, newScore c k rs latest b = .ok sc := by
        unfold newScore
        cases hc : c.algorithm <;> simp_all
      obtain ⟨sc, hsc⟩ := this
      simp only [loop, hsc]
      split
      · exact ⟨_, rfl⟩
      · next r _ =>
        obtain ⟨⟨b3, cs, o⟩, e⟩ := ih (k + 1) (rs ++ [r]) r { b with score := updScore b.score sc }
        rw [e]; exact ⟨_, rfl⟩
  simp only [run_fresh hf, explore]
  split
  · next h => simp [h]
  · next h =>
    split
    · next hb => simp [solveWith_none.1 hb]
    · next base hb =>
      obtain ⟨s, hs, -⟩ := solveWith_some hb
      obtain ⟨⟨b3, cs, o⟩, e⟩ := hloop (sporeRange 0 c.number) 1 [base] base
        { reset b with cost := some (constrainingCost c base), objective := "min_spores" }
      constructor
      · rintro ⟨e', he'⟩
        simp only [List.length_singleton] at he'
        erw [e] at he'
        simp at he'
      · rintro (h' | h')
        · exact absurd h' h
        · rw [h'] at hs; simp at hs

/-! ## Scores -/

theorem linked_get {c : Cfg} {k rs latest b calls} (h : Linked c k rs latest b calls) :
    (∀ x : Call, calls[0]? = some x → ∃ sc, newScore c k rs latest b = .ok sc ∧
      x.backend.score = updScore b.score sc) ∧
    (∀ (j : Nat) (x y : Call) (r : Result), calls[j]? = some x → calls[j + 1]? = some y → x.result = some r →
      ∃ sc, newScore c (k + (j + 1)) (rs ++ (calls.take (j + 1)).filterMap Call.result) r x.backend = .ok sc ∧
        y.backend.score = updScore x.backend.score sc) := by
  induction h with
  | nil => simp
  | stop call h1 h2 h3 =>
    refine ⟨?_, ?_⟩
    · intro x hx; simp at hx; subst hx; exact ⟨_, h1, by rw [h2]⟩
    · intro j x y r hx hy; cases j <;> simp at hy
  | @step k rs latest b sc r call rest h1 h2 h3 h4 ih =>
    obtain ⟨i1, i2⟩ := ih
    refine ⟨?_, ?_⟩
    · intro x hx; simp at hx; subst hx; exact ⟨_, h1, by rw [h2]⟩
    · intro j x y r' hx hy hr
      cases j with
      | zero =>
        simp at hx hy; subst hx
        rw [h3] at hr; cases hr
        obtain ⟨sc', e1, e2⟩ := i1 y (by simpa using hy)
        exact ⟨sc', by simpa [h3] using e1, e2⟩
      | succ j =>
        obtain ⟨sc', e1, e2⟩ := i2 j x y r' (by simpa using hx) (by simpa using hy) hr
        refine ⟨sc', ?_, e2⟩
        rw [show k + (j + 1 + 1) = k + 1 + (j + 1) by omega]
        simpa [h3] using e1

/-- In a run from scratch, the scores of a call come from the previous call, its result and all
results so far. -/
theorem run_scores {c : Cfg} {S : Solver} {prior : Prior} {b : Backend} {o : Outcome}
    (hf : c.useLatest = false) (h : run c S prior b = .ok o) {j : Nat} {x y : Call} {r : Result}
    (hx : o.calls[j]? = some x) (hy : o.calls[j + 1]? = some y) (hr : x.result = some r) :
    ∃ sc, newScore c (j + 1) ((o.calls.take (j + 1)).filterMap Call.result) r x.backend = .ok sc ∧
      y.backend.score = updScore x.backend.score sc := by
  rw [run_fresh hf] at h
  obtain ⟨hn, base, hb, calls, out, hl, hc, -⟩ := explore_ok h
  obtain ⟨-, -, -, -, -, i6, -, -⟩ := loop_spec c S _ _ _ _ _ _ _ _ hl
  obtain ⟨g1, g2⟩ := linked_get i6
  rw [hc] at hx hy ⊢
  cases j with
  | zero =>
    simp at hx hy; subst hx
    simp only at hr
    rw [hb] at hr; cases hr
    obtain ⟨sc, e1, e2⟩ := g1 y (by simpa using hy)
    refine ⟨sc, ?_, e2⟩
    simp only [List.length_singleton] at e1
    simp only [List.cons_append, List.nil_append, List.take_succ_cons, List.take_zero, List.filterMap_cons, hb, List.filterMap_nil]
    exact e1
  | succ j =>
    obtain ⟨sc, e1, e2⟩ := g2 j x y r (by simpa using hx) (by simpa using hy) hr
    refine ⟨sc, ?_, e2⟩
    have : [(⟨{ reset b with objective := c.objective }, solveWith c S 0 { reset b with objective := c.objective }⟩ : Call)].length + (j + 1) = j + 1 + 1 := by
      simp; omega
    rw [this] at e1
    simpa [hb] using e1

/-- `i` was deployed at more than the given fraction of the largest deployment of its carrier, among
tracked technologies. -/
def Significant (c : Cfg) (cap : Arr) (i : Item) : Prop :=
  ∃ v, cap i = some v ∧ ∀ i' v', i' ∈ c.items → c.tracked i' = true → i'.carrier = i.carrier →
    cap i' = some v' → c.factor * v' < v

theorem foldl_max (l : List Rat) : ∀ m : Option Rat,
    (l.foldl maxStep m = none ↔ m = none ∧ l = []) ∧
    (∀ z, l.foldl maxStep m = some z →
      (m = some z ∨ z ∈ l) ∧ (∀ w, m = some w → w ≤ z) ∧ ∀ v ∈ l, v ≤ z) := by
  induction l with
  | nil => intro m; simp; rintro z rfl; simp
  | cons a l ih =>
    intro m
    simp only [List.foldl_cons, maxStep]
    cases m with
    | none =>
      simp only
      obtain ⟨h1, h2⟩ := ih (some a)
      refine ⟨by simp [h1], ?_⟩
      intro z hz
      obtain ⟨p, q, r⟩ := h2 z hz
      refine ⟨?_, by simp, ?_⟩
      · rcases p with p | p
        · cases p; simp
        · simp [p]
      · intro v hv
        rcases List.mem_cons.1 hv with rfl | hv
        · exact q _ rfl
        · exact r v hv
    | some w =>
      simp only
      obtain ⟨h1, h2⟩ := ih (some (max w a))
      refine ⟨by simp [h1], ?_⟩
      intro z hz
      obtain ⟨p, q, r⟩ := h2 z hz
      have q' := q _ rfl
      refine ⟨?_, ?_, ?_⟩
      · rcases p with p | p
        · cases p
          rcases max_choice w a with e | e
          · left; rw [e]
          · right; rw [e]; simp
        · right; simp [p]
      · intro w' hw'; cases hw'; exact le_trans (le_max_left _ _) q'
      · intro v hv
        rcases List.mem_cons.1 hv with rfl | hv
        · exact le_trans (le_max_right _ _) q'
        · exact r v hv

theorem significant_iff (c : Cfg) (hc : 0 ≤ c.factor) (cap : Arr) (i : Item) (hi : i ∈ c.items)
    (ht : c.tracked i = true) :
    gt (whereArr cap c.tracked i) ((maxOver c.items (whereArr cap c.tracked) i.carrier).map (c.factor * ·)) = true ↔
      Significant c cap i := by
  obtain ⟨h1, h2⟩ := foldl_max ((c.items.filter (fun i' => decide (i'.carrier = i.carrier))).filterMap
    (whereArr cap c.tracked)) none
  have hmem : ∀ v, v ∈ (c.items.filter (fun i' => decide (i'.carrier = i.carrier))).filterMap
      (whereArr cap c.tracked) ↔ ∃ i' ∈ c.items, i'.carrier = i.carrier ∧ c.tracked i' = true ∧ cap i' = some v := by
    intro v
    simp only [List.mem_filterMap, List.mem_filter, decide_eq_true_eq, whereArr]
    constructor
    · rintro ⟨i', ⟨a, d⟩, e⟩
      split at e
      · next ht' => exact ⟨i', a, d, ht', e⟩
      · simp at e
    · rintro ⟨i', a, d, ht', e⟩
      exact ⟨i', ⟨a, d⟩, by simp [ht', e]⟩
  unfold maxOver Significant
  cases hv : cap i with
  | none => simp [whereArr, ht, hv, gt]
  | some v =>
    have hw : whereArr cap c.tracked i = some v := by simp [whereArr, ht, hv]
    rw [hw]
    cases hm : ((c.items.filter (fun i' => decide (i'.carrier = i.carrier))).filterMap
        (whereArr cap c.tracked)).foldl maxStep none with
    | none =>
      have := (h1.1 hm).2
      have hin := (hmem v).2 ⟨i, hi, rfl, ht, hv⟩
      rw [this] at hin; simp at hin
    | some z =>
      obtain ⟨p, -, r⟩ := h2 z hm
      simp only [reduceCtorEq, false_or] at p
      obtain ⟨i', a1, a2, a3, a4⟩ := (hmem z).1 p
      simp only [Option.map_some, gt, decide_eq_true_eq]
      constructor
      · intro hlt
        refine ⟨v, rfl, ?_⟩
        intro i2 v2 b1 b2 b3 b4
        have := r v2 ((hmem v2).2 ⟨i2, b1, b3, b2, b4⟩)
        have := mul_le_mul_of_nonneg_left this hc
        linarith
      · rintro ⟨v', e, hall⟩
        cases e
        exact hall i' z a1 a3 a2 a4

/-- C31, integer scores: between two consecutive calls of a run, the score of a tracked technology
grows by 1000 if the first result deploys it significantly and stays otherwise; scores of
other technologies stay.  With a non-negative capacity, a score grows only where something was
deployed. -/
theorem C31_integer_scores (c : Cfg) (S : Solver) (prior : Prior) (b : Backend) (o : Outcome)
    (hf : c.useLatest = false) (ha : c.algorithm = .integer) (hfac : 0 ≤ c.factor)
    (h : run c S prior b = .ok o) (j : Nat) (x y : Call) (r : Result)
    (hx : o.calls[j]? = some x) (hy : o.calls[j + 1]? = some y) (hr : x.result = some r)
    (i : Item) (hi : i ∈ c.items) :
    (c.tracked i = false → y.backend.score i = x.backend.score i) ∧
    (c.tracked i = true → Significant c r.cap i →
      y.backend.score i = some ((x.backend.score i).getD 0 + 1000)) ∧
    (c.tracked i = true → ¬ Significant c r.cap i →
      y.backend.score i = some ((x.backend.score i).getD 0)) ∧
    ((x.backend.score i).getD 0 ≤ (y.backend.score i).getD 0) ∧
    (∀ v, r.cap i = some v → 0 ≤ v → (x.backend.score i).getD 0 < (y.backend.score i).getD 0 → 0 < v) := by
  obtain ⟨sc, e1, e2⟩ := run_scores hf h hx hy hr
  simp only [newScore, ha, Except.ok.injEq] at e1
  subst e1
  have hu : c.tracked i = false → y.backend.score i = x.backend.score i := by
    intro ht; rw [e2]; simp [updScore, scoreInteger, ht]
  have hs : c.tracked i = true → Significant c r.cap i →
      y.backend.score i = some ((x.backend.score i).getD 0 + 1000) := by
    intro ht hsig
    rw [e2]
    simp only [updScore, scoreInteger, ht, if_true, (significant_iff c hfac r.cap i hi ht).2 hsig]
    rw [add_comm]
  have hn : c.tracked i = true → ¬ Significant c r.cap i →
      y.backend.score i = some ((x.backend.score i).getD 0) := by
    intro ht hsig
    rw [← significant_iff c hfac r.cap i hi ht] at hsig
    rw [e2]
    simp only [updScore, scoreInteger, ht, if_true, hsig]
    simp
  refine ⟨hu, hs, hn, ?_, ?_⟩
  · cases ht : c.tracked i with
    | false => rw [hu ht]
    | true =>
      by_cases hsig : Significant c r.cap i
      · rw [hs ht hsig]; simp
      · rw [hn ht hsig]; simp
  · intro v hv h0 hlt
    cases ht : c.tracked i with
    | false => rw [hu ht] at hlt; exact absurd hlt (lt_irrefl _)
    | true =>
      by_cases hsig : Significant c r.cap i
      · obtain ⟨v', e, hall⟩ := hsig
        rw [hv] at e; cases e
        have := hall i v hi ht rfl hv
        rcases lt_or_eq_of_le h0 with h0 | h0
        · exact h0
        · rw [← h0] at this; simp at this
      · rw [hn ht hsig] at hlt; simp at hlt

/-- C31, relative scores: the score of a tracked technology grows by the fraction of its capacity
limit that was used, if above the threshold; scores of other technologies stay. -/
theorem C31_relative_scores (c : Cfg) (S : Solver) (prior : Prior) (b : Backend) (o : Outcome)
    (hf : c.useLatest = false) (ha : c.algorithm = .relativeDeployment) (hfac : 0 ≤ c.factor)
    (h : run c S prior b = .ok o) (j : Nat) (x y : Call) (r : Result)
    (hx : o.calls[j]? = some x) (hy : o.calls[j + 1]? = some y) (hr : x.result = some r) (i : Item)
    (hi : i ∈ c.items) :
    ∃ lim, c.flowCapMax = some lim ∧ (c.tracked i = true → lim i ≠ .inf) ∧
      (c.tracked i = false → y.backend.score i = x.backend.score i) ∧
      (∀ v m, c.tracked i = true → r.cap i = some v → lim i = .val m → m ≠ 0 → c.factor < v / m →
        y.backend.score i = some ((x.backend.score i).getD 0 + v / m)) ∧
      (∀ v m, c.tracked i = true → r.cap i = some v → lim i = .val m → m ≠ 0 → ¬ c.factor < v / m →
        y.backend.score i = some ((x.backend.score i).getD 0)) ∧
      ((x.backend.score i).getD 0 ≤ (y.backend.score i).getD 0) := by
  obtain ⟨sc, e1, e2⟩ := run_scores hf h hx hy hr
  simp only [newScore, ha, scoreRelative] at e1
  split at e1
  · simp at e1
  · next lim hl =>
    split at e1
    · simp at e1
    · next hinf =>
      simp only [Except.ok.injEq] at e1
      subst e1
      refine ⟨lim, hl, ?_, ?_, ?_, ?_, ?_⟩
      · intro ht he
        exact hinf (List.any_eq_true.2 ⟨i, hi, by simp [ht, he]⟩)
      · intro ht; rw [e2]; simp [updScore, ht]
      · intro v m ht hv hm h0 hgt
        rw [e2]; simp [updScore, ht, relativeCap, hv, hm, h0, hgt, add_comm]
      · intro v m ht hv hm h0 hgt
        rw [e2]; simp [updScore, ht, relativeCap, hv, hm, h0, hgt]
      · rw [e2]
        cases ht : c.tracked i with
        | false => simp [updScore, ht]
        | true =>
          simp only [updScore, ht, if_true, Option.getD_some]
          split
          · split
            · linarith
            · linarith
          · linarith

/-- C31, random scores: the score of a tracked technology with a capacity variable stays or grows by
1000, as the random choice says; all other scores stay. -/
theorem C31_random_scores (c : Cfg) (S : Solver) (prior : Prior) (b : Backend) (o : Outcome)
    (hf : c.useLatest = false) (ha : c.algorithm = .random)
    (h : run c S prior b = .ok o) (j : Nat) (x y : Call) (r : Result)
    (hx : o.calls[j]? = some x) (hy : o.calls[j + 1]? = some y) (hr : x.result = some r) (i : Item) :
    (y.backend.score i).getD 0 = (x.backend.score i).getD 0
      + (if c.tracked i = true ∧ (r.cap i).isSome ∧ c.choice (j + 1) i = true then 1000 else 0) := by
  obtain ⟨sc, e1, e2⟩ := run_scores hf h hx hy hr
  simp only [newScore, ha, Except.ok.injEq] at e1
  subst e1
  rw [e2]
  cases ht : c.tracked i <;> cases hv : r.cap i <;> cases hch : c.choice (j + 1) i <;>
    simp [updScore, scoreRandom, ht, hv, hch, add_comm]

/-- Value of an item averaged over results that all have it. -/
def average (rs : List Result) (i : Item) : Rat := (rs.map (fun r => (r.cap i).getD 0)).sum / rs.length

theorem sumCaps_some (rs : List Result) (i : Item) (h : ∀ r ∈ rs, (r.cap i).isSome) :
    sumCaps rs i = some (rs.map (fun r => (r.cap i).getD 0)).sum := by
  have : ∀ (rs : List Result) (a : Rat), (∀ r ∈ rs, (r.cap i).isSome) →
      rs.foldl (addStep i) (some a) = some (a + (rs.map (fun r => (r.cap i).getD 0)).sum) := by
    intro rs
    induction rs with
    | nil => intro a _; simp
    | cons r rs ih =>
      intro a h
      obtain ⟨v, hv⟩ := Option.isSome_iff_exists.1 (h r (by simp))
      simp only [List.foldl_cons, addStep, hv]
      rw [ih _ (fun r' hr' => h r' (by simp [hr']))]
      simp [hv, add_assoc]
  simpa [sumCaps] using this rs 0 h

/-- C31, evolving average: once some capacity differs from its average over all results so far, a
tracked technology's score is the reciprocal of its relative distance to that average (at most
1000), and an average of zero scores zero.  The old score is not added. -/
theorem C31_evolving_scores (c : Cfg) (S : Solver) (prior : Prior) (b : Backend) (o : Outcome)
    (hf : c.useLatest = false) (ha : c.algorithm = .evolvingAverage)
    (h : run c S prior b = .ok o) (j : Nat) (x y : Call) (r : Result)
    (hx : o.calls[j]? = some x) (hy : o.calls[j + 1]? = some y) (hr : x.result = some r) (i : Item)
    (ht : c.tracked i = true)
    (hchange : (c.items.filterMap (relativeChange ((o.calls.take (j + 1)).filterMap Call.result) r.cap)).sum ≠ 0)
    (hall : ∀ q ∈ (o.calls.take (j + 1)).filterMap Call.result, (q.cap i).isSome) (v : Rat) (hv : r.cap i = some v) :
    let avg := average ((o.calls.take (j + 1)).filterMap Call.result) i
    (avg = 0 → y.backend.score i = some 0) ∧
    (avg ≠ 0 → |avg - v| / avg ≤ 1 / 1000 → y.backend.score i = some 1000) ∧
    (avg ≠ 0 → 1 / 1000 < |avg - v| / avg → y.backend.score i = some (|avg - v| / avg)⁻¹) := by
  obtain ⟨sc, e1, e2⟩ := run_scores hf h hx hy hr
  simp only [newScore, ha, Except.ok.injEq, scoreEvolving] at e1
  rw [if_neg hchange] at e1
  subst e1
  have hlen : ((o.calls.take (j + 1)).filterMap Call.result).length ≠ 0 := by
    intro h0
    have : r ∈ (o.calls.take (j + 1)).filterMap Call.result := by
      refine List.mem_filterMap.2 ⟨x, ?_, hr⟩
      exact List.mem_of_getElem? (i := j) (by simp [hx])
    rw [List.length_eq_zero_iff] at h0
    rw [h0] at this; simp at this
  have hs := sumCaps_some _ i hall
  simp only
  refine ⟨?_, ?_, ?_⟩
  · intro h0
    have : (((o.calls.take (j + 1)).filterMap Call.result).map (fun r => (r.cap i).getD 0)).sum = 0 := by
      simp only [average, div_eq_zero_iff] at h0
      rcases h0 with h0 | h0
      · exact h0
      · exact absurd (by exact_mod_cast h0) hlen
    rw [e2]
    simp [updScore, ht, relativeChange, hs, hv, this]
  · intro h0 hle
    have : (((o.calls.take (j + 1)).filterMap Call.result).map (fun r => (r.cap i).getD 0)).sum ≠ 0 := by
      intro h1; exact h0 (by simp [average, h1])
    rw [e2]
    simp only [updScore, ht, if_true, relativeChange, hs, hv, this, if_false]
    simp only [average] at hle
    rw [max_eq_right hle]; norm_num
  · intro h0 hlt
    have : (((o.calls.take (j + 1)).filterMap Call.result).map (fun r => (r.cap i).getD 0)).sum ≠ 0 := by
      intro h1; exact h0 (by simp [average, h1])
    rw [e2]
    simp only [updScore, ht, if_true, relativeChange, hs, hv, this, if_false]
    simp only [average] at hlt ⊢
    rw [max_eq_left (le_of_lt hlt)]

/-! ## Restarting -/

theorem loop_append (c : Cfg) (S : Solver) : ∀ (xs ys : List Int) (k : Nat) (rs : List Result) (latest : Result)
    (b b2 : Backend) (calls : List Call) (out : List Result),
    loop c S xs k rs latest b = .ok (b2, calls, out) → out.length = xs.length →
    loop c S (xs ++ ys) k rs latest b =
      (match loop c S ys (k + xs.length) (rs ++ out) ((latest :: out).getLast (by simp)) b2 with
        | .error e => .error e
        | .ok (b3, calls', out') => .ok (b3, calls ++ calls', out ++ out')) := by
  intro xs
  induction xs with
  | nil =>
    intro ys k rs latest b b2 calls out h hl
    simp only [loop, Except.ok.injEq, Prod.mk.injEq] at h
    obtain ⟨rfl, rfl, rfl⟩ := h
    simp only [List.nil_append, List.length_nil, Nat.add_zero, List.append_nil, List.getLast_singleton]
    cases loop c S ys k rs latest b with
    | error e => rfl
    | ok v => rfl
  | cons s xs ih =>
    intro ys k rs latest b b2 calls out h hl
    simp only [loop] at h
    split at h
    · simp at h
    · next sc hsc =>
      split at h
      · simp only [Except.ok.injEq, Prod.mk.injEq] at h
        obtain ⟨rfl, rfl, rfl⟩ := h
        simp at hl
      · next r hr =>
        split at h
        · simp at h
        · next b3 cs o hlp =>
          simp only [Except.ok.injEq, Prod.mk.injEq] at h
          obtain ⟨rfl, rfl, rfl⟩ := h
          have := ih ys _ _ _ _ _ _ _ hlp (by simpa using hl)
          simp only [List.cons_append, loop, hsc, hr]
          rw [this]
          simp only [List.length_cons, List.append_assoc, List.cons_append, List.nil_append]
          rw [show k + 1 + xs.length = k + (xs.length + 1) by omega]
          simp only [List.getLast_cons_cons]
          cases loop c S ys (k + (xs.length + 1)) (rs ++ r :: o) ((r :: o).getLast (by simp)) b3 with
          | error e => rfl
          | ok v => rfl

/-- With the integer and relative methods, and a solver that only looks at the problem, the loop does
not depend on the number of earlier calls or on earlier results. -/
theorem loop_indep (c : Cfg) (S : Solver) (hS : ∀ k k' b, S k b = S k' b)
    (ha : c.algorithm = .integer ∨ c.algorithm = .relativeDeployment) :
    ∀ (xs : List Int) (k k' : Nat) (rs rs' : List Result) (latest : Result) (b : Backend),
    loop c S xs k rs latest b = loop c S xs k' rs' latest b := by
  intro xs
  induction xs with
  | nil => intros; rfl
  | cons x xs ih =>
    intro k k' rs rs' latest b
    have e1 : newScore c k rs latest b = newScore c k' rs' latest b := by
      rcases ha with ha | ha <;> simp [newScore, ha]
    simp only [loop, e1, solveWith]
    split
    · rfl
    · next sc _ =>
      rw [hS k k']
      cases S k' { score := updScore b.score sc, cost := b.cost, objective := b.objective } with
      | none => rfl
      | some s => simp only; rw [ih (k + 1) (k' + 1) _ (rs' ++ [_])]

/-- Only the number of spores and the restart flag differ. -/
def withNumber (c : Cfg) (n : Int) (l : Bool) : Cfg := { c with number := n, useLatest := l }

theorem loop_cfg (c : Cfg) (S : Solver) (n : Int) (l : Bool) :
    ∀ (xs : List Int) (k : Nat) (rs : List Result) (latest : Result) (b : Backend),
    loop (withNumber c n l) S xs k rs latest b = loop c S xs k rs latest b := by
  intro xs
  induction xs with
  | nil => intros; rfl
  | cons x xs ih =>
    intro k rs latest b
    have e1 : newScore (withNumber c n l) k rs latest b = newScore c k rs latest b := rfl
    have e2 : ∀ k b, solveWith (withNumber c n l) S k b = solveWith c S k b := fun k b => rfl
    simp only [loop, e1, e2]
    split
    · rfl
    · split
      · rfl
      · rw [ih]

/-- Scores are always there, and zero where nothing is defined, as long as only defined items are
tracked. -/
theorem newScore_undefined {c : Cfg} (htd : ∀ i, c.tracked i = true → c.defined i = true)
    (ha : c.algorithm = .integer ∨ c.algorithm = .relativeDeployment) {k rs latest b sc}
    (h : newScore c k rs latest b = .ok sc) (i : Item) (hi : c.defined i = false) : sc i = none := by
  have ht : c.tracked i = false := by
    cases h' : c.tracked i with
    | false => rfl
    | true => rw [htd i h'] at hi; simp at hi
  rcases ha with ha | ha
  · simp only [newScore, ha, Except.ok.injEq] at h
    subst h; simp [scoreInteger, ht]
  · simp only [newScore, ha, scoreRelative] at h
    split at h
    · simp at h
    · split at h
      · simp at h
      · simp only [Except.ok.injEq] at h
        subst h; simp [ht]

theorem loop_last (c : Cfg) (S : Solver) (htd : ∀ i, c.tracked i = true → c.defined i = true)
    (ha : c.algorithm = .integer ∨ c.algorithm = .relativeDeployment) :
    ∀ (xs : List Int) (k : Nat) (rs : List Result) (latest : Result) (b b2 : Backend) (calls : List Call)
      (out : List Result), loop c S xs k rs latest b = .ok (b2, calls, out) → out.length = xs.length →
      (∀ i, (b.score i).isSome) → (∀ i, c.defined i = false → b.score i = some 0) →
      (∀ i, (b2.score i).isSome) ∧ (∀ i, c.defined i = false → b2.score i = some 0) ∧
      b2.cost = b.cost ∧ b2.objective = b.objective ∧
      ∀ last, out.getLast? = some last → last.costTracked = some b.cost ∧
        last.scoreTracked = (fun i => if c.defined i then some ((b2.score i).getD 0) else none) := by
  intro xs
  induction xs with
  | nil =>
    intro k rs latest b b2 calls out h hl h1 h2
    simp only [loop, Except.ok.injEq, Prod.mk.injEq] at h
    obtain ⟨rfl, rfl, rfl⟩ := h
    exact ⟨h1, h2, rfl, rfl, by simp⟩
  | cons s xs ih =>
    intro k rs latest b b2 calls out h hl h1 h2
    simp only [loop] at h
    split at h
    · simp at h
    · next sc hsc =>
      split at h
      · simp only [Except.ok.injEq, Prod.mk.injEq] at h
        obtain ⟨rfl, rfl, rfl⟩ := h
        simp at hl
      · next r hr =>
        split at h
        · simp at h
        · next b3 cs o hlp =>
          simp only [Except.ok.injEq, Prod.mk.injEq] at h
          obtain ⟨rfl, rfl, rfl⟩ := h
          have g1 : ∀ i, (updScore b.score sc i).isSome := by
            intro i; unfold updScore; split
            · rfl
            · exact h1 i
          have g2 : ∀ i, c.defined i = false → updScore b.score sc i = some 0 := by
            intro i hi; simp [updScore, newScore_undefined htd ha hsc i hi, h2 i hi]
          obtain ⟨i1, i2, i3, i4, i5⟩ := ih _ _ _ _ _ _ _ hlp (by simpa using hl) g1 g2
          refine ⟨i1, i2, i3, i4, ?_⟩
          intro last hlast
          cases o with
          | nil =>
            simp at hlast; subst hlast
            cases xs with
            | nil =>
              simp only [loop, Except.ok.injEq, Prod.mk.injEq] at hlp
              obtain ⟨rfl, -, -⟩ := hlp
              obtain ⟨q, -, -, -, e4, e5⟩ := solveWith_some hr
              exact ⟨e4, e5⟩
            | cons y ys => simp at hl
          | cons o1 os =>
            exact i5 last (by simpa using hlast)

theorem maxLabel_range (l : List Result) (n : Int) (hl : l ≠ []) :
    maxLabel (((List.range l.length).map (fun i : Nat => n + (i : Int))).zip l) = n + (l.length : Int) - 1 := by
  induction l generalizing n with
  | nil => exact absurd rfl hl
  | cons r l ih =>
    simp only [List.length_cons, List.range_succ_eq_map, List.map_cons, List.map_map, List.zip_cons_cons]
    have e : (fun i : Nat => n + (i : Int)) ∘ Nat.succ = (fun i : Nat => (n + 1) + (i : Int)) := by
      funext i; simp; omega
    rw [e]
    cases l with
    | nil => simp [maxLabel]
    | cons r' l =>
      have := ih (n + 1) (by simp)
      simp only [List.length_cons, List.range_succ_eq_map, List.map_cons, List.map_map, List.zip_cons_cons] at this ⊢
      simp only [maxLabel] at this ⊢
      rw [this]; push_cast; omega

theorem find_last (l : List Result) (n : Int) (last : Result) (hl : l.getLast? = some last) :
    ((((List.range l.length).map (fun i : Nat => n + (i : Int))).zip l).find?
      (fun e => decide (e.1 = n + (l.length : Int) - 1))).map Prod.snd = some last := by
  induction l generalizing n with
  | nil => simp at hl
  | cons r l ih =>
    simp only [List.length_cons, List.range_succ_eq_map, List.map_cons, List.map_map, List.zip_cons_cons]
    have e : (fun i : Nat => n + (i : Int)) ∘ Nat.succ = (fun i : Nat => (n + 1) + (i : Int)) := by
      funext i; simp; omega
    rw [e]
    cases l with
    | nil => simpa using hl
    | cons r' l =>
      have := ih (n + 1) (by simpa using hl)
      rw [List.find?_cons_of_neg (by simp; omega)]
      rw [← this]
      congr 2
      funext e; simp; omega

theorem sporeRange_append (a b c : Int) (h1 : a ≤ b) (h2 : b ≤ c) :
    sporeRange a c = sporeRange a b ++ sporeRange b c := by
  apply List.ext_getElem?
  intro i
  by_cases h : i < (b - a).toNat
  · rw [List.getElem?_append_left (by rw [sporeRange_length]; exact h), sporeRange_get _ _ _ h,
      sporeRange_get _ _ _ (by omega)]
  · rw [List.getElem?_append_right (by rw [sporeRange_length]; omega), sporeRange_length]
    by_cases h' : i < (c - a).toNat
    · rw [sporeRange_get _ _ _ h', sporeRange_get _ _ _ (by omega)]
      congr 1; omega
    · rw [List.getElem?_eq_none (by rw [sporeRange_length]; omega),
        List.getElem?_eq_none (by rw [sporeRange_length]; omega)]

theorem explore_eq {c : Cfg} {S : Solver} {latest : Int} {base : Result} {pre : List Call}
    {before : Option (List (Int × Result))} {b : Backend} (h : latest < c.number) :
    explore c S latest (some base) pre before b =
      (match loop c S (sporeRange latest c.number) pre.length [base] base
        { b with cost := some (constrainingCost c base), objective := "min_spores" } with
        | .error e => .error e
        | .ok (b2, calls, out) => .ok ⟨b2, pre ++ calls, joinResults latest before
            ((latest :: (sporeRange latest c.number).take out.length).zip (base :: out))⟩) := by
  unfold explore
  rw [if_neg (by omega)]
  simp only
  cases loop c S (sporeRange latest c.number) pre.length [base] base
    { score := b.score, cost := some (constrainingCost c base), objective := "min_spores" } <;> rfl

theorem constraining_tracked {c : Cfg} {r : Result} {v : Rat} (h : r.costTracked = some (some v)) (hv : v ≠ 0) :
    constrainingCost c r = v := by
  simp [constrainingCost, h, hv]

/-- C31, restarting: with the integer or relative method and a solver that depends on the problem
only, running `n1` spores and restarting from these results up to `n2` gives the same results as
running `n2` spores at once, whatever backend the restart finds (provided all `n1` spores were found
and the cost limit is not zero). -/
theorem C31_restart_partial (c : Cfg) (S : Solver) (hS : ∀ k k' b, S k b = S k' b)
    (ha : c.algorithm = .integer ∨ c.algorithm = .relativeDeployment)
    (htd : ∀ i, c.tracked i = true → c.defined i = true) (n1 n2 : Int) (h12 : n1 < n2)
    (p1 p2 : Prior) (b b' : Backend) (o1 : Outcome)
    (h1 : run (withNumber c n1 false) S p1 b = .ok o1) (hall : (o1.results.length : Int) = n1 + 1)
    (hcost : ∀ base, o1.results[0]? = some (0, base) → constrainingCost c base ≠ 0) :
    (∀ o2, run (withNumber c n2 true) S (.spores o1.results) b' = .ok o2 →
      ∃ o3, run (withNumber c n2 false) S p2 b = .ok o3 ∧ o2.results = o3.results) ∧
    (∀ e, run (withNumber c n2 true) S (.spores o1.results) b' = .error e →
      run (withNumber c n2 false) S p2 b = .error e) := by
  rw [run_fresh rfl] at h1
  obtain ⟨hn, base, hb, calls, out, hl, hc, hr⟩ := explore_ok h1
  have hn' : 0 < n1 := hn
  have hb' : solveWith (withNumber c n2 false) S 0 { reset b with objective := (withNumber c n2 false).objective } = some base := hb
  rw [loop_cfg] at hl
  change loop c S (sporeRange 0 n1) 1 [base] base
    { reset b with cost := some (constrainingCost c base), objective := "min_spores" } = _ at hl
  obtain ⟨i1, -⟩ := loop_spec c S _ _ _ _ _ _ _ _ hl
  rw [sporeRange_length] at i1
  have hr' : o1.results = ((List.range (base :: out).length).map (fun i : Nat => (0 : Int) + (i : Int))).zip (base :: out) := by
    rw [hr, joinResults, labels_eq 0 _ out.length (by simpa [withNumber] using i1)]
    simp
  have hlen : out.length = (sporeRange 0 n1).length := by
    rw [hr'] at hall
    simp at hall
    rw [sporeRange_length]; omega
  have hlen' : (out.length : Int) = n1 := by rw [hlen, sporeRange_length]; omega
  obtain ⟨g1, g2, g3, g4, g5⟩ := loop_last c S htd ha _ _ _ _ _ _ _ _ hl hlen (fun _ => rfl) (fun _ _ => rfl)
  have hcost' := hcost base (by rw [hr']; simp)
  have hone : out ≠ [] := by rintro rfl; simp at hlen'; omega
  obtain ⟨last, hlast⟩ : ∃ last, out.getLast? = some last := by
    cases h : out.getLast? with
    | none => exact absurd (List.getLast?_eq_none_iff.1 h) hone
    | some v => exact ⟨v, rfl⟩
  obtain ⟨t1, t2⟩ := g5 last hlast
  have hlastB : (base :: out).getLast? = some last := by
    cases out with
    | nil => exact absurd rfl hone
    | cons x xs => simpa using hlast
  have hml : maxLabel o1.results = n1 := by
    rw [hr', maxLabel_range _ _ (by simp)]
    simp; omega
  have hfind : (o1.results.find? (fun e => decide (e.1 = n1))).map Prod.snd = some last := by
    have := find_last (base :: out) 0 last hlastB
    rw [← hr'] at this
    rw [← this]
    congr 2
    funext e
    simp; omega
  -- the restarted run
  have hrestart : run (withNumber c n2 true) S (.spores o1.results) b' =
      explore (withNumber c n2 true) S n1 (some last) [] (some o1.results)
        { reset b' with score := updScore (reset b').score last.scoreTracked } := by
    simp only [run, withNumber, hml, hfind]
    simp [hn']
  -- the state it starts from is the one the uninterrupted run has reached
  have hstate : ({ reset b' with
      score := updScore (reset b').score last.scoreTracked,
      cost := some (constrainingCost c last), objective := "min_spores" } : Backend) = o1.backend := by
    have hcc : constrainingCost c last = constrainingCost c base := constraining_tracked t1 hcost'
    have hsc : updScore (reset b').score last.scoreTracked = o1.backend.score := by
      funext i
      rw [t2]
      cases hd : c.defined i with
      | true =>
        simp only [updScore, hd, if_true]
        obtain ⟨v, hv⟩ := Option.isSome_iff_exists.1 (g1 i)
        simp [hv]
      | false => simp [updScore, hd, reset, g2 i hd]
    cases hob : o1.backend with
    | mk sc co ob =>
      rw [hob] at g3 g4 hsc
      simp only at g3 g4 hsc
      rw [hsc, hcc, g3, g4]
  have hsplit : sporeRange 0 n2 = sporeRange 0 n1 ++ sporeRange n1 n2 :=
    sporeRange_append 0 n1 n2 (by omega) (by omega)
  have hfull := loop_append c S (sporeRange 0 n1) (sporeRange n1 n2) 1 [base] base _ _ _ _ hl hlen
  have hgl : (base :: out).getLast (by simp) = last := by
    have := List.getLast?_eq_some_getLast (l := base :: out) (by simp)
    rw [hlastB] at this; exact (Option.some.inj this).symm
  rw [hgl] at hfull
  rw [loop_indep c S hS ha (sporeRange n1 n2) _ 0 _ [last] last o1.backend] at hfull
  rw [hrestart, run_fresh rfl]
  have e1 : n1 < (withNumber c n2 true).number := h12
  have e2 : 0 < (withNumber c n2 false).number := by simp only [withNumber]; omega
  rw [hb', explore_eq e1, explore_eq e2]
  simp only [loop_cfg]
  have hA : loop c S (sporeRange n1 (withNumber c n2 true).number) ([] : List Call).length [last] last
      { reset b' with
        score := updScore (reset b').score last.scoreTracked,
        cost := some (constrainingCost (withNumber c n2 true) last), objective := "min_spores" }
      = loop c S (sporeRange n1 n2) 0 [last] last o1.backend := by
    rw [← hstate]; rfl
  have hB : ∀ x : Call, loop c S (sporeRange 0 (withNumber c n2 false).number) [x].length [base] base
      { reset b with cost := some (constrainingCost (withNumber c n2 false) base), objective := "min_spores" }
      = loop c S (sporeRange 0 n1 ++ sporeRange n1 n2) 1 [base] base
      { reset b with cost := some (constrainingCost c base), objective := "min_spores" } := by
    intro x; rw [← hsplit]; rfl
  rw [hA, hB, hfull]
  change _ ∧ _
  cases hlp : loop c S (sporeRange n1 n2) 0 [last] last o1.backend with
  | error e =>
    constructor
    · intro o2 h; simp at h
    · intro e' h; simpa using h
  | ok v =>
    obtain ⟨b3, cs, out2⟩ := v
    obtain ⟨j1, -⟩ := loop_spec c S _ _ _ _ _ _ _ _ hlp
    rw [sporeRange_length] at j1
    constructor
    · intro o2 h
      simp only [Except.ok.injEq] at h
      subst h
      refine ⟨_, rfl, ?_⟩
      simp only [joinResults]
      rw [show (withNumber c n2 true).number = n2 from rfl, show (withNumber c n2 false).number = n2 from rfl,
        labels_eq n1 n2 out2.length j1, labels_eq 0 n2 (out ++ out2).length (by simp; omega), hr']
      -- both sides: labels 0, 1, ...
      have hz : ((List.range ((out ++ out2).length + 1)).map (fun i : Nat => (0 : Int) + (i : Int)))
          = (List.range (base :: out).length).map (fun i : Nat => (0 : Int) + (i : Int))
            ++ (List.range out2.length).map (fun i : Nat => n1 + 1 + (i : Int)) := by
        rw [show (out ++ out2).length + 1 = (base :: out).length + out2.length by simp; omega, List.range_add,
          List.map_append, List.map_map]
        congr 1
        apply List.map_congr_left
        intro i _
        simp; omega
      rw [hz, show base :: (out ++ out2) = (base :: out) ++ out2 from rfl, List.zip_append (by simp)]
      congr 1
      rw [List.range_succ_eq_map]
      simp only [List.map_cons, List.map_map, List.zip_cons_cons]
      rw [List.filter_cons_of_neg (by simp)]
      have e3 : (fun i : Nat => n1 + (i : Int)) ∘ Nat.succ = (fun i : Nat => n1 + 1 + (i : Int)) := by
        funext i; simp; omega
      rw [e3, List.filter_eq_self]
      rintro ⟨l, r⟩ hm
      have := (List.of_mem_zip hm).1
      simp only [List.mem_map, List.mem_range] at this
      obtain ⟨i, -, rfl⟩ := this
      simp; omega
    · intro e h; simp at h

/-! ## Concrete runs -/

def wind : Item := ⟨"n", "wind", "power"⟩
def solar : Item := ⟨"n", "solar", "power"⟩

/-- Two technologies, three spores. -/
def toy (a : Algorithm) (n : Int) (l : Bool) : Cfg :=
  { items := [wind, solar], defined := fun _ => true, tracked := fun _ => true
    flowCapMax := some (fun _ => .val 10), inputCost := none, objective := "min_cost_optimisation"
    number := n, algorithm := a, factor := 1 / 10, useLatest := l, choice := fun _ _ => true }

/-- Builds whichever technology has the lower score. -/
def cheapest : Solver := fun _ b =>
  some { cap := fun i => if (b.score wind).getD 0 ≤ (b.score solar).getD 0
          then (if i = wind then some 5 else some 0) else (if i = wind then some 0 else some 5)
         value := 100 }

/-- A backend as `build` leaves it. -/
def built : Backend := { score := fun _ => some 0, cost := none, objective := "min_cost_optimisation" }

/-- Labels and capacities of the results. -/
def seen (r : Except SpErr Outcome) : Option (List (Int × Option Rat × Option Rat)) :=
  match r with
  | .ok o => some (o.results.map (fun e => (e.1, e.2.cap wind, e.2.cap solar)))
  | .error _ => none

/-- Scores of the calls. -/
def scores (r : Except SpErr Outcome) : Option (List (Option Rat × Option Rat)) :=
  match r with
  | .ok o => some (o.calls.map (fun x => (x.backend.score wind, x.backend.score solar)))
  | .error _ => none

/-- Cost limits of the calls. -/
def limits (r : Except SpErr Outcome) : Option (List (Option Rat)) :=
  match r with
  | .ok o => some (o.calls.map (fun x => x.backend.cost))
  | .error _ => none

example : seen (run (toy .integer 3 false) cheapest .nothing built)
      = some [(0, some 5, some 0), (1, some 0, some 5), (2, some 5, some 0), (3, some 0, some 5)] ∧
    scores (run (toy .integer 3 false) cheapest .nothing built)
      = some [(some 0, some 0), (some 1000, some 0), (some 1000, some 1000), (some 2000, some 1000)] := by
  decide +kernel

example : scores (run (toy .relativeDeployment 2 false) cheapest .nothing built)
      = some [(some 0, some 0), (some (1 / 2), some 0), (some (1 / 2), some (1 / 2))] := by
  decide +kernel

example : ∃ o, run (withNumber (toy .integer 3 false) 1 false) cheapest .nothing built = .ok o ∧
    (o.results.length : Int) = 1 + 1 ∧
    (∀ base, o.results[0]? = some (0, base) → constrainingCost (toy .integer 3 false) base ≠ 0) := by
  refine ⟨_, rfl, by decide +kernel, ?_⟩
  rintro base h
  cases h
  decide +kernel

/-- C31 says scores never decrease; with the evolving average they do, as documented for that
method. -/
theorem C31_evolving_decreases : scores (run (toy .evolvingAverage 3 false) cheapest .nothing built)
      = some [(some 0, some 0), (some 1000, some 0), (some 1, some 1), (some 2, some 1)] := by
  decide +kernel

/-- C31: the random method also raises the score of technologies that were not deployed. -/
theorem C31_random_undeployed : seen (run (toy .random 1 false) cheapest .nothing built)
      = some [(0, some 5, some 0), (1, some 5, some 0)] ∧
    scores (run (toy .random 1 false) cheapest .nothing built)
      = some [(some 0, some 0), (some 1000, some 1000)] := by
  decide +kernel

/-- C31 fails for restarts with the evolving average: the average after a restart only counts results
since the restart, so that the scores of a restarted run differ from those of an uninterrupted one
(spore 3: 1001 and 1 instead of 2 and 1). -/
theorem C31_restart_evolving_differs : ∃ o1, run (toy .evolvingAverage 2 false) cheapest .nothing built = .ok o1 ∧
    scores (run (toy .evolvingAverage 4 true) cheapest (.spores o1.results) built)
      = some [(some 1001, some 1), (some 1, some 1)] ∧
    scores (run (toy .evolvingAverage 4 false) cheapest .nothing built)
      = some [(some 0, some 0), (some 1000, some 0), (some 1, some 1), (some 2, some 1), (some 1, some 1)] := by
  refine ⟨_, rfl, ?_, ?_⟩
  · decide +kernel
  · decide +kernel

/-! ## C67 -/

/-- C67: scores, active objective and results left by earlier runs do not matter: a run from scratch
depends on the backend only through the cost limit it holds. -/
theorem C67_history_partial (c : Cfg) (S : Solver) (p p' : Prior) (b b' : Backend) (hf : c.useLatest = false)
    (hc : b.cost = b'.cost) : run c S p b = run c S p' b' := by
  rw [run_fresh hf, run_fresh hf]
  simp only [reset, hc]

/-- C67: on a newly built model without a configured cost limit, the limit of every spore is the cost
of the run's own baseline. -/
theorem C67_own_baseline_partial (c : Cfg) (S : Solver) (p : Prior) (b : Backend) (o : Outcome)
    (hf : c.useLatest = false) (hb : b.cost = none) (h : run c S p b = .ok o) :
    ∃ base, o.results[0]? = some (0, base) ∧
      ∀ (j : Nat) y, o.calls[j + 1]? = some y → y.backend.cost = some base.value := by
  obtain ⟨k, -, -, h1, -, -, x, base, hx, -, -, hcost, hxr, h2⟩ := C31_run c S p b o hf h
  obtain ⟨x', r, s, hx', hr, hxr', -⟩ := h1 0 (by omega)
  rw [hx] at hx'; cases hx'
  rw [hxr] at hxr'; cases hxr'
  refine ⟨base, by simpa using hr, ?_⟩
  intro j y hy
  rw [(h2 j y hy).2]
  -- the tracked cost of the baseline is the infinite limit
  have hbt : base.costTracked = some none := by
    rw [run_fresh hf] at h
    obtain ⟨_, base', hb', _, _, _, hc, _⟩ := explore_ok h
    rw [hc] at hx
    simp at hx
    subst hx
    simp only at hxr
    obtain ⟨-, -, -, -, e, -⟩ := solveWith_some hxr
    rw [e]; simp [reset, hb]
  simp [constrainingCost, hbt]

example : limits (run (toy .integer 2 false) cheapest .nothing built) = some [none, some 100, some 100] := by
  decide +kernel

/-- C67: a cost limit in force at the start, unless it is zero, is the limit of every spore; a limit of zero gives way
to the cost of the run's own baseline. -/
theorem C67_limit_kept (c : Cfg) (S : Solver) (p : Prior) (b : Backend) (o : Outcome) (v : Rat)
    (hf : c.useLatest = false) (hb : b.cost = some v) (h : run c S p b = .ok o) :
    ∃ base, o.results[0]? = some (0, base) ∧
      ∀ (j : Nat) y, o.calls[j + 1]? = some y →
        (v ≠ 0 → y.backend.cost = some v) ∧ (v = 0 → y.backend.cost = some base.value) := by
  obtain ⟨k, -, -, h1, -, -, x, base, hx, -, -, hcost, hxr, h2⟩ := C31_run c S p b o hf h
  obtain ⟨x', r, s, hx', hr, hxr', -⟩ := h1 0 (by omega)
  rw [hx] at hx'; cases hx'
  rw [hxr] at hxr'; cases hxr'
  refine ⟨base, by simpa using hr, ?_⟩
  intro j y hy
  rw [(h2 j y hy).2]
  have hbt : base.costTracked = some (some v) := by
    rw [run_fresh hf] at h
    obtain ⟨_, base', hb', _, _, _, hc, _⟩ := explore_ok h
    rw [hc] at hx
    simp at hx
    subst hx
    simp only at hxr
    obtain ⟨-, -, -, -, e, -⟩ := solveWith_some hxr
    rw [e]; simp [reset, hb]
  constructor
  · intro hv; simp [constrainingCost, hbt, hv]
  · intro hv; simp [constrainingCost, hbt, hv]

example : limits (run (toy .integer 2 false) cheapest .nothing { built with cost := some 120 })
    = some [some 120, some 120, some 120] ∧
    limits (run (toy .integer 2 false) cheapest .nothing { built with cost := some 0 })
    = some [some 0, some 100, some 100] := by
  decide +kernel

/-- C31, restarting from the results of a plan: its cost limit is the limit kept with the results, else the limit of
the inputs, unless that is missing, infinite or zero; then it is the cost of the plan. -/
theorem C31_restart_limit (c : Cfg) (S : Solver) (b : Backend) (o : Outcome) (r : Result) (hu : c.useLatest = true)
    (h : run c S (.plain r) b = .ok o) :
    ∀ y ∈ o.calls,
      (∀ v, r.costTracked = some (some v) → v ≠ 0 → y.backend.cost = some v) ∧
      (∀ v, r.costTracked = none → c.inputCost = some (some v) → v ≠ 0 → y.backend.cost = some v) ∧
      (r.costTracked = none → (c.inputCost = none ∨ c.inputCost = some none ∨ c.inputCost = some (some 0)) →
        y.backend.cost = some r.value) := by
  simp only [run, hu, if_true] at h
  obtain ⟨-, base, hb, calls, out, hl, hc, -⟩ := explore_ok h
  cases hb
  obtain ⟨-, -, -, -, i5, -⟩ := loop_spec c S _ _ _ _ _ _ _ _ hl
  intro y hy
  rw [hc, List.nil_append] at hy
  obtain ⟨j, hj⟩ := List.getElem?_of_mem hy
  obtain ⟨-, e, -⟩ := i5 j y hj
  rw [e]
  refine ⟨?_, ?_, ?_⟩
  · intro v h1 hv; simp [constrainingCost, h1, hv]
  · intro v h1 h2 hv; simp [constrainingCost, h1, h2, hv]
  · rintro h1 (h2 | h2 | h2) <;> simp [constrainingCost, h1, h2]

/-- The results of a plan that keeps no cost limit. -/
def planned : Result := { cap := fun _ => some 5, value := 70, costTracked := none, scoreTracked := fun _ => none }

example : limits (run { toy .integer 2 true with inputCost := some (some 90) } cheapest (.plain planned) built)
      = some [some 90, some 90] ∧
    limits (run (toy .integer 2 true) cheapest (.plain planned) built) = some [some 70, some 70] := by
  decide +kernel

theorem maxLabel_eq : ∀ (rs : List (Int × Result)) (m : Int), (∀ e ∈ rs, e.1 ≤ m) → (∃ e ∈ rs, e.1 = m) →
    maxLabel rs = m
  | [], m, _, h => by obtain ⟨e, he, -⟩ := h; cases he
  | [e], m, _, h => by
      obtain ⟨e', he, h⟩ := h
      cases List.mem_singleton.1 he
      exact h
  | e :: e' :: r, m, hm, h => by
      have h1 : e.1 ≤ m := hm e (by simp)
      have hr : ∀ x ∈ e' :: r, x.1 ≤ m := fun x hx => hm x (List.mem_cons_of_mem _ hx)
      show max e.1 (maxLabel (e' :: r)) = m
      obtain ⟨x, hx, hxm⟩ := h
      by_cases hin : ∃ x ∈ e' :: r, x.1 = m
      · rw [maxLabel_eq (e' :: r) m hr hin]; omega
      · rcases List.mem_cons.1 hx with rfl | hx
        · have : maxLabel (e' :: r) ≤ m := by
            have key : ∀ (l : List (Int × Result)) (y : Int × Result), (∀ x ∈ y :: l, x.1 ≤ m) →
                maxLabel (y :: l) ≤ m := by
              intro l
              induction l with
              | nil => intro y hy; exact hy y (by simp)
              | cons z l ih =>
                intro y hy
                have := ih z (fun x hx => hy x (List.mem_cons_of_mem _ hx))
                have h0 := hy y (by simp)
                show max y.1 (maxLabel (z :: l)) ≤ m
                omega
            exact key r e' hr
          omega
        · exact absurd ⟨x, hx, hxm⟩ hin

/-- C31, restarting from labelled results, in whatever order they are stored: they are kept, and the spores that follow
are numbered from the greatest label on. -/
theorem C31_restart_numbers (c : Cfg) (S : Solver) (b : Backend) (o : Outcome) (rs : List (Int × Result)) (m : Int)
    (hu : c.useLatest = true) (hm : ∀ e ∈ rs, e.1 ≤ m) (hin : ∃ e ∈ rs, e.1 = m) (h0 : 0 < m)
    (h : run c S (.spores rs) b = .ok o) :
    m < c.number ∧ ∃ new : List (Int × Result), o.results = rs ++ new ∧
      new.map Prod.fst = (List.range new.length).map (fun i : Nat => m + 1 + (i : Int)) := by
  simp only [run, hu, if_true, maxLabel_eq rs m hm hin, if_pos h0] at h
  obtain ⟨hn, base, -, calls, out, hl, -, hr⟩ := explore_ok h
  obtain ⟨i1, -⟩ := loop_spec c S _ _ _ _ _ _ _ _ hl
  refine ⟨hn, ((sporeRange m c.number).take out.length).zip out, ?_, ?_⟩
  · rw [hr]
    show rs ++ _ = _
    rw [List.zip_cons_cons, List.filter_cons_of_neg (by simp), List.filter_eq_self.2]
    rintro ⟨l, r⟩ hmem
    have h1 := List.mem_of_mem_take (List.of_mem_zip hmem).1
    simp only [sporeRange, List.mem_map, List.mem_range] at h1
    obtain ⟨i, -, rfl⟩ := h1
    simp; omega
  · have hlen : ((sporeRange m c.number).take out.length).length = out.length := by
      rw [List.length_take]; omega
    rw [List.map_fst_zip (by omega), List.length_zip, hlen, Nat.min_self]
    have h3 : out.length ≤ (c.number - m).toNat := by rw [← sporeRange_length]; exact i1
    apply List.ext_getElem?
    intro i
    by_cases hi : i < out.length
    · rw [List.getElem?_take_of_lt hi, sporeRange_get _ _ _ (by omega)]
      simp [hi]
    · rw [List.getElem?_eq_none (by rw [hlen]; omega), List.getElem?_eq_none (by simp; omega)]

/-- Results stored in another order than they were found. -/
example : (run (toy .integer 4 true) cheapest (.spores [(0, planned), (2, planned), (1, planned)]) built).toOption.map
    (fun o => o.results.map Prod.fst) = some [0, 2, 1, 3, 4] := by
  decide +kernel

/-- The solver after costs were raised with `update_input`: everything costs 500. -/
def dearer : Solver := fun k b => (cheapest k b).map (fun s => { s with value := 500 })

/-- C67 fails: `spores_baseline_cost` is never reset, so a second run on the same model object is
limited by the cost of the first run's baseline, although its own baseline costs 500. -/
theorem C67_stale_budget : ∃ o1 o2, run (toy .integer 2 false) cheapest .nothing built = .ok o1 ∧
    run (toy .integer 2 false) dearer (.spores o1.results) o1.backend = .ok o2 ∧
    (o2.results[0]?).map (fun e => e.2.value) = some 500 ∧
    limits (.ok o2) = some [some 100, some 100, some 100] := by
  refine ⟨_, _, rfl, rfl, ?_, ?_⟩
  · decide +kernel
  · decide +kernel

end Spores
end Calliope
