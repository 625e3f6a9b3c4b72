import Verif.Model.Operate
import Mathlib.Tactic.Linarith
import Mathlib.Tactic.Ring
import Mathlib.Tactic.FieldSimp

/-!
# Properties C27, C28 and C66: operate mode
-/

namespace Calliope
namespace Operate

variable {L : Type}

/-- A valid run: timesteps ascend, the window is positive, the horizon at least the window (as the
documentation of the option demands, config_schema.py:139-144), every window holds a timestep, and
the solver returns one level per timestep. -/
structure Valid (c : Cfg L) : Prop where
  sorted : c.axis.Pairwise (· < ·)
  pos : 0 < c.window
  horizon : c.window ≤ c.horizon
  full : ∀ w ∈ windowsteps c, ∃ t ∈ c.axis, w ≤ t ∧ t < w + c.window
  len : ∀ p l i st, c.solve p l i = some st → st.length = p.length

/-- Window starts at distance `window`, the last one less than `window` from `last`. -/
def Steps (window last : Int) : Int → List Int → Prop
  | w, [] => last < w + window
  | w, w' :: ws => w' = w + window ∧ Steps window last w' ws

theorem steps_range (window last : Int) (first : Int) (n : Nat) (h : last < first + (n + 1) * window) :
    Steps window last first ((List.range n).map (fun i : Nat => first + ((i : Int) + 1) * window)) := by
  induction n generalizing first with
  | zero => simp only [List.range_zero, List.map_nil, Steps]; push_cast at h; linarith
  | succ n ih =>
    rw [List.range_succ_eq_map]
    simp only [List.map_cons, List.map_map, Steps]
    refine ⟨by push_cast; linarith, ?_⟩
    have := ih (first + window) (by push_cast at h; linarith)
    have e : ((fun i : Nat => first + ((i : Int) + 1) * window) ∘ Nat.succ)
        = (fun i : Nat => (first + window) + ((i : Int) + 1) * window) := by
      funext i; simp only [Function.comp_apply, Nat.succ_eq_add_one]; push_cast; ring
    rw [e, show first + (((0 : Nat) : Int) + 1) * window = first + window by push_cast; ring]
    exact this

theorem windowsteps_steps (c : Cfg L) (hp : 0 < c.window) (hs : c.axis.Pairwise (· < ·)) (a z : Int)
    (ha : c.axis.head? = some a) (hz : c.axis.getLast? = some z) :
    ∃ ws, windowsteps c = a :: ws ∧ Steps c.window z a ws := by
  refine ⟨(List.range ((z - a) / c.window).toNat).map (fun i : Nat => a + ((i : Int) + 1) * c.window), ?_, ?_⟩
  · simp only [windowsteps, ha, hz, dateRange, List.range_succ_eq_map, List.map_cons, List.map_map]
    congr 1
    · simp
  · apply steps_range
    have haz : a ≤ z := by
      match hax : c.axis with
      | [] => simp [hax] at ha
      | x :: r =>
        rw [hax] at ha hz hs
        simp at ha; subst ha
        have hm := List.mem_of_getLast? hz
        rcases List.mem_cons.1 hm with rfl | h
        · exact Int.le_refl _
        · exact Int.le_of_lt ((List.pairwise_cons.1 hs).1 z h)
    have h0 : 0 ≤ (z - a) / c.window := Int.ediv_nonneg (by omega) (by omega)
    have h1 := Int.lt_ediv_add_one_mul_self (z - a) hp
    rw [Int.toNat_of_nonneg h0]
    linarith

theorem filter_split (l : List Int) (hs : l.Pairwise (· < ·)) (w w' : Int) (h : w ≤ w') :
    l.filter (fun t => decide (w ≤ t)) =
      l.filter (fun t => decide (w ≤ t ∧ t < w')) ++ l.filter (fun t => decide (w' ≤ t)) := by
  induction l with
  | nil => rfl
  | cons x r ih =>
    obtain ⟨h1, h2⟩ := List.pairwise_cons.1 hs
    simp only [List.filter_cons]
    by_cases hx : w ≤ x
    · by_cases hx' : x < w'
      · simp [hx, hx', ih h2, show ¬ w' ≤ x by omega]
      · have e : r.filter (fun t => decide (w ≤ t ∧ t < w')) = [] := by
          apply List.filter_eq_nil_iff.2
          intro t ht; have := h1 t ht; simp only [decide_eq_true_eq]; omega
        have ih' := ih h2
        rw [e] at ih'
        simp only [List.nil_append] at ih'
        simp only [hx, hx', and_false, decide_false, decide_true, if_true, e,
          show w' ≤ x by omega, ih']
        simp
    · simp [hx, ih h2, show ¬ w' ≤ x by omega]

theorem le_last {l : List Int} (hs : l.Pairwise (· < ·)) {z : Int} (hz : l.getLast? = some z) {t : Int}
    (ht : t ∈ l) : t ≤ z := by
  have hne : l ≠ [] := by rintro rfl; simp at hz
  have hl' : l.getLast hne = z := by simpa [List.getLast?_eq_some_getLast hne] using hz
  rw [← List.dropLast_append_getLast hne, hl'] at ht hs
  rcases List.mem_append.1 ht with h | h
  · exact Int.le_of_lt ((List.pairwise_append.1 hs).2.2 t h z (by simp))
  · simp at h; omega

theorem mem_windowTimes (c : Cfg L) (z : Int) (hz : c.axis.getLast? = some z) (w t : Int) :
    t ∈ windowTimes c w ↔ t ∈ c.axis ∧ w ≤ t ∧ t ≤ min (w + c.horizon) (z + 1) - 1 := by
  simp [windowTimes, horizonstep, hz]

/-- Results before the next window are those of the timesteps from this window to the next. -/
theorem keep_times (c : Cfg L) (hv : Valid c) (z : Int) (hz : c.axis.getLast? = some z) (w : Int) :
    (windowTimes c w).filter (fun t => decide (t < w + c.window))
      = c.axis.filter (fun t => decide (w ≤ t ∧ t < w + c.window)) := by
  simp only [windowTimes, List.filter_filter]
  apply List.filter_congr
  intro t ht
  have h1 := le_last hv.sorted hz ht
  have h2 := hv.horizon
  simp only [horizonstep, hz]
  rw [← Bool.decide_and]
  congr 1
  simp only [eq_iff_iff]
  constructor
  · rintro ⟨a, b, _⟩; exact ⟨b, a⟩
  · rintro ⟨a, b⟩; refine ⟨b, a, ?_⟩; omega

theorem last_times (c : Cfg L) (hv : Valid c) (z : Int) (hz : c.axis.getLast? = some z) (w : Int)
    (hlast : z < w + c.window) :
    (windowTimes c w).filter (fun t => decide (w ≤ t)) = c.axis.filter (fun t => decide (w ≤ t)) := by
  simp only [windowTimes, List.filter_filter]
  apply List.filter_congr
  intro t ht
  have h1 := le_last hv.sorted hz ht
  have h2 := hv.horizon
  simp only [horizonstep, hz]
  rw [← Bool.decide_and]
  congr 1
  simp only [eq_iff_iff]
  constructor
  · rintro ⟨a, _⟩; exact a
  · intro a; refine ⟨a, a, ?_⟩; omega

theorem label_times (ts : List Int) (r : Option (List (Option Rat)))
    (h : ∀ st, r = some st → st.length = ts.length) : (label ts r).map Prod.fst = ts := by
  cases r with
  | none => simp [label, List.map_map, Function.comp_def]
  | some st => simp only [label]; rw [List.map_fst_zip]; rw [h st rfl]

theorem map_filter_fst (l : List (Int × Option Rat)) (p : Int → Bool) :
    (l.filter (fun r => p r.1)).map Prod.fst = (l.map Prod.fst).filter p := by
  induction l with
  | nil => rfl
  | cons x r ih => simp only [List.filter_cons, List.map_cons]; split <;> simp [ih]

/-- Handover of one call to the next. -/
def Handover (c : Cfg L) (a b : Call L) : Prop :=
  ∀ t v k, (t, some v) ∈ a.result → t < b.start → (∀ r ∈ a.result, r.1 < b.start → r.1 ≤ t) →
    c.cap = some k → 0 < k → b.backend.initial = some (v / k)

/-- Each call hands over to the next. -/
def Chain (c : Cfg L) : Call L → List (Call L) → Prop
  | _, [] => True
  | a, b :: r => Handover c a b ∧ Chain c b r

theorem getLast_filter {l : List (Int × Option Rat)} (hs : (l.map Prod.fst).Pairwise (· < ·)) (w t : Int)
    (v : Option Rat) (hm : (t, v) ∈ l) (ht : t < w) (hmax : ∀ r ∈ l, r.1 < w → r.1 ≤ t) :
    (l.filter (fun r => decide (r.1 < w))).getLast? = some (t, v) := by
  have hm' : (t, v) ∈ l.filter (fun r => decide (r.1 < w)) := List.mem_filter.2 ⟨hm, by simpa using ht⟩
  generalize hf : l.filter (fun r => decide (r.1 < w)) = f at *
  have hfs : f.Pairwise (fun a b => a.1 < b.1) := by
    have := (List.pairwise_map.1 hs).filter (fun r => decide (r.1 < w))
    rwa [hf] at this
  obtain ⟨as, bs, hab⟩ := List.append_of_mem hm'
  have : bs = [] := by
    cases bs with
    | nil => rfl
    | cons x bs =>
      exfalso
      rw [hab] at hfs
      have h1 := (List.pairwise_cons.1 (List.pairwise_append.1 hfs).2.1).1 x (by simp)
      have hx : x ∈ f := by rw [hab]; simp
      rw [← hf] at hx
      obtain ⟨hx1, hx2⟩ := List.mem_filter.1 hx
      have := hmax x hx1 (by simpa using hx2)
      simp only at h1
      omega
  rw [hab, this]; simp

/-- Everything the loop guarantees. -/
theorem loop_spec (c : Cfg L) (hv : Valid c) (z : Int) (hz : c.axis.getLast? = some z) :
    ∀ (ws : List Int) (w : Int) (b : Backend L) (prev : List (Int × Option Rat)),
    Steps c.window z w ws → (∀ x ∈ w :: ws, ∃ t ∈ c.axis, x ≤ t ∧ t < x + c.window) →
    prev.map Prod.fst = windowTimes c w → b.params.length = prev.length →
    ∃ calls parts, loop c w ws b prev = .ok (calls, parts) ∧ calls.map Call.start = ws ∧
      parts.flatten.map Prod.fst = c.axis.filter (fun t => decide (w ≤ t)) ∧
      (∀ r ∈ parts.flatten, (r ∈ prev ∧ w ≤ r.1 ∧ r.1 < w + c.window) ∨
        ∃ call ∈ calls, r ∈ call.result ∧ call.start ≤ r.1 ∧ r.1 < call.start + c.window) ∧
      Chain c ⟨w, b, prev⟩ calls ∧
      ((∀ t ∈ c.axis, (c.data t).isSome) →
        ∀ call ∈ calls, call.backend.params = (windowTimes c call.start).map c.data) ∧
      (∀ call ∈ calls, call.result = label (windowTimes c call.start)
        (c.solve call.backend.params call.backend.lookups call.backend.initial)) := by
  intro ws
  induction ws with
  | nil =>
    intro w b prev hst hfull hprev hlen
    refine ⟨[], _, rfl, rfl, ?_, ?_, trivial, by simp, by simp⟩
    · simp only [List.flatten_cons, List.flatten_nil, List.append_nil]
      rw [map_filter_fst prev (fun t => decide (w ≤ t)), hprev]
      exact last_times c hv z hz w hst
    · intro r hr
      simp only [List.flatten_cons, List.flatten_nil, List.append_nil, List.mem_filter,
        decide_eq_true_eq] at hr
      left
      refine ⟨hr.1, hr.2, ?_⟩
      have hm : r.1 ∈ prev.map Prod.fst := List.mem_map_of_mem hr.1
      rw [hprev, mem_windowTimes c z hz] at hm
      have hst' : z < w + c.window := hst
      omega
  | cons w' ws ih =>
    intro w b prev hst hfull hprev hlen
    obtain ⟨hw', hst'⟩ := hst
    have hps : (prev.map Prod.fst).Pairwise (· < ·) := by rw [hprev]; exact hv.sorted.filter _
    -- the kept part is not empty
    have hkeep : (prev.filter (fun r => decide (r.1 < w'))).map Prod.fst
        = c.axis.filter (fun t => decide (w ≤ t ∧ t < w + c.window)) := by
      rw [map_filter_fst prev (fun t => decide (t < w')), hprev, hw']
      exact keep_times c hv z hz w
    have hkne : prev.filter (fun r => decide (r.1 < w')) ≠ [] := by
      intro h
      rw [h] at hkeep
      obtain ⟨t, ht, h1, h2⟩ := hfull w (by simp)
      have : t ∈ c.axis.filter (fun t => decide (w ≤ t ∧ t < w + c.window)) :=
        List.mem_filter.2 ⟨ht, by simp [h1, h2]⟩
      rw [← hkeep] at this
      simp at this
    simp only [loop]
    generalize hb1 : (if (windowTimes c w').length ≠ prev.length then build c w'
      else { b with params := List.zipWith updElem b.params ((windowTimes c w').map c.data) } : Backend L) = b1
    have hb1len : b1.params.length = (windowTimes c w').length := by
      subst hb1
      split
      · simp [build]
      · next h => simp at h ⊢; omega
    have hb1data : (∀ t ∈ c.axis, (c.data t).isSome) → b1.params = (windowTimes c w').map c.data := by
      intro hd
      subst hb1
      split
      · simp [build]
      · next h =>
        simp only [ne_eq, Decidable.not_not] at h
        have hall : ∀ (l : List Int) (p : List (Option Rat)), p.length = l.length →
            (∀ t ∈ l, (c.data t).isSome) → List.zipWith updElem p (l.map c.data) = l.map c.data := by
          intro l
          induction l with
          | nil => intro p _ _; simp
          | cons t l ihl =>
            intro p hp ht
            match p, hp with
            | x :: p, hp =>
              have h1 := ht t (by simp)
              obtain ⟨y, hy⟩ := Option.isSome_iff_exists.1 h1
              simp only [List.map_cons, List.zipWith_cons_cons, hy, updElem]
              rw [ihl p (by simpa using hp) (fun u hu => ht u (by simp [hu]))]
        apply hall
        · omega
        · intro t ht
          exact hd t ((mem_windowTimes c z hz w' t).1 ht).1
    have hini : ∃ ini, nextInitial c prev (prev.filter (fun r => decide (r.1 < w'))) b1.initial = .ok ini ∧
        (∀ t v k, (t, some v) ∈ prev → t < w' → (∀ r ∈ prev, r.1 < w' → r.1 ≤ t) →
          c.cap = some k → 0 < k → ini = some (v / k)) := by
      simp only [nextInitial]
      split
      · next hany =>
        rw [List.getLast?_eq_some_getLast hkne]
        refine ⟨_, rfl, ?_⟩
        intro t v k hm ht hmax hk hk0
        have := getLast_filter hps w' t (some v) hm ht hmax
        rw [List.getLast?_eq_some_getLast hkne] at this
        rw [Option.some.inj this]
        simp [hk, hk0, updElem]
      · next hany =>
        refine ⟨_, rfl, ?_⟩
        intro t v k hm
        exfalso; apply hany
        exact List.any_eq_true.2 ⟨(t, some v), hm, rfl⟩
    obtain ⟨ini, hini1, hini2⟩ := hini
    simp only [hini1]
    generalize hres : label (windowTimes c w') (c.solve b1.params b1.lookups ini) = res
    have hrt : res.map Prod.fst = windowTimes c w' := by
      rw [← hres]; apply label_times
      intro st hs; rw [hv.len _ _ _ _ hs, hb1len]
    have hrl : b1.params.length = res.length := by
      rw [hb1len, ← hrt, List.length_map]
    obtain ⟨calls, parts, h1, h2, h3, h4, h5, h6, h7⟩ :=
      ih w' { b1 with initial := ini } res hst' (fun x hx => hfull x (List.mem_cons_of_mem _ hx)) hrt hrl
    simp only [h1]
    refine ⟨_, _, rfl, by simp [h2], ?_, ?_, ⟨?_, h5⟩, ?_, ?_⟩
    · rw [List.flatten_cons, List.map_append, h3, hkeep, hw']
      exact (filter_split c.axis hv.sorted w (w + c.window) (by have := hv.pos; omega)).symm
    · intro r hr
      rw [List.flatten_cons, List.mem_append] at hr
      rcases hr with hr | hr
      · left
        have hmem := (List.mem_filter.1 hr).1
        have hm : r.1 ∈ (prev.filter (fun r => decide (r.1 < w'))).map Prod.fst := List.mem_map_of_mem hr
        rw [hkeep, List.mem_filter] at hm
        exact ⟨hmem, by simpa using hm.2⟩
      · right
        rcases h4 r hr with ⟨a, b', c'⟩ | ⟨call, hc, h⟩
        · exact ⟨_, List.mem_cons_self .., a, b', c'⟩
        · exact ⟨call, List.mem_cons_of_mem _ hc, h⟩
    · intro t v k hm ht hmax hk hk0
      exact hini2 t v k hm ht hmax hk hk0
    · intro hd call hcall
      rcases List.mem_cons.1 hcall with rfl | hc
      · exact hb1data hd
      · exact h6 hd call hc
    · intro call hcall
      rcases List.mem_cons.1 hcall with rfl | hc
      · exact hres.symm
      · exact h7 call hc

theorem run_spec (c : Cfg L) (hv : Valid c) (i : Nat) (b : Backend L) (w0 w1 : Int) (ws : List Int)
    (hw : windowsteps c = w0 :: w1 :: ws)
    (hb : i = 0 → b = build c w0) (st : List (Option Rat))
    (hst : c.solve (build c w0).params (build c w0).lookups (build c w0).initial = some st) :
    ∃ calls out, run c i b = .ok (calls, out) ∧ calls.map Call.start = windowsteps c ∧
      out.map Prod.fst = c.axis ∧
      (∀ r ∈ out, ∃ call ∈ calls, r ∈ call.result ∧ call.start ≤ r.1 ∧ r.1 < call.start + c.window) ∧
      (∃ first rest, calls = first :: rest ∧ first.backend = build c w0 ∧ Chain c first rest) ∧
      ((∀ t ∈ c.axis, (c.data t).isSome) →
        ∀ call ∈ calls, call.backend.params = (windowTimes c call.start).map c.data) ∧
      (∀ call ∈ calls, call.result = label (windowTimes c call.start)
        (c.solve call.backend.params call.backend.lookups call.backend.initial)) := by
  have hax : ∃ a z, c.axis.head? = some a ∧ c.axis.getLast? = some z := by
    cases h : c.axis with
    | nil => simp [windowsteps, h] at hw
    | cons x r => exact ⟨x, _, rfl, List.getLast?_eq_some_getLast (by simp)⟩
  obtain ⟨a, z, ha, hz⟩ := hax
  obtain ⟨ws', e1, e2⟩ := windowsteps_steps c hv.pos hv.sorted a z ha hz
  rw [hw] at e1
  obtain ⟨rfl, rfl⟩ := List.cons.inj e1
  have hb' : (if i ≠ 0 then build c w0 else b) = build c w0 := by
    split
    · rfl
    · next h => exact hb (by simpa using h)
  have hlen := hv.len _ _ _ _ hst
  have hbl : (build c w0).params.length = (windowTimes c w0).length := by simp [build]
  have hrt : (label (windowTimes c w0) (some st)).map Prod.fst = windowTimes c w0 := by
    apply label_times; rintro _ ⟨⟩; rw [hlen, hbl]
  obtain ⟨calls, parts, h1, h2, h3, h4, h5, h6, h7⟩ := loop_spec c hv z hz (w1 :: ws) w0 (build c w0)
    (label (windowTimes c w0) (some st)) e2 (fun x hx => hv.full x (by rw [hw]; exact hx)) hrt
    (by rw [hbl, ← hrt, List.length_map, hrt])
  simp only [run, hw]
  rw [hb', hst]
  simp only [h1]
  refine ⟨_, _, rfl, by simp [h2], ?_, ?_, ⟨_, _, rfl, rfl, h5⟩, ?_, ?_⟩
  · rw [h3]
    apply List.filter_eq_self.2
    intro t ht
    simp only [decide_eq_true_eq]
    have hs := hv.sorted
    match hax : c.axis with
    | [] => rw [hax] at ht; simp at ht
    | x :: r =>
      rw [hax] at ha ht hs
      simp at ha; subst ha
      rcases List.mem_cons.1 ht with rfl | h
      · exact Int.le_refl _
      · exact Int.le_of_lt ((List.pairwise_cons.1 hs).1 t h)
  · intro r hr
    rcases h4 r hr with h | ⟨call, hc, h⟩
    · exact ⟨_, List.mem_cons_self .., h⟩
    · exact ⟨call, List.mem_cons_of_mem _ hc, h⟩
  · intro hd call hcall
    rcases List.mem_cons.1 hcall with rfl | hc
    · simp [build]
    · exact h6 hd call hc
  · intro call hcall
    rcases List.mem_cons.1 hcall with rfl | hc
    · simp only; rw [hst]
    · exact h7 call hc

/-- The model as built by the user, or left by an earlier run that moved on from the first window:
either way the run starts from the first window (`_start_window_idx`, model.py:517-520). -/
def ReadyFor (c : Cfg L) (i : Nat) (b : Backend L) : Prop :=
  ∀ w0 ws, windowsteps c = w0 :: ws → i = 0 → b = build c w0

/-- The first window has an optimal solution. -/
def FirstSolves (c : Cfg L) : Prop :=
  ∀ w0 ws, windowsteps c = w0 :: ws →
    (c.solve (build c w0).params (build c w0).lookups (build c w0).initial).isSome

/-- C27: with at least two windows and a horizon not shorter than the window, windows are solved in
order and the results hold every timestep of the model exactly once, each from the window it lies
in.  Missing: a single window (`C27_single_window_fails`) and horizons shorter than the window
(`C27_short_horizon_fails`), which the code accepts. -/
theorem C27_cover_partial (c : Cfg L) (hv : Valid c) (i : Nat) (b : Backend L) (hr : ReadyFor c i b)
    (h2 : 1 < (windowsteps c).length) (hs : FirstSolves c) :
    ∃ calls out, run c i b = .ok (calls, out) ∧ calls.map Call.start = windowsteps c ∧
      (windowsteps c).Pairwise (· < ·) ∧
      out.map Prod.fst = c.axis ∧
      ∀ r ∈ out, ∃ call ∈ calls, r ∈ call.result ∧ call.start ≤ r.1 ∧ r.1 < call.start + c.window := by
  match hw : windowsteps c, h2 with
  | w0 :: w1 :: ws, _ =>
    obtain ⟨st, hst⟩ := Option.isSome_iff_exists.1 (hs w0 _ hw)
    obtain ⟨calls, out, h1, h2, h3, h4, _⟩ := run_spec c hv i b w0 w1 ws hw (hr w0 _ hw) st hst
    refine ⟨calls, out, h1, by rw [h2, hw], ?_, h3, h4⟩
    rw [← hw]
    simp only [windowsteps]
    split
    · simp only [dateRange]
      refine List.pairwise_map.2 ?_
      refine (List.pairwise_lt_range).imp ?_
      intro x y hxy
      have h : (x : Int) < y := by exact_mod_cast hxy
      have := Int.mul_lt_mul_of_pos_right h hv.pos
      omega
    · exact List.Pairwise.nil

/-- C28: each window after the first starts with the storage level at the end of the previous
window's own part, as a share of the capacity: share times capacity is that level.  (For devices
whose capacity is given and positive, and previous windows that were solved.) -/
theorem C28_handover_partial (c : Cfg L) (hv : Valid c) (i : Nat) (b : Backend L) (hr : ReadyFor c i b)
    (h2 : 1 < (windowsteps c).length) (hs : FirstSolves c) (k : Rat) (hk : c.cap = some k) (hk0 : 0 < k) :
    ∃ calls out, run c i b = .ok (calls, out) ∧
      ∀ (j : Nat) x y, calls[j]? = some x → calls[j + 1]? = some y →
        ∀ t v, (t, some v) ∈ x.result → t < y.start → (∀ r ∈ x.result, r.1 < y.start → r.1 ≤ t) →
          ∃ s, y.backend.initial = some s ∧ s * k = v := by
  match hw : windowsteps c, h2 with
  | w0 :: w1 :: ws, _ =>
    obtain ⟨st, hst⟩ := Option.isSome_iff_exists.1 (hs w0 _ hw)
    obtain ⟨calls, out, h1, _, _, _, ⟨first, rest, e, _, h5⟩, _⟩ :=
      run_spec c hv i b w0 w1 ws hw (hr w0 _ hw) st hst
    refine ⟨calls, out, h1, ?_⟩
    subst e
    have key : ∀ (rest : List (Call L)) (first : Call L), Chain c first rest → ∀ (j : Nat) x y,
        (first :: rest)[j]? = some x → (first :: rest)[j + 1]? = some y → Handover c x y := by
      intro rest
      induction rest with
      | nil => intro first _ j x y _ hy; simp at hy
      | cons d rest ih =>
        intro first hc j x y hx hy
        cases j with
        | zero => simp at hx hy; subst hx hy; exact hc.1
        | succ j => exact ih d hc.2 j x y (by simpa using hx) (by simpa using hy)
    intro j x y hx hy t v hm ht hmax
    refine ⟨v / k, key rest first h5 j x y hx hy t v k hm ht hmax hk hk0, ?_⟩
    field_simp

/-- C66: when the timeseries has no gaps, every window is solved with the values of its own
timesteps.  Missing: gaps (`C66_gap_keeps_old_value`) and lookups (`C66_lookups_not_updated`). -/
theorem C66_window_data_partial (c : Cfg L) (hv : Valid c) (i : Nat) (b : Backend L) (hr : ReadyFor c i b)
    (h2 : 1 < (windowsteps c).length) (hs : FirstSolves c) (hd : ∀ t ∈ c.axis, (c.data t).isSome) :
    ∃ calls out, run c i b = .ok (calls, out) ∧
      ∀ call ∈ calls, ∃ ts, call.backend.params = ts.map c.data ∧ call.result.map Prod.fst = ts ∧
        ∀ t, t ∈ ts ↔ t ∈ c.axis ∧ call.start ≤ t ∧ t < call.start + c.horizon := by
  match hw : windowsteps c, h2 with
  | w0 :: w1 :: ws, _ =>
    obtain ⟨st, hst⟩ := Option.isSome_iff_exists.1 (hs w0 _ hw)
    obtain ⟨calls, out, h1, _, _, _, _, h6, h7⟩ :=
      run_spec c hv i b w0 w1 ws hw (hr w0 _ hw) st hst
    refine ⟨calls, out, h1, ?_⟩
    intro call hc
    have hp := h6 hd call hc
    refine ⟨windowTimes c call.start, hp, ?_, ?_⟩
    · rw [h7 call hc]
      apply label_times
      intro st' hst'
      rw [hv.len _ _ _ _ hst', hp, List.length_map]
    · intro t
      cases hz : c.axis.getLast? with
      | none =>
        have : c.axis = [] := List.getLast?_eq_none_iff.1 hz
        simp [windowTimes, this]
      | some z =>
        rw [mem_windowTimes c z hz]
        constructor
        · rintro ⟨a, b, d⟩; exact ⟨a, b, by omega⟩
        · rintro ⟨a, b, d⟩
          have := le_last hv.sorted hz a
          exact ⟨a, b, by omega⟩

/-! ### Concrete runs -/

/-- Six timesteps, windows of two, horizon of four; the solver stores the parameter's values on top
of the initial share, and is not optimal without a first value. -/
def toy : Cfg Bool where
  axis := [0, 1, 2, 3, 4, 5]
  window := 2
  horizon := 4
  data t := some t
  look t := decide (t < 3)
  initial0 := some 1
  cap := some 10
  solve p _ i := some (p.map (fun x => match x, i with | some x, some i => some (x + i) | _, _ => none))

example : Valid toy ∧ ReadyFor toy 0 (build toy 0) ∧ 1 < (windowsteps toy).length ∧ FirstSolves toy ∧
    (∀ t ∈ toy.axis, (toy.data t).isSome) ∧ toy.cap = some 10 := by
  have hw : windowsteps toy = [0, 2, 4] := by decide
  refine ⟨⟨by decide, by decide, by decide, ?_, ?_⟩, ?_, by rw [hw]; decide, ?_, ?_, rfl⟩
  · rw [hw]; decide
  · intro p l i st h; simp [toy] at h; simp [← h]
  · intro w0 ws h _; rw [hw] at h; cases h; rfl
  · intro w0 ws h; rfl
  · intro t _; rfl

/-- The run itself: the second window starts with (1 + 1) / 10 of the capacity. -/
example : (run toy 0 (build toy 0)).map (fun r => (r.2.map Prod.fst, r.1.map (fun c => c.backend.initial)))
    = .ok ([0, 1, 2, 3, 4, 5], [some 1, some (1 / 5), some (8 / 25)]) := by decide +kernel

/-- C27 fails: when the window is as long as the model (or longer), the run raises. -/
theorem C27_single_window_fails : ∃ c : Cfg Bool, c.axis = [0, 1] ∧ c.window = 2 ∧ c.horizon = 2 ∧
    FirstSolves c ∧ (match run c 0 (build c 0) with | .error e => e = .unboundLocal | .ok _ => False) :=
  ⟨{ toy with axis := [0, 1], window := 2, horizon := 2 }, rfl, rfl, rfl, fun _ _ _ => rfl, rfl⟩

/-- C27 fails: a horizon shorter than the window, which nothing rejects, loses timesteps. -/
theorem C27_short_horizon_fails : ∃ c : Cfg Bool, c.axis = [0, 1, 2, 3, 4, 5] ∧ c.window = 3 ∧
    c.horizon = 2 ∧ (run c 0 (build c 0)).map (fun r => r.2.map Prod.fst) = .ok [0, 1, 3, 4] :=
  ⟨{ toy with window := 3, horizon := 2 }, rfl, rfl, rfl, by decide +kernel⟩

/-- A timeseries with a gap at timestep 3. -/
def gapData (t : Int) : Option Rat :=
  if t = 0 then some 5 else if t = 1 then some 7 else if t = 2 then some 6 else none

/-- C66 fails with gaps: the value of timestep 1 is used for timestep 3, which has none. -/
theorem C66_gap_keeps_old_value : ∃ c : Cfg Bool, c.axis = [0, 1, 2, 3] ∧ c.window = 2 ∧ c.horizon = 2 ∧
    c.data 1 = some 7 ∧ c.data 3 = none ∧
    (run c 0 (build c 0)).map (fun r => r.1.map (fun c => (c.start, c.backend.params)))
      = .ok [(0, [some 5, some 7]), (2, [some 6, some 7])] :=
  ⟨{ toy with axis := [0, 1, 2, 3], window := 2, horizon := 2, data := gapData },
    rfl, rfl, rfl, by decide, by decide, by decide +kernel⟩

/-- C66 fails for lookups: the second window is solved with the first window's lookup values. -/
theorem C66_lookups_not_updated : ∃ c : Cfg Bool, c.axis = [0, 1, 2, 3] ∧ c.window = 2 ∧ c.horizon = 2 ∧
    c.look 2 = false ∧ c.look 3 = false ∧
    (run c 0 (build c 0)).map (fun r => r.1.map (fun c => (c.start, c.backend.lookups)))
      = .ok [(0, [true, true]), (2, [true, true])] :=
  ⟨{ toy with axis := [0, 1, 2, 3], window := 2, horizon := 2, look := fun t => decide (t < 2) },
    rfl, rfl, rfl, by decide, by decide, by decide +kernel⟩

end Operate
end Calliope
