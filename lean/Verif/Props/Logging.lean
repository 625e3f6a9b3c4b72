import Verif.Spec.Logging

/-!
# What is logged (C123)
-/

namespace Calliope
namespace Logging

/-! ### Levels -/

theorem checkLevel_means (v : Verbosity) (l : Int) : checkLevel (upper v) = some l ↔ Means v l := by
  cases v with
  | number n =>
    constructor
    · intro h
      cases h
      exact .number _
    · intro h
      cases h
      rfl
  | name s =>
    constructor
    · intro h
      simp only [upper, checkLevel, levelNames, List.lookup] at h
      repeat' split at h
      all_goals
        first
        | (cases h; rename_i e; first
            | exact .critical s (by simpa using e)
            | exact .fatal s (by simpa using e)
            | exact .error s (by simpa using e)
            | exact .warn s (by simpa using e)
            | exact .warning s (by simpa using e)
            | exact .info s (by simpa using e)
            | exact .debug s (by simpa using e)
            | exact .notset s (by simpa using e))
        | cases h
    · intro h
      cases h <;> rename_i e <;> simp only [upper, e, checkLevel] <;> decide

theorem checkLevel_none (v : Verbosity) : checkLevel (upper v) = none ↔ ¬∃ l, Means v l := by
  cases h : checkLevel (upper v) with
  | none =>
    refine iff_of_true rfl ?_
    rintro ⟨l, hl⟩
    rw [(checkLevel_means v l).2 hl] at h
    cases h
  | some l => exact iff_of_false (by simp) (fun hn => hn ⟨l, (checkLevel_means v l).1 h⟩)

/-! ### Loggers at any time -/

/-- What holds of the loggers after any calls. -/
structure Good (root : Int) (R W : List Handler) (t : Tree) : Prop where
  level_root : t.level [] = root
  level : ∀ n, n ≠ [] → n ≠ calliope → n ≠ solve → n ≠ warnings → t.level n = 0
  handlers_root : t.handlers [] = R
  handlers : ∀ n, n ≠ [] → n ≠ calliope → n ≠ warnings → t.handlers n = []
  orig : t.orig = W

/-- The console that Calliope's messages go to. -/
def Attached (t : Tree) : Prop := ∃ k, t.handlers calliope = [.console k]

section Step

variable {root : Int} {R W : List Handler} {t : Tree}

theorem clear_spec (h : Good root R W t) :
    Good root R W (clear t) ∧ (clear t).handlers calliope = [] ∧ (clear t).level = t.level ∧
      (clear t).handlers warnings = t.handlers warnings ∧ (clear t).capture = t.capture := by
  unfold clear
  split
  · refine ⟨⟨h.level_root, h.level, ?_, ?_, h.orig⟩, ?_, rfl, ?_, rfl⟩
    · simpa [setHandlers, calliope] using h.handlers_root
    · intro n h1 h2 h3
      simpa [setHandlers, h2] using h.handlers n h1 h2 h3
    · simp [setHandlers]
    · simp [setHandlers, warnings, calliope]
  · next hn =>
    refine ⟨h, ?_, rfl, rfl, rfl⟩
    have : chain calliope = [calliope, []] := rfl
    simp only [hasHandlers, this, List.any_cons, Bool.or_eq_true, not_or, Bool.not_eq_true] at hn
    simpa using hn.1

theorem attach_spec (h : Good root R W t) :
    Good root R W (attach (clear t)) ∧ (attach (clear t)).handlers calliope = [.console (clear t).made] ∧
      (attach (clear t)).level = t.level ∧ (attach (clear t)).handlers warnings = t.handlers warnings ∧
      (attach (clear t)).capture = t.capture := by
  obtain ⟨hg, h0, hl, hw, hc⟩ := clear_spec h
  refine ⟨⟨?_, ?_, ?_, ?_, hg.orig⟩, ?_, hl, ?_, hc⟩
  · exact hg.level_root
  · exact hg.level
  · simpa [attach, setHandlers, calliope] using hg.handlers_root
  · intro n h1 h2 h3
    simpa [attach, setHandlers, h2] using hg.handlers n h1 h2 h3
  · simp [attach, setHandlers, h0]
  · simpa [attach, setHandlers, warnings, calliope] using hw

/-- The loggers after a call with a level that is accepted. -/
theorem setup_accepted (h : Good root R W t) {v : Verbosity} {l : Int} (hv : checkLevel v = some l) (capture : Bool) :
    Good root R W (setupRoot t v capture).1 ∧ (setupRoot t v capture).2 = true ∧
      (setupRoot t v capture).1.level calliope = l ∧ Attached (setupRoot t v capture).1 ∧
      (setupRoot t v capture).1.level solve = t.level solve ∧
      (setupRoot t v capture).1.capture = capture ∧
      (setupRoot t v capture).1.level warnings = (if capture then l else 30) ∧
      ∃ k, (setupRoot t v capture).1.handlers warnings = if capture then W ++ [.console k] else W := by
  obtain ⟨hg, h0, hl, hw, hc⟩ := attach_spec h
  have e1 : calliope ≠ warnings := by decide
  have e2 : solve ≠ calliope := by decide
  have e3 : solve ≠ warnings := by decide
  have e4 : ([] : Name) ≠ calliope := by decide
  have e5 : ([] : Name) ≠ warnings := by decide
  have ho := hg.orig
  simp only [setupRoot, hv]
  cases capture
  · simp only [setWarnings, Bool.false_eq_true, if_false]
    refine ⟨⟨?_, ?_, ?_, ?_, ho⟩, trivial, ?_, ⟨(clear t).made, ?_⟩, ?_, rfl, ?_, 0, ?_⟩
    · simpa [setHandlers, setLevel, e4, e5] using hg.level_root
    · intro n h1 h2 h3 h4
      simpa [setHandlers, setLevel, h2, h4] using hg.level n h1 h2 h3 h4
    · simpa [setHandlers, setLevel, e4, e5] using hg.handlers_root
    · intro n h1 h2 h3
      simpa [setHandlers, setLevel, h2, h3] using hg.handlers n h1 h2 h3
    · simp [setHandlers, setLevel, e1]
    · simpa [setHandlers, setLevel, e1] using h0
    · simp [setHandlers, setLevel, e2, e3, hl]
    · simp [setHandlers, setLevel]
    · simpa [setHandlers, setLevel] using ho
  · simp only [setWarnings, if_true]
    refine ⟨⟨?_, ?_, ?_, ?_, ho⟩, trivial, ?_, ⟨(clear t).made, ?_⟩, ?_, rfl, ?_, (clear t).made, ?_⟩
    · simpa [setHandlers, setLevel, e4, e5] using hg.level_root
    · intro n h1 h2 h3 h4
      simpa [setHandlers, setLevel, h2, h4] using hg.level n h1 h2 h3 h4
    · simpa [setHandlers, setLevel, e4, e5] using hg.handlers_root
    · intro n h1 h2 h3
      simpa [setHandlers, setLevel, h2, h3] using hg.handlers n h1 h2 h3
    · simp [setHandlers, setLevel, e1]
    · simpa [setHandlers, setLevel, e1] using h0
    · simp [setHandlers, setLevel, e2, e3, hl]
    · simp [setHandlers, setLevel]
    · simpa [setHandlers, setLevel] using ho

theorem good_solve (h : Good root R W t) (l : Int) : Good root R W (setLevel t solve l) := by
  refine ⟨?_, ?_, h.handlers_root, h.handlers, h.orig⟩
  · simpa [setLevel, solve] using h.level_root
  · intro n h1 h2 h3 h4
    simpa [setLevel, h3] using h.level n h1 h2 h3 h4

theorem call_accepted (h : Good root R W t) {c : Call} {l : Int} (hv : Means c.verbosity l) :
    Good root R W (setLogVerbosity t c).1 ∧ (setLogVerbosity t c).2 = true ∧
      (setLogVerbosity t c).1.level calliope = l ∧ Attached (setLogVerbosity t c).1 ∧
      (setLogVerbosity t c).1.level solve = (if c.includeSolver then 10 else l) ∧
      (setLogVerbosity t c).1.capture = c.capture ∧
      (setLogVerbosity t c).1.level warnings = (if c.capture then l else 30) ∧
      ∃ k, (setLogVerbosity t c).1.handlers warnings = if c.capture then W ++ [.console k] else W := by
  have hl := (checkLevel_means c.verbosity l).2 hv
  unfold setLogVerbosity
  cases hs : c.includeSolver
  · simp only [Bool.false_eq_true, if_false, hl]
    obtain ⟨a1, a2, a3, a4, a5, a6, a7, a8⟩ := setup_accepted (good_solve h l) hl c.capture
    exact ⟨a1, a2, a3, a4, a5.trans (by simp [setLevel]), a6, a7, a8⟩
  · simp only [if_true]
    obtain ⟨a1, a2, a3, a4, a5, a6, a7, a8⟩ := setup_accepted (good_solve h 10) hl c.capture
    exact ⟨a1, a2, a3, a4, a5.trans (by simp [setLevel]), a6, a7, a8⟩

/-- The loggers after a call with a level that is rejected. -/
theorem call_rejected (h : Good root R W t) {c : Call} (hv : ¬∃ l, Means c.verbosity l) :
    Good root R W (setLogVerbosity t c).1 ∧ (setLogVerbosity t c).2 = false ∧
      (setLogVerbosity t c).1.level calliope = t.level calliope ∧
      (Attached t ∨ c.includeSolver = true → Attached (setLogVerbosity t c).1) ∧
      (setLogVerbosity t c).1.level solve = (if c.includeSolver then 10 else t.level solve) ∧
      (setLogVerbosity t c).1.capture = t.capture ∧
      (setLogVerbosity t c).1.level warnings = t.level warnings ∧
      (setLogVerbosity t c).1.handlers warnings = t.handlers warnings := by
  have hl := (checkLevel_none c.verbosity).2 hv
  unfold setLogVerbosity
  cases hs : c.includeSolver
  · simp only [Bool.false_eq_true, if_false, hl]
    refine ⟨h, trivial, trivial, ?_, trivial, trivial, trivial, trivial⟩
    rintro (h | h)
    · exact h
    · cases h
  · simp only [if_true, setupRoot, hl]
    obtain ⟨hg, h0, hl, hw, hc⟩ := attach_spec (good_solve h 10)
    refine ⟨hg, trivial, ?_, fun _ => ⟨_, h0⟩, ?_, hc, ?_, hw⟩
    · rw [hl]
      simp [setLevel, show calliope ≠ solve by decide]
    · rw [hl]
      simp [setLevel]
    · rw [hl]
      simp [setLevel, show warnings ≠ solve by decide]

theorem good_calls (h : Good root R W t) (cs : List Call) : Good root R W (calls t cs) := by
  induction cs generalizing t with
  | nil => exact h
  | cons c cs ih =>
    refine ih ?_
    by_cases hv : ∃ l, Means c.verbosity l
    · obtain ⟨l, hl⟩ := hv
      exact (call_accepted h hl).1
    · exact (call_rejected h hv).1

theorem good_fresh (h : Fresh root R W t) : Good root R W t :=
  ⟨h.level_root, fun n h1 _ _ _ => h.level n h1, h.handlers_root, fun n h1 _ h3 => h.handlers n h1 h3, h.orig⟩

theorem calls_append (t : Tree) (a b : List Call) : calls t (a ++ b) = calls (calls t a) b := List.foldl_append

/-- Calls that are rejected. -/
theorem calls_rejected (h : Good root R W t) (ha : Attached t) {cs : List Call} (hv : ∀ d ∈ cs, ¬∃ k, Means d.verbosity k) :
    (calls t cs).level calliope = t.level calliope ∧ Attached (calls t cs) ∧ (calls t cs).capture = t.capture ∧
      (calls t cs).level warnings = t.level warnings ∧ (calls t cs).handlers warnings = t.handlers warnings ∧
      (calls t cs).level solve = (if ∃ d ∈ cs, d.includeSolver = true then 10 else t.level solve) := by
  induction cs generalizing t with
  | nil => exact ⟨rfl, ha, rfl, rfl, rfl, by simp [calls]⟩
  | cons c cs ih =>
    obtain ⟨b1, _, b3, b4, b5, b6, b7, b8⟩ := call_rejected h (hv c (by simp))
    obtain ⟨c1, c2, c3, c4, c5, c6⟩ := ih b1 (b4 (.inl ha)) (fun d hd => hv d (by simp [hd]))
    refine ⟨c1.trans b3, c2, c3.trans b6, c4.trans b7, c5.trans b8, c6.trans ?_⟩
    rw [b5]
    simp only [List.mem_cons, exists_eq_or_imp]
    by_cases h1 : c.includeSolver = true <;> simp [h1]

end Step

/-! ### Messages -/

theorem chain_prefix {m n : Name} : m ∈ chain n ↔ m <+: n := by
  simp [chain, List.mem_inits]

theorem chain_cons (s : String) (n : Name) : chain (s :: n) = (chain n).map (s :: ·) ++ [[]] := by
  simp [chain, List.inits_cons, List.map_reverse]

theorem chain_last (n : Name) : ∃ A, chain n = A ++ [[]] ∧ ∀ m ∈ A, m ≠ [] := by
  cases n with
  | nil => exact ⟨[], rfl, by simp⟩
  | cons s n => exact ⟨_, chain_cons s n, by simp⟩

/-- Above a logger of the package are others of the package, the package's logger and the root. -/
theorem chain_package {n : Name} (h : calliope <+: n) :
    ∃ A, chain n = A ++ [calliope, []] ∧ ∀ m ∈ A, m <+: n ∧ m ≠ calliope ∧ m ≠ [] ∧ m ≠ warnings := by
  obtain ⟨r, rfl⟩ := h
  obtain ⟨A, e, hA⟩ := chain_last r
  refine ⟨A.map ("calliope" :: ·), ?_, ?_⟩
  · show chain ("calliope" :: r) = _
    rw [chain_cons, e]
    simp [calliope]
  · intro m hm
    obtain ⟨a, ha, rfl⟩ := List.mem_map.1 hm
    refine ⟨?_, ?_, by simp, by simp [warnings]⟩
    · have : a ∈ chain r := by rw [e]; simp [ha]
      obtain ⟨x, hx⟩ := chain_prefix.1 this
      exact ⟨x, by simp [calliope, hx]⟩
    · simpa [calliope] using hA a ha

theorem find_zero {A : List Name} {f : Name → Int} (h : ∀ m ∈ A, f m = 0) (B : List Int) :
    (A.map f ++ B).find? (fun l => l ≠ 0) = B.find? (fun l => l ≠ 0) := by
  induction A with
  | nil => rfl
  | cons a A ih =>
    rw [List.map_cons, List.cons_append, List.find?_cons_of_neg (by simp [h a (by simp)])]
    exact ih (fun m hm => h m (by simp [hm]))

theorem flatten_nil {A : List Name} {f : Name → List Handler} (h : ∀ m ∈ A, f m = []) (B : List (List Handler)) :
    (A.map f ++ B).flatten = B.flatten := by
  induction A with
  | nil => rfl
  | cons a A ih =>
    rw [List.map_cons, List.cons_append, List.flatten_cons, h a (by simp), List.nil_append]
    exact ih (fun m hm => h m (by simp [hm]))

section Messages

variable {root : Int} {R W : List Handler} {t : Tree}

theorem printed_package (h : Good root R W t) {n : Name} (hn : OfPackage n) (l : Int) :
    printed t n l = if asked root (t.level calliope) ≤ l then t.handlers calliope ++ R else [] := by
  obtain ⟨A, e, hA⟩ := chain_package hn.1
  have h0 : ∀ m ∈ A, t.level m = 0 := fun m hm =>
    h.level m (hA m hm).2.2.1 (hA m hm).2.1 (fun hs => hn.2 (by have := (hA m hm).1; rwa [hs] at this)) (hA m hm).2.2.2
  have h1 : ∀ m ∈ A, t.handlers m = [] := fun m hm => h.handlers m (hA m hm).2.2.1 (hA m hm).2.1 (hA m hm).2.2.2
  have e1 : effective t n = asked root (t.level calliope) := by
    simp only [effective, e, List.map_append, find_zero h0, asked, List.map_cons, List.map_nil, h.level_root]
    by_cases h2 : t.level calliope = 0
    · by_cases h3 : root = 0 <;> simp [h2, h3]
    · simp [h2]
  simp only [printed, e1, e, List.map_append, flatten_nil h1]
  simp [h.handlers_root]

theorem chain_solve : chain solve =
    [solve, ["calliope", "backend", "backend_model"], ["calliope", "backend"], calliope, []] := rfl

theorem printed_solve (h : Good root R W t) (l : Int) :
    printed t solve l =
      if (if t.level solve = 0 then asked root (t.level calliope) else t.level solve) ≤ l then t.handlers calliope ++ R
      else [] := by
  have z1 : t.level ["calliope", "backend", "backend_model"] = 0 := h.level _ (by decide) (by decide) (by decide) (by decide)
  have z2 : t.level ["calliope", "backend"] = 0 := h.level _ (by decide) (by decide) (by decide) (by decide)
  have y0 : t.handlers solve = [] := h.handlers _ (by decide) (by decide) (by decide)
  have y1 : t.handlers ["calliope", "backend", "backend_model"] = [] := h.handlers _ (by decide) (by decide) (by decide)
  have y2 : t.handlers ["calliope", "backend"] = [] := h.handlers _ (by decide) (by decide) (by decide)
  have e1 : effective t solve = if t.level solve = 0 then asked root (t.level calliope) else t.level solve := by
    simp only [effective, chain_solve, List.map_cons, List.map_nil, z1, z2, h.level_root, asked]
    by_cases h1 : t.level solve = 0
    · by_cases h2 : t.level calliope = 0
      · by_cases h3 : root = 0 <;> simp [h1, h2, h3]
      · simp [h1, h2]
    · simp [h1]
  simp only [printed, e1, chain_solve, List.map_cons, List.map_nil, y0, y1, y2, h.handlers_root]
  simp

theorem chain_warnings : chain warnings = [warnings, ["py"], []] := rfl

theorem printed_warnings (h : Good root R W t) (l : Int) :
    printed t warnings l = if asked root (t.level warnings) ≤ l then t.handlers warnings ++ R else [] := by
  have z1 : t.level ["py"] = 0 := h.level _ (by decide) (by decide) (by decide) (by decide)
  have y1 : t.handlers ["py"] = [] := h.handlers _ (by decide) (by decide) (by decide)
  have e1 : effective t warnings = asked root (t.level warnings) := by
    simp only [effective, chain_warnings, List.map_cons, List.map_nil, z1, h.level_root, asked]
    by_cases h2 : t.level warnings = 0
    · by_cases h3 : root = 0 <;> simp [h2, h3]
    · simp [h2]
  simp only [printed, e1, chain_warnings, List.map_cons, List.map_nil, y1, h.handlers_root]
  simp

/-- The loggers after calls of which `c` is the last that was accepted. -/
theorem after_last (h : Fresh root R W t) {cs : List Call} {c : Call} {l : Int} (hc : LastAccepted cs c l) :
    Good root R W (calls t cs) ∧ (calls t cs).level calliope = l ∧ Attached (calls t cs) ∧
      (calls t cs).capture = c.capture ∧ (calls t cs).level warnings = (if c.capture then l else 30) ∧
      ∃ k, (calls t cs).handlers warnings = if c.capture then W ++ [.console k] else W := by
  obtain ⟨hl, a, b, rfl, hb⟩ := hc
  have h1 := good_calls (good_fresh h) a
  obtain ⟨a1, a2, a3, a4, a5, a6, a7, k, a8⟩ := call_accepted h1 hl
  obtain ⟨b1, b2, b3, b4, b5, _⟩ := calls_rejected a1 a4 hb
  have e : calls t (a ++ c :: b) = calls (setLogVerbosity (calls t a) c).1 b := calls_append t a (c :: b)
  refine ⟨good_calls (good_fresh h) _, ?_⟩
  rw [e]
  exact ⟨b1.trans a3, b2, b3.trans a6, b4.trans a7, k, b5.trans a8⟩

/-- C123: after any calls, some of them perhaps rejected, a message of one of Calliope's modules is shown once if its level is
at least that of the last call that was accepted, and else not at all. -/
theorem C123_once (h : Fresh root R W t) {cs : List Call} {c : Call} {l : Int} (hc : LastAccepted cs c l) {n : Name}
    (hn : OfPackage n) (m : Int) :
    (asked root l ≤ m → ShownOnce R (printed (calls t cs) n m)) ∧ (m < asked root l → printed (calls t cs) n m = []) := by
  obtain ⟨hg, h1, ⟨k, h2⟩, _⟩ := after_last h hc
  rw [printed_package hg hn, h1, h2]
  exact ⟨fun hm => ⟨k, by rw [if_pos hm]; rfl⟩, fun hm => if_neg (Int.not_le.2 hm)⟩

/-- C123: a call is rejected exactly if its verbosity is not a level. -/
theorem C123_accepts (h : Fresh root R W t) (cs : List Call) (c : Call) :
    (setLogVerbosity (calls t cs) c).2 = true ↔ ∃ l, Means c.verbosity l := by
  have hg := good_calls (good_fresh h) cs
  by_cases hv : ∃ l, Means c.verbosity l
  · obtain ⟨l, hl⟩ := hv
    exact iff_of_true (call_accepted hg hl).2.1 ⟨l, hl⟩
  · exact iff_of_false (by rw [(call_rejected hg hv).2.1]; simp) hv

/-- C123: after a call that is accepted, solver output (at level 10) is shown once if the call asks for it or for everything
from a level at most 10, and else not at all. -/
theorem C123_solver (h : Fresh root R W t) (cs : List Call) {c : Call} {l : Int} (hc : Means c.verbosity l) :
    (c.includeSolver = true ∨ asked root l ≤ 10 → ShownOnce R (printed (calls t (cs ++ [c])) solve 10)) ∧
    (c.includeSolver = false → 10 < asked root l → printed (calls t (cs ++ [c])) solve 10 = []) := by
  have e : calls t (cs ++ [c]) = (setLogVerbosity (calls t cs) c).1 := calls_append t cs [c]
  obtain ⟨hg, _, h3, ⟨k, h4⟩, h5, _⟩ := call_accepted (good_calls (good_fresh h) cs) hc
  rw [e, printed_solve hg, h3, h4, h5]
  cases hs : c.includeSolver
  · have e2 : (if (if false = true then 10 else l) = 0 then asked root l else if false = true then (10 : Int) else l) =
        asked root l := by
      simp only [Bool.false_eq_true, if_false, asked]
      split <;> rfl
    rw [e2]
    refine ⟨fun h6 => ⟨k, ?_⟩, fun _ h6 => if_neg (Int.not_le.2 h6)⟩
    rw [if_pos (h6.resolve_left (by simp))]
    rfl
  · refine ⟨fun _ => ⟨k, by simp⟩, fun h6 => by cases h6⟩

/-- C123: Python's warnings are shown once by Calliope if the last call that was accepted asked for it and for a level of at
most 30, with the handlers that warnings had before, and else not at all. -/
theorem C123_warnings (h : Fresh root R W t) {cs : List Call} {c : Call} {l : Int} (hc : LastAccepted cs c l) :
    (c.capture = true → asked root l ≤ 30 → ∃ k, printedWarning (calls t cs) = W ++ .console k :: R) ∧
    (c.capture = false ∨ 30 < asked root l → printedWarning (calls t cs) = []) := by
  obtain ⟨hg, _, _, h3, h4, k, h5⟩ := after_last h hc
  simp only [printedWarning, h3, printed_warnings hg, h4, h5]
  cases c.capture
  · exact ⟨fun h6 => (by cases h6), fun _ => by simp⟩
  · refine ⟨fun _ h6 => ⟨k, ?_⟩, fun h6 => ?_⟩
    · simp [h6]
    · have := h6.resolve_left (by simp)
      simp [Int.not_le.2 this]

/-- C123: a call that is rejected does not change which of Calliope's messages are shown, nor warnings. Solver output is as
before if the call has `include_solver_output=False`; else it is shown from then on, although the call was rejected. -/
theorem C123_rejected (h : Fresh root R W t) {cs : List Call} {c : Call} {l : Int} (hc : LastAccepted cs c l) (d : Call)
    (hd : ¬∃ k, Means d.verbosity k) :
    (∀ n m, OfPackage n →
      ((printed (calls t (cs ++ [d])) n m).length = (printed (calls t cs) n m).length)) ∧
    printedWarning (calls t (cs ++ [d])) = printedWarning (calls t cs) ∧
    (d.includeSolver = false → calls t (cs ++ [d]) = calls t cs) ∧
    (d.includeSolver = true → ShownOnce R (printed (calls t (cs ++ [d])) solve 10)) := by
  obtain ⟨hg, h1, ⟨k, h2⟩, _⟩ := after_last h hc
  have e : calls t (cs ++ [d]) = (setLogVerbosity (calls t cs) d).1 := calls_append t cs [d]
  obtain ⟨b1, _, b3, b4, b5, b6, b7, b8⟩ := call_rejected hg hd
  obtain ⟨k', hk'⟩ := b4 (.inl ⟨k, h2⟩)
  rw [e]
  refine ⟨fun n m hn => ?_, ?_, fun hs => ?_, fun hs => ?_⟩
  · rw [printed_package b1 hn, printed_package hg hn, b3, hk', h2]
    split <;> rfl
  · simp only [printedWarning, b6, printed_warnings b1, printed_warnings hg, b7, b8]
  · simp [setLogVerbosity, hs, (checkLevel_none d.verbosity).2 hd]
  · rw [printed_solve b1, b5, hk']
    exact ⟨k', by simp [hs]⟩

/-- C123: the command line. With `--debug` all is shown; with `--quiet` alone neither solver output nor what is below a warning;
else all but messages for debugging. Warnings are always shown. -/
theorem C123_cli (h : Fresh root R W t) (cs : List Call) (debug quiet : Bool) (n : Name) (hn : OfPackage n) :
    (ShownOnce R (printed (calls t (cs ++ [cliStart debug quiet])) n 10) ↔ debug = true) ∧
    (ShownOnce R (printed (calls t (cs ++ [cliStart debug quiet])) n 20) ↔ debug = true ∨ quiet = false) ∧
    (ShownOnce R (printed (calls t (cs ++ [cliStart debug quiet])) solve 10) ↔ debug = true ∨ quiet = false) ∧
    ShownOnce R (printed (calls t (cs ++ [cliStart debug quiet])) n 30) ∧
    ∃ k, printedWarning (calls t (cs ++ [cliStart debug quiet])) = W ++ .console k :: R := by
  have key : ∀ (c : Call) (l : Int), Means c.verbosity l → LastAccepted (cs ++ [c]) c l :=
    fun c l hm => ⟨hm, cs, [], rfl, by simp⟩
  have no : ¬ShownOnce R [] := by
    rintro ⟨k, hk⟩
    cases hk
  cases debug
  · cases quiet
    · have hm : Means (cliStart false false).verbosity 20 := .info _ (by decide)
      have hl := key _ _ hm
      have a := C123_once h hl hn
      have b := (C123_solver h cs hm).1 (.inl rfl)
      obtain ⟨w, hw⟩ := (C123_warnings h hl).1 rfl (by simp [asked])
      refine ⟨iff_of_false ?_ (by simp), iff_of_true ((a 20).1 (by simp [asked])) (by simp), iff_of_true b (by simp),
        (a 30).1 (by simp [asked]), w, hw⟩
      rw [(a 10).2 (by simp [asked])]
      exact no
    · have hm : Means (cliStart false true).verbosity 30 := .warning _ (by decide)
      have hl := key _ _ hm
      have a := C123_once h hl hn
      have b := (C123_solver h cs hm).2 rfl (by simp [asked])
      obtain ⟨w, hw⟩ := (C123_warnings h hl).1 rfl (by simp [asked])
      refine ⟨iff_of_false ?_ (by simp), iff_of_false ?_ (by simp), iff_of_false ?_ (by simp), (a 30).1 (by simp [asked]), w, hw⟩
      · rw [(a 10).2 (by simp [asked])]
        exact no
      · rw [(a 20).2 (by simp [asked])]
        exact no
      · rw [b]
        exact no
  · have hm : Means (cliStart true quiet).verbosity 10 := .debug _ (by cases quiet <;> decide)
    have hl := key _ _ hm
    have a := C123_once h hl hn
    have b := (C123_solver h cs hm).1 (.inl (by cases quiet <;> rfl))
    obtain ⟨w, hw⟩ := (C123_warnings h hl).1 (by cases quiet <;> rfl) (by simp [asked])
    exact ⟨iff_of_true ((a 10).1 (by simp [asked])) (by simp), iff_of_true ((a 20).1 (by simp [asked])) (by simp),
      iff_of_true b (by simp), (a 30).1 (by simp [asked]), w, hw⟩

end Messages

/-! ### Times -/

/-- C123: the time that is kept of an event is that of its last occurrence, and no other is lost. -/
theorem C123_times (ts : List (String × Rat)) (es : List (String × Rat)) (i : String) :
    (es.foldl (fun ts e => logTime ts e.1 e.2) ts).lookup i =
      match es.reverse.lookup i with
      | some x => some x
      | none => ts.lookup i := by
  have one : ∀ (ts : List (String × Rat)) (j : String) (x : Rat),
      (logTime ts j x).lookup i = if i = j then some x else ts.lookup i := by
    intro ts j x
    unfold logTime
    induction ts with
    | nil =>
      by_cases h : i = j
      · simp [List.lookup, h]
      · have : (i == j) = false := by simpa using h
        simp [List.lookup, h, this]
    | cons p ts ih =>
      obtain ⟨q, y⟩ := p
      by_cases hq : q = j
      · subst hq
        simp only [List.any_cons, decide_true, Bool.true_or, if_true, List.map_cons, List.lookup_cons]
        by_cases h : i = q
        · simp [h]
        · simp only [h, if_false]
          clear ih
          have : (i == q) = false := by simpa using h
          simp only [this]
          induction ts with
          | nil => rfl
          | cons p ts ih2 =>
            obtain ⟨r, z⟩ := p
            by_cases hr : r = q
            · subst hr
              simp only [List.map_cons, if_true, List.lookup_cons, this]
              exact ih2
            · simp only [List.map_cons, hr, if_false, List.lookup_cons]
              rw [ih2]
      · simp only [List.any_cons, hq, decide_false, Bool.false_or, List.map_cons, if_false] at ih ⊢
        by_cases hany : ts.any (fun p => decide (p.1 = j)) = true
        · simp only [hany, if_true, List.lookup_cons] at ih ⊢
          rw [ih]
          by_cases h : i = q
          · subst h
            simp [hq]
          · have : (i == q) = false := by simpa using h
            simp [this]
        · simp only [hany, Bool.false_eq_true, if_false, List.cons_append, List.lookup_cons] at ih ⊢
          rw [ih]
          by_cases h : i = q
          · subst h
            simp [hq]
          · have : (i == q) = false := by simpa using h
            simp [this]
  induction es generalizing ts with
  | nil => rfl
  | cons e es ih =>
    rw [List.foldl_cons, ih, List.reverse_cons, List.lookup_append, one]
    cases es.reverse.lookup i with
    | some x => rfl
    | none =>
      by_cases h : i = e.1
      · subst h
        simp [List.lookup]
      · have : (i == e.1) = false := by simpa using h
        simp [List.lookup, h, this]

/-! ### Solver output -/

/-- C123: of what solvers write, only line breaks by themselves are dropped; else blanks are removed at both ends, and nothing
else is lost. -/
theorem C123_write (m : List Char) : (write true m = none ↔ m = ['\n']) ∧
    ∀ x, write true m = some x → ∃ a b, m = a ++ x ++ b ∧ (∀ c ∈ a ++ b, isSpace c = true) ∧
      (∀ c, x.head? = some c → isSpace c = false) ∧ ∀ c, x.getLast? = some c → isSpace c = false := by
  unfold write
  by_cases h : m = ['\n']
  · simp [h]
  · refine ⟨by simp [h], fun x hx => ?_⟩
    simp only [h, if_false, if_true, Option.some.injEq] at hx
    have drop : ∀ l : List Char, ∃ a, l = a ++ l.dropWhile isSpace ∧ ∀ c ∈ a, isSpace c = true :=
      fun l => ⟨l.takeWhile isSpace, List.takeWhile_append_dropWhile.symm, fun c hc => by
        have := List.all_takeWhile (p := isSpace) (l := l)
        exact List.all_eq_true.1 this c hc⟩
    have first : ∀ (l : List Char) c, (l.dropWhile isSpace).head? = some c → isSpace c = false := by
      intro l c hc
      have := List.head?_dropWhile_not isSpace l
      rw [hc] at this
      simpa using this
    obtain ⟨a, ha, ha2⟩ := drop m
    obtain ⟨b, hb, hb2⟩ := drop (m.dropWhile isSpace).reverse
    have e : m.dropWhile isSpace = x ++ b.reverse := by
      rw [← hx]
      have := congrArg List.reverse hb
      simpa using this
    refine ⟨a, b.reverse, ?_, ?_, ?_, ?_⟩
    · rw [List.append_assoc, ← e]
      exact ha
    · intro c hc
      rcases List.mem_append.1 hc with hc | hc
      · exact ha2 c hc
      · exact hb2 c (List.mem_reverse.1 hc)
    · intro c hc
      refine first m c ?_
      rw [e]
      cases x with
      | nil => cases hc
      | cons y ys => exact hc
    · intro c hc
      refine first (m.dropWhile isSpace).reverse c ?_
      rw [← hc, ← hx]
      simp

/-! ### Examples -/

/-- A program that has no handlers. -/
def plain : Tree := ⟨fun n => if n = [] then 30 else 0, fun _ => [], false, 0, []⟩

theorem plain_fresh : Fresh 30 [] [] plain :=
  ⟨rfl, fun n h => by simp [plain, h], rfl, rfl, fun _ _ _ => rfl, rfl, rfl⟩

/-- Verbosity `Info` after `debug`, and then a name that is no level. -/
def three : List Call :=
  [⟨.name "debug".toList, true, true⟩, ⟨.name "Info".toList, false, true⟩, ⟨.name "loud".toList, true, false⟩]

example : LastAccepted three ⟨.name "Info".toList, false, true⟩ 20 := by
  refine ⟨.info _ (by decide), three.take 1, three.drop 2, rfl, ?_⟩
  intro d hd
  simp only [three, List.drop, List.mem_singleton] at hd
  subst hd
  rw [← checkLevel_none]
  decide

example : OfPackage ["calliope", "model"] := by
  constructor <;> decide

example : printed (calls plain three) ["calliope", "model"] 20 = [.console 2] ∧
    printed (calls plain three) ["calliope", "model"] 10 = [] ∧
    printed (calls plain three) solve 10 = [.console 2] ∧
    printed (calls plain (three.take 2)) solve 10 = [] ∧
    printedWarning (calls plain three) = [.console 1] := by decide +kernel

/-- C123: verbosity 0 shows less than verbosity 10: it stands for the level of Python's root logger. -/
theorem C123_zero : printed (calls plain [⟨.number 0, false, true⟩]) ["calliope", "model"] 20 = [] ∧
    ShownOnce [] (printed (calls plain [⟨.number 10, false, true⟩]) ["calliope", "model"] 20) := by
  refine ⟨by decide +kernel, 0, by decide +kernel⟩

example : write true "  \n".toList = some [] ∧ write true " a b\n".toList = some "a b".toList := by decide +kernel

end Logging
end Calliope
