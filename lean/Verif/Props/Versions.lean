import Verif.Model.Versions
import Mathlib.Tactic.Common

/-!
# C129: models for another version are noticed
-/

namespace Calliope
namespace Versions

/-- Specification: the text of a version by its parts, as `0.7.1` is that of `0`, `7` and `1`. -/
def text : List (List Char) → List Char
  | [] => []
  | [x] => x
  | x :: y :: l => x ++ '.' :: text (y :: l)

/-- Specification: a version by its parts: there is one, and none has a dot in it. -/
def Parts (v : List (List Char)) : Prop := v ≠ [] ∧ ∀ x ∈ v, '.' ∉ x

/-- Specification: `v` is as `w` says, when `w` may leave out parts at the end: `0.7.1` is a `0.7`. -/
def IsA (v w : List (List Char)) : Prop := w <+: v

/-- Specification: what goes unnoticed: the last part of `w` is only the beginning of the part of `v` at its place, as in
`0.7.12` for `0.7.1`. -/
def Begins (v w : List (List Char)) : Prop :=
  ∃ before last more after, more ≠ [] ∧ w = before ++ [last] ∧ v = before ++ (last ++ more) :: after

theorem prefix_of_dot {x y t : List Char} (hx : '.' ∉ x) : x <+: y ++ '.' :: t ↔ x <+: y := by
  constructor
  · intro h
    rcases List.prefix_or_prefix_of_prefix h (List.prefix_append y ('.' :: t)) with h' | ⟨z, rfl⟩
    · exact h'
    · rw [List.prefix_append_right_inj] at h
      cases z with
      | nil => simp
      | cons c z =>
        rw [List.cons_prefix_cons] at h
        exact absurd (by simp [h.1]) hx
  · exact fun h => h.trans (List.prefix_append _ _)

theorem dot_prefix_dot {x y s t : List Char} (hx : '.' ∉ x) (hy : '.' ∉ y) :
    x ++ '.' :: s <+: y ++ '.' :: t ↔ x = y ∧ s <+: t := by
  induction x generalizing y with
  | nil =>
    cases y with
    | nil => simp [List.cons_prefix_cons]
    | cons c y =>
      simp only [List.nil_append, List.cons_append, List.cons_prefix_cons]
      constructor
      · rintro ⟨h, -⟩; exact absurd (List.mem_cons.2 (Or.inl h)) hy
      · rintro ⟨h, -⟩; cases h
  | cons a x ih =>
    simp only [List.mem_cons, not_or] at hx
    cases y with
    | nil =>
      simp only [List.nil_append, List.cons_append, List.cons_prefix_cons]
      constructor
      · rintro ⟨h, -⟩; exact absurd h.symm hx.1
      · rintro ⟨h, -⟩; cases h
    | cons c y =>
      simp only [List.mem_cons, not_or] at hy
      simp only [List.cons_append, List.cons_prefix_cons, ih hx.2 hy.2, List.cons.injEq, and_assoc]

theorem not_dot_prefix {x y s : List Char} (hy : '.' ∉ y) : ¬ x ++ '.' :: s <+: y := by
  intro h
  exact hy (h.subset (by simp))

/-- The text of one version begins with that of another exactly if all parts but the last are the same and the last is
the beginning of the part at its place. -/
theorem text_prefix (w v : List (List Char)) (hw : Parts w) (hv : Parts v) :
    text w <+: text v ↔ ∃ before last c after, w = before ++ [last] ∧ v = before ++ c :: after ∧ last <+: c := by
  induction w generalizing v with
  | nil => exact absurd rfl hw.1
  | cons x w ih =>
    cases v with
    | nil => exact absurd rfl hv.1
    | cons y v =>
      have hx : '.' ∉ x := hw.2 x (by simp)
      have hy : '.' ∉ y := hv.2 y (by simp)
      cases w with
      | nil =>
        have key : text [x] <+: text (y :: v) ↔ x <+: y := by
          cases v with
          | nil => rfl
          | cons z v => exact prefix_of_dot hx
        rw [key]
        constructor
        · intro h; exact ⟨[], x, y, v, rfl, rfl, h⟩
        · rintro ⟨before, last, c, after, h1, h2, h3⟩
          cases before with
          | nil => simp only [List.nil_append, List.cons.injEq] at h1 h2; rw [h1.1, h2.1]; exact h3
          | cons b before => simp at h1
      | cons x' w =>
        cases v with
        | nil =>
          constructor
          · intro h; exact absurd h (not_dot_prefix hy)
          · rintro ⟨before, last, c, after, h1, h2, h3⟩
            cases before with
            | nil => simp at h1
            | cons b before => simp at h2
        | cons y' v =>
          have hw' : Parts (x' :: w) := ⟨by simp, fun z hz => hw.2 z (List.mem_cons_of_mem _ hz)⟩
          have hv' : Parts (y' :: v) := ⟨by simp, fun z hz => hv.2 z (List.mem_cons_of_mem _ hz)⟩
          have e : text (x :: x' :: w) <+: text (y :: y' :: v) ↔ x = y ∧ text (x' :: w) <+: text (y' :: v) :=
            dot_prefix_dot hx hy
          rw [e, ih _ hw' hv']
          constructor
          · rintro ⟨rfl, before, last, c, after, h1, h2, h3⟩
            exact ⟨x :: before, last, c, after, by rw [h1]; rfl, by rw [h2]; rfl, h3⟩
          · rintro ⟨before, last, c, after, h1, h2, h3⟩
            cases before with
            | nil => simp at h1
            | cons b before =>
              simp only [List.cons_append, List.cons.injEq] at h1 h2
              exact ⟨h1.1.trans h2.1.symm, before, last, c, after, h1.2, h2.2, h3⟩

theorem text_prefix_iff (w v : List (List Char)) (hw : Parts w) (hv : Parts v) :
    text w <+: text v ↔ IsA v w ∨ Begins v w := by
  rw [text_prefix w v hw hv]
  constructor
  · rintro ⟨before, last, c, after, rfl, rfl, more, rfl⟩
    by_cases h : more = []
    · subst h; left; exact ⟨after, by simp⟩
    · right; exact ⟨before, last, more, after, h, rfl, rfl⟩
  · rintro (⟨t, rfl⟩ | ⟨before, last, more, after, -, rfl, rfl⟩)
    · refine ⟨w.dropLast, w.getLast hw.1, w.getLast hw.1, t, (List.dropLast_append_getLast hw.1).symm, ?_,
        List.prefix_refl _⟩
      conv_lhs => rw [← List.dropLast_append_getLast hw.1]
      simp
    · exact ⟨before, last, last ++ more, after, rfl, rfl, List.prefix_append _ _⟩

/-- C129: when a model is read, there is a warning that it was initialised with another version exactly if the running
version is not the version saved with it, and does not go on in the middle of its last part either. -/
theorem C129_running_partial (run ini : List (List Char)) (hr : Parts run) (hi : Parts ini)
    (defined : Option (List Char)) :
    Warning.initialisedWith (text ini) (text run) ∈
        checkVersions (text run) (initialisedWith (text run) (some (text ini))) defined ↔
      ¬ IsA run ini ∧ ¬ Begins run ini := by
  rw [← not_or, ← text_prefix_iff ini run hi hr]
  unfold checkVersions initialisedWith
  rw [Option.getD_some]
  rw [← List.isPrefixOf_iff_prefix]
  cases defined <;> by_cases h : (text ini).isPrefixOf (text run) <;> simp [h]

/-- C129: there is a warning that the configuration is for another version exactly if the model was initialised with a
version that is not the one configured, and does not go on in the middle of its last part either. That version is the one
saved with the model, and the running one for a new model. -/
theorem C129_configured_partial (run : List Char) (saved : Option (List Char)) (ini want : List (List Char))
    (hs : saved = some (text ini) ∨ saved = none ∧ run = text ini) (hi : Parts ini) (hw : Parts want) :
    Warning.specifies (text want) (text ini) ∈
        checkVersions run (initialisedWith run saved) (some (text want)) ↔
      ¬ IsA ini want ∧ ¬ Begins ini want := by
  have e : initialisedWith run saved = text ini := by
    rcases hs with rfl | ⟨rfl, rfl⟩ <;> rfl
  rw [e, ← not_or, ← text_prefix_iff want ini hw hi]
  unfold checkVersions
  rw [← List.isPrefixOf_iff_prefix]
  by_cases h : (text want).isPrefixOf (text ini) <;> simp [h]

/-- C129: warnings name the versions at hand, and without a configured version there is none about it. -/
theorem C129_names (run ini : List Char) (defined : Option (List Char)) (w : Warning)
    (h : w ∈ checkVersions run ini defined) :
    w = .initialisedWith ini run ∨ ∃ d, defined = some d ∧ w = .specifies d ini := by
  unfold checkVersions at h
  rw [List.mem_append] at h
  rcases h with h | h
  · split at h
    · cases h
    · left; simpa using h
  · cases defined with
    | none => cases h
    | some d =>
      right
      dsimp only at h
      split at h
      · cases h
      · exact ⟨d, rfl, by simpa using h⟩

/-- C129: a model made now from a definition has no warning about the version it was initialised with, whatever is
configured. -/
theorem C129_new (run : List Char) (defined : Option (List Char)) (i r : List Char) :
    Warning.initialisedWith i r ∉ checkVersions run (initialisedWith run none) defined := by
  unfold checkVersions initialisedWith
  have : run.isPrefixOf run := List.isPrefixOf_iff_prefix.2 (List.prefix_refl _)
  cases defined <;> simp [this]

/-- C129: a model made now has no warning at all if the running version, or its first parts, is configured. -/
theorem C129_new_silent (run want : List (List Char)) (hr : Parts run) (hw : Parts want) (h : IsA run want) :
    checkVersions (text run) (initialisedWith (text run) none) (some (text want)) = [] := by
  have h1 : (text run).isPrefixOf (text run) := List.isPrefixOf_iff_prefix.2 (List.prefix_refl _)
  have h2 : (text want).isPrefixOf (text run) :=
    List.isPrefixOf_iff_prefix.2 ((text_prefix_iff want run hw hr).2 (Or.inl h))
  simp [checkVersions, initialisedWith, h1, h2]

/-- C129, where it fails: whenever the last part of the version goes on in the running one, as `0.7.12` for `0.7.1`, the
versions differ and nothing is said. -/
theorem C129_unnoticed (before : List (List Char)) (last more : List Char) (hm : more ≠ [])
    (hb : ∀ x ∈ before, '.' ∉ x) (hl : '.' ∉ last) (hn : '.' ∉ more) :
    ¬ IsA (before ++ [last ++ more]) (before ++ [last]) ∧
      checkVersions (text (before ++ [last ++ more])) (initialisedWith (text (before ++ [last ++ more])) none)
        (some (text (before ++ [last]))) = [] ∧
      checkVersions (text (before ++ [last ++ more]))
        (initialisedWith (text (before ++ [last ++ more])) (some (text (before ++ [last])))) none = [] := by
  have p1 : Parts (before ++ [last]) := ⟨by simp, by
    intro x hx; rcases List.mem_append.1 hx with h | h
    · exact hb x h
    · simp only [List.mem_singleton] at h; rw [h]; exact hl⟩
  have p2 : Parts (before ++ [last ++ more]) := ⟨by simp, by
    intro x hx; rcases List.mem_append.1 hx with h | h
    · exact hb x h
    · simp only [List.mem_singleton] at h; rw [h]; simp [hl, hn]⟩
  have h1 : ∀ l : List Char, l.isPrefixOf l := fun l => List.isPrefixOf_iff_prefix.2 (List.prefix_refl _)
  have h2 : (text (before ++ [last])).isPrefixOf (text (before ++ [last ++ more])) :=
    List.isPrefixOf_iff_prefix.2 ((text_prefix_iff _ _ p1 p2).2
      (Or.inr ⟨before, last, more, [], hm, rfl, rfl⟩))
  refine ⟨?_, by simp [checkVersions, initialisedWith, h1, h2], by simp [checkVersions, initialisedWith, h2]⟩
  intro h
  have := h.eq_of_length (by simp)
  simp at this
  exact hm this

/-! Examples: running `0.7.12`. -/

namespace Demo

def run : List (List Char) := [['0'], ['7'], ['1', '2']]

example : Parts run := ⟨by simp [run], by simp [run]⟩
example : text run = "0.7.12".toList := by decide
example : checkVersions "0.7.12".toList (initialisedWith "0.7.12".toList none) (some "0.7".toList) = [] := by decide
example : checkVersions "0.7.12".toList (initialisedWith "0.7.12".toList (some "0.7.2".toList)) (some "0.6".toList) =
    [.initialisedWith "0.7.2".toList "0.7.12".toList, .specifies "0.6".toList "0.7.2".toList] := by decide
example : checkVersions "0.7.12".toList (initialisedWith "0.7.12".toList (some "0.7.1".toList)) none = [] := by decide
example : checkVersions "0.7.1".toList (initialisedWith "0.7.1".toList (some "0.7.12".toList)) none =
    [.initialisedWith "0.7.12".toList "0.7.1".toList] := by decide
example : IsA run [['0'], ['7']] := ⟨[['1', '2']], rfl⟩
example : Begins run [['0'], ['7'], ['1']] := ⟨[['0'], ['7']], ['1'], ['2'], [], by simp, rfl, rfl⟩

end Demo

end Versions
end Calliope
