import Verif.Model.Text
import Verif.Props.AttrDict

/-!
# Dotted keys (part of C01)

The methods of `AttrDict` take strings and split them at the first dot, again and again.  The
model takes the list of segments.  Here: the segments of a string are what repeated splitting
at the first dot visits, and strings and non-empty lists of dot-free segments correspond one to
one.
-/

namespace Calliope
namespace Text

/-- The segments put together again with `sep` in between (specification). -/
def joinChars (sep : Char) : List (List Char) → List Char
  | [] => []
  | [w] => w
  | w :: ws => w ++ sep :: joinChars sep ws

theorem splitChars_ne_nil (sep : Char) (s : List Char) : splitChars sep s ≠ [] := by
  cases s with
  | nil => simp [splitChars]
  | cons c cs =>
    simp only [splitChars]
    split
    · simp
    · split <;> simp

/-- Splitting at the first separator and then splitting the remainder visits exactly the
segments: this is what the recursion in `set_key`, `get_key` and `del_key` does. -/
theorem C01_dotted_recursion (sep : Char) (s : List Char) :
    (splitFirst sep s = none → splitChars sep s = [s]) ∧
    (∀ w rest, splitFirst sep s = some (w, rest) → splitChars sep s = w :: splitChars sep rest) := by
  induction s with
  | nil => simp [splitFirst, splitChars]
  | cons c cs ih =>
    simp only [splitFirst, splitChars]
    by_cases h : c = sep
    · simp [h]
    · simp only [h, if_false]
      rcases hf : splitFirst sep cs with _ | ⟨w, rest⟩
      · simp [ih.1 hf]
      · simp only [reduceCtorEq, false_implies, Option.some.injEq, Prod.mk.injEq, true_and]
        rintro _ _ ⟨rfl, rfl⟩
        rw [ih.2 w rest hf]

/-- A string and its segments determine each other: no segment contains the separator,
joining gives the string back, and any list of separator-free segments that joins to the string
is the list of its segments. -/
theorem C01_dotted_keys (sep : Char) (s : List Char) :
    (∀ w ∈ splitChars sep s, sep ∉ w) ∧ joinChars sep (splitChars sep s) = s ∧
    (∀ ws, ws ≠ [] → (∀ w ∈ ws, sep ∉ w) → joinChars sep ws = s → splitChars sep s = ws) := by
  refine ⟨?_, ?_, ?_⟩
  · induction s with
    | nil => simp [splitChars]
    | cons c cs ih =>
      simp only [splitChars]
      by_cases h : c = sep
      · simpa [h] using ih
      · simp only [h, if_false]
        split
        · simp; exact fun h' => h h'.symm
        · rename_i w ws heq
          intro x hx
          rw [List.mem_cons] at hx
          rcases hx with rfl | hx
          · have := ih w (by rw [heq]; simp)
            simp [this]; exact fun h' => h h'.symm
          · exact ih x (by rw [heq]; simp [hx])
  · induction s with
    | nil => simp [splitChars, joinChars]
    | cons c cs ih =>
      simp only [splitChars]
      by_cases h : c = sep
      · simp only [h, if_true]
        rcases hs : splitChars sep cs with _ | ⟨w, ws⟩
        · exact absurd hs (splitChars_ne_nil sep cs)
        · rw [hs] at ih; simp [joinChars, ih]
      · simp only [h, if_false]
        rcases hs : splitChars sep cs with _ | ⟨w, ws⟩
        · exact absurd hs (splitChars_ne_nil sep cs)
        · rw [hs] at ih
          cases ws with
          | nil => simp [joinChars] at ih ⊢; exact ih
          | cons => simp [joinChars] at ih ⊢; exact ih
  · intro ws
    induction ws generalizing s with
    | nil => intro h; exact absurd rfl h
    | cons w ws ih =>
      intro _ hsep hj
      have hw : sep ∉ w := hsep w (by simp)
      have single : ∀ w : List Char, sep ∉ w → splitChars sep w = [w] := by
        intro w hw
        induction w with
        | nil => rfl
        | cons c cs ihw =>
          simp only [List.mem_cons, not_or] at hw
          simp [splitChars, Ne.symm hw.1, ihw hw.2]
      have app : ∀ w rest : List Char, sep ∉ w →
          splitChars sep (w ++ sep :: rest) = w :: splitChars sep rest := by
        intro w rest hw
        induction w with
        | nil => simp [splitChars]
        | cons c cs ihw =>
          simp only [List.mem_cons, not_or] at hw
          simp [splitChars, Ne.symm hw.1, ihw hw.2]
      cases ws with
      | nil =>
        simp only [joinChars] at hj
        subst hj
        exact single w hw
      | cons w2 ws =>
        simp only [joinChars] at hj
        subst hj
        rw [app w _ hw, ih _ (by simp) (fun x hx => hsep x (by simp [hx])) rfl]

example : split '.' "techs.ccgt.name" = ["techs", "ccgt", "name"] := by decide
example : split ',' "a" = ["a"] := by decide

end Text
end Calliope
