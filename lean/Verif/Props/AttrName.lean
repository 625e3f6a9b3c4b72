import Verif.Spec.AttrName
import Verif.Props.Grammar
import Verif.Props.WhereGrammar

/-!
# C109: names that the schema accepts, and names that math strings can mention
-/

namespace Calliope
namespace Grammar

open Arith (Op isAdd isMul isPow)
open Where (CmpOp)

section

theorem written_ids {g : Bool} {s : Str} {ts : List Tok} (h : Written g s ts) : ∀ n ∈ idsOf ts, IdText n := by
  induction h with
  | done => simp [idsOf]
  | blank _ _ ih => exact ih
  | @lexeme g x u r ts hx _ _ ih =>
    cases x with
    | id n =>
      intro m hm
      simp only [idsOf, List.mem_cons] at hm
      rcases hm with rfl | hm
      · exact hx.2
      · exact ih m hm
    | _ => simpa [idsOf] using ih

theorem id_written {n : Str} (h : IdText n) : Written false n [(false, .id n)] := by
  have hl : Lexeme (.id n) n := ⟨rfl, h⟩
  have := Written.lexeme (g := false) (r := []) hl (by
    intro x v _ hp
    rw [List.append_nil] at hp
    exact hp.length_le) (.done true)
  rwa [List.append_nil] at this

/-- What the schema accepts: a character that is no digit, underscore or `^`, and letters, digits and underscores after
it. -/
theorem C109_accepted (k : Classes) (n : Str) :
    attrStr k n = true ↔ ∃ c r, n = c :: r ∧ c ≠ '_' ∧ c ≠ '^' ∧ k.digit c = false ∧ ∀ d ∈ r, k.word d = true := by
  cases n with
  | nil => simp [attrStr]
  | cons c r => simp [attrStr, and_assoc]

/-- A name that math strings can mention is accepted. -/
theorem C109_mentioned_accepted (k : Classes) (s n : Str) (h : Mentions s n) : attrStr k n = true := by
  obtain ⟨ts, hw, hn⟩ := h
  obtain ⟨c, r, rfl, hc, hr⟩ := written_ids hw n hn
  rw [C109_accepted]
  refine ⟨c, r, rfl, ?_, ?_, k.ascii_letter c hc, fun d hd => k.ascii_word d (hr d hd)⟩
  · rintro rfl; revert hc; decide
  · rintro rfl; revert hc; decide

/-- Some string mentions an accepted name exactly if it is an ASCII letter with ASCII letters, digits and underscores
after it. -/
theorem C109_mentioned (n : Str) : (∃ s, Mentions s n) ↔ IdText n := by
  constructor
  · rintro ⟨s, ts, hw, hn⟩
    exact written_ids hw n hn
  · intro h
    exact ⟨n, _, id_written h, by simp [idsOf]⟩

/-- Such a name is read as the component in expressions, if it is not `inf`. -/
theorem C109_expression_partial (names : Str → Bool) (n : Str) (h : IdText n) (hi : ¬ Inf n) (hn : names n = true) :
    readArithmetic names n = some (.comp n) := by
  rw [C101_arithmetic]
  exact ⟨_, id_written h, .lift (.lift (.lift (.simple (.comp hn hi))))⟩

/-- Such a name is read as the input in conditions, if it is none of `true`, `false` and `not`. -/
theorem C109_condition_partial (w : WNames) (n : Str) (h : IdText n) (hr : ¬ Reserved n) (hn : w.inputs n = true) :
    readWhere w n = some (.atom (.input n)) := by
  rw [C102_where]
  have h1 : ∀ (ws : List String), (∀ x ∈ ws, ¬ Word x.toList n) → StartsNot ws [(false, Lx.id n)] := by
    intro ws hws b s r e x hx
    cases e
    exact hws x hx
  refine ⟨_, id_written h, .one (.leaf (.input hn (h1 _ ?_)) (h1 _ ?_))⟩
  · intro x hx
    simp only [List.mem_cons, List.not_mem_nil, or_false] at hx
    rcases hx with rfl | rfl
    · exact fun hw => hr (.inl hw)
    · exact fun hw => hr (.inr (.inl hw))
  · intro x hx
    simp only [List.mem_cons, List.not_mem_nil, or_false] at hx
    subst hx
    exact fun hw => hr (.inr (.inr hw))

/-- Names that differ only where nothing can be mentioned make no difference to reading. -/
theorem sameReading_of {names names' : Str → Bool} (h : ∀ n, IdText n → names n = names' n) :
    SameReading names names' := by
  intro s
  have hn : ∀ k, Uses s k → names k = names' k := fun k ⟨ts, hw, hk⟩ => h k (written_ids hw k hk)
  have hn' : ∀ k, Uses s k → names' k = names k := fun k hk => (hn k hk).symm
  refine ⟨Option.ext fun x => ?_, Option.ext fun x => ?_, Option.ext fun x => ?_, Option.ext fun x => ?_⟩
  · simp only [C101_arithmetic]
    exact exists_congr fun ts => and_congr_right fun hw =>
      ⟨fun h => spells_congr h (sameOn_names hn hw), fun h => spells_congr h (sameOn_names hn' hw)⟩
  · obtain ⟨l, o, r⟩ := x
    simp only [C101_equation]
    refine exists_congr fun ts => and_congr_right fun hw => ?_
    have key : ∀ {n n' : Str → Bool}, (∀ k, Uses s k → n k = n' k) → SEquation (inEquations n) l o r ts →
        SEquation (inEquations n') l o r ts := by
      intro n n' hnn h
      have hs := sameOn_names hnn hw
      cases h with
      | eqn ho h1 h2 =>
        exact .eqn ho (spells_congr h1 (hs.sub (by intro k hk; simp [ids_append, hk])))
          (spells_congr h2 (hs.sub (by intro k hk; simp [ids_append, idsOf, hk])))
    exact ⟨key hn, key hn'⟩
  · simp only [C101_sub]
    exact exists_congr fun ts => and_congr_right fun hw =>
      ⟨fun h => spells_congr h (sameOn_sub hn hw), fun h => spells_congr h (sameOn_sub hn' hw)⟩
  · simp only [C101_slice]
    refine exists_congr fun ts => and_congr_right fun hw => ?_
    have key : ∀ {n n' : Str → Bool}, (∀ k, Uses s k → n k = n' k) → SSliceDef (inSlices n) x ts →
        SSliceDef (inSlices n') x ts := by
      intro n n' hnn h
      have hs := sameOn_slice hnn hw
      cases h with
      | ex h => exact .ex (spells_congr h hs)
      | list h => exact .list (sList_congr h hs)
      | text hi hk hc =>
        exact .text hi (by rw [← hs.known _ (by simp [idsOf])]; exact hk) (by rw [← hs.comp _ (by simp [idsOf])]; exact hc)
    exact ⟨key hn, key hn'⟩

/-- A component whose name is not such a text cannot be referred to: every string is read as if it were not there, and
none is read as this component. -/
theorem C109_unreachable (names names' : Str → Bool) (n : Str) (hn : ¬ IdText n)
    (h : ∀ m, m ≠ n → names m = names' m) : SameReading names names' ∧ ∀ s, readArithmetic names s ≠ some (.comp n) := by
  refine ⟨sameReading_of fun m hm => h m (fun e => hn (e ▸ hm)), fun s hs => ?_⟩
  obtain ⟨ts, hw, hsp⟩ := (C101_arithmetic names s _).1 hs
  have : ∀ (ls : List (Op → Bool)) (ts : List Tok), Spells (inEquations names) ls (.comp n) ts → n ∈ idsOf ts := by
    intro ls ts h
    generalize ht : Ast.comp n = t at h
    refine Spells.rec (motive_1 := fun _ t ts _ => t = .comp n → n ∈ idsOf ts)
      (motive_2 := fun _ _ _ _ _ => True) (motive_3 := fun _ _ _ _ => True) (motive_4 := fun _ _ _ => True)
      (motive_5 := fun _ _ _ => True) (motive_6 := fun _ _ _ => True)
      ?_ ?_ ?_ ?_ ?_ ?_ ?_ ?_ ?_ ?_ ?_ ?_ ?_ ?_ ?_ ?_ ?_ ?_ ?_ ?_ h ht.symm
    · intro t ts hsimp e
      subst e
      cases hsimp with
      | comp => simp [idsOf]
    · intro b b' m as ks ts _ _ _ _ e; cases e
    · intro b o t ts _ _ _ _ e; cases e
    · intro b b' t ts _ _ ih e
      simp only [idsOf, ids_append]
      simp [ih e]
    · intro l ls t ts _ ih e; exact ih e
    · intro l ls t r ts rs _ _ _ _ e; cases e
    all_goals intros; trivial
  exact hn (written_ids hw n (this _ _ hsp))

/-- A component called `inf`, in capitals or not, is read as the number. -/
theorem C109_inf (names : Str → Bool) (n : Str) (h : IdText n) (hi : Inf n) :
    readArithmetic names n = some (.num ['i', 'n', 'f']) := by
  rw [C101_arithmetic]
  refine ⟨_, id_written h, .lift (.lift (.lift (.simple (.number ?_))))⟩
  show Unsigned _ _
  exact .inf false hi

/-- An input called `true` or `false`, in capitals or not, is read as the truth value. -/
theorem C109_truth (w : WNames) (n : Str) (h : IdText n) (hn : Word "true".toList n ∨ Word "false".toList n) :
    ∃ b, readWhere w n = some (.atom (.bool b)) := by
  have h1 : ¬ Word "not".toList n := by
    rcases hn with hn | hn <;> (unfold Word at *; rw [hn]; decide)
  have h2 : StartsNot ["not"] [(false, Lx.id n)] := by
    intro b s r e x hx
    cases e
    simp only [List.mem_cons, List.not_mem_nil, or_false] at hx
    subst hx
    exact h1
  rcases hn with hn | hn
  · exact ⟨true, (C102_where _ _ _).2 ⟨_, id_written h, .one (.leaf (.yes hn) h2)⟩⟩
  · exact ⟨false, (C102_where _ _ _).2 ⟨_, id_written h, .one (.leaf (.no hn) h2)⟩⟩

/-- No accepted name has a dot, a bracket or a blank after its first character: dots do not split it into keys. -/
theorem C109_no_dot (k : Classes) (c : Char) (r : Str) (h : attrStr k (c :: r) = true) :
    '.' ∉ r ∧ '[' ∉ r ∧ ' ' ∉ r := by
  obtain ⟨c', r', e, _, _, _, hr⟩ := (C109_accepted k _).1 h
  cases e
  refine ⟨fun hd => ?_, fun hd => ?_, fun hd => ?_⟩ <;>
  · have h1 := hr _ hd
    rw [k.ascii_other _ (by decide) (by decide) (by decide)] at h1
    cases h1

end

/-! ### Demo -/

section NameDemo

/-- Classes without characters beyond ASCII. -/
def asciiClasses : Classes where
  word c := c.isAlphanum || c = '_'
  digit c := c.isDigit
  ascii_word c h := by simpa using h
  ascii_letter c h := by
    cases hd : c.isDigit
    · rfl
    · rw [digit_not_alpha hd] at h; cases h
  ascii_digit _ h := h
  ascii_other c _ h1 h2 := by simp [h1, h2]

/-- Names with a sign, a blank or a dot before them, and `inf` and `true`, are accepted. -/
theorem C109_odd_names : attrStr asciiClasses "-x".toList = true ∧ attrStr asciiClasses " x".toList = true ∧
    attrStr asciiClasses "$x".toList = true ∧ attrStr asciiClasses ".x".toList = true ∧
    attrStr asciiClasses "(".toList = true ∧ attrStr asciiClasses "inf".toList = true ∧
    attrStr asciiClasses "True".toList = true := by decide

/-- A component `-x` is accepted and cannot be referred to: `-x` is the component `x` with a sign, or nothing. -/
theorem C109_odd_name (names : Str → Bool) :
    attrStr asciiClasses "-x".toList = true ∧ ∀ s, readArithmetic names s ≠ some (.comp "-x".toList) := by
  refine ⟨by decide, (C109_unreachable names names _ ?_ fun _ _ => rfl).2⟩
  rintro ⟨c, r, e, hc, _⟩
  have : c = '-' := by
    have := congrArg List.head? e
    simpa using this.symm
  subst this
  revert hc; decide

example : IdText "flow_cap2".toList := ⟨'f', "low_cap2".toList, rfl, by decide, by decide⟩
example : attrStr asciiClasses "flow_cap2".toList = true ∧ attrStr asciiClasses "2x".toList = false ∧
    attrStr asciiClasses "_x".toList = false ∧ attrStr asciiClasses "a.b".toList = false := by decide
example : readArithmetic (fun s => s = "flow_cap2".toList) "flow_cap2".toList = some (.comp "flow_cap2".toList) :=
  C109_expression_partial _ _ ⟨'f', "low_cap2".toList, rfl, by decide, by decide⟩ (by unfold Inf; decide) (by decide)
example : ¬ Reserved "flow_cap2".toList := by unfold Reserved Word; decide

end NameDemo

end Grammar
end Calliope
