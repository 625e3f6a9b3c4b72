import Mathlib.Algebra.BigOperators.Group.List.Basic
import Verif.Spec.Runs
import Verif.Props.Text

/-!
# Proofs about generated scripts and scenarios
-/

namespace Calliope
namespace Runs

/-! ### Numerals -/

theorem str_eq (n : Nat) : str n = numeral n := by
  simp [str, numeral, Nat.toList_repr]

theorem numeral_inj {m n : Nat} (h : numeral m = numeral n) : m = n := by
  rw [← str_eq, ← str_eq] at h
  have := congrArg (fun l => Nat.ofDigitChars 10 l 0) h
  simpa [str, Nat.ofDigitChars_ten_toDigits] using this

theorem str_digit (n : Nat) : ∀ c ∈ str n, c.isDigit := by
  intro c hc
  exact Nat.isDigit_of_mem_toDigits (by decide) (by decide) hc

/-- `w` digits of `n`. -/
def fixed : Nat → Nat → Str
  | 0, _ => []
  | w + 1, n => fixed w (n / 10) ++ [(n % 10).digitChar]

theorem fixed_length (w n : Nat) : (fixed w n).length = w := by
  induction w generalizing n with
  | zero => rfl
  | succ w ih => simp [fixed, ih]

theorem fixed_zero (w : Nat) : fixed w 0 = List.replicate w '0' := by
  induction w with
  | zero => rfl
  | succ w ih => simp [fixed, ih, List.replicate_succ']

theorem lt_pow_width (n : Nat) : n < 10 ^ width n := by
  have h := (Nat.length_toDigits_le_iff (b := 10) (n := n) (k := width n) (by decide)
    Nat.length_toDigits_pos).1 (Nat.le_refl _)
  exact h

theorem width_le {w n : Nat} (hw : 0 < w) (h : n < 10 ^ w) : (str n).length ≤ w :=
  (Nat.length_toDigits_le_iff (by decide) hw).2 h

theorem padded_fixed (w n : Nat) (hw : 0 < w) (h : n < 10 ^ w) : padded w n = fixed w n := by
  induction w generalizing n with
  | zero => omega
  | succ w ih =>
    unfold padded str fixed
    by_cases hn : n < 10
    · rw [Nat.toDigits_of_lt_base hn]
      have h0 : n / 10 = 0 := by omega
      have h1 : n % 10 = n := by omega
      rw [h0, h1, fixed_zero]
      simp
    · have hn' : 10 ≤ n := by omega
      rw [Nat.toDigits_of_base_le (by decide) hn']
      have hw' : 0 < w := by
        rcases Nat.eq_zero_or_pos w with rfl | h' 
        · simp at h; omega
        · exact h'
      have := ih (n / 10) hw' (by rw [pow_succ] at h; omega)
      rw [← this]
      simp only [padded, str, List.length_append, List.length_cons, List.length_nil, Nat.add_sub_add_right,
        List.append_assoc]

theorem digitChar_lt {a b : Nat} (h : a < b) (hb : b < 10) : a.digitChar < b.digitChar := by
  have : ∀ b < 10, ∀ a < b, a.digitChar < b.digitChar := by decide
  exact this b hb a h

theorem lex_append {α : Type} [LT α] {a b : List α} (hl : a.length = b.length) (h : a < b) (x y : List α) :
    a ++ x < b ++ y := by
  induction a generalizing b with
  | nil => cases b with
    | nil => exact absurd h (List.not_lt_nil _)
    | cons => simp at hl
  | cons c a ih =>
    cases b with
    | nil => simp at hl
    | cons d b =>
      simp only [List.cons_append]
      rw [List.cons_lt_cons_iff] at h ⊢
      rcases h with h | ⟨rfl, h⟩
      · exact Or.inl h
      · exact Or.inr ⟨rfl, ih (by simpa using hl) h⟩

theorem lex_prefix {α : Type} [LT α] (p : List α) {a b : List α} (h : a < b) : p ++ a < p ++ b := by
  induction p with
  | nil => exact h
  | cons c p ih => simp only [List.cons_append]; rw [List.cons_lt_cons_iff]; exact Or.inr ⟨rfl, ih⟩

theorem fixed_lt (w : Nat) {m n : Nat} (hn : n < 10 ^ w) (h : m < n) : fixed w m < fixed w n := by
  induction w generalizing m n with
  | zero => simp at hn; omega
  | succ w ih =>
    unfold fixed
    by_cases hd : m / 10 < n / 10
    · exact lex_append (by simp [fixed_length]) (ih (by rw [pow_succ] at hn; omega) hd) _ _
    · have hd' : m / 10 = n / 10 := by omega
      rw [hd']
      refine lex_prefix _ ?_
      rw [List.cons_lt_cons_iff]
      exact Or.inl (digitChar_lt (by omega) (by omega))

theorem padded_lt {n i j : Nat} (hij : i < j) (hj : j ≤ n) (x y : Str) :
    padded (width n) i ++ x < padded (width n) j ++ y := by
  have hn := lt_pow_width n
  have hw : 0 < width n := Nat.length_toDigits_pos
  rw [padded_fixed _ _ hw (by omega), padded_fixed _ _ hw (by omega)]
  exact lex_append (by simp [fixed_length]) (fixed_lt _ (by omega) hij) _ _

/-! ### Words -/

theorem wordsFrom_append (w v rest : Str) (hv : ' ' ∉ v) :
    wordsFrom w (v ++ rest) = wordsFrom (w ++ v) rest := by
  induction v generalizing w with
  | nil => simp
  | cons c v ih =>
    simp only [List.mem_cons, not_or] at hv
    rw [List.cons_append, wordsFrom, if_neg (Ne.symm hv.1), ih _ hv.2]
    simp

theorem words_cons (v rest : Str) (hne : v ≠ []) (hv : ' ' ∉ v) :
    words (v ++ ' ' :: rest) = v :: words rest := by
  unfold words
  rw [wordsFrom_append _ _ _ hv]
  simp [wordsFrom, hne]

theorem words_last (v : Str) (hne : v ≠ []) (hv : ' ' ∉ v) : words v = [v] := by
  unfold words
  have := wordsFrom_append [] v [] hv
  rw [List.append_nil] at this
  rw [this]
  simp [wordsFrom, hne]

theorem words_blank (rest : Str) : words (' ' :: rest) = words rest := by
  simp [words, wordsFrom]

theorem Plain.noBlank {s : Str} (h : Plain s) : ' ' ∉ s := by
  intro hc
  have := h.2 _ hc
  revert this
  decide

theorem padded_digit (w n : Nat) : ∀ c ∈ padded w n, c.isDigit := by
  intro c hc
  unfold padded at hc
  rw [List.mem_append] at hc
  rcases hc with hc | hc
  · rw [List.eq_of_mem_replicate hc]; decide
  · exact str_digit n c hc

theorem outFile_noBlank {n i : Nat} {run : Str} (h : Plain run) : ' ' ∉ outFile n i run := by
  intro hc
  unfold outFile at hc
  simp only [List.mem_append] at hc
  rcases hc with (((hc | hc) | hc) | hc) | hc
  · revert hc; decide
  · exact absurd (padded_digit _ _ _ hc) (by decide)
  · revert hc; decide
  · exact h.noBlank hc
  · revert hc; decide

theorem strip_cmd (m r o : Str) :
    strip ("calliope run ".toList ++ m ++ " --scenario ".toList ++ r ++ " ".toList ++ "--save_netcdf ".toList ++
      (o ++ ".nc".toList) ++ " ".toList) =
    "calliope run ".toList ++ m ++ " --scenario ".toList ++ r ++ " ".toList ++ "--save_netcdf ".toList ++
      (o ++ ".nc".toList) := by
  have hs : ∀ x : Str, strip ('c' :: x ++ ['.', 'n', 'c', ' ']) = 'c' :: x ++ ['.', 'n', 'c'] := by
    intro x
    have h1 : blank 'c' = false := by decide
    have h2 : blank ' ' = true := by decide
    simp [strip, List.dropWhile_cons, h1, h2]
  have := hs ("alliope run ".toList ++ m ++ " --scenario ".toList ++ r ++ " ".toList ++ "--save_netcdf ".toList ++ o)
  have e1 : ".nc".toList = ['.', 'n', 'c'] := rfl
  have e2 : " ".toList = [' '] := rfl
  have e3 : "calliope run ".toList = 'c' :: "alliope run ".toList := rfl
  rw [e1, e3, e2] at *
  simp only [List.cons_append, List.append_assoc, List.nil_append] at this ⊢
  exact this

/-- A command: its seven words and the rest. -/
theorem command_eq {α : Type} (q : Request α) (n i : Nat) (run : Str) :
    ∃ rest, (rest = [] ∨ ∃ r, rest = ' ' :: r) ∧
      (given q.overrideDict = none → given q.additionalArgs = none → rest = []) ∧
      command q n i run = "calliope run ".toList ++ q.modelFile ++ " --scenario ".toList ++ run ++
        " ".toList ++ "--save_netcdf ".toList ++ outFile n i run ++ rest := by
  have e := strip_cmd q.modelFile run ("out_".toList ++ padded (width n) (i + 1) ++ "_".toList ++ run)
  unfold command
  have e' : "out_".toList ++ padded (width n) (i + 1) ++ "_".toList ++ run ++ ".nc".toList = outFile n i run := rfl
  rw [e'] at e
  simp only [e]
  cases given q.overrideDict with
  | none =>
    cases given q.additionalArgs with
    | none => exact ⟨[], Or.inl rfl, fun _ _ => rfl, by simp⟩
    | some a => exact ⟨' ' :: a, Or.inr ⟨_, rfl⟩, by simp, by simp only [List.append_assoc]; rfl⟩
  | some d =>
    cases given q.additionalArgs with
    | none =>
      exact ⟨' ' :: ("--override_dict=\"".toList ++ d ++ "\"".toList), Or.inr ⟨_, rfl⟩, by simp,
        by simp only [List.append_assoc]; rfl⟩
    | some a =>
      exact ⟨' ' :: ("--override_dict=\"".toList ++ d ++ "\"".toList ++ " ".toList ++ a), Or.inr ⟨_, rfl⟩, by simp,
        by simp only [List.append_assoc]; rfl⟩

theorem command_words {α : Type} (q : Request α) (n i : Nat) (run : Str) (hm : Plain q.modelFile)
    (hr : Plain run) :
    ∃ rest, words (command q n i run) =
      ["calliope".toList, "run".toList, q.modelFile, "--scenario".toList, run, "--save_netcdf".toList,
        outFile n i run] ++ rest ∧
      (given q.overrideDict = none → given q.additionalArgs = none → rest = []) := by
  obtain ⟨rest, hrest, hnone, e⟩ := command_eq q n i run
  rw [e]
  have hout := outFile_noBlank (n := n) (i := i) hr
  have hone : outFile n i run ≠ [] := by simp [outFile]
  have e1 : "calliope run ".toList = "calliope".toList ++ ' ' :: ("run".toList ++ ' ' :: []) := rfl
  have e2 : " --scenario ".toList = ' ' :: ("--scenario".toList ++ ' ' :: []) := rfl
  have e3 : " ".toList = ' ' :: [] := rfl
  have e4 : "--save_netcdf ".toList = "--save_netcdf".toList ++ ' ' :: [] := rfl
  rw [e1, e2, e3, e4]
  simp only [List.append_assoc, List.cons_append, List.nil_append]
  rw [words_cons _ _ (by decide) (by decide), words_cons _ _ (by decide) (by decide),
    words_cons _ _ hm.1 hm.noBlank, words_cons _ _ (by decide) (by decide), words_cons _ _ hr.1 hr.noBlank,
    words_cons _ _ (by decide) (by decide)]
  rcases hrest with rfl | ⟨r, rfl⟩
  · rw [List.append_nil, words_last _ hone hout]
    exact ⟨[], rfl, fun _ _ => rfl⟩
  · rw [words_cons _ _ hone hout]
    exact ⟨words r, rfl, fun h1 h2 => by have := hnone h1 h2; simp at this⟩

theorem commandsFrom_length {α : Type} (q : Request α) (n i : Nat) (rs : List Str) :
    (commandsFrom q n i rs).length = rs.length := by
  induction rs generalizing i with
  | nil => rfl
  | cons r rs ih => simp [commandsFrom, ih]

theorem commandsFrom_get {α : Type} (q : Request α) (n i : Nat) (rs : List Str) (k : Nat) :
    (commandsFrom q n i rs)[k]? = rs[k]?.map (command q n (i + k)) := by
  induction rs generalizing i k with
  | nil => simp [commandsFrom]
  | cons r rs ih =>
    cases k with
    | zero => simp [commandsFrom]
    | succ k => simp [commandsFrom, ih, Nat.add_assoc, Nat.add_comm 1 k]

/-! ### Reading the script -/

theorem linesFrom_append (l v rest : Str) (hv : '\n' ∉ v) :
    linesFrom l (v ++ rest) = linesFrom (l ++ v) rest := by
  induction v generalizing l with
  | nil => simp
  | cons c v ih =>
    simp only [List.mem_cons, not_or] at hv
    rw [List.cons_append, linesFrom, if_neg (Ne.symm hv.1), ih _ hv.2]
    simp

theorem linesOf_cons (v rest : Str) (hv : '\n' ∉ v) : linesOf (v ++ '\n' :: rest) = v :: linesOf rest := by
  unfold linesOf
  rw [linesFrom_append _ _ _ hv]
  simp [linesFrom]

theorem linesOf_last (v : Str) (hv : '\n' ∉ v) : linesOf v = [v] := by
  unfold linesOf
  have := linesFrom_append [] v [] hv
  rw [List.append_nil] at this
  rw [this]
  simp [linesFrom]

theorem join_cons (l : Str) (ls : List Str) (h : ls ≠ []) :
    join "\n".toList (l :: ls) = l ++ '\n' :: join "\n".toList ls := by
  cases ls with
  | nil => exact absurd rfl h
  | cons a b => simp only [join, List.append_assoc]; rfl

theorem linesOf_join (ls : List Str) (h : ls ≠ []) (hl : ∀ l ∈ ls, '\n' ∉ l) :
    linesOf (join "\n".toList ls) = ls := by
  induction ls with
  | nil => exact absurd rfl h
  | cons l ls ih =>
    cases ls with
    | nil => exact linesOf_last l (hl l (by simp))
    | cons a b =>
      rw [join_cons _ _ (by simp), linesOf_cons _ _ (hl l (by simp)),
        ih (by simp) (fun x hx => hl x (by simp [hx]))]

/-- A branch line without its line break. -/
def caseText (i : Nat) (cmd : Str) : Str := "    ".toList ++ str (i + 1) ++ ") ".toList ++ cmd ++ " ;;".toList

/-- The branch lines as read: each is followed by an empty line. -/
def readCases : Nat → List Str → List Str
  | _, [] => []
  | i, c :: cs => caseText i c :: [] :: readCases (i + 1) cs

theorem caseLine_eq (i : Nat) (cmd : Str) : caseLine i cmd = caseText i cmd ++ '\n' :: [] := by
  simp only [caseLine, caseText, List.append_assoc]; rfl

theorem str_noBreak (n : Nat) : '\n' ∉ str n := fun h => absurd (str_digit n _ h) (by decide)

theorem caseText_noBreak {i : Nat} {cmd : Str} (h : '\n' ∉ cmd) : '\n' ∉ caseText i cmd := by
  unfold caseText
  simp only [List.mem_append]
  rintro ((((hc | hc) | hc) | hc) | hc)
  · revert hc; decide
  · exact str_noBreak _ hc
  · revert hc; decide
  · exact h hc
  · revert hc; decide

theorem linesOf_cases (i : Nat) (cs : List Str) (rest : List Str) (hr : rest ≠ [])
    (hc : ∀ c ∈ cs, '\n' ∉ c) (hl : ∀ l ∈ rest, '\n' ∉ l) :
    linesOf (join "\n".toList (caseLinesFrom i cs ++ rest)) = readCases i cs ++ rest := by
  induction cs generalizing i with
  | nil => simpa [caseLinesFrom, readCases] using linesOf_join rest hr hl
  | cons c cs ih =>
    simp only [caseLinesFrom, readCases, List.cons_append]
    rw [join_cons _ _ (by simp [hr]), caseLine_eq]
    rw [List.append_assoc, List.cons_append, List.nil_append,
      linesOf_cons _ _ (caseText_noBreak (hc c (by simp)))]
    have := linesOf_cons [] (join "\n".toList (caseLinesFrom (i + 1) cs ++ rest)) (by simp)
    rw [List.nil_append] at this
    rw [this, ih (i + 1) (fun x hx => hc x (by simp [hx]))]

/-- The lines of the script before the branches. -/
def scriptHead : List Str :=
  ["#!/bin/sh".toList, [], "function process_case () {".toList, "    case \"$1\" in".toList, []]

/-- The lines of the script after the branches. -/
def scriptTail (n : Nat) : List Str :=
  ["    esac".toList, "}".toList, [], "if [[ $# -eq 0 ]] ; then".toList,
   "    echo No parameter given, running all runs sequentially...".toList,
   "    for i in $(seq 1 ".toList ++ str n ++ "); do process_case $i; done".toList,
   "else".toList, "    echo Running run $1".toList, "    process_case $1".toList, "fi".toList, []]

theorem scriptTail_noBreak (n : Nat) : ∀ l ∈ scriptTail n, '\n' ∉ l := by
  intro l hl
  simp only [scriptTail, List.mem_cons, List.not_mem_nil, or_false] at hl
  rcases hl with rfl | rfl | rfl | rfl | rfl | rfl | rfl | rfl | rfl | rfl | rfl
  · decide
  · decide
  · decide
  · decide
  · decide
  · simp only [List.mem_append]
    rintro ((hc | hc) | hc)
    · revert hc; decide
    · exact str_noBreak _ hc
    · revert hc; decide
  all_goals decide

theorem script_lines (cs : List Str) (hc : ∀ c ∈ cs, '\n' ∉ c) :
    linesOf (bashScript cs) = scriptHead ++ readCases 0 cs ++ scriptTail cs.length := by
  have hne : caseLinesFrom 0 cs ++ scriptTail cs.length ≠ [] := by simp [scriptTail]
  unfold bashScript
  have e : bashLines cs = scriptHead ++ (caseLinesFrom 0 cs ++ scriptTail cs.length) := by
    simp only [bashLines, scriptHead, scriptTail, List.append_assoc]
  rw [e]
  simp only [scriptHead, List.cons_append, List.nil_append]
  rw [join_cons _ _ (by simp), linesOf_cons _ _ (by decide), join_cons _ _ (by simp), linesOf_cons _ _ (by decide),
    join_cons _ _ (by simp), linesOf_cons _ _ (by decide), join_cons _ _ (by simp), linesOf_cons _ _ (by decide),
    join_cons _ _ hne, linesOf_cons _ _ (by decide),
    linesOf_cases 0 cs _ (by simp [scriptTail]) hc (scriptTail_noBreak _)]

theorem caseText_ne_esac (i : Nat) (cmd : Str) : caseText i cmd ≠ "    esac".toList := by
  intro h
  unfold caseText at h
  rcases hs : str (i + 1) with _ | ⟨d, ds⟩
  · exact absurd hs Nat.toDigits_ne_nil
  · rw [hs] at h
    have : d = 'e' := by
      have e1 : "    ".toList = [' ', ' ', ' ', ' '] := rfl
      have e2 : "    esac".toList = [' ', ' ', ' ', ' ', 'e', 's', 'a', 'c'] := rfl
      rw [e1, e2] at h
      simp only [List.cons_append, List.nil_append, List.append_assoc, List.cons.injEq, true_and] at h
      exact h.1
    have hd := str_digit (i + 1) d (by rw [hs]; simp)
    rw [this] at hd
    exact absurd hd (by decide)

theorem readCases_ne_esac (i : Nat) (cs : List Str) : ∀ l ∈ readCases i cs, l ≠ "    esac".toList := by
  induction cs generalizing i with
  | nil => simp [readCases]
  | cons c cs ih =>
    intro l hl
    simp only [readCases, List.mem_cons] at hl
    rcases hl with rfl | rfl | hl
    · exact caseText_ne_esac i c
    · decide
    · exact ih _ l hl

theorem takeWhile_all {α : Type} (p : α → Bool) (xs ys : List α) (y : α) (h : ∀ x ∈ xs, p x = true)
    (hy : p y = false) : (xs ++ y :: ys).takeWhile p = xs := by
  induction xs with
  | nil => simp [List.takeWhile_cons, hy]
  | cons x xs ih =>
    simp only [List.cons_append, List.takeWhile_cons, h x (by simp), if_true]
    rw [ih (fun z hz => h z (by simp [hz]))]

theorem dropWhile_all {α : Type} (p : α → Bool) (xs ys : List α) (y : α) (h : ∀ x ∈ xs, p x = true)
    (hy : p y = false) : (xs ++ y :: ys).dropWhile p = y :: ys := by
  induction xs with
  | nil => simp [List.dropWhile_cons, hy]
  | cons x xs ih =>
    simp only [List.cons_append, List.dropWhile_cons, h x (by simp), if_true]
    exact ih (fun z hz => h z (by simp [hz]))

theorem script_body (cs : List Str) (hc : ∀ c ∈ cs, '\n' ∉ c) :
    caseBody (linesOf (bashScript cs)) = [] :: readCases 0 cs := by
  rw [script_lines cs hc]
  unfold scriptHead
  simp only [List.cons_append, List.nil_append]
  rw [caseBody, if_neg (by decide), caseBody, if_neg (by decide), caseBody, if_neg (by decide), caseBody,
    if_pos rfl]
  unfold scriptTail
  rw [← List.cons_append]
  refine takeWhile_all _ _ _ _ ?_ (by decide)
  intro l hl
  rw [List.mem_cons] at hl
  rcases hl with rfl | hl
  · decide
  · exact decide_eq_true (readCases_ne_esac 0 cs l hl)

/-- A command that the reader gives back: no line break, no `;`, starting and ending with a character that is
not a blank. -/
def Readable (c : Str) : Prop :=
  '\n' ∉ c ∧ ';' ∉ c ∧ (∃ d ds, c = d :: ds ∧ d ≠ ' ') ∧ (∃ ds d, c = ds ++ [d] ∧ d ≠ ' ')

theorem branch_caseText (i : Nat) (cmd : Str) (h : Readable cmd) :
    branch (caseText i cmd) = some (numeral (i + 1), cmd) := by
  obtain ⟨_, hsemi, ⟨d, ds, hd, hdne⟩, ⟨es, e, he, hene⟩⟩ := h
  unfold branch caseText
  have e1 : "    ".toList = [' ', ' ', ' ', ' '] := rfl
  have e2 : ") ".toList = [')', ' '] := rfl
  have e3 : " ;;".toList = [' ', ';', ';'] := rfl
  rw [e1, e2, e3]
  have hstr := str_digit (i + 1)
  rcases hs : str (i + 1) with _ | ⟨a, as⟩
  · exact absurd hs Nat.toDigits_ne_nil
  · have ha : a ≠ ' ' := by
      intro h'
      have := hstr a (by rw [hs]; simp)
      rw [h'] at this
      exact absurd this (by decide)
    have hdrop : ([' ', ' ', ' ', ' '] ++ (a :: as) ++ [')', ' '] ++ cmd ++ [' ', ';', ';']).dropWhile (· = ' ') =
        (a :: as) ++ ')' :: (' ' :: cmd ++ [' ', ';', ';']) := by
      simp only [List.append_assoc, List.cons_append, List.nil_append]
      simp [List.dropWhile_cons, ha]
    simp only [hdrop]
    have hpat : ∀ x ∈ a :: as, (decide (x ≠ ')')) = true := by
      intro x hx
      have := hstr x (by rw [hs]; exact hx)
      rw [decide_eq_true_eq]
      rintro rfl
      exact absurd this (by decide)
    rw [dropWhile_all _ (a :: as) _ ')' hpat (by decide), takeWhile_all _ (a :: as) _ ')' hpat (by decide)]
    have h1 : (' ' :: cmd ++ [' ', ';', ';']).dropWhile (· = ' ') = (cmd ++ [' ']) ++ ';' :: [';'] := by
      rw [hd]
      simp [List.dropWhile_cons, hdne]
    simp only [h1]
    have h2 : ∀ x ∈ cmd ++ [' '], (decide (x ≠ ';')) = true := by
      intro x hx
      rw [decide_eq_true_eq]
      rintro rfl
      rw [List.mem_append] at hx
      rcases hx with hx | hx
      · exact hsemi hx
      · revert hx; decide
    rw [takeWhile_all _ _ _ ';' h2 (by decide)]
    have h3 : ((cmd ++ [' ']).reverse.dropWhile (· = ' ')).reverse = cmd := by
      rw [he]
      simp [List.dropWhile_cons, hene]
    rw [h3, ← str_eq, hs]

theorem branches_readCases (i : Nat) (cs : List Str) (h : ∀ c ∈ cs, Readable c) :
    (readCases i cs).filterMap branch = cs.zipIdx.map (fun p => (numeral (i + p.2 + 1), p.1)) := by
  induction cs generalizing i with
  | nil => rfl
  | cons c cs ih =>
    simp only [readCases, List.filterMap_cons, branch_caseText i c (h c (by simp))]
    have hnil : branch [] = none := by decide
    rw [hnil, ih _ (fun x hx => h x (by simp [hx]))]
    rw [List.zipIdx_cons', List.map_cons, List.map_map]
    congr 1
    apply List.map_congr_left
    rintro ⟨x, k⟩ _
    simp only [Function.comp, Prod.map, id]
    rw [show i + 1 + k + 1 = i + (k + 1) + 1 by omega]

theorem given_some {o : Option Str} {d : Str} (h : given o = some d) : o = some d ∧ d ≠ [] := by
  rcases o with _ | (_ | ⟨c, cs⟩)
  · simp [given] at h
  · simp [given] at h
  · simp only [given, Option.some.injEq] at h
    subst h
    simp

theorem job_eq (cs : List Str) (h : ∀ c ∈ cs, Readable c) (k : Nat) (hk : k < cs.length) :
    job (bashScript cs) (numeral (k + 1)) = some cs[k] := by
  unfold job
  rw [script_body cs (fun c hc => (h c hc).1), List.filterMap_cons]
  have hnil : branch [] = none := by decide
  rw [hnil]
  simp only
  rw [branches_readCases 0 cs h]
  have hmem : (numeral (0 + k + 1), cs[k]) ∈ cs.zipIdx.map (fun p => (numeral (0 + p.2 + 1), p.1)) :=
    List.mem_map.2 ⟨(cs[k], k), by rw [List.mem_iff_getElem?]; exact ⟨k, by simp [hk]⟩, rfl⟩
  rcases hf : (cs.zipIdx.map (fun p => (numeral (0 + p.2 + 1), p.1))).find?
      (fun b => b.1 = numeral (k + 1)) with _ | ⟨a, c⟩
  · rw [List.find?_eq_none] at hf
    have := hf _ hmem
    simp at this
  · have h1 := List.find?_some hf
    have h2 := List.mem_of_find?_eq_some hf
    rw [List.mem_map] at h2
    obtain ⟨⟨c', j⟩, hm, he⟩ := h2
    simp only [Prod.mk.injEq] at he
    simp only [decide_eq_true_eq] at h1
    have hj : j = k := by
      have := numeral_inj (he.1.trans h1)
      omega
    subst hj
    have hm' := List.mem_zipIdx hm
    simp only [Nat.zero_add, Nat.sub_zero] at hm'
    refine (congrArg (Option.map Prod.snd) hf).trans ?_
    show some c = some cs[j]
    rw [← he.2]
    exact congrArg some hm'.2.2

theorem job_none (cs : List Str) (h : ∀ c ∈ cs, Readable c) (arg : Str)
    (harg : ∀ k < cs.length, arg ≠ numeral (k + 1)) : job (bashScript cs) arg = none := by
  unfold job
  rw [script_body cs (fun c hc => (h c hc).1), List.filterMap_cons]
  have hnil : branch [] = none := by decide
  rw [hnil]
  simp only
  rw [branches_readCases 0 cs h, Option.map_eq_none_iff, List.find?_eq_none]
  rintro ⟨a, c⟩ hx hax
  rw [List.mem_map] at hx
  obtain ⟨⟨c', k⟩, hm, he⟩ := hx
  simp only [Prod.mk.injEq] at he
  simp only [decide_eq_true_eq] at hax
  have hk := List.mem_zipIdx hm
  exact harg k (by omega) (by rw [← hax, ← he.1, Nat.zero_add])

/-! ### Commands are readable -/

theorem command_readable {α : Type} (q : Request α) (n i : Nat) (run : Str) (hm : Plain q.modelFile)
    (hr : Plain run)
    (ho : ∀ d, q.overrideDict = some d → '\n' ∉ d ∧ ';' ∉ d)
    (ha : ∀ a, q.additionalArgs = some a → '\n' ∉ a ∧ ';' ∉ a ∧ (∀ l x, a = l ++ [x] → x ≠ ' ')) :
    Readable (command q n i run) := by
  have plain : ∀ {s : Str}, Plain s → '\n' ∉ s ∧ ';' ∉ s := by
    intro s hs
    constructor
    · intro hc; have := hs.2 _ hc; revert this; decide
    · intro hc; have := hs.2 _ hc; revert this; decide
  have e := strip_cmd q.modelFile run ("out_".toList ++ padded (width n) (i + 1) ++ "_".toList ++ run)
  have e' : "out_".toList ++ padded (width n) (i + 1) ++ "_".toList ++ run ++ ".nc".toList = outFile n i run := rfl
  rw [e'] at e
  -- the first part
  have hout : '\n' ∉ outFile n i run ∧ ';' ∉ outFile n i run := by
    constructor
    · intro hc
      unfold outFile at hc
      simp only [List.mem_append] at hc
      rcases hc with (((hc | hc) | hc) | hc) | hc
      · revert hc; decide
      · exact absurd (padded_digit _ _ _ hc) (by decide)
      · revert hc; decide
      · exact (plain hr).1 hc
      · revert hc; decide
    · intro hc
      unfold outFile at hc
      simp only [List.mem_append] at hc
      rcases hc with (((hc | hc) | hc) | hc) | hc
      · revert hc; decide
      · exact absurd (padded_digit _ _ _ hc) (by decide)
      · revert hc; decide
      · exact (plain hr).2 hc
      · revert hc; decide
  have no : ∀ (c : Char), c ∉ q.modelFile → c ∉ run → c ∉ outFile n i run →
      c ∉ "calliope run ".toList → c ∉ " --scenario ".toList → c ∉ " ".toList → c ∉ "--save_netcdf ".toList →
      c ∉ "calliope run ".toList ++ q.modelFile ++ " --scenario ".toList ++ run ++ " ".toList ++
        "--save_netcdf ".toList ++ outFile n i run := by
    intro c h1 h2 h3 h4 h5 h6 h7
    simp only [List.mem_append, not_or]
    exact ⟨⟨⟨⟨⟨⟨h4, h1⟩, h5⟩, h2⟩, h6⟩, h7⟩, h3⟩
  have hbase1 := no '\n' (plain hm).1 (plain hr).1 hout.1 (by decide) (by decide) (by decide) (by decide)
  have hbase2 := no ';' (plain hm).2 (plain hr).2 hout.2 (by decide) (by decide) (by decide) (by decide)
  unfold command
  simp only [e]
  generalize hb : "calliope run ".toList ++ q.modelFile ++ " --scenario ".toList ++ run ++ " ".toList ++
        "--save_netcdf ".toList ++ outFile n i run = base at hbase1 hbase2 ⊢
  have hstart : ∃ ds, base = 'c' :: ds := by
    rw [← hb, show "calliope run ".toList = 'c' :: "alliope run ".toList from rfl]
    simp only [List.cons_append]
    exact ⟨_, rfl⟩
  have hend : ∃ ds, base = ds ++ ['c'] := by
    rw [← hb, ← e', show ".nc".toList = ['.', 'n'] ++ ['c'] from rfl]
    simp only [← List.append_assoc]
    exact ⟨_, rfl⟩
  obtain ⟨ds, hds⟩ := hstart
  obtain ⟨es, hes⟩ := hend
  have key : ∀ x : Str, ('\n' ∉ x ∧ ';' ∉ x ∧ (∀ l y, x = l ++ [y] → y ≠ ' ')) → Readable (base ++ x) := by
    intro x hx
    refine ⟨by simp [hbase1, hx.1], by simp [hbase2, hx.2.1], ⟨'c', ds ++ x, by rw [hds]; simp, by decide⟩, ?_⟩
    rcases List.eq_nil_or_concat x with rfl | ⟨l, y, rfl⟩
    · exact ⟨es, 'c', by rw [hes]; simp, by decide⟩
    · exact ⟨base ++ l, y, by simp, hx.2.2 l y (by simp)⟩
  have last : ∀ (u a : Str), a ≠ [] → (∀ l x, a = l ++ [x] → x ≠ ' ') → ∀ l y, u ++ a = l ++ [y] → y ≠ ' ' := by
    intro u a hne hl l y h
    rcases List.eq_nil_or_concat a with rfl | ⟨l', y', rfl⟩
    · exact absurd rfl hne
    · have h' : u ++ l' ++ [y'] = l ++ [y] := by simpa using h
      have := List.append_inj_right' h' rfl
      simp only [List.cons.injEq, and_true] at this
      rw [← this]
      exact hl l' y' (by simp)
  cases hgd : given q.overrideDict with
  | none =>
    cases hgaa : given q.additionalArgs with
    | none => simpa using key [] ⟨by simp, by simp, by simp⟩
    | some a =>
      obtain ⟨h1, hne⟩ := given_some hgaa
      obtain ⟨h2, h3, h4⟩ := ha a h1
      simp only [List.append_assoc]
      refine key _ ⟨?_, ?_, last _ a hne h4⟩
      · simp only [List.mem_append, not_or]; exact ⟨by decide, h2⟩
      · simp only [List.mem_append, not_or]; exact ⟨by decide, h3⟩
  | some d =>
    obtain ⟨h5, h6⟩ := ho d (given_some hgd).1
    cases hgaa : given q.additionalArgs with
    | none =>
      simp only [List.append_assoc]
      refine key _ ⟨?_, ?_, ?_⟩
      · simp only [List.mem_append, not_or]; exact ⟨by decide, h5, by decide⟩
      · simp only [List.mem_append, not_or]; exact ⟨by decide, h6, by decide⟩
      · have := last (" --override_dict=\"".toList ++ d) "\"".toList (by decide)
          (by intro l x h
              have h' : [] ++ ['"'] = l ++ [x] := by simpa using h
              have := List.append_inj_right' h' rfl
              simp only [List.cons.injEq, and_true] at this
              rw [← this]; decide)
        simpa only [List.append_assoc] using this
    | some a =>
      obtain ⟨h1, hne⟩ := given_some hgaa
      obtain ⟨h2, h3, h4⟩ := ha a h1
      simp only [List.append_assoc]
      refine key _ ⟨?_, ?_, ?_⟩
      · simp only [List.mem_append, not_or]; exact ⟨by decide, h5, by decide, by decide, h2⟩
      · simp only [List.mem_append, not_or]; exact ⟨by decide, h6, by decide, by decide, h3⟩
      · have := last (" --override_dict=\"".toList ++ d ++ "\"".toList ++ " ".toList) a hne h4
        simpa only [List.append_assoc] using this

/-! ### Scenarios -/

theorem product_length {β : Type} (gs : List (List β)) : (product gs).length = (gs.map List.length).prod := by
  induction gs with
  | nil => rfl
  | cons g gs ih =>
    rw [product, List.length_flatMap, List.map_cons, List.prod_cons]
    have : (g.map fun x => ((product gs).map (x :: ·)).length) = g.map (fun _ => (gs.map List.length).prod) := by
      apply List.map_congr_left
      intro x _
      rw [List.length_map, ih]
    rw [this, List.map_const', List.sum_replicate]; simp

theorem flatMap_get {β γ : Type} (g : List β) (f : β → List γ) (L : Nat) (hf : ∀ x ∈ g, (f x).length = L)
    (i j : Nat) (hj : j < L) : (g.flatMap f)[i * L + j]? = g[i]?.bind (fun x => (f x)[j]?) := by
  induction g generalizing i with
  | nil => simp
  | cons x g ih =>
    rw [List.flatMap_cons]
    cases i with
    | zero =>
      rw [Nat.zero_mul, Nat.zero_add, List.getElem?_append_left (by rw [hf x (by simp)]; exact hj)]
      simp
    | succ i =>
      have hL := hf x (by simp)
      rw [List.getElem?_append_right (by rw [hL, Nat.succ_mul]; omega), hL]
      have : (i + 1) * L + j - L = i * L + j := by rw [Nat.succ_mul]; omega
      rw [this, ih (fun y hy => hf y (by simp [hy]))]
      simp

theorem position_lt {β : Type} (gs : List (List β)) (is : List Nat)
    (h : List.Forall₂ (fun g i => i < g.length) gs is) : position gs is < (gs.map List.length).prod := by
  induction h with
  | nil => simp [position]
  | cons hi _ ih =>
    rename_i g i gs is _
    rw [position, List.map_cons, List.prod_cons]
    calc i * (gs.map List.length).prod + position gs is
        < i * (gs.map List.length).prod + (gs.map List.length).prod := by omega
      _ = (i + 1) * (gs.map List.length).prod := by rw [Nat.succ_mul]
      _ ≤ g.length * (gs.map List.length).prod := Nat.mul_le_mul_right _ hi

theorem product_get {β : Type} (gs : List (List β)) (is : List Nat) (c : List β)
    (hi : List.Forall₂ (fun g i => i < g.length) gs is)
    (hc : List.Forall₂ (fun (p : List β × Nat) x => p.1[p.2]? = some x) (gs.zip is) c) :
    (product gs)[position gs is]? = some c := by
  induction hi generalizing c with
  | nil => cases hc; rfl
  | cons h hrest ih =>
    rename_i g i gs is
    cases hc with
    | cons hx hc =>
      rename_i x c
      rw [product, position, flatMap_get _ _ (gs.map List.length).prod
        (fun y _ => by rw [List.length_map, product_length]) _ _ (position_lt gs is hrest)]
      simp only at hx
      rw [hx]
      simp [ih c hc]

theorem position_surj {β : Type} (gs : List (List β)) (p : Nat) (hp : p < (gs.map List.length).prod) :
    ∃ is, List.Forall₂ (fun g i => i < g.length) gs is ∧ position gs is = p := by
  induction gs generalizing p with
  | nil => simp at hp; exact ⟨[], .nil, by simp [position, hp]⟩
  | cons g gs ih =>
    rw [List.map_cons, List.prod_cons] at hp
    have hpos : 0 < (gs.map List.length).prod := by
      rcases Nat.eq_zero_or_pos (gs.map List.length).prod with h | h
      · rw [h] at hp; omega
      · exact h
    obtain ⟨is, his, hpi⟩ := ih (p % (gs.map List.length).prod) (Nat.mod_lt _ hpos)
    refine ⟨p / (gs.map List.length).prod :: is, .cons ?_ his, ?_⟩
    · exact Nat.div_lt_of_lt_mul (by rw [Nat.mul_comm]; exact hp)
    · rw [position, hpi, Nat.mul_comm]
      exact Nat.div_add_mod _ _

theorem namedFrom_length (pre : Str) (n i : Nat) (cs : List (List Str)) :
    (namedFrom pre n i cs).length = cs.length := by
  induction cs generalizing i with
  | nil => rfl
  | cons c cs ih => simp [namedFrom, ih]

theorem namedFrom_get (pre : Str) (n i : Nat) (cs : List (List Str)) (k : Nat) :
    (namedFrom pre n i cs)[k]? = cs[k]?.map (fun c => (pre ++ padded (width n) (i + k + 1), c)) := by
  induction cs generalizing i k with
  | nil => simp [namedFrom]
  | cons c cs ih =>
    cases k with
    | zero => simp [namedFrom]
    | succ k =>
      simp only [namedFrom, List.getElem?_cons_succ, ih]
      rw [show i + 1 + k + 1 = i + (k + 1) + 1 by omega]

theorem padded_name_lt (pre : Str) {n i j : Nat} (hij : i < j) (hj : j ≤ n) :
    pre ++ padded (width n) i < pre ++ padded (width n) j := by
  refine lex_prefix pre ?_
  have := padded_lt hij hj [] []
  simpa using this

theorem namedFrom_sorted (pre : Str) (n i : Nat) (cs : List (List Str)) (h : i + cs.length ≤ n) :
    (namedFrom pre n i cs).Pairwise (fun a b => a.1 < b.1) := by
  rw [List.pairwise_iff_getElem]
  intro a b ha hb hab
  have h1 := namedFrom_get pre n i cs a
  have h2 := namedFrom_get pre n i cs b
  rw [namedFrom_length] at ha hb
  rw [List.getElem?_eq_getElem (by rw [namedFrom_length]; exact ha), List.getElem?_eq_getElem ha] at h1
  rw [List.getElem?_eq_getElem (by rw [namedFrom_length]; exact hb), List.getElem?_eq_getElem hb] at h2
  simp only [Option.map_some, Option.some.injEq] at h1 h2
  rw [h1, h2]
  exact padded_name_lt pre (by omega) (by omega)

theorem assign_new (d : List (Str × List Str)) (k : Str) (v : List Str) (h : ∀ e ∈ d, e.1 ≠ k) :
    assign d k v = d ++ [(k, v)] := by
  induction d with
  | nil => rfl
  | cons e d ih =>
    obtain ⟨k', v'⟩ := e
    have := h (k', v') (by simp)
    simp only [assign, if_neg this, List.cons_append]
    rw [ih (fun x hx => h x (by simp [hx]))]

theorem foldl_assign (es d : List (Str × List Str)) (h : es.Pairwise (fun a b => a.1 ≠ b.1))
    (hd : ∀ e ∈ d, ∀ x ∈ es, e.1 ≠ x.1) :
    es.foldl (fun d e => assign d e.1 e.2) d = d ++ es := by
  induction es generalizing d with
  | nil => simp
  | cons e es ih =>
    rw [List.pairwise_cons] at h
    rw [List.foldl_cons, assign_new _ _ _ (fun x hx => hd x hx e (by simp)), ih _ h.2]
    · simp
    · intro x hx y hy
      rw [List.mem_append, List.mem_singleton] at hx
      rcases hx with hx | rfl
      · exact hd x hx y (by simp [hy])
      · exact h.1 y hy

theorem generateScenarios_eq (overrides : List Str) (namePrefix : Option Str) :
    generateScenarios overrides namePrefix =
      namedFrom ((given namePrefix).getD "scenario_".toList)
        (product (overrides.map (Text.splitChars ';'))).length 0
        (product (overrides.map (Text.splitChars ';'))) := by
  unfold generateScenarios
  rw [foldl_assign _ [] _ (by simp)]
  · simp
  · refine (namedFrom_sorted _ _ 0 _ (by simp)).imp ?_
    intro a b hab he
    rw [he] at hab
    exact List.lt_irrefl _ hab

end Runs
end Calliope
