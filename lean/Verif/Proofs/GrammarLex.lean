import Verif.Spec.Grammar

namespace Calliope
namespace Grammar

open Where (CmpOp)

section
variable {p : Char → Bool}

theorem while_append {a b : Str} (ha : ∀ c ∈ a, p c = true) (hb : ∀ c ∈ b.head?, p c = false) :
    (a ++ b).takeWhile p = a ∧ (a ++ b).dropWhile p = b := by
  induction a with
  | nil =>
    cases b with
    | nil => simp
    | cons c b => have := hb c (by simp); simp [this]
  | cons c a ih =>
    have hc := ha c (by simp)
    obtain ⟨h1, h2⟩ := ih (fun d hd => ha d (by simp [hd]))
    simp [hc, h1, h2]

theorem le_while {a s : Str} (ha : ∀ c ∈ a, p c = true) (h : a <+: s) : a.length ≤ (s.takeWhile p).length := by
  obtain ⟨b, rfl⟩ := h
  induction a with
  | nil => simp
  | cons c a ih =>
    have hc := ha c (by simp)
    have := ih (fun d hd => ha d (by simp [hd]))
    simp only [List.cons_append, List.takeWhile_cons, hc, if_true, List.length_cons]
    omega

theorem while_all (s : Str) : ∀ c ∈ s.takeWhile p, p c = true := by
  intro c hc
  induction s with
  | nil => simp at hc
  | cons d s ih =>
    simp only [List.takeWhile_cons] at hc
    split at hc
    · rcases List.mem_cons.1 hc with rfl | hc
      · assumption
      · exact ih hc
    · simp at hc

theorem while_split (s : Str) : s.takeWhile p ++ s.dropWhile p = s := List.takeWhile_append_dropWhile

theorem drop_head (s : Str) : ∀ c ∈ (s.dropWhile p).head?, p c = false := by
  intro c hc
  have h := List.head?_dropWhile_not p s
  simp only [Option.mem_def] at hc
  rw [hc] at h
  simpa using h

end

theorem digit_not_alpha {c : Char} (h : c.isDigit = true) : c.isAlpha = false := by
  simp only [Char.isDigit, Bool.and_eq_true, decide_eq_true_eq, Char.isAlpha, Char.isUpper, Char.isLower,
    Bool.or_eq_false_iff, Bool.and_eq_false_iff, decide_eq_false_iff_not, ge_iff_le, UInt32.le_iff_toNat_le] at h ⊢
  have e1 : ('0' : Char).val.toNat = 48 := rfl
  have e2 : ('9' : Char).val.toNat = 57 := rfl
  have e3 : ('A' : Char).val.toNat = 65 := rfl
  have e4 : ('a' : Char).val.toNat = 97 := rfl
  have e5 : ('Z' : Char).val.toNat = 90 := rfl
  have e6 : ('z' : Char).val.toNat = 122 := rfl
  omega

/-! ### Numbers -/

theorem exponentDigits_sound {s u r : Str} (h : exponentDigits s = some (u, r)) :
    s = u ++ r ∧ ∃ sign es, u = sign ++ es ∧ (sign = [] ∨ sign = ['+'] ∨ sign = ['-']) ∧ Digits es ∧ es ≠ [] := by
  cases s with
  | nil => simp [exponentDigits] at h
  | cons c s =>
    simp only [exponentDigits] at h
    split at h
    · rename_i hc
      simp only [Option.some.injEq, Prod.mk.injEq] at h
      obtain ⟨rfl, rfl⟩ := h
      refine ⟨(while_split _).symm, [], (c :: s).takeWhile Char.isDigit, rfl, .inl rfl, while_all _, ?_⟩
      simp [hc]
    · split at h
      · rename_i hc
        simp only [Bool.and_eq_true, Bool.or_eq_true, decide_eq_true_eq] at hc
        simp only [Option.some.injEq, Prod.mk.injEq] at h
        obtain ⟨rfl, rfl⟩ := h
        refine ⟨by simp, [c], s.takeWhile Char.isDigit, rfl, ?_, while_all _, ?_⟩
        · rcases hc.1 with rfl | rfl <;> simp
        · cases s with
          | nil => simp at hc
          | cons d s => have := hc.2; simp at this; simp [this]
      · cases h

theorem exponentDigits_longest {s sign es : Str} (hs : sign = [] ∨ sign = ['+'] ∨ sign = ['-']) (he : Digits es)
    (hne : es ≠ []) (h : sign ++ es <+: s) :
    ∃ u r, exponentDigits s = some (u, r) ∧ (sign ++ es).length ≤ u.length := by
  obtain ⟨d, es', rfl⟩ := List.exists_cons_of_ne_nil hne
  have hd : d.isDigit = true := he d (by simp)
  rcases hs with rfl | rfl | rfl
  · have h' := h
    obtain ⟨b, rfl⟩ := h
    simp only [List.nil_append, List.cons_append] at h' ⊢
    refine ⟨(d :: (es' ++ b)).takeWhile Char.isDigit, (d :: (es' ++ b)).dropWhile Char.isDigit, ?_, le_while he h'⟩
    simp only [exponentDigits, hd, if_true]
  · obtain ⟨b, rfl⟩ := h
    refine ⟨'+' :: (d :: (es' ++ b)).takeWhile Char.isDigit, (d :: (es' ++ b)).dropWhile Char.isDigit, ?_, ?_⟩
    · simp only [List.cons_append, List.nil_append, exponentDigits]
      have : ('+' : Char).isDigit = false := by decide
      simp [this, hd]
    · have := le_while he (List.prefix_append (d :: es') b)
      simp only [List.cons_append, List.nil_append, List.length_cons] at this ⊢
      omega
  · obtain ⟨b, rfl⟩ := h
    refine ⟨'-' :: (d :: (es' ++ b)).takeWhile Char.isDigit, (d :: (es' ++ b)).dropWhile Char.isDigit, ?_, ?_⟩
    · simp only [List.cons_append, List.nil_append, exponentDigits]
      have : ('-' : Char).isDigit = false := by decide
      simp [this, hd]
    · have := le_while he (List.prefix_append (d :: es') b)
      simp only [List.cons_append, List.nil_append, List.length_cons] at this ⊢
      omega

theorem exponent_sound (s : Str) : (exponent s).1 ++ (exponent s).2 = s ∧ ExponentText (exponent s).1 := by
  cases s with
  | nil => exact ⟨rfl, .inl rfl⟩
  | cons c s =>
    simp only [exponent]
    split
    · rename_i hc
      simp only [Bool.or_eq_true, decide_eq_true_eq] at hc
      cases hd : exponentDigits s with
      | none => exact ⟨rfl, .inl rfl⟩
      | some x =>
        obtain ⟨u, r⟩ := x
        obtain ⟨rfl, sign, es, rfl, hs, he, hne⟩ := exponentDigits_sound hd
        exact ⟨rfl, .inr ⟨c, sign, es, rfl, hc, hs, he, hne⟩⟩
    · exact ⟨rfl, .inl rfl⟩

theorem exponent_longest {s ex : Str} (he : ExponentText ex) (h : ex <+: s) : ex.length ≤ (exponent s).1.length := by
  rcases he with rfl | ⟨c, sign, es, rfl, hc, hs, he, hne⟩
  · simp
  · obtain ⟨b, rfl⟩ := h
    obtain ⟨u, r, h1, h2⟩ := exponentDigits_longest hs he hne (List.prefix_append (sign ++ es) b)
    have hc' : (decide (c = 'e') || decide (c = 'E')) = true := by simpa using hc
    simp only [List.cons_append, exponent, hc', if_true, h1, List.length_cons]
    omega

theorem fraction_sound (s : Str) : (fraction s).1 ++ (fraction s).2 = s ∧ FractionText (fraction s).1 := by
  cases s with
  | nil => exact ⟨rfl, .inl rfl⟩
  | cons c s =>
    simp only [fraction]
    split
    · rename_i hc; subst hc
      exact ⟨by simp, .inr ⟨_, rfl, while_all _⟩⟩
    · exact ⟨rfl, .inl rfl⟩

theorem number_split (s : Str) : (number s).1 ++ (number s).2 = s := by
  simp only [number]
  rw [List.append_assoc, List.append_assoc, (exponent_sound _).1, (fraction_sound _).1, while_split]

theorem exponent_head {ex : Str} (h : ExponentText ex) : ∀ c ∈ ex.head?, c.isDigit = false ∧ c ≠ '.' := by
  rcases h with rfl | ⟨c, sign, es, rfl, hc, _⟩
  · simp
  · intro d hd
    simp only [List.head?_cons, Option.mem_def, Option.some.injEq] at hd
    subst hd
    rcases hc with rfl | rfl <;> decide

theorem head_append {a b : Str} (ha : a ≠ []) : (a ++ b).head? = a.head? := by
  cases a with
  | nil => exact absurd rfl ha
  | cons c a => rfl

theorem number_longest {s v : Str} (hv : NumberText v) (h : v <+: s) : v.length ≤ (number s).1.length := by
  obtain ⟨ds, fr, ex, rfl, hd, hf, hx, _⟩ := hv
  obtain ⟨b, rfl⟩ := h
  simp only [number, List.length_append, List.append_assoc]
  by_cases hfe : fr ++ ex = []
  · simp only [List.append_eq_nil_iff] at hfe
    obtain ⟨rfl, rfl⟩ := hfe
    have := le_while hd (List.prefix_append ds b)
    simp only [List.nil_append, List.length_nil]
    omega
  · -- the digits before the point
    have hhead : ∀ c ∈ (fr ++ (ex ++ b)).head?, c.isDigit = false := by
      rw [← List.append_assoc, head_append hfe]
      rcases hf with rfl | ⟨es, rfl, _⟩
      · intro c hc; exact (exponent_head hx c (by simpa using hc)).1
      · intro c hc
        simp only [List.cons_append, List.head?_cons, Option.mem_def, Option.some.injEq] at hc
        subst hc; decide
    obtain ⟨h1, h2⟩ := while_append (b := fr ++ (ex ++ b)) hd hhead
    rw [h1, h2]
    rcases hf with rfl | ⟨es, rfl, hes⟩
    · -- no point
      simp only [List.nil_append] at hfe ⊢
      have hfr : fraction (ex ++ b) = ([], ex ++ b) := by
        cases ex with
        | nil => exact absurd rfl hfe
        | cons c ex =>
          have := (exponent_head hx c (by simp)).2
          simp [fraction, this]
      rw [hfr]
      have := exponent_longest hx (List.prefix_append ex b)
      simp only [List.length_nil]
      omega
    · by_cases hex : ex = []
      · subst hex
        simp only [List.cons_append, List.nil_append, fraction, if_true, List.length_cons, List.length_nil]
        have := le_while hes (List.prefix_append es b)
        omega
      · have hh : ∀ c ∈ (ex ++ b).head?, c.isDigit = false := by
          rw [head_append hex]; intro c hc; exact (exponent_head hx c hc).1
        obtain ⟨h3, h4⟩ := while_append (b := ex ++ b) hes hh
        simp only [List.cons_append, fraction, if_true, h3, h4, List.length_cons]
        have := exponent_longest hx (List.prefix_append ex b)
        omega

theorem number_digit {c : Char} {s : Str} (hc : c.isDigit = true) : NumberText (number (c :: s)).1 := by
  refine ⟨_, _, _, rfl, while_all _, (fraction_sound _).2, (exponent_sound _).2, ?_⟩
  intro h
  simp [hc] at h

theorem number_dot {d : Char} {s : Str} (hd : d.isDigit = true) : NumberText (number ('.' :: d :: s)).1 := by
  have h0 : ('.' : Char).isDigit = false := by decide
  refine ⟨_, _, _, rfl, while_all _, (fraction_sound _).2, (exponent_sound _).2, ?_⟩
  intro _
  simp [h0, fraction, hd]

/-- What a number starts with. -/
theorem number_starts {v : Str} (h : NumberText v) :
    ∃ c r, v = c :: r ∧ (c.isDigit = true ∨ (c = '.' ∧ ∃ d r', r = d :: r' ∧ d.isDigit = true)) := by
  obtain ⟨ds, fr, ex, rfl, hd, hf, hx, hl⟩ := h
  cases ds with
  | cons c ds => exact ⟨c, _, rfl, .inl (hd c (by simp))⟩
  | nil =>
    have h2 := hl rfl
    rcases hf with rfl | ⟨es, rfl, hes⟩
    · simp at h2
    · cases es with
      | nil => simp at h2
      | cons d es => exact ⟨'.', _, rfl, .inr ⟨rfl, d, _, rfl, hes d (by simp)⟩⟩

/-! ### Lexemes -/

/-- The class of the first character of a lexeme. -/
theorem lexeme_starts {x : Lx} {v : Str} (h : Lexeme x v) :
    ∃ c r, v = c :: r ∧ isBlank c = false ∧
      ((c.isAlpha = true ∧ ∃ s, x = .id s) ∨
       (c.isAlpha = false ∧ (c.isDigit = true ∨ c = '.') ∧ ((∃ s, x = .num s) ∨ x = .dot)) ∨
       (c.isAlpha = false ∧ c.isDigit = false ∧ c ≠ '.' ∧ (∀ s, x ≠ .id s) ∧ (∀ s, x ≠ .num s) ∧ x ≠ .dot)) := by
  have blank_alpha : ∀ c : Char, c.isAlpha = true → isBlank c = false := by
    intro c hc
    cases hb : isBlank c with
    | false => rfl
    | true =>
      simp only [isBlank, Bool.or_eq_true, decide_eq_true_eq] at hb
      rcases hb with ((rfl | rfl) | rfl) | rfl <;> revert hc <;> decide
  have blank_digit : ∀ c : Char, c.isDigit = true → isBlank c = false := by
    intro c hc
    cases hb : isBlank c with
    | false => rfl
    | true =>
      simp only [isBlank, Bool.or_eq_true, decide_eq_true_eq] at hb
      rcases hb with ((rfl | rfl) | rfl) | rfl <;> revert hc <;> decide
  cases x with
  | id s =>
    obtain ⟨rfl, c, r, rfl, hc, _⟩ := h
    exact ⟨c, r, rfl, blank_alpha c hc, .inl ⟨hc, _, rfl⟩⟩
  | num s =>
    obtain ⟨rfl, hn⟩ := h
    obtain ⟨c, r, rfl, hc⟩ := number_starts hn
    rcases hc with hc | ⟨rfl, _⟩
    · exact ⟨c, r, rfl, blank_digit c hc, .inr (.inl ⟨digit_not_alpha hc, .inl hc, .inl ⟨_, rfl⟩⟩)⟩
    · exact ⟨'.', r, rfl, by decide, .inr (.inl ⟨by decide, .inr rfl, .inl ⟨_, rfl⟩⟩)⟩
  | dot =>
    cases h
    exact ⟨'.', [], rfl, by decide, .inr (.inl ⟨by decide, .inr rfl, .inr rfl⟩)⟩
  | op o =>
    cases o <;> cases h <;>
      exact ⟨_, _, rfl, by decide, .inr (.inr ⟨by decide, by decide, by decide, by simp, by simp, by simp⟩)⟩
  | cmp o =>
    cases o <;> cases h <;>
      exact ⟨_, _, rfl, by decide, .inr (.inr ⟨by decide, by decide, by decide, by simp, by simp, by simp⟩)⟩
  | _ =>
    cases h
    exact ⟨_, _, rfl, by decide, .inr (.inr ⟨by decide, by decide, by decide, by simp, by simp, by simp⟩)⟩

theorem lexeme_functional {x y : Lx} {u : Str} (hx : Lexeme x u) (hy : Lexeme y u) : x = y := by
  have numDot : ∀ s, Lexeme (.num s) ['.'] → False := by
    intro s h
    obtain ⟨rfl, hn⟩ := h
    obtain ⟨c, r, e, hc⟩ := number_starts hn
    cases e
    rcases hc with hc | ⟨_, d, r', e, _⟩
    · revert hc; decide
    · cases e
  obtain ⟨c, r, rfl, _, h1⟩ := lexeme_starts hx
  obtain ⟨c', r', e, _, h2⟩ := lexeme_starts hy
  cases e
  rcases h1 with ⟨ha, s, rfl⟩ | ⟨ha, hd, h1⟩ | ⟨ha, hd, hdot, n1, n2, n3⟩
  · rcases h2 with ⟨_, s', rfl⟩ | ⟨ha', _⟩ | ⟨ha', _⟩
    · rw [← hx.1, ← hy.1]
    · rw [ha] at ha'; cases ha'
    · rw [ha] at ha'; cases ha'
  · rcases h2 with ⟨ha', _⟩ | ⟨_, _, h2⟩ | ⟨_, hd', hdot', _⟩
    · rw [ha] at ha'; cases ha'
    · rcases h1 with ⟨s, rfl⟩ | rfl <;> rcases h2 with ⟨s', rfl⟩ | rfl
      · rw [← hx.1, ← hy.1]
      · cases hy; exact (numDot _ hx).elim
      · cases hx; exact (numDot _ hy).elim
      · rfl
    · rcases hd with hd | rfl
      · rw [hd] at hd'; cases hd'
      · exact absurd rfl hdot'
  · rcases h2 with ⟨ha', _⟩ | ⟨_, hd', _⟩ | ⟨_, _, _, m1, m2, m3⟩
    · rw [ha] at ha'; cases ha'
    · rcases hd' with hd' | rfl
      · rw [hd] at hd'; cases hd'
      · exact absurd rfl hdot
    · cases x with
      | id s => exact absurd rfl (n1 s)
      | num s => exact absurd rfl (n2 s)
      | dot => exact absurd rfl n3
      | op o =>
        cases y with
        | id s => exact absurd rfl (m1 s)
        | num s => exact absurd rfl (m2 s)
        | dot => exact absurd rfl m3
        | op o' => cases o <;> cases o' <;> simp_all [Lexeme]
        | cmp o' => cases o <;> cases o' <;> simp_all [Lexeme]
        | _ => cases o <;> simp_all [Lexeme]
      | cmp o =>
        cases y with
        | id s => exact absurd rfl (m1 s)
        | num s => exact absurd rfl (m2 s)
        | dot => exact absurd rfl m3
        | op o' => cases o <;> cases o' <;> simp_all [Lexeme]
        | cmp o' => cases o <;> cases o' <;> simp_all [Lexeme]
        | _ => cases o <;> simp_all [Lexeme]
      | _ =>
        cases y with
        | id s => exact absurd rfl (m1 s)
        | num s => exact absurd rfl (m2 s)
        | dot => exact absurd rfl m3
        | op o' => cases o' <;> simp_all [Lexeme]
        | cmp o' => cases o' <;> simp_all [Lexeme]
        | _ => simp_all [Lexeme]

/-- Symbols. -/
theorem symbol_text {x : Lx} {v : Str} (h : Lexeme x v) (n1 : ∀ s, x ≠ .id s) (n2 : ∀ s, x ≠ .num s) :
    (∃ c, v = [c]) ∨ v = ['*', '*'] ∨ v = ['<', '='] ∨ v = ['>', '='] ∨ v = ['=', '='] := by
  cases x with
  | id s => exact absurd rfl (n1 s)
  | num s => exact absurd rfl (n2 s)
  | op o => cases o <;> cases h <;> simp
  | cmp o => cases o <;> cases h <;> simp
  | _ => cases h; simp

theorem idChar_alpha {c : Char} (h : c.isAlpha = true) : isIdChar c = true := by
  simp [isIdChar, Char.isAlphanum, h]

theorem idChar_iff {c : Char} : isIdChar c = true ↔ c.isAlphanum = true ∨ c = '_' := by simp [isIdChar]

theorem lexeme_pos {x : Lx} {v : Str} (h : Lexeme x v) : 1 ≤ v.length := by
  obtain ⟨c, r, rfl, _⟩ := lexeme_starts h; simp

theorem longest_id {c : Char} {s : Str} (hc : c.isAlpha = true) : Longest ((c :: s).takeWhile isIdChar) (c :: s) := by
  intro x v hx hp
  obtain ⟨d, r, rfl, _, h⟩ := lexeme_starts hx
  have hd : d = c := by obtain ⟨b, e⟩ := hp; cases e; rfl
  subst hd
  rcases h with ⟨_, s', rfl⟩ | ⟨ha, _⟩ | ⟨ha, _⟩
  · obtain ⟨_, d', r', e, ha, hr⟩ := hx
    rename_i hs
    subst hs
    cases e
    refine le_while ?_ hp
    intro c hc
    rcases List.mem_cons.1 hc with rfl | hc
    · exact idChar_alpha ha
    · exact idChar_iff.2 (hr c hc)
  · rw [hc] at ha; cases ha
  · rw [hc] at ha; cases ha

theorem longest_number {c : Char} {s : Str} (hc : c.isDigit = true ∨ c = '.') (hn : NumberText (number (c :: s)).1) :
    Longest (number (c :: s)).1 (c :: s) := by
  intro x v hx hp
  obtain ⟨d, r, rfl, _, h⟩ := lexeme_starts hx
  have hd : d = c := by obtain ⟨b, e⟩ := hp; cases e; rfl
  subst hd
  rcases h with ⟨ha, _⟩ | ⟨_, _, h⟩ | ⟨_, hd, hdot, _⟩
  · rcases hc with hc | rfl
    · rw [digit_not_alpha hc] at ha; cases ha
    · exact absurd ha (by decide)
  · rcases h with ⟨s', rfl⟩ | rfl
    · obtain ⟨rfl, hv⟩ := hx; exact number_longest hv hp
    · cases hx
      obtain ⟨c', r', e, _⟩ := number_starts hn
      rw [e]; simp
  · rcases hc with hc | rfl
    · rw [hc] at hd; cases hd
    · exact absurd rfl hdot

/-- A symbol is the longest lexeme unless it is the start of another. -/
theorem longest_symbol {c : Char} {s u : Str} (ha : c.isAlpha = false) (hd : c.isDigit = false) (hdot : c ≠ '.')
    (hu : u.length = 2 ∨ (u.length = 1 ∧ ∀ d r, s = d :: r → [c, d] ≠ ['*', '*'] ∧ [c, d] ≠ ['<', '='] ∧
      [c, d] ≠ ['>', '='] ∧ [c, d] ≠ ['=', '='])) : Longest u (c :: s) := by
  intro x v hx hp
  obtain ⟨d, r, rfl, _, h⟩ := lexeme_starts hx
  have hdc : d = c := by obtain ⟨b, e⟩ := hp; cases e; rfl
  subst hdc
  rcases h with ⟨ha', _⟩ | ⟨_, hd', _⟩ | ⟨_, _, _, n1, n2, _⟩
  · rw [ha] at ha'; cases ha'
  · rcases hd' with hd' | rfl
    · rw [hd] at hd'; cases hd'
    · exact absurd rfl hdot
  · rcases symbol_text hx n1 n2 with ⟨c', e⟩ | h
    · cases e
      simp only [List.length_cons, List.length_nil]
      omega
    · rcases hu with hu | ⟨hu, hn⟩
      · rcases h with h | h | h | h <;> rw [h] <;> simp [hu]
      · exfalso
        obtain ⟨b, e⟩ := hp
        rcases h with h | h | h | h <;>
        · rw [h] at e
          simp only [List.cons_append, List.nil_append, List.cons.injEq] at e
          have := hn _ _ e.2.symm
          cases h
          simp at this

theorem symbolOne_sound {c : Char} {x : Lx} (h : symbolOne c = some x) : Lexeme x [c] := by
  unfold symbolOne at h
  split at h <;> cases h <;> rfl

theorem symbolTwo_sound {c d : Char} {x : Lx} (h : symbolTwo c d = some x) : Lexeme x [c, d] := by
  unfold symbolTwo at h
  split at h <;> cases h <;> rfl

theorem symbolTwo_none {c d : Char} (h : symbolTwo c d = none) :
    [c, d] ≠ ['*', '*'] ∧ [c, d] ≠ ['<', '='] ∧ [c, d] ≠ ['>', '='] ∧ [c, d] ≠ ['=', '='] := by
  refine ⟨?_, ?_, ?_, ?_⟩ <;> intro e <;> cases e <;> cases h

theorem symbol_sound {c : Char} {s r : Str} {x : Lx} (hal : c.isAlpha = false) (hdi : c.isDigit = false)
    (hdot : c ≠ '.') (h : symbol c s = some (x, r)) : ∃ u, c :: s = u ++ r ∧ Lexeme x u ∧ Longest u (c :: s) := by
  cases s with
  | nil =>
    simp only [symbol, List.head?_nil] at h
    cases h1 : symbolOne c with
    | none => rw [h1] at h; cases h
    | some y =>
      rw [h1] at h
      cases h
      exact ⟨[c], rfl, symbolOne_sound h1, longest_symbol hal hdi hdot (.inr ⟨rfl, fun _ _ e => by cases e⟩)⟩
  | cons d s =>
    simp only [symbol, List.head?_cons, List.tail_cons] at h
    cases h2 : symbolTwo c d with
    | some y =>
      rw [h2] at h
      cases h
      exact ⟨[c, d], rfl, symbolTwo_sound h2, longest_symbol hal hdi hdot (.inl rfl)⟩
    | none =>
      rw [h2] at h
      simp only [] at h
      cases h1 : symbolOne c with
      | none => rw [h1] at h; cases h
      | some y =>
        rw [h1] at h
        cases h
        refine ⟨[c], rfl, symbolOne_sound h1, longest_symbol hal hdi hdot (.inr ⟨rfl, ?_⟩)⟩
        intro d' r' e
        cases e
        exact symbolTwo_none h2

theorem lexOne_sound {s r : Str} {x : Lx} (h : lexOne s = some (x, r)) :
    ∃ u, s = u ++ r ∧ Lexeme x u ∧ Longest u s := by
  cases s with
  | nil => simp [lexOne] at h
  | cons c s =>
    rw [lexOne] at h
    split at h
    · rename_i hc
      simp only [Option.some.injEq, Prod.mk.injEq] at h
      obtain ⟨rfl, rfl⟩ := h
      refine ⟨_, (while_split _).symm, ⟨rfl, ?_⟩, longest_id hc⟩
      refine ⟨c, s.takeWhile isIdChar, by simp [idChar_alpha hc], hc, ?_⟩
      intro d hd
      exact idChar_iff.1 (while_all _ d hd)
    · rename_i hal
      have hal : c.isAlpha = false := by simpa using hal
      split at h
      · rename_i hc
        simp only [Option.some.injEq, Prod.mk.injEq] at h
        obtain ⟨rfl, rfl⟩ := h
        exact ⟨_, (number_split _).symm, ⟨rfl, number_digit hc⟩, longest_number (.inl hc) (number_digit hc)⟩
      · rename_i hdi
        have hdi : c.isDigit = false := by simpa using hdi
        split at h
        · rename_i hdot
          subst hdot
          split at h
          · rename_i hr
            cases s with
            | nil => simp at hr
            | cons d s =>
              have hd : d.isDigit = true := by simpa using hr
              simp only [Option.some.injEq, Prod.mk.injEq] at h
              obtain ⟨rfl, rfl⟩ := h
              exact ⟨_, (number_split _).symm, ⟨rfl, number_dot hd⟩, longest_number (.inr rfl) (number_dot hd)⟩
          · rename_i hr
            cases h
            refine ⟨['.'], rfl, rfl, ?_⟩
            intro x v hx hp
            obtain ⟨d, r, rfl, _, h⟩ := lexeme_starts hx
            have hdc : d = '.' := by obtain ⟨b, e⟩ := hp; cases e; rfl
            subst hdc
            rcases h with ⟨ha, _⟩ | ⟨_, _, h⟩ | ⟨_, _, hdot, _⟩
            · exact absurd ha (by decide)
            · rcases h with ⟨s', rfl⟩ | rfl
              · obtain ⟨rfl, hn⟩ := hx
                obtain ⟨c', r', e, hc'⟩ := number_starts hn
                cases e
                rcases hc' with hc' | ⟨_, d, r'', rfl, hd⟩
                · exact absurd hc' (by decide)
                · obtain ⟨b, e⟩ := hp
                  cases e
                  simp [hd] at hr
              · cases hx; simp
            · exact absurd rfl hdot
        · rename_i hdot
          exact symbol_sound hal hdi hdot h

theorem lexOne_some {x : Lx} {u r : Str} (h : Lexeme x u) : ∃ y, lexOne (u ++ r) = some y := by
  obtain ⟨c, v, rfl, _, hc⟩ := lexeme_starts h
  rcases hc with ⟨ha, _⟩ | ⟨ha, hd, _⟩ | ⟨ha, hd, hdot, n1, n2, n3⟩
  · exact ⟨_, by rw [List.cons_append, lexOne, if_pos ha]⟩
  · by_cases hdd : c.isDigit = true
    · exact ⟨_, by rw [List.cons_append, lexOne, if_neg (by simp [ha]), if_pos hdd]⟩
    · rcases hd with hd | rfl
      · exact absurd hd hdd
      · rw [List.cons_append, lexOne, if_neg (by simp [ha]), if_neg hdd, if_pos rfl]
        split <;> exact ⟨_, rfl⟩
  · have h1 : ∃ y, symbolOne c = some y := by
      cases x with
      | id s => exact absurd rfl (n1 s)
      | num s => exact absurd rfl (n2 s)
      | dot => exact absurd rfl n3
      | op o => cases o <;> cases h <;> exact ⟨_, rfl⟩
      | cmp o => cases o <;> cases h <;> exact ⟨_, rfl⟩
      | _ => cases h; exact ⟨_, rfl⟩
    obtain ⟨y, h1⟩ := h1
    rw [List.cons_append, lexOne, if_neg (by simp [ha]), if_neg (by simp [hd]), if_neg hdot, symbol]
    split
    · exact ⟨_, rfl⟩
    · rw [h1]; exact ⟨_, rfl⟩

theorem lexOne_complete {x : Lx} {u r : Str} (h : Lexeme x u) (hl : Longest u (u ++ r)) :
    lexOne (u ++ r) = some (x, r) := by
  obtain ⟨⟨y, q⟩, hy⟩ := lexOne_some (r := r) h
  obtain ⟨v, e, hv, hvl⟩ := lexOne_sound hy
  have h1 : v.length ≤ u.length := hl y v hv ⟨q, e.symm⟩
  have h2 : u.length ≤ v.length := hvl x u h ⟨r, rfl⟩
  obtain ⟨rfl, rfl⟩ := List.append_inj e (by omega)
  rw [hy, lexeme_functional hv h]

theorem isBlank_iff {c : Char} : isBlank c = true ↔ c ∈ [' ', '\n', '\t', '\r'] := by
  simp [isBlank, or_assoc]

theorem lexAll_sound : ∀ (f : Nat) {g : Bool} {s : Str} {ts : List Tok}, lexAll f g s = some ts → Written g s ts
  | 0, _, _, _, h => by simp [lexAll] at h
  | f + 1, g, [], ts, h => by simp [lexAll] at h; subst h; exact .done g
  | f + 1, g, c :: s, ts, h => by
    simp only [lexAll] at h
    split at h
    · rename_i hb
      exact .blank (isBlank_iff.1 hb) (lexAll_sound f h)
    · split at h
      · cases h
      · rename_i x r hx
        obtain ⟨u, e, hu, hl⟩ := lexOne_sound hx
        split at h
        · cases h
        · rename_i ts' ht
          cases h
          rw [e] at hl ⊢
          exact .lexeme hu hl (lexAll_sound f ht)

theorem lexAll_complete {g : Bool} {s : Str} {ts : List Tok} (h : Written g s ts) :
    ∀ f, s.length + 1 ≤ f → lexAll f g s = some ts := by
  induction h with
  | done g =>
    intro f hf
    cases f with
    | zero => simp at hf
    | succ f => rfl
  | blank hb _ ih =>
    intro f hf
    simp only [List.length_cons] at hf
    cases f with
    | zero => omega
    | succ f => simp only [lexAll, isBlank_iff.2 hb, if_true]; exact ih f (by omega)
  | @lexeme g x u r ts hu hl _ ih =>
    intro f hf
    simp only [List.length_append] at hf
    have hpos := lexeme_pos hu
    obtain ⟨c, v, rfl, hb, _⟩ := lexeme_starts hu
    have ho := lexOne_complete hu hl
    cases f with
    | zero => omega
    | succ f =>
      simp only [List.cons_append] at ho ⊢
      simp only [lexAll, hb, ho]
      simp only [List.length_cons] at hf
      rw [ih f (by omega)]
      simp

theorem lex_iff (s : Str) (ts : List Tok) : lex s = some ts ↔ Written false s ts :=
  ⟨fun h => lexAll_sound _ h, fun h => lexAll_complete h _ (Nat.le_refl _)⟩

end Grammar
end Calliope
