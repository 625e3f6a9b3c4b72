import Verif.Spec.Write
import Verif.Proofs.GrammarLex
import Mathlib.Tactic.Ring
import Mathlib.Tactic.FieldSimp
import Mathlib.Data.Rat.Cast.Order

/-!
# Lemmas about texts
-/

namespace Calliope
namespace Write

open Grammar
open MathText (Ex ExRest)
open Arith (isAdd isMul isPow)

/-! ### Lexemes -/

/-- What may follow a name or a number. -/
def Stop (r : Str) : Prop := ∀ c ∈ r.head?, c ∈ [' ', ')', ']', ',', '=', '(', '[']

theorem Stop.not {r : Str} (h : Stop r) (p : Char → Bool)
    (hp : ∀ c ∈ [' ', ')', ']', ',', '=', '(', '['], p c = false) : ∀ c ∈ r.head?, p c = false :=
  fun c hc => hp c (h c hc)

theorem stop_cons {c : Char} {r : Str} (h : c ∈ [' ', ')', ']', ',', '=', '(', '[']) : Stop (c :: r) := by
  intro d hd
  simp only [List.head?_cons, Option.mem_some_iff] at hd
  exact hd ▸ h

theorem takeWhile_stop {p : Char → Bool} {s r : Str} (hs : ∀ c ∈ s, p c = true) (hr : ∀ c ∈ r.head?, p c = false) :
    (s ++ r).takeWhile p = s ∧ (s ++ r).dropWhile p = r := by
  induction s with
  | nil => cases r with
    | nil => simp
    | cons c r =>
      have := hr c (by simp)
      simp [this]
  | cons c s ih =>
    have hc := hs c (by simp)
    have := ih (fun d hd => hs d (by simp [hd]))
    simp [hc, this.1, this.2]

/-- The next lexeme. -/
theorem step {s r : Str} {x : Lx} {b : Bool} {us : List Tok} (h : lexOne s = some (x, r)) (hw : Written true r us) :
    Written b s ((b, x) :: us) := by
  obtain ⟨u, he, hl, hm⟩ := lexOne_sound h
  subst he
  exact .lexeme hl hm hw

theorem idChar {c : Char} (h : c.isAlphanum = true ∨ c = '_') : isIdChar c = true := by
  unfold isIdChar
  rcases h with h | h <;> simp [h]

theorem lexOne_id {n r : Str} (h : IdText n) (hr : ∀ c ∈ r.head?, isIdChar c = false) :
    lexOne (n ++ r) = some (.id n, r) := by
  obtain ⟨c, m, rfl, hc, hm⟩ := h
  have hc' : isIdChar c = true := idChar (.inl (by simp [Char.isAlphanum, hc]))
  have := takeWhile_stop (p := isIdChar) (s := c :: m) (r := r)
    (fun d hd => by
      rcases List.mem_cons.1 hd with rfl | hd
      · exact hc'
      · exact idChar (hm d hd)) hr
  rw [List.cons_append] at this ⊢
  simp only [lexOne, hc, if_true, this.1, this.2]

theorem digit_not_alpha {c : Char} (h : c.isDigit = true) : c.isAlpha = false := by
  simp only [Char.isDigit, Char.isAlpha, Char.isUpper, Char.isLower, Bool.and_eq_true, decide_eq_true_eq,
    Bool.or_eq_false_iff, Bool.and_eq_false_iff, decide_eq_false_iff_not] at *
  obtain ⟨h1, h2⟩ := h
  have h1' : (48 : UInt32) ≤ c.val := h1
  have h2' : c.val ≤ (57 : UInt32) := h2
  rw [UInt32.le_iff_toNat_le] at h1' h2'
  constructor
  · rintro ⟨h3, _⟩
    have h3' : (65 : UInt32) ≤ c.val := h3
    rw [UInt32.le_iff_toNat_le] at h3'
    simp at h3' h2'
    omega
  · left
    intro h3
    have h3' : (97 : UInt32) ≤ c.val := h3
    rw [UInt32.le_iff_toNat_le] at h3'
    simp at h3' h2'
    omega

theorem number_digits {ds r : Str} (hd : Digits ds) (hr : Stop r) : number (ds ++ r) = (ds, r) := by
  have h := takeWhile_stop (p := Char.isDigit) hd (hr.not _ (by decide))
  have hf : fraction r = ([], r) := by
    cases r with
    | nil => rfl
    | cons c r =>
      have hc : c ≠ '.' := by
        intro he; subst he; exact absurd (hr '.' (by simp)) (by decide)
      simp [fraction, hc]
  have he : exponent r = ([], r) := by
    cases r with
    | nil => rfl
    | cons c r =>
      have hc : c ≠ 'e' := by intro he; subst he; exact absurd (hr 'e' (by simp)) (by decide)
      have hc' : c ≠ 'E' := by intro he; subst he; exact absurd (hr 'E' (by simp)) (by decide)
      simp [exponent, hc, hc']
  simp [number, h.1, h.2, hf, he]

theorem number_point {ds fs r : Str} (hd : Digits ds) (hf : Digits fs) (hr : Stop r) :
    number (ds ++ ('.' :: (fs ++ r))) = (ds ++ '.' :: fs, r) := by
  have h := takeWhile_stop (p := Char.isDigit) (r := '.' :: (fs ++ r)) hd (by
    intro c hc; simp at hc; subst hc; decide)
  have h' := takeWhile_stop (p := Char.isDigit) hf (hr.not _ (by decide))
  have he : exponent r = ([], r) := by
    cases r with
    | nil => rfl
    | cons c r =>
      have hc : c ≠ 'e' := by intro he; subst he; exact absurd (hr 'e' (by simp)) (by decide)
      have hc' : c ≠ 'E' := by intro he; subst he; exact absurd (hr 'E' (by simp)) (by decide)
      simp [exponent, hc, hc']
  simp [number, h.1, h.2, fraction, h'.1, h'.2, he]

theorem lexOne_number {s r t : Str} (hd : ∀ c ∈ s.head?, c.isDigit = true) (hs : s ≠ []) (h : number s = (t, r)) :
    lexOne s = some (.num t, r) := by
  cases s with
  | nil => exact absurd rfl hs
  | cons c s =>
    have hc := hd c (by simp)
    simp [lexOne, digit_not_alpha hc, hc, h]

theorem head_digits {ds r : Str} (hd : Digits ds) (hn : ds ≠ []) : ∀ c ∈ (ds ++ r).head?, c.isDigit = true := by
  cases ds with
  | nil => exact absurd rfl hn
  | cons c ds => intro d h; simp at h; subst h; exact hd _ (by simp)

theorem lexOne_num {q : Rat} {s r : Str} (h : Number q s) (hr : Stop r) : lexOne (s ++ r) = some (.num s, r) := by
  cases h with
  | whole hd hn => exact lexOne_number (head_digits hd hn) (by simp [hn]) (number_digits hd hr)
  | point hd hn hf =>
    rw [List.append_assoc, List.cons_append]
    exact lexOne_number (head_digits hd hn) (by simp [hn]) (number_point hd hf hr)

theorem lexOne_digits {ds r : Str} (hd : Digits ds) (hn : ds ≠ []) (hr : Stop r) :
    lexOne (ds ++ r) = some (.num ds, r) :=
  lexOne_num (.whole hd hn) hr

theorem lexOne_lpar (r : Str) : lexOne ('(' :: r) = some (.lpar, r) := by cases r <;> rfl
theorem lexOne_rpar (r : Str) : lexOne (')' :: r) = some (.rpar, r) := by cases r <;> rfl
theorem lexOne_lsq (r : Str) : lexOne ('[' :: r) = some (.lsq, r) := by cases r <;> rfl
theorem lexOne_rsq (r : Str) : lexOne (']' :: r) = some (.rsq, r) := by cases r <;> rfl
theorem lexOne_comma (r : Str) : lexOne (',' :: r) = some (.comma, r) := by cases r <;> rfl
theorem lexOne_dollar (r : Str) : lexOne ('$' :: r) = some (.dollar, r) := by cases r <;> rfl
theorem lexOne_plus (r : Str) : lexOne ('+' :: r) = some (.op .plus, r) := by cases r <;> rfl
theorem lexOne_minus (r : Str) : lexOne ('-' :: r) = some (.op .minus, r) := by cases r <;> rfl
theorem lexOne_div (r : Str) : lexOne ('/' :: r) = some (.op .div, r) := by cases r <;> rfl

theorem lexOne_eq {r : Str} (h : ∀ c ∈ r.head?, c ≠ '=') : lexOne ('=' :: r) = some (.eq, r) := by
  cases r with
  | nil => rfl
  | cons c r =>
    have hc := h c (by simp)
    have : symbolTwo '=' c = none := by
      unfold symbolTwo
      split <;> simp_all
    simp [lexOne, symbol, this, symbolOne]

/-! ### Texts and lexemes -/

/-- `s`, with whatever follows, is written with lexemes of which `Q` holds. -/
def Reads (s : Str) (Q : List Tok → Prop) : Prop :=
  (s ≠ [] ∧ ∀ c ∈ s.head?, c ≠ '=') ∧
    ∀ b r us, Stop r → Written true r us → ∃ ts, Written b (s ++ r) (ts ++ us) ∧ Q ts

theorem Reads.mono {s : Str} {Q Q' : List Tok → Prop} (h : Reads s Q) (hq : ∀ ts, Q ts → Q' ts) : Reads s Q' :=
  ⟨h.1, fun b r us hr hw => by
    obtain ⟨ts, h1, h2⟩ := h.2 b r us hr hw
    exact ⟨ts, h1, hq ts h2⟩⟩

/-- The whole string. -/
theorem Reads.all {s : Str} {Q : List Tok → Prop} (h : Reads s Q) : ∃ ts, Written false s ts ∧ Q ts := by
  obtain ⟨ts, h1, h2⟩ := h.2 false [] [] (by intro c hc; simp at hc) (.done true)
  exact ⟨ts, by simpa using h1, h2⟩

theorem alpha_ne {c d : Char} (hc : c.isAlpha = true) (hd : d.isAlpha = false) : c ≠ d := by
  rintro rfl
  rw [hc] at hd
  cases hd

theorem name_start {n : Str} (h : IdText n) : n ≠ [] ∧ ∀ c ∈ n.head?, c ≠ '=' := by
  obtain ⟨c, m, rfl, hc, _⟩ := h
  refine ⟨by simp, fun d hd => ?_⟩
  simp only [List.head?_cons, Option.mem_some_iff] at hd
  exact hd ▸ alpha_ne hc (by decide)

theorem reads_id {n : Str} {Q : List Tok → Prop} (h : IdText n) (hq : ∀ b, Q [(b, .id n)]) : Reads n Q :=
  ⟨name_start h, fun b r us hr hw =>
    ⟨_, step (lexOne_id h (hr.not _ (by decide))) hw, hq b⟩⟩

theorem number_start {q : Rat} {s : Str} (h : Number q s) : s ≠ [] ∧ ∀ c ∈ s.head?, c ≠ '=' := by
  have key : ∀ {ds : Str} (r : Str), Digits ds → ds ≠ [] → ∀ c ∈ (ds ++ r).head?, c ≠ '=' := by
    intro ds r hd hn c hc he
    have := head_digits hd hn c hc
    rw [he] at this
    exact absurd this (by decide)
  cases h with
  | whole hd hn => exact ⟨hn, by simpa using key [] hd hn⟩
  | point hd hn _ => exact ⟨by simp, key _ hd hn⟩

theorem reads_num {q : Rat} {s : Str} {Q : List Tok → Prop} (h : Number q s) (hq : ∀ b, Q [(b, .num s)]) : Reads s Q :=
  ⟨number_start h, fun b r us hr hw => ⟨_, step (lexOne_num h hr) hw, hq b⟩⟩

theorem reads_minus {q : Rat} {s : Str} {Q : List Tok → Prop} (h : Number q s)
    (hq : ∀ b, Q [(b, .op .minus), (true, .num s)]) : Reads ('-' :: s) Q :=
  ⟨⟨by simp, by intro c hc; simp at hc; subst hc; decide⟩, fun b r us hr hw =>
    ⟨_, step (lexOne_minus _) (step (lexOne_num h hr) hw), hq b⟩⟩

theorem reads_paren {s : Str} {Q : List Tok → Prop} (h : Reads s Q) :
    Reads (paren s) (fun ts => ∃ b b' us, ts = (b, .lpar) :: (us ++ [(b', .rpar)]) ∧ Q us) := by
  refine ⟨⟨by simp [paren], by intro c hc; simp [paren] at hc; subst hc; decide⟩, fun b r us hr hw => ?_⟩
  obtain ⟨ts, h1, h2⟩ := h.2 true (')' :: r) ((true, .rpar) :: us) (stop_cons (by simp)) (step (lexOne_rpar _) hw)
  refine ⟨(b, .lpar) :: (ts ++ [(true, .rpar)]), ?_, _, _, _, rfl, h2⟩
  have := step (b := b) (lexOne_lpar _) h1
  simpa [paren] using this

theorem reads_bracket {s : Str} {Q : List Tok → Prop} (h : Reads s Q) :
    Reads (bracket s) (fun ts => ∃ b b' us, ts = (b, .lsq) :: (us ++ [(b', .rsq)]) ∧ Q us) := by
  refine ⟨⟨by simp [bracket], by intro c hc; simp [bracket] at hc; subst hc; decide⟩, fun b r us hr hw => ?_⟩
  obtain ⟨ts, h1, h2⟩ := h.2 true (']' :: r) ((true, .rsq) :: us) (stop_cons (by simp)) (step (lexOne_rsq _) hw)
  refine ⟨(b, .lsq) :: (ts ++ [(true, .rsq)]), ?_, _, _, _, rfl, h2⟩
  have := step (b := b) (lexOne_lsq _) h1
  simpa [bracket] using this

theorem head_append {s r : Str} (h : s ≠ []) : (s ++ r).head? = s.head? := by
  cases s with
  | nil => exact absurd rfl h
  | cons c s => rfl

/-- A name directly before something. -/
theorem reads_glued {n s : Str} {Q : Bool → List Tok → Prop} (h : IdText n) (hs : Stop s)
    (hr : ∀ r us, Stop r → Written true r us → ∃ ts, Written true (s ++ r) (ts ++ us) ∧ Q true ts) (hn : s ≠ []) :
    Reads (n ++ s) (fun ts => ∃ b us, ts = (b, .id n) :: us ∧ Q true us) := by
  refine ⟨⟨by simp [hn], ?_⟩, fun b r us hr' hw => ?_⟩
  · rw [head_append (name_start h).1]
    exact (name_start h).2
  · obtain ⟨ts, h1, h2⟩ := hr r us hr' hw
    refine ⟨(b, .id n) :: ts, ?_, b, ts, rfl, h2⟩
    rw [List.append_assoc]
    exact step (lexOne_id h (by
      rw [head_append hn]
      exact hs.not _ (by decide))) h1

theorem reads_key {k : String} {v : Str} {Q : List Tok → Prop} (hk : Name k) (h : Reads v Q) :
    Reads (key k v) (fun ts => ∃ b b' us, ts = (b, .id k.toList) :: (b', .eq) :: us ∧ Q us) := by
  refine (reads_glued (Q := fun _ ts => ∃ us, ts = (true, .eq) :: us ∧ Q us) hk.1 (stop_cons (by simp)) ?_
    (by simp)).mono ?_
  · intro r us hr hw
    obtain ⟨ts, h1, h2⟩ := h.2 true r us hr hw
    refine ⟨_, ?_, ts, rfl, h2⟩
    rw [List.cons_append]
    exact step (lexOne_eq (by rw [head_append h.1.1]; exact h.1.2)) h1
  · rintro ts ⟨b, us, rfl, us', rfl, h'⟩
    exact ⟨b, true, us', rfl, h'⟩

theorem reads_call {f : String} {args : List Str} {Q : List Tok → Prop} (hf : Name f) (h : Reads (commas args) Q) :
    Reads (call f args) (fun ts => ∃ b b' us, ts = (b, .id f.toList) :: (true, .lpar) :: (us ++ [(b', .rpar)]) ∧ Q us) := by
  refine (reads_glued (Q := fun _ ts => ∃ b' us, ts = (true, .lpar) :: (us ++ [(b', .rpar)]) ∧ Q us) hf.1
    (stop_cons (by simp)) ?_ (by simp)).mono ?_
  · intro r us hr hw
    obtain ⟨ts, h1, h2⟩ := h.2 true (')' :: r) ((true, .rpar) :: us) (stop_cons (by simp)) (step (lexOne_rpar _) hw)
    refine ⟨(true, .lpar) :: (ts ++ [(true, .rpar)]), ?_, true, ts, rfl, h2⟩
    have := step (b := true) (lexOne_lpar _) h1
    simpa using this
  · rintro ts ⟨b, us, rfl, b', us', rfl, h'⟩
    exact ⟨b, b', us', rfl, h'⟩

theorem reads_dollar {n : Str} {Q : List Tok → Prop} (h : IdText n) (hq : ∀ b, Q [(b, .dollar), (true, .id n)]) :
    Reads ('$' :: n) Q :=
  ⟨⟨by simp, by intro c hc; simp at hc; subst hc; decide⟩, fun b r us hr hw =>
    ⟨_, step (lexOne_dollar _) (step (lexOne_id h (hr.not _ (by decide))) hw), hq b⟩⟩

/-- With a comma between them. -/
theorem reads_comma {s u : Str} {Q Q' : List Tok → Prop} (h : Reads s Q) (h' : Reads u Q') :
    Reads (s ++ (',' :: ' ' :: u)) (fun ts => ∃ b t1 t2, ts = t1 ++ (b, .comma) :: t2 ∧ Q t1 ∧ Q' t2) := by
  refine ⟨⟨by simp, by rw [head_append h.1.1]; exact h.1.2⟩, fun b r us hr hw => ?_⟩
  obtain ⟨t2, h1, h2⟩ := h'.2 false r us hr hw
  obtain ⟨t1, h3, h4⟩ := h.2 b (',' :: ' ' :: (u ++ r)) ((true, .comma) :: (t2 ++ us)) (stop_cons (by simp))
    (step (lexOne_comma _) (.blank (by simp) h1))
  exact ⟨t1 ++ (true, .comma) :: t2, by simpa using h3, _, _, _, rfl, h4, h2⟩

theorem reads_commas {α : Type} {R : α → List Tok → Prop} {L : List α → List Tok → Prop}
    (one : ∀ a ts, R a ts → L [a] ts) (more : ∀ a as b ts us, R a ts → L as us → L (a :: as) (ts ++ (b, .comma) :: us))
    {as : List α} {ss : List Str} (h : List.Forall₂ (fun a s => Reads s (R a)) as ss) (hn : as ≠ []) :
    Reads (commas ss) (L as) := by
  induction h with
  | nil => exact absurd rfl hn
  | @cons a s as ss h1 h2 ih =>
    cases h2 with
    | nil => exact h1.mono (one a)
    | @cons a' s' as ss h3 h4 =>
      refine (reads_comma h1 (ih (by simp))).mono ?_
      rintro ts ⟨b, t1, t2, rfl, h5, h6⟩
      exact more _ _ _ _ _ h5 h6

theorem commas_append {a b : List Str} (ha : a ≠ []) (hb : b ≠ []) :
    commas (a ++ b) = commas a ++ (',' :: ' ' :: commas b) := by
  induction a with
  | nil => exact absurd rfl ha
  | cons x a ih =>
    cases a with
    | nil => cases b with
      | nil => exact absurd rfl hb
      | cons y b => simp [commas]
    | cons y a =>
      have := ih (by simp)
      simp only [List.cons_append] at this ⊢
      simp [commas, this]

/-! ### Arguments -/

def toArgs : List Arg → Args
  | [] => .nil
  | a :: r => .cons a (toArgs r)

def toKws : List (Str × Arg) → Kws
  | [] => .nil
  | (k, a) :: r => .cons k a (toKws r)

theorem values_toArgs {as : List Arg} {vs : List MathText.Value}
    (h : List.Forall₂ (fun a v => MathText.value a = some v) as vs) : MathText.values (toArgs as) = some vs := by
  induction h with
  | nil => rfl
  | cons h1 _ ih => simp only [toArgs, MathText.values, h1, ih]

theorem keywords_toKws {ks : List (Str × Arg)} {vs : List (Str × MathText.Value)}
    (h : List.Forall₂ (fun a v => a.1 = v.1 ∧ MathText.value a.2 = some v.2) ks vs) :
    MathText.keywords (toKws ks) = some vs := by
  induction h with
  | nil => rfl
  | @cons a v ks vs h1 _ ih =>
    obtain ⟨k, a⟩ := a
    obtain ⟨k', v⟩ := v
    obtain ⟨h2, h3⟩ := h1
    simp only at h2 h3
    subst h2
    simp only [toKws, MathText.keywords, h3, ih]

theorem reads_args {g : Gram} {as : List Arg} {ss : List Str}
    (h : List.Forall₂ (fun a s => Reads s (SArg g a)) as ss) (hn : as ≠ []) :
    Reads (commas ss) (SArgs g (toArgs as)) :=
  reads_commas (R := SArg g) (L := fun as ts => SArgs g (toArgs as) ts) (fun _ _ h => .last h)
    (fun _ _ _ _ _ h h' => .next h h') h hn

/-- A keyword argument and its text. -/
def KwReads (g : Gram) (p : Str × Arg) (s : Str) : Prop :=
  ∃ (k : String) (v : Str), Name k ∧ p.1 = k.toList ∧ s = key k v ∧ Reads v (SArg g p.2)

theorem KwReads.reads {g : Gram} {p : Str × Arg} {s : Str} (h : KwReads g p s) :
    Reads s (fun ts => ∃ b b' us, ts = (b, .id p.1) :: (b', .eq) :: us ∧ ¬ Inf p.1 ∧ SArg g p.2 us) := by
  obtain ⟨k, v, hk, hp, rfl, hr⟩ := h
  refine (reads_key hk hr).mono ?_
  rintro ts ⟨b, b', us, rfl, hu⟩
  rw [hp]
  exact ⟨b, b', us, rfl, hk.2, hu⟩

theorem reads_kws {g : Gram} {ks : List (Str × Arg)} {ss : List Str} (h : List.Forall₂ (KwReads g) ks ss)
    (hn : ks ≠ []) : Reads (commas ss) (SKws g (toKws ks)) := by
  refine reads_commas (R := fun p ts => ∃ b b' us, ts = (b, .id p.1) :: (b', .eq) :: us ∧ ¬ Inf p.1 ∧ SArg g p.2 us)
    (L := fun ks ts => SKws g (toKws ks) ts) ?_ ?_ (h.imp fun _ _ h => h.reads) hn
  · rintro ⟨k, a⟩ ts ⟨b, b', us, rfl, h1, h2⟩
    exact .lastKey h1 h2
  · rintro ⟨k, a⟩ ks c ts vs ⟨b, b', us, rfl, h1, h2⟩ h3
    have := SKws.nextKey (b := b) (b' := b') (c := [(c, .comma)]) h1 h2 (.inr ⟨c, rfl⟩) h3
    simpa [toKws] using this

theorem reads_fun {g : Gram} {as : List Arg} {ks : List (Str × Arg)} {ss kk : List Str}
    (h : List.Forall₂ (fun a s => Reads s (SArg g a)) as ss) (h' : List.Forall₂ (KwReads g) ks kk)
    (hn : as ≠ [] ∨ ks ≠ []) : Reads (commas (ss ++ kk)) (SFun g (toArgs as) (toKws ks)) := by
  by_cases ha : as = []
  · subst ha
    cases h
    have hk : ks ≠ [] := by simpa using hn
    exact (reads_kws h' hk).mono fun _ h => .kws h
  · by_cases hk : ks = []
    · subst hk
      cases h'
      rw [List.append_nil]
      exact (reads_args h ha).mono fun _ h => .args h
    · have hs : ss ≠ [] := by
        rintro rfl
        cases h
        exact ha rfl
      have hks : kk ≠ [] := by
        rintro rfl
        cases h'
        exact hk rfl
      rw [commas_append hs hks]
      refine (reads_comma (reads_args h ha) (reads_kws h' hk)).mono ?_
      rintro ts ⟨b, t1, t2, rfl, h1, h2⟩
      have := SFun.both (c := [(b, .comma)]) h1 (.inr ⟨b, rfl⟩) h2
      simpa using this

/-- A call of a helper function. -/
theorem reads_helper {g : Gram} {f : String} {as : List Arg} {ks : List (Str × Arg)} {ss kk : List Str} (hf : Name f)
    (hg : g.nested = true) (h : List.Forall₂ (fun a s => Reads s (SArg g a)) as ss)
    (h' : List.Forall₂ (KwReads g) ks kk) (hn : as ≠ [] ∨ ks ≠ []) :
    Reads (call f (ss ++ kk)) (Spells g [] (.call f.toList (toArgs as) (toKws ks))) := by
  refine (reads_call hf (reads_fun h h' hn)).mono ?_
  rintro ts ⟨b, b', us, rfl, hu⟩
  exact .call hg hf.2 hu

/-! ### Numbers -/

theorem foldl_natural (s : Str) : ∀ n : Nat,
    s.foldl (fun n c => 10 * n + (c.toNat - 48)) n = n * 10 ^ s.length + natural s := by
  induction s with
  | nil => intro n; simp [natural]
  | cons c s ih =>
    intro n
    rw [List.foldl_cons, ih, natural, List.length_cons]
    have : '0'.toNat = 48 := rfl
    rw [this]
    ring

theorem digits_eq (s : Str) : MathText.digits s = natural s := by
  unfold MathText.digits
  rw [foldl_natural]
  simp

theorem natural_append (s t : Str) : natural (s ++ t) = natural s * 10 ^ t.length + natural t := by
  induction s with
  | nil => simp [natural]
  | cons c s ih =>
    rw [List.cons_append, natural, natural, ih, List.length_append]
    ring

theorem digit_ne {ds : Str} (h : Digits ds) {c : Char} (hc : c.isDigit = false) : ∀ d ∈ ds, d ≠ c := by
  rintro d hd rfl
  rw [h d hd] at hc
  cases hc

theorem decimal_eq {q : Rat} {s : Str} (h : Number q s) : MathText.decimal s = q := by
  cases h with
  | @whole ds hd hn =>
    have h1 : s.dropWhile (· ≠ '.') = [] := by
      have := (takeWhile_stop (p := fun c => decide (c ≠ '.')) (s := s) (r := [])
        (fun c hc => by simpa using digit_ne hd (by decide) c hc) (by intro c hc; simp at hc)).2
      rwa [List.append_nil] at this
    unfold MathText.decimal
    rw [h1]
    simp only [digits_eq]
  | @point ds fs hd hn hf =>
    have h1 := takeWhile_stop (p := fun c => decide (c ≠ '.')) (s := ds) (r := '.' :: fs)
      (fun c hc => by simpa using digit_ne hd (by decide) c hc) (by intro c hc; simp at hc; subst hc; decide)
    unfold MathText.decimal
    rw [h1.2, h1.1]
    simp only [digits_eq, natural_append]
    push_cast
    have : (10 : Rat) ^ fs.length ≠ 0 := pow_ne_zero _ (by norm_num)
    field_simp

theorem number_head {q : Rat} {s : Str} (h : Number q s) : ∃ c r, s = c :: r ∧ c.isDigit = true := by
  cases h with
  | @whole ds hd hn => cases s with
    | nil => exact absurd rfl hn
    | cons c r => exact ⟨c, r, rfl, hd c (by simp)⟩
  | @point ds fs hd hn hf => cases ds with
    | nil => exact absurd rfl hn
    | cons c r => exact ⟨c, _, rfl, hd c (by simp)⟩

theorem number_eq {q : Rat} {s : Str} (h : Number q s) : MathText.number s = q := by
  obtain ⟨c, r, rfl, hc⟩ := number_head h
  have h1 : c ≠ '-' := by rintro rfl; exact absurd hc (by decide)
  have h2 : c ≠ '+' := by rintro rfl; exact absurd hc (by decide)
  rw [← decimal_eq h]
  unfold MathText.number
  split <;> simp_all

theorem number_not_inf {q : Rat} {s : Str} (h : Number q s) : s ≠ MathText.wInf := by
  obtain ⟨c, r, rfl, hc⟩ := number_head h
  intro he
  simp only [MathText.wInf, List.cons.injEq] at he
  rw [he.1] at hc
  exact absurd hc (by decide)

theorem integer_eq {ds : Str} (hd : Digits ds) (hn : ds ≠ []) : MathText.integer ds = natural ds := by
  cases ds with
  | nil => exact absurd rfl hn
  | cons c r =>
    have hc := hd c (by simp)
    have h1 : c ≠ '-' := by rintro rfl; exact absurd hc (by decide)
    have h2 : c ≠ '+' := by rintro rfl; exact absurd hc (by decide)
    rw [← digits_eq]
    unfold MathText.integer
    split <;> simp_all

end Write
end Calliope
