import Verif.Proofs.LatexPrinted

/-!
# The text that the code writes is that of the tree
-/

namespace Calliope
namespace LatexIndex

open Grid (Label Arr)
open Expr

variable {V : Type} {k : List Char → Option (List Char)} {c : String → Option Suffix}

/-! ### Text without subscripts -/

theorem inert_append : ∀ {a b : List Char}, inert a = true → inert b = true → inert (a ++ b) = true
  | [], _, _, hb => hb
  | [x], b, ha, hb => by
      cases b with
      | nil => exact ha
      | cons y b =>
        simp only [inert] at ha
        simp only [List.cons_append, List.nil_append, inert, ha, Bool.true_or, Bool.true_and, hb]
  | x :: y :: r, b, ha, hb => by
      simp only [inert, Bool.and_eq_true] at ha
      simp only [List.cons_append, inert, ha.1, Bool.true_and]
      exact inert_append (a := y :: r) ha.2 hb

/-- Any text without backslashes, and a character after it. -/
theorem inert_word : ∀ {n : List Char} {y : Char}, '\\' ∉ n → y ≠ '_' → y ≠ '\\' → inert (n ++ [y]) = true
  | [], y, _, hy, _ => by simpa [inert] using hy
  | [x], y, _, hy, hb => by simp [inert, hy, hb]
  | x :: z :: r, y, hn, hy, hb => by
      have h1 : z ≠ '\\' := fun h => hn (by simp [h])
      simp only [List.cons_append, inert, Bool.and_eq_true, Bool.or_eq_true, bne_iff_ne]
      refine ⟨.inr h1, ?_⟩
      exact inert_word (n := z :: r) (fun h => hn (List.mem_cons_of_mem _ h)) hy hb

theorem closing_length : ∀ {s a b : List Char}, closing s = some (a, b) → b.length < s.length
  | [], _, _, h => by simp [closing] at h
  | x :: r, a, b, h => by
      simp only [closing] at h
      split at h
      · cases h; simp
      · split at h
        · cases h
        · cases hr : closing r with
          | none => simp [hr] at h
          | some p =>
            rw [hr] at h
            simp only [Option.map_some, Option.some.injEq, Prod.mk.injEq] at h
            have := closing_length (a := p.1) (b := p.2) hr
            rw [h.2] at this
            simp only [List.length_cons]; omega

theorem matched_length {s a b : List Char} (h : matched s = some (a, b)) : b.length < s.length := by
  unfold matched at h
  split at h
  · have := closing_length h
    simp only [List.length_cons]; omega
  · cases h

theorem scan_length : ∀ (n m : Nat) (s : List Char), s.length ≤ n → s.length ≤ m → scan k n s = scan k m s
  | 0, m, s, hn, _ => by
      have : s = [] := List.eq_nil_of_length_eq_zero (by omega)
      subst this
      cases m <;> rfl
  | n + 1, 0, s, _, hm => by
      have : s = [] := List.eq_nil_of_length_eq_zero (by omega)
      subst this; rfl
  | n + 1, m + 1, [], _, _ => rfl
  | n + 1, m + 1, x :: r, hn, hm => by
      simp only [List.length_cons] at hn hm
      simp only [scan]
      cases h : matched (x :: r) with
      | none => simp only; rw [scan_length n m r (by omega) (by omega)]
      | some p =>
        have := matched_length (a := p.1) (b := p.2) h
        simp only [List.length_cons] at this
        simp only
        rw [scan_length n m p.2 (by omega) (by omega)]

theorem update_cons {x : Char} {r : List Char} (h : matched (x :: r) = none) :
    updateIterator k (x :: r) = x :: updateIterator k r := by
  unfold updateIterator
  rw [List.length_cons]
  simp only [scan, h]

theorem update_match {s a b : List Char} (h : closing s = some (a, b)) :
    updateIterator k ('_' :: '\\' :: 't' :: 'e' :: 'x' :: 't' :: '{' :: s) =
      '_' :: '\\' :: 't' :: 'e' :: 'x' :: 't' :: '{' ::
        ([','].intercalate ((a.splitOn ',').map (convert k)) ++ '}' :: updateIterator k b) := by
  have hm : matched ('_' :: '\\' :: 't' :: 'e' :: 'x' :: 't' :: '{' :: s) = some (a, b) := h
  unfold updateIterator
  rw [List.length_cons]
  simp only [scan, hm]
  rw [scan_length _ b.length b (by have := closing_length h; simp only [List.length_cons]; omega) le_rfl]

theorem update_inert : ∀ {a : List Char} (b : List Char), inert a = true →
    updateIterator k (a ++ b) = a ++ updateIterator k b
  | [], _, _ => rfl
  | [x], b, h => by
      simp only [List.cons_append, List.nil_append]
      apply update_cons
      unfold matched
      split
      · rename_i heq; cases heq; simp [inert] at h
      · rfl
  | x :: y :: r, b, h => by
      simp only [inert, Bool.and_eq_true, Bool.or_eq_true, bne_iff_ne] at h
      have hm : matched (x :: (y :: r ++ b)) = none := by
        unfold matched
        split
        · rename_i heq
          simp only [List.cons_append, List.cons.injEq] at heq
          rcases h.1 with h1 | h1
          · exact absurd heq.1 h1
          · exact absurd heq.2.1 h1
        · rfl
      rw [List.cons_append, update_cons hm, update_inert (a := y :: r) b h.2]
      rfl

/-! ### Names -/

theorem clean_append {a b : List Char} : Clean (a ++ b) ↔ Clean a ∧ Clean b := by
  simp only [Clean, List.mem_append, not_or]; tauto

theorem digits_clean (n : Nat) : Clean (toString n).toList := by
  have h : ∀ x ∈ (toString n).toList, x.isDigit = true := by
    intro x hx
    have : (toString n).toList = Nat.toDigits 10 n := Nat.toList_repr
    rw [this] at hx
    exact Nat.isDigit_of_mem_toDigits (by decide +kernel) (by decide +kernel) hx
  refine ⟨?_, ?_, ?_, ?_⟩ <;> · intro hm; have := h _ hm; revert this; decide

theorem int_clean (n : Int) : Clean (toString n).toList := by
  cases n with
  | ofNat m => exact digits_clean m
  | negSucc m =>
    have : (toString (Int.negSucc m)).toList = '-' :: (toString (m + 1)).toList := by
      show (Int.repr (Int.negSucc m)).toList = _
      simp only [Int.repr, String.toList_append]
      rfl
    rw [this]
    exact clean_append (a := ['-']).2 ⟨by unfold Clean; decide, digits_clean _⟩

theorem signed_clean (n : Int) : Clean (signed n).toList := by
  unfold signed
  split
  · exact int_clean n
  · rw [String.toList_append]; exact clean_append.2 ⟨by unfold Clean; decide, int_clean n⟩

theorem signed_sign (n : Int) : '+' ∈ (signed n).toList ∨ '-' ∈ (signed n).toList := by
  unfold signed
  split
  · rename_i h
    right
    cases n with
    | ofNat m => exact absurd h (by simp)
    | negSucc m =>
      show '-' ∈ (Int.repr (Int.negSucc m)).toList
      simp only [Int.repr, String.toList_append, List.mem_append]
      exact .inl (by decide +kernel)
  · left
    rw [String.toList_append, List.mem_append]
    exact .inl (by decide +kernel)

/-! ### Subscripts -/

/-- The names and labels in an item. -/
def Item.Clean : Item → Prop
  | .it s => LatexIndex.Clean s.toList
  | .moved s _ => LatexIndex.Clean s.toList
  | .fixed s l => LatexIndex.Clean s.toList ∧ LatexIndex.Clean l.toList
  | .nth s d _ => LatexIndex.Clean s.toList ∧ LatexIndex.Clean d.toList
  | .looked _ _ _ _ => True

theorem clean_text {x : Item} (h : x.Clean) (hb : x.braced = false) : Clean x.text.toList := by
  cases x with
  | it s => simp only [Item.text]; exact h
  | moved s n =>
    simp only [Item.text, String.toList_append]
    exact clean_append.2 ⟨h, signed_clean n⟩
  | fixed s l =>
    simp only [Item.text, String.toList_append]
    exact clean_append.2 ⟨clean_append.2 ⟨h.1, by unfold Clean; decide⟩, h.2⟩
  | nth s d i =>
    simp only [Item.text, String.toList_append]
    exact clean_append.2 ⟨clean_append.2 ⟨clean_append.2 ⟨clean_append.2 ⟨clean_append.2 ⟨h.1,
      by unfold Clean; decide⟩, h.2⟩, by unfold Clean; decide⟩, int_clean i⟩, by unfold Clean; decide⟩
  | looked => simp [Item.braced] at hb

theorem Item.Tidy.clean {x : Item} (h : x.Tidy) : x.Clean := by
  cases x <;> trivial

/-- What a suffix is printed as. -/
def suffixText (s : List Char) : Suffix → List Char
  | .shift n => (signed n).toList
  | .look name sub => '=' :: (("\\textit{" ++ name ++ "}" ++ sub.subscript).toList ++ '[' :: (s ++ [']']))

/-- The dictionary has what the suffixes are printed as, at iterators. -/
structure Agrees (c : String → Option Suffix) (k : List Char → Option (List Char)) : Prop where
  text : ∀ s : String, k s.toList = (c s).map (suffixText s.toList)
  word : ∀ s : String, c s ≠ none → Word s.toList

theorem Agrees.none (h : Agrees c k) {l : List Char} (hw : ¬ Word l) : k l = none := by
  have h1 := h.text (String.ofList l)
  rw [String.toList_ofList] at h1
  rw [h1]
  cases hc : c (String.ofList l) with
  | none => rfl
  | some u =>
    have := h.word (String.ofList l) (by rw [hc]; simp)
    rw [String.toList_ofList] at this
    exact absurd this hw

theorem convert_text (h : Agrees c k) {x : Item} (hb : x.braced = false) :
    convert k x.text.toList = (x.add c).text.toList := by
  cases x with
  | it s =>
    simp only [Item.text, convert, h.text s, Item.add]
    cases c s with
    | none => rfl
    | some u =>
      cases u with
      | shift n => simp only [Option.map_some, suffixText, Item.text, String.toList_append]
      | look name sub =>
        simp only [Option.map_some, suffixText, Item.text, String.toList_append, if_true]
        simp
  | moved s n =>
    rw [convert, h.none]
    · rfl
    · rintro ⟨_, h1, h2, _⟩
      simp only [Item.text, String.toList_append, List.mem_append, not_or] at h1 h2
      rcases signed_sign n with h3 | h3
      · exact h1.2 h3
      · exact h2.2 h3
  | fixed s l =>
    rw [convert, h.none]
    · rfl
    · rintro ⟨_, _, _, h1⟩
      apply h1
      simp only [Item.text, String.toList_append, List.mem_append]
      exact .inl (.inr (by decide +kernel))
  | nth s d i =>
    rw [convert, h.none]
    · rfl
    · rintro ⟨_, _, _, h1⟩
      apply h1
      simp only [Item.text, String.toList_append, List.mem_append]
      exact .inl (.inl (.inl (.inl (.inr (by decide +kernel)))))
  | looked => simp [Item.braced] at hb

/-- The texts of the items. -/
def Items.texts : Items → List (List Char)
  | .nil => []
  | .cons x r => x.text.toList :: r.texts

theorem tail_text : ∀ (x : Item) (r : Items),
    x.text.toList ++ r.tail.toList = [','].intercalate (x.text.toList :: r.texts) ++ ['}']
  | x, .nil => by
      simp only [Items.tail, Items.texts]
      simp
  | x, .cons y r => by
      simp only [Items.tail, Items.texts, String.toList_append]
      rw [List.append_assoc, tail_text y r]
      simp [List.intercalate, List.intersperse]

theorem closing_clean : ∀ {a : List Char} (b : List Char), '{' ∉ a → '}' ∉ a → closing (a ++ '}' :: b) = some (a, b)
  | [], b, _, _ => by simp [closing]
  | x :: a, b, h1, h2 => by
      have e1 : x ≠ '{' := fun h => h1 (by simp [h])
      have e2 : x ≠ '}' := fun h => h2 (by simp [h])
      simp only [List.cons_append, closing, if_neg e1, if_neg e2]
      rw [closing_clean b (fun h => h1 (List.mem_cons_of_mem _ h)) (fun h => h2 (List.mem_cons_of_mem _ h))]
      rfl

theorem closing_open : ∀ {a : List Char} (b : List Char), '}' ∉ a → closing (a ++ '{' :: b) = none
  | [], b, _ => by simp [closing]
  | x :: a, b, h2 => by
      have e2 : x ≠ '}' := fun h => h2 (by simp [h])
      simp only [List.cons_append, closing, if_neg e2]
      split
      · rfl
      · rw [closing_open b (fun h => h2 (List.mem_cons_of_mem _ h))]; rfl

/-- Names and labels are tidy in what has no braces: it is one match. -/
theorem update_flat (h : Agrees c k) {a : Items} (ht : a.Tidy) (hb : a.braced = false) (w : List Char) :
    updateIterator k (a.subscript.toList ++ w) = (a.addAll c).subscript.toList ++ updateIterator k w := by
  cases a with
  | nil => rfl
  | cons x r =>
    have key : ∀ (a : Items), a.Tidy → a.braced = false → (∀ l ∈ a.texts, Clean l) ∧
        a.texts.map (convert k) = (a.addAll c).texts := by
      intro a
      induction a using Items.rec (motive_1 := fun _ => True) with
      | nil => intro _ _; exact ⟨fun _ h => absurd h List.not_mem_nil, rfl⟩
      | cons x r _ ih =>
        intro ht hb
        simp only [Items.Tidy] at ht
        simp only [Items.braced, Bool.or_eq_false_iff] at hb
        obtain ⟨h1, h2⟩ := ih ht.2 hb.2
        refine ⟨?_, ?_⟩
        · intro l hl
          simp only [Items.texts, List.mem_cons] at hl
          rcases hl with rfl | hl
          · exact clean_text ht.1.clean hb.1
          · exact h1 l hl
        · simp only [Items.texts, Items.addAll, List.map_cons, h2, convert_text h hb.1]
      | it | moved | fixed | nth | looked => trivial
    obtain ⟨h1, h2⟩ := key _ ht hb
    simp only [Items.addAll, Items.texts] at h1 h2
    have hs : ("_\\text{" : String).toList = ['_', '\\', 't', 'e', 'x', 't', '{'] := by decide +kernel
    have e1 : ∀ (x : Item) (r : Items), (Items.cons x r).subscript.toList =
        ['_', '\\', 't', 'e', 'x', 't', '{'] ++ ([','].intercalate (x.text.toList :: r.texts) ++ ['}']) := by
      intro x r
      simp only [Items.subscript, String.toList_append]
      rw [List.append_assoc, tail_text, hs]
    simp only [Items.addAll]
    rw [e1, e1]
    have hcl : ∀ y, (∀ l, Clean l → y ∉ l) → y ≠ ',' → y ∉ [','].intercalate (x.text.toList :: r.texts) := by
      intro y hy hne
      generalize hL : x.text.toList :: r.texts = L at h1
      have : ∀ (L : List (List Char)), (∀ l ∈ L, Clean l) → y ∉ [','].intercalate L := by
        intro L
        induction L with
        | nil => intro _; simp
        | cons l L ih =>
          intro hl
          cases L with
          | nil => simpa using hy l (hl l (by simp))
          | cons m L =>
            have := ih (fun l' h' => hl l' (List.mem_cons_of_mem _ h'))
            simp only [List.intercalate, List.intersperse, List.flatten_cons, List.mem_append, not_or] at this ⊢
            exact ⟨hy l (hl l (by simp)), by simpa using hne, this⟩
      exact this L h1
    have hc := closing_clean (a := [','].intercalate (x.text.toList :: r.texts)) w
      (hcl '{' (fun l h => h.1) (by decide +kernel)) (hcl '}' (fun l h => h.2.1) (by decide +kernel))
    have hu := update_match (k := k) hc
    rw [List.splitOn_intercalate ',' (fun l hl => (h1 l hl).2.2.1) (by simp), h2] at hu
    simp only [List.append_assoc, List.cons_append, List.nil_append] at hu ⊢
    exact hu

/-- What comes after an item. -/
def Sep (w : List Char) : Prop := ∃ y r, w = y :: r ∧ (y = ',' ∨ y = '}')

theorem sep_tail (r : Items) (w : List Char) : Sep (r.tail.toList ++ w) := by
  cases r with
  | nil => exact ⟨'}', w, rfl, .inr rfl⟩
  | cons x r =>
    refine ⟨',', (x.text.toList ++ r.tail.toList) ++ w, ?_, .inl rfl⟩
    simp only [Items.tail, String.toList_append]
    rfl

theorem update_word {n : List Char} (hn : '\\' ∉ n) {y : Char} (hy : y ≠ '_') (hb : y ≠ '\\') (r : List Char) :
    updateIterator k (n ++ y :: r) = n ++ updateIterator k (y :: r) := by
  have e : n ++ y :: r = (n ++ [y]) ++ r := by simp
  rw [e, update_inert _ (inert_word hn hy hb)]
  have : updateIterator k ([y] ++ r) = [y] ++ updateIterator k r := update_inert r (by simpa [inert] using hy)
  simp only [List.cons_append, List.nil_append] at this
  rw [this]; simp

theorem update_sep {n w : List Char} (hn : '\\' ∉ n) (hw : Sep w) : updateIterator k (n ++ w) = n ++ updateIterator k w := by
  obtain ⟨y, r, rfl, h | h⟩ := hw <;> subst h <;> exact update_word hn (by decide +kernel) (by decide +kernel) r

theorem closing_braced : ∀ (x : Item) (r : Items) (w : List Char), x.Tidy → r.Tidy → (x.braced || r.braced) = true →
    closing (x.text.toList ++ (r.tail.toList ++ w)) = none := by
  intro x r
  induction r using Items.rec (motive_1 := fun _ => True) generalizing x with
  | nil =>
    intro w hx _ hb
    cases x with
    | looked s name sub again =>
      simp only [Item.Tidy] at hx
      simp only [Item.text, String.toList_append, List.append_assoc]
      have : ("=\\textit{" : String).toList = ['=', '\\', 't', 'e', 'x', 't', 'i', 't'] ++ ['{'] := by decide +kernel
      rw [this]
      have e : ∀ z : List Char, s.toList ++ ((['=', '\\', 't', 'e', 'x', 't', 'i', 't'] ++ ['{']) ++ z) =
          (s.toList ++ ['=', '\\', 't', 'e', 'x', 't', 'i', 't']) ++ '{' :: z := by intro z; simp
      rw [e]
      apply closing_open
      simp only [List.mem_append, not_or]
      exact ⟨hx.1.2.1, by decide +kernel⟩
    | _ => simp [Item.braced, Items.braced] at hb
  | cons y r _ ih =>
    intro w hx hr hb
    by_cases hbx : x.braced = true
    · cases x with
      | looked s name sub again =>
        simp only [Item.Tidy] at hx
        simp only [Item.text, String.toList_append, List.append_assoc]
        have : ("=\\textit{" : String).toList = ['=', '\\', 't', 'e', 'x', 't', 'i', 't'] ++ ['{'] := by decide +kernel
        rw [this]
        have e : ∀ z : List Char, s.toList ++ ((['=', '\\', 't', 'e', 'x', 't', 'i', 't'] ++ ['{']) ++ z) =
            (s.toList ++ ['=', '\\', 't', 'e', 'x', 't', 'i', 't']) ++ '{' :: z := by intro z; simp
        rw [e]
        apply closing_open
        simp only [List.mem_append, not_or]
        exact ⟨hx.1.2.1, by decide +kernel⟩
      | _ => simp [Item.braced] at hbx
    · have hbx' : x.braced = false := by simpa using hbx
      simp only [Items.Tidy] at hr
      have hb' : (y.braced || r.braced) = true := by simpa [hbx', Items.braced] using hb
      have hi := ih y w hr.1 hr.2 hb'
      have hcx := clean_text hx.clean hbx'
      have hs : ∀ (a z : List Char), '{' ∉ a → '}' ∉ a → closing z = none → closing (a ++ z) = none := by
        intro a z h1 h2 h3
        induction a with
        | nil => exact h3
        | cons q a ihq =>
          have e1 : q ≠ '{' := fun h => h1 (by simp [h])
          have e2 : q ≠ '}' := fun h => h2 (by simp [h])
          simp only [List.cons_append, closing, if_neg e1, if_neg e2,
            ihq (fun h => h1 (List.mem_cons_of_mem _ h)) (fun h => h2 (List.mem_cons_of_mem _ h)), Option.map_none]
      apply hs _ _ hcx.1 hcx.2.1
      simp only [Items.tail, String.toList_append, List.append_assoc]
      exact hs _ _ (by decide +kernel) (by decide +kernel) hi
  | it | moved | fixed | nth | looked => trivial

mutual
theorem item_scan (h : Agrees c k) : ∀ (x : Item), x.Tidy → ∀ w, Sep w →
    updateIterator k (x.text.toList ++ w) = (x.inside c).text.toList ++ updateIterator k w
  | .it s, ht, w, hw => update_sep (clean_text (x := .it s) ht.clean rfl).2.2.2 hw
  | .moved s n, ht, w, hw => update_sep (clean_text (x := .moved s n) ht.clean rfl).2.2.2 hw
  | .fixed s l, ht, w, hw => update_sep (clean_text (x := .fixed s l) ht.clean rfl).2.2.2 hw
  | .nth s d i, ht, w, hw => update_sep (clean_text (x := .nth s d i) ht.clean rfl).2.2.2 hw
  | .looked s name sub again, ht, w, hw => by
      simp only [Item.Tidy] at ht
      have e : (Item.looked s name sub again).inside c = .looked s name (sub.update c) again := by
        simp only [Item.inside, Items.update]
      rw [e]
      simp only [Item.text, String.toList_append, List.append_assoc]
      have h1 : inert (s.toList ++ ("=\\textit{" : String).toList) = true := by
        have e : s.toList ++ ("=\\textit{" : String).toList = (s.toList ++ ['=']) ++ "\\textit{".toList := by
          rw [List.append_assoc]; congr 1
        rw [e]
        exact inert_append (inert_word ht.1.2.2.2 (by decide +kernel) (by decide +kernel)) (by decide +kernel)
      have h2 : inert (name.toList ++ ("}" : String).toList) = true :=
        inert_word ht.2.1.2.2.2 (by decide +kernel) (by decide +kernel)
      rw [← List.append_assoc s.toList, update_inert _ h1, ← List.append_assoc name.toList, update_inert _ h2,
        sub_scan h sub ht.2.2]
      simp only [List.append_assoc]
      congr 4
      cases again with
      | false => simp
      | true =>
        simp only [if_true, String.toList_append, List.append_assoc]
        have h3 : inert (s.toList ++ ("]" : String).toList) = true :=
          inert_word ht.1.2.2.2 (by decide +kernel) (by decide +kernel)
        rw [update_inert _ (by decide +kernel), ← List.append_assoc s.toList, update_inert _ h3, List.append_assoc]
theorem sub_scan (h : Agrees c k) : ∀ (a : Items), a.Tidy → ∀ w,
    updateIterator k (a.subscript.toList ++ w) = (a.update c).subscript.toList ++ updateIterator k w
  | .nil, _, w => by simp [Items.update, Items.braced, Items.addAll, Items.subscript]
  | .cons x r, ht, w => by
      by_cases hb : (Items.cons x r).braced = true
      · simp only [Items.update, if_pos hb, Items.inside, Items.subscript, String.toList_append, List.append_assoc]
        simp only [Items.Tidy] at ht
        have hc := closing_braced x r w ht.1 ht.2 hb
        have hs : ("_\\text{" : String).toList = '_' :: ['\\', 't', 'e', 'x', 't', '{'] := by decide +kernel
        rw [hs, List.cons_append, update_cons (by exact hc), update_inert _ (by decide +kernel),
          item_scan h x ht.1 _ (sep_tail r w), tail_scan h r ht.2 w]
        simp
      · rw [update_flat h ht (by simpa using hb)]
        simp only [Items.update, if_neg hb]
theorem tail_scan (h : Agrees c k) : ∀ (a : Items), a.Tidy → ∀ w,
    updateIterator k (a.tail.toList ++ w) = (a.inside c).tail.toList ++ updateIterator k w
  | .nil, _, w => by
      simp only [Items.inside, Items.tail]
      exact update_inert _ (by decide +kernel)
  | .cons x r, ht, w => by
      simp only [Items.Tidy] at ht
      simp only [Items.inside, Items.tail, String.toList_append, List.append_assoc]
      rw [update_inert _ (by decide +kernel), item_scan h x ht.1 _ (sep_tail r w), tail_scan h r ht.2 w]
end

/-! ### Expressions -/

theorem inert_then {n r : List Char} {y : Char} (hn : '\\' ∉ n) (hr : inert (y :: r) = true) (hy : y ≠ '_')
    (hb : y ≠ '\\') : inert (n ++ y :: r) = true := by
  have e : n ++ y :: r = (n ++ [y]) ++ r := by simp
  rw [e]
  apply inert_append (inert_word hn hy hb)
  cases r with
  | nil => rfl
  | cons z r => simp only [inert, Bool.and_eq_true] at hr; exact hr.2

variable {it : String → String} {num : V → String}

theorem instr_inert {d : String} (h1 : Clean (it d).toList) (h2 : Clean d.toList) : inert (instr it d).toList = true := by
  simp only [instr, String.toList_append, List.append_assoc]
  apply inert_append (by decide +kernel)
  have e : ("} \\in \\text{" : String).toList = '}' :: " \\in \\text{".toList := by decide +kernel
  rw [e, List.cons_append]
  apply inert_then h1.2.2.2 _ (by decide +kernel) (by decide +kernel)
  rw [← List.cons_append, ← e]
  apply inert_append (by decide +kernel)
  exact inert_word h2.2.2.2 (by decide +kernel) (by decide +kernel)

theorem lines_inert : ∀ {l : List String}, (∀ x ∈ l, inert x.toList = true) → inert (lines l).toList = true
  | [], _ => by decide +kernel
  | [x], h => h x (by simp)
  | x :: y :: r, h => by
      simp only [lines, String.toList_append, List.append_assoc]
      apply inert_append (h x (by simp))
      apply inert_append (by decide +kernel)
      exact lines_inert (fun z hz => h z (List.mem_cons_of_mem _ hz))

/-- Lines before a last one. -/
def ahead : List String → List Char
  | [] => []
  | x :: r => x.toList ++ (" \\\\ ".toList ++ ahead r)

theorem lines_last : ∀ (l : List String) (x : String), (lines (l ++ [x])).toList = ahead l ++ x.toList
  | [], x => rfl
  | [y], x => by simp [lines, ahead]
  | y :: z :: r, x => by
      have := lines_last (z :: r) x
      simp only [List.cons_append] at this ⊢
      simp only [lines, ahead, String.toList_append, this, List.append_assoc]

theorem ahead_inert : ∀ {l : List String}, (∀ x ∈ l, inert x.toList = true) → inert (ahead l) = true
  | [], _ => rfl
  | x :: r, h => by
      simp only [ahead]
      apply inert_append (h x (by simp))
      apply inert_append (by decide +kernel)
      exact ahead_inert (fun z hz => h z (List.mem_cons_of_mem _ hz))

theorem op_inert (o : Arith.Op) : inert (opText o).toList = true := by cases o <;> decide

theorem map_instr {over : List String} (h : ∀ d ∈ over, Clean (it d).toList ∧ Clean d.toList) :
    ∀ x ∈ over.map (instr it), inert x.toList = true := by
  intro x hx
  obtain ⟨d, hd, rfl⟩ := List.mem_map.1 hx
  exact instr_inert (h d hd).1 (h d hd).2

theorem sign_text (o : Arith.Op) : (Un.sign o).text it = opText o := by delta Un.text; rfl

theorem sum_text (over : List String) :
    (Un.sum over).text it = "\\sum\\limits_{\\substack{" ++ lines (over.map (instr it)) ++ "}} " := by
  delta Un.text; rfl

theorem carriers_text (flow : String) :
    (Un.carriers flow).text it = "\\sum\\limits_{\\text{carrier} \\in \\text{carrier_" ++ flow ++ "}} " := by
  delta Un.text; rfl

theorem group_text (over : List String) (g : String) (sub : Items) (groupDim : String) :
    (Un.group over g sub groupDim).text it = "\\sum\\limits_{\\substack{" ++ lines (over.map (instr it) ++
      ["\\text{ if } \\textit{" ++ g ++ "}" ++ sub.subscript ++ " = \\text{" ++ it groupDim ++ "}"]) ++ "}} " := by
  delta Un.text; rfl

theorem period_text (over g : String) :
    (Un.period over g).text it = "\\sum\\limits_{\\substack{" ++ instr it over ++ " \\text{ if } \\text{" ++ g ++
      "}(\\text{" ++ it over ++ "}) = \\text{" ++ it g ++ "}}} " := by
  delta Un.text; rfl

theorem un_scan (h : Agrees c k) (u : Un) (hu : u.Tidy it) (w : List Char) :
    updateIterator k ((u.text it).toList ++ w) = ((u.update c).text it).toList ++ updateIterator k w := by
  cases u with
  | sign o =>
    rw [show (Un.sign o).update c = .sign o from rfl, sign_text]
    exact update_inert w (op_inert o)
  | sum over =>
    rw [show (Un.sum over).update c = .sum over from rfl]
    apply update_inert
    rw [sum_text, String.toList_append, String.toList_append]
    refine inert_append (inert_append ?_ (lines_inert (map_instr hu))) ?_ <;> decide +kernel
  | carriers flow =>
    rw [show (Un.carriers flow).update c = .carriers flow from rfl]
    apply update_inert
    rw [carriers_text]
    simp only [String.toList_append, List.append_assoc]
    rw [show ("\\sum\\limits_{\\text{carrier} \\in \\text{carrier_" : String).toList =
      "\\sum\\limits_{\\text{carrier} \\in \\text{carrier".toList ++ ['_'] by decide +kernel, List.append_assoc]
    apply inert_append (by decide +kernel)
    exact inert_then (n := '_' :: flow.toList) (y := '}') (r := ['}', ' '])
      (fun h => by
        rcases List.mem_cons.1 h with h | h
        · exact absurd h (by decide +kernel)
        · exact hu.2.2.2 h) (by decide +kernel) (by decide +kernel) (by decide +kernel)
  | period over g =>
    rw [show (Un.period over g).update c = .period over g from rfl]
    apply update_inert
    obtain ⟨h1, h2, h3, h4⟩ := hu
    rw [period_text]
    simp only [String.toList_append, List.append_assoc]
    apply inert_append (by decide +kernel)
    apply inert_append (instr_inert h1 h2)
    apply inert_append (by decide +kernel)
    rw [show ("}(\\text{" : String).toList = ['}'] ++ "(\\text{".toList by decide +kernel,
      show ("}) = \\text{" : String).toList = ['}'] ++ ") = \\text{".toList by decide +kernel,
      show ("}}} " : String).toList = ['}'] ++ "}} ".toList by decide +kernel]
    simp only [List.append_assoc]
    rw [← List.append_assoc g.toList]
    apply inert_append (inert_word h3.2.2.2 (by decide +kernel) (by decide +kernel))
    apply inert_append (by decide +kernel)
    rw [← List.append_assoc (it over).toList]
    apply inert_append (inert_word h1.2.2.2 (by decide +kernel) (by decide +kernel))
    apply inert_append (by decide +kernel)
    rw [← List.append_assoc (it g).toList]
    apply inert_append (inert_word h4.2.2.2 (by decide +kernel) (by decide +kernel))
    decide +kernel
  | group over g sub groupDim =>
    obtain ⟨h1, h2, h3, h4⟩ := hu
    simp only [Un.update, group_text, String.toList_append, lines_last, List.append_assoc]
    rw [update_inert _ (by decide +kernel), update_inert _ (ahead_inert (map_instr h1)), update_inert _ (by decide +kernel)]
    have e2 : inert (g.toList ++ ("}" : String).toList) = true := inert_word h2.2.2.2 (by decide +kernel) (by decide +kernel)
    rw [← List.append_assoc g.toList, update_inert _ e2, sub_scan h sub h3, update_inert _ (by decide +kernel)]
    have e3 : inert ((it groupDim).toList ++ ("}" : String).toList) = true :=
      inert_word h4.2.2.2 (by decide +kernel) (by decide +kernel)
    rw [← List.append_assoc (it groupDim).toList, update_inert _ e3, update_inert _ (by decide +kernel)]
    simp only [List.append_assoc]

/-- `_update_iterator` of a text is the text of the updated tree. -/
theorem text_scan (h : Agrees c k) : ∀ (t : Text V), t.Tidy it num → ∀ w,
    updateIterator k ((t.text it num).toList ++ w) = ((t.update c).text it num).toList ++ updateIterator k w
  | .num v, ht, w => update_inert w ht
  | .name n, ht, w => update_inert w ht
  | .comp n sub, ht, w => by
      simp only [Text.Tidy] at ht
      simp only [Text.update, Text.text, String.toList_append, List.append_assoc]
      have e2 : inert (n.toList ++ ("}" : String).toList) = true := inert_word ht.1.2.2.2 (by decide +kernel) (by decide +kernel)
      rw [update_inert _ (by decide +kernel), ← List.append_assoc n.toList, update_inert _ e2, sub_scan h sub ht.2]
      simp only [List.append_assoc]
  | .un u t, ht, w => by
      simp only [Text.Tidy] at ht
      simp only [Text.update, Text.text, String.toList_append, List.append_assoc]
      rw [un_scan h u ht.1, update_inert _ (by decide +kernel), text_scan h t ht.2, update_inert _ (by decide +kernel)]
  | .bin (.op o) t u, ht, w => by
      simp only [Text.Tidy] at ht
      simp only [Text.update, Text.text, String.toList_append, List.append_assoc]
      rw [text_scan h t ht.1, update_inert _ (op_inert o), text_scan h u ht.2]
  | .bin .cond t u, ht, w => by
      simp only [Text.Tidy] at ht
      simp only [Text.update, Text.text, String.toList_append, List.append_assoc]
      rw [update_inert _ (by decide +kernel), text_scan h t ht.1, update_inert _ (by decide +kernel), text_scan h u ht.2,
        update_inert _ (by decide +kernel)]

/-! ### Names in a text and in its update -/

theorem Item.tidy_add : ∀ {x : Item}, (x.add c).Tidy → x.Tidy
  | .it s, h => by
      simp only [Item.add] at h
      cases hc : c s with
      | none => rw [hc] at h; exact h
      | some u => cases u <;> (rw [hc] at h; simp only [Item.Tidy] at h ⊢) <;> first | exact h | exact h.1
  | .moved _ _, h | .fixed _ _, h | .nth _ _ _, h | .looked _ _ _ _, h => h

theorem Items.tidy_addAll : ∀ {a : Items}, (a.addAll c).Tidy → a.Tidy
  | .nil, h => h
  | .cons x r, h => by
      simp only [Items.addAll, Items.Tidy] at h ⊢
      exact ⟨Item.tidy_add h.1, Items.tidy_addAll h.2⟩

mutual
theorem Item.tidy_inside : ∀ {x : Item}, (x.inside c).Tidy → x.Tidy
  | .it _, h | .moved _ _, h | .fixed _ _, h | .nth _ _ _, h => by simp only [Item.inside] at h; exact h
  | .looked s name sub again, h => by
      simp only [Item.inside, Item.Tidy] at h ⊢
      refine ⟨h.1, h.2.1, ?_⟩
      by_cases hb : sub.braced = true
      · rw [if_pos hb] at h; exact Items.tidy_inside h.2.2
      · rw [if_neg hb] at h; exact Items.tidy_addAll h.2.2
theorem Items.tidy_inside : ∀ {a : Items}, (a.inside c).Tidy → a.Tidy
  | .nil, h => by simp only [Items.inside] at h; exact h
  | .cons x r, h => by
      simp only [Items.inside, Items.Tidy] at h ⊢
      exact ⟨Item.tidy_inside h.1, Items.tidy_inside h.2⟩
end

theorem Items.tidy_update {a : Items} (h : (a.update c).Tidy) : a.Tidy := by
  unfold Items.update at h
  split at h
  · exact Items.tidy_inside h
  · exact Items.tidy_addAll h

theorem Text.tidy_update : ∀ {t : Text V}, (t.update c).Tidy it num → t.Tidy it num
  | .num _, h | .name _, h => h
  | .comp n sub, h => by
      simp only [Text.update, Text.Tidy] at h ⊢
      exact ⟨h.1, Items.tidy_update h.2⟩
  | .un u t, h => by
      simp only [Text.update, Text.Tidy] at h ⊢
      refine ⟨?_, Text.tidy_update h.2⟩
      cases u with
      | group over g sub groupDim =>
        simp only [Un.update, Un.Tidy] at h ⊢
        exact ⟨h.1.1, h.1.2.1, Items.tidy_update h.1.2.2.1, h.1.2.2.2⟩
      | _ => exact h.1
  | .bin b t u, h => by
      simp only [Text.update, Text.Tidy] at h ⊢
      exact ⟨Text.tidy_update h.1, Text.tidy_update h.2⟩

/-! ### `as_math_string` -/

theorem agrees_shift (hw : ∀ d, Word (it d).toList) (shifts : List (String × Int)) :
    Agrees (shiftSuffix it shifts) (shiftText it shifts) := by
  refine ⟨fun s => ?_, fun s hs => ?_⟩
  · simp only [shiftText, shiftSuffix, String.ofList_toList, Option.map_map]
    rfl
  · simp only [shiftSuffix, keyed, ne_eq, Option.map_eq_none_iff] at hs
    obtain ⟨p, hp⟩ := Option.ne_none_iff_exists'.1 hs
    have := List.find?_some hp
    rw [beq_iff_eq] at this
    rw [← this]; exact hw p.1

theorem agrees_look {E : Env V} (hw : ∀ d, Word (it d).toList) (ls : List (String × String)) :
    Agrees (lookSuffix E it ls) (lookText E it ls) := by
  refine ⟨fun s => ?_, fun s hs => ?_⟩
  · simp only [lookText, lookSuffix, String.ofList_toList, Option.map_map]
    rfl
  · simp only [lookSuffix, keyed, ne_eq, Option.map_eq_none_iff] at hs
    obtain ⟨p, hp⟩ := Option.ne_none_iff_exists'.1 hs
    have := List.find?_some hp
    rw [beq_iff_eq] at this
    rw [← this]; exact hw p.1

theorem subscript_text (a : Items) : subscriptText a.texts = a.subscript.toList := by
  cases a with
  | nil => rfl
  | cons x r =>
    simp only [Items.texts, subscriptText, List.isEmpty_cons, Bool.false_eq_true, if_false, Items.subscript,
      String.toList_append]
    rw [List.append_assoc, List.append_assoc, tail_text]

theorem plain_texts : ∀ (dims : List String), (plain it dims).texts = dims.map (fun d => (it d).toList)
  | [] => rfl
  | d :: ds => by simp only [plain, Items.texts, Item.text, plain_texts ds, List.map_cons]

theorem close_text : (")" : String).toList = [')'] := by decide +kernel

theorem open_text : ("(" : String).toList = ['('] := by decide +kernel

theorem update_nil : updateIterator k [] = [] := rfl

theorem lookup_scan {E : Env V} (h : Agrees c k) {m : String} (hm : Clean m.toList) (ht : (lookupItems E it m).Tidy) :
    updateIterator k (lookupText E it m) =
      ("\\textit{" ++ m ++ "}" ++ ((lookupItems E it m).update c).subscript).toList := by
  simp only [lookupText, String.toList_append, List.append_assoc]
  have e2 : inert (m.toList ++ ("}" : String).toList) = true := inert_word hm.2.2.2 (by decide +kernel) (by decide +kernel)
  rw [update_inert _ (by decide +kernel), ← List.append_assoc m.toList, update_inert _ e2]
  have := sub_scan h _ ht []
  rw [List.append_nil, update_nil, List.append_nil] at this
  rw [this]
  simp only [List.append_assoc]

theorem slice_text {E : Env V} {slices : String → Option SliceDef} (hw : ∀ d, Word (it d).toList) (s : String)
    (v : Option Slicer)
    (ht : (match v with | some v => sliceItem E slices it s v | none => Item.it s).Tidy) :
    sliceText E slices it s v =
      (match v with | some v => sliceItem E slices it s v | none => Item.it s).text.toList := by
  cases v with
  | none => simp only [sliceText, Item.text]
  | some v =>
    cases v with
    | label l => simp only [sliceText, sliceItem, Item.text]
    | ref n =>
      simp only [sliceText, sliceItem] at ht ⊢
      cases hs : slices n with
      | none => simp only [Item.text]
      | some d =>
        cases d with
        | label l => simp only [Item.text]
        | valAt d i => simp only [Item.text]
        | lookup m shifts =>
          simp only [hs, Item.Tidy] at ht
          simp only
          rw [lookup_scan (agrees_shift hw shifts) ht.2.1 (Items.tidy_update ht.2.2)]
          simp only [Item.text, String.toList_append, Bool.false_eq_true, if_false]
          simp

theorem slices_text {E : Env V} {slices : String → Option SliceDef} (hw : ∀ d, Word (it d).toList)
    (ss : List (String × Slicer)) : ∀ (dims : List String), (sliceItems E slices it ss (plain it dims)).Tidy →
    dims.map (fun d => sliceText E slices it (it d) (keyed it ss (it d))) =
      (sliceItems E slices it ss (plain it dims)).texts
  | [], _ => rfl
  | d :: ds, ht => by
      simp only [plain, sliceItems, Items.Tidy] at ht
      simp only [List.map_cons, plain, sliceItems, Items.texts]
      rw [slices_text hw ss ds ht.2]
      congr 1
      exact slice_text hw (it d) _ ht.1

mutual
/-- What the code writes is the text of the tree, if names have no braces, commas or backslashes. -/
theorem latex_text {E : Env V} {slices : String → Option SliceDef} {D : List String} (hw : ∀ d, Word (it d).toList) :
    ∀ (t : Ex V), (printed E slices it D t).Tidy it num →
      latex E slices it D num t = ((printed E slices it D t).text it num).toList
  | .num v, _ => by simp only [latex, printed, Text.text]
  | .comp n, _ => by
      simp only [latex, printed]
      cases E.comp n with
      | none => simp only [Text.text]
      | some c =>
        simp only [Text.text]
        rw [← plain_texts, subscript_text, ← String.toList_append]
  | .sliced n ss, ht => by
      simp only [latex, printed] at ht ⊢
      cases hc : E.comp n with
      | none => simp only [Text.text]
      | some c =>
        simp only [hc, Text.Tidy] at ht
        simp only [Text.text]
        rw [slices_text hw ss _ ht.2, subscript_text, ← String.toList_append]
  | .sub n, _ => by simp only [latex, printed, Text.text]
  | .sign o t, ht => by
      simp only [printed, Text.Tidy] at ht
      simp only [latex, printed, Text.text, latex_text hw t ht.2, sign_text, String.toList_append, close_text]
  | .chain t r, ht => by
      simp only [printed] at ht
      have hp := tidy_rest r ht
      simp only [latex, printed]
      rw [latex_text hw t hp.1]
      exact latexRest_text hw r ht
  | .sum t over, ht => by
      simp only [printed, Text.Tidy] at ht
      simp only [latex, printed, Text.text, latex_text hw t ht.2, String.toList_append, close_text]
  | .reduceCarrier t flow, ht => by
      simp only [printed, Text.Tidy] at ht
      simp only [latex, printed, Text.text, latex_text hw t ht.2, String.toList_append, close_text]
  | .cond t c, ht => by
      simp only [printed, Text.Tidy] at ht
      simp only [latex, printed, Text.text, latex_text hw t ht.1, latex_text hw c ht.2, String.toList_append,
        open_text]
  | .roll t shifts, ht => by
      simp only [printed] at ht
      have h1 := Text.tidy_update ht
      simp only [latex, printed, latex_text hw t h1]
      have := text_scan (agrees_shift hw shifts) _ h1 []
      rw [List.append_nil, update_nil, List.append_nil] at this
      exact this
  | .groupSum t g groupDim, ht => by
      simp only [latex, printed] at ht ⊢
      cases hg : E.lookup g with
      | none => simp only [Text.text]
      | some a =>
        simp only [hg, Text.Tidy] at ht
        simp only [latex_text hw t ht.2, Text.text, group_text, lookupText, lookupItems, hg, String.ofList_toList]
        have e : ("\\text{ if } " : String) ++ ("\\textit{" ++ g ++ "}" ++ (plain it a.dims).subscript) =
            "\\text{ if } \\textit{" ++ g ++ "}" ++ (plain it a.dims).subscript := by
          apply String.toList_inj.1
          simp only [String.toList_append, List.append_assoc]
          rw [← List.append_assoc]
          congr 1
        rw [e]
        simp only [String.toList_append, List.append_assoc]
        rfl
  | .groupDatetime t over group, ht => by
      simp only [printed, Text.Tidy] at ht
      simp only [latex, printed, Text.text, latex_text hw t ht.2, String.toList_append, close_text]
  | .sumNextN _ over _, _ => by simp only [latex, printed, Text.text]
  | .select t ls, ht => by
      simp only [printed] at ht
      have h1 := Text.tidy_update ht
      simp only [latex, printed, latex_text hw t h1]
      have h2 := text_scan (agrees_look (E := E) hw ls) _ h1 []
      rw [List.append_nil, update_nil, List.append_nil] at h2
      exact h2
theorem tidy_rest {E : Env V} {slices : String → Option SliceDef} {D : List String} {acc : Text V} :
    ∀ (r : ExRest V), (printedRest E slices it D acc r).Tidy it num → acc.Tidy it num ∧ True
  | .one o t, ht => by
      simp only [printedRest, Text.Tidy] at ht
      exact ⟨ht.1, trivial⟩
  | .more o t r, ht => by
      simp only [printedRest] at ht
      have := (tidy_rest r ht).1
      simp only [Text.Tidy] at this
      exact ⟨this.1, trivial⟩
theorem latexRest_text {E : Env V} {slices : String → Option SliceDef} {D : List String} {acc : Text V}
    (hw : ∀ d, Word (it d).toList) : ∀ (r : ExRest V), (printedRest E slices it D acc r).Tidy it num →
      latexRest E slices it D num (acc.text it num).toList r =
        ((printedRest E slices it D acc r).text it num).toList
  | .one o t, ht => by
      simp only [printedRest, Text.Tidy] at ht
      simp only [latexRest, printedRest, Text.text, latex_text hw t ht.2, String.toList_append]
  | .more o t r, ht => by
      simp only [printedRest] at ht
      have h1 := (tidy_rest r ht).1
      simp only [Text.Tidy] at h1
      simp only [latexRest, printedRest]
      rw [← latexRest_text hw r ht]
      simp only [Text.text, latex_text hw t h1.2, String.toList_append]
end

end LatexIndex
end Calliope
