import Mathlib.Data.List.Nodup
import Verif.Spec.Names
import Verif.Proofs.Runs

/-!
# Proofs about names of solver objects
-/

namespace Calliope
namespace Names

open Runs (Str str join numeral str_eq numeral_inj str_digit)

variable {W : Printing}

/-! ### Labels -/

theorem shown_eq (W : Printing) (c : Coord) : shown W c = labelOf W c := by
  cases c <;> simp [shown, printed, labelOf, str_eq]

theorem restored_plain (L : Lawful W) {c : Coord} (h : Plain c) : restored W c = c := by
  cases c with
  | text s => rfl
  | whole n => rfl
  | time t =>
    simp only [restored, L.back]
    congr 1
    exact Int.mul_ediv_cancel' h

theorem join_eq (ls : List Str) : join ", ".toList ls = [',', ' '].intercalate ls := by
  induction ls with
  | nil => rfl
  | cons a ls ih =>
    cases ls with
    | nil => simp [join, List.intercalate]
    | cons b ls =>
      have : join ", ".toList (a :: b :: ls) = a ++ ", ".toList ++ join ", ".toList (b :: ls) := rfl
      rw [this, ih]
      simp [List.intercalate, List.intersperse]

/-- A text without the separator ends at the first separator. -/
theorem prefix_eq : ∀ {a b r t : Str}, ¬ [',', ' '] <:+: a → ¬ [',', ' '] <:+: b →
    a ++ ',' :: ' ' :: r = b ++ ',' :: ' ' :: t → a = b ∧ r = t
  | [], [], r, t, _, _, h => by simpa using h
  | [], [x], r, t, _, _, h => by
      simp only [List.nil_append, List.cons_append, List.cons.injEq] at h
      exact absurd h.2.1 (by decide)
  | [], x :: y :: b, r, t, _, hb, h => by
      simp only [List.nil_append, List.cons_append, List.cons.injEq] at h
      refine absurd ?_ hb
      rw [← h.1, ← h.2.1]
      exact ⟨[], b, by simp⟩
  | [x], [], r, t, _, _, h => by
      simp only [List.nil_append, List.cons_append, List.cons.injEq] at h
      exact absurd h.2.1 (by decide)
  | x :: y :: a, [], r, t, ha, _, h => by
      simp only [List.nil_append, List.cons_append, List.cons.injEq] at h
      refine absurd ?_ ha
      rw [h.1, h.2.1]
      exact ⟨[], a, by simp⟩
  | x :: a, y :: b, r, t, ha, hb, h => by
      simp only [List.cons_append, List.cons.injEq] at h
      have ha' : ¬ [',', ' '] <:+: a := fun k => ha (k.trans (List.suffix_cons x a).isInfix)
      have hb' : ¬ [',', ' '] <:+: b := fun k => hb (k.trans (List.suffix_cons y b).isInfix)
      obtain ⟨e, f⟩ := prefix_eq ha' hb' h.2
      exact ⟨by rw [h.1, e], f⟩

theorem join_inj : ∀ {as bs : List Str}, as.length = bs.length → (∀ a ∈ as, ¬ [',', ' '] <:+: a) →
    (∀ b ∈ bs, ¬ [',', ' '] <:+: b) → join ", ".toList as = join ", ".toList bs → as = bs
  | [], [], _, _, _, _ => rfl
  | [a], [b], _, _, _, h => by simpa [join] using h
  | a :: a' :: as, b :: b' :: bs, hl, ha, hb, h => by
      have e1 : join ", ".toList (a :: a' :: as) = a ++ ',' :: ' ' :: join ", ".toList (a' :: as) := by
        simp [join]
      have e2 : join ", ".toList (b :: b' :: bs) = b ++ ',' :: ' ' :: join ", ".toList (b' :: bs) := by
        simp [join]
      rw [e1, e2] at h
      obtain ⟨e, f⟩ := prefix_eq (ha a (by simp)) (hb b (by simp)) h
      have := join_inj (by simpa using hl) (fun x hx => ha x (List.mem_cons_of_mem _ hx))
        (fun x hx => hb x (List.mem_cons_of_mem _ hx)) f
      rw [e, this]

theorem sep_infix {s : Str} (h : [',', ' '] <:+: s) : ',' ∈ s := h.subset (by simp)

theorem label_noSep (L : Lawful W) {c : Coord} (h : Plain c) : ¬ [',', ' '] <:+: labelOf W c := by
  cases c with
  | text s => exact h.1
  | whole n =>
    intro k
    have := sep_infix k
    rw [labelOf, ← str_eq] at this
    exact absurd (str_digit n _ this) (by decide)
  | time t => exact fun k => L.comma _ (sep_infix k)

theorem label_noBackslash (L : Lawful W) {c : Coord} (h : Plain c) : '\\' ∉ labelOf W c := by
  cases c with
  | text s => exact h.2
  | whole n =>
    intro k
    rw [labelOf, ← str_eq] at k
    exact absurd (str_digit n _ k) (by decide)
  | time t => exact L.backslash _

theorem label_inj (L : Lawful W) {a b : Coord} (k : SameKind a b) (ha : Plain a) (hb : Plain b)
    (h : labelOf W a = labelOf W b) : a = b := by
  cases a <;> cases b <;> simp only [SameKind] at k
  · rw [labelOf, labelOf] at h; rw [h]
  · rw [labelOf, labelOf] at h; rw [numeral_inj h]
  · rename_i s t
    simp only [labelOf] at h
    have h1 := L.back (s / 60)
    rw [h, L.back] at h1
    have hs : 60 * (s / 60) = s := Int.mul_ediv_cancel' ha
    have ht : 60 * (t / 60) = t := Int.mul_ediv_cancel' hb
    congr 1
    omega

theorem labels_inj (L : Lawful W) {as bs : List Coord} (k : List.Forall₂ SameKind as bs) (ha : ∀ c ∈ as, Plain c)
    (hb : ∀ c ∈ bs, Plain c) (h : as.map (labelOf W) = bs.map (labelOf W)) : as = bs := by
  induction k with
  | nil => rfl
  | cons hk _ ih =>
    simp only [List.map_cons, List.cons.injEq] at h
    rw [label_inj L hk (ha _ (by simp)) (hb _ (by simp)) h.1,
      ih (fun c hc => ha c (List.mem_cons_of_mem _ hc)) (fun c hc => hb c (List.mem_cons_of_mem _ hc)) h.2]

/-! ### Replacing the index -/

theorem subIndex_skip (new t : Str) : ∀ {s : Str}, '[' ∉ s → subIndex new 0 (s ++ t) = s ++ subIndex new 0 t
  | [], _ => rfl
  | c :: s, h => by
      have hc : c ≠ '[' := fun e => h (by simp [e])
      have : indexAt (c :: (s ++ t)) = none := by simp [indexAt, hc]
      rw [List.cons_append, subIndex, this]
      simp only []
      rw [subIndex_skip new t (fun k => h (List.mem_cons_of_mem _ k)), List.cons_append]

theorem digits_close : ∀ {ds : Str} {seen : Bool}, (∀ c ∈ ds, c.isDigit = true) → (seen = true ∨ ds ≠ []) →
    digitsThenClose seen (ds ++ [']']) = some (ds.length + 1)
  | [], seen, _, h => by
      have : seen = true := by simpa using h
      subst this
      rfl
  | c :: ds, seen, hd, _ => by
      rw [List.cons_append, digitsThenClose, if_pos (hd c (by simp)),
        digits_close (fun x hx => hd x (List.mem_cons_of_mem _ hx)) (Or.inl rfl)]
      rfl

theorem subIndex_all (new : Str) : ∀ (s : Str), subIndex new s.length s = []
  | [] => rfl
  | _ :: s => by rw [List.length_cons, subIndex]; exact subIndex_all new s

theorem word_noIndex {n t : Str} (h : Word n) : digitsThenClose false (n ++ ']' :: t) = none := by
  cases n with
  | nil => simp [digitsThenClose]
  | cons c n =>
    have := h.start c (by simp)
    simp [digitsThenClose, this]

theorem str_ne (k : Nat) : str k ≠ [] := by
  intro h
  have := Nat.length_toDigits_pos (b := 10) (n := k)
  rw [str] at h
  rw [h] at this
  exact absurd this (by simp)

/-- The index of an object in its list is replaced, and nothing else. -/
theorem subIndex_container {g n : Str} (hg : Word g) (hn : Word n) (new : Str) (k : Nat) :
    subIndex new 0 (containerName g n k) = inGroup g n ++ new := by
  rw [containerName, subIndex_skip new _ hg.opening]
  have h1 : indexAt ('[' :: (n ++ ']' :: '[' :: (str k ++ [']']))) = none := by
    simp [indexAt, word_noIndex hn]
  rw [subIndex, h1]
  simp only []
  rw [subIndex_skip new _ hn.opening]
  have h2 : indexAt (']' :: '[' :: (str k ++ [']'])) = none := by simp [indexAt]
  rw [subIndex, h2]
  simp only []
  have h3 : indexAt ('[' :: (str k ++ [']'])) = some ((str k).length + 1) := by
    simp only [indexAt, if_pos]
    exact digits_close (fun c hc => str_digit k c hc) (Or.inr (str_ne k))
  rw [subIndex, h3]
  simp only []
  have h4 : subIndex new ((str k).length + 1) (str k ++ [']']) = [] := by
    have := subIndex_all new (str k ++ [']'])
    simpa using this
  rw [h4]
  simp [inGroup]

theorem bracketed_noBackslash {ls : List Str} (h : ∀ l ∈ ls, '\\' ∉ l) : '\\' ∉ bracketed ls := by
  have : ∀ {ls : List Str}, (∀ l ∈ ls, '\\' ∉ l) → '\\' ∉ join ", ".toList ls := by
    intro ls
    induction ls with
    | nil => simp [join]
    | cons a ls ih =>
      intro h
      cases ls with
      | nil => simpa [join] using h
      | cons b ls =>
        have e : join ", ".toList (a :: b :: ls) = a ++ ", ".toList ++ join ", ".toList (b :: ls) := rfl
        rw [e]
        simp only [List.mem_append, not_or]
        exact ⟨⟨h a (by simp), by decide⟩, ih (fun l hl => h l (List.mem_cons_of_mem _ hl))⟩
  intro k
  simp only [bracketed, List.mem_cons, List.mem_append, List.not_mem_nil, or_false] at k
  rcases k with k | k | k
  · exact absurd k (by decide)
  · exact this h k
  · exact absurd k (by decide)

/-- The name of an object that was renamed. -/
theorem name_verbose (L : Lawful W) {g n : Str} (hg : Word g) (hn : Word n) {i : Item}
    (hp : ∀ c ∈ i.coords, Plain c) (h : i.named = some (i.coords.map (labelOf W))) :
    i.name W g n = .ok (fullName (inGroup g n) (i.coords.map (labelOf W))) := by
  rw [Item.name, h]
  cases hl : i.coords.map (labelOf W) with
  | nil =>
    simp only []
    rw [subIndex_container hg hn]
    simp [fullName]
  | cons l ls =>
    simp only []
    have hb : ∀ x ∈ l :: ls, '\\' ∉ x := by
      intro x hx
      rw [← hl] at hx
      obtain ⟨c, hc, rfl⟩ := List.mem_map.1 hx
      exact label_noBackslash L (hp c hc)
    rw [L.plain _ (bracketed_noBackslash hb)]
    simp only []
    rw [subIndex_container hg hn, fullName, if_neg (by simp), bracketed, join_eq]
    simp

theorem name_default {g n : Str} {i : Item} (h : i.named = none) :
    i.name W g n = .ok (fullName (inGroup g n) [numeral i.pos]) := by
  rw [Item.name, h]
  simp only [containerName, fullName, inGroup, str_eq]
  simp

/-! ### Names tell components apart -/

theorem split_at {c : Char} : ∀ {a b s t : Str}, c ∉ a → c ∉ b → a ++ c :: s = b ++ c :: t → a = b ∧ s = t
  | [], [], s, t, _, _, h => by simpa using h
  | [], y :: b, s, t, _, hb, h => by
      simp only [List.nil_append, List.cons_append, List.cons.injEq] at h
      exact absurd (by simp [h.1]) hb
  | x :: a, [], s, t, ha, _, h => by
      simp only [List.nil_append, List.cons_append, List.cons.injEq] at h
      exact absurd (by simp [h.1]) ha
  | x :: a, y :: b, s, t, ha, hb, h => by
      simp only [List.cons_append, List.cons.injEq] at h
      obtain ⟨e, f⟩ := split_at (fun k => ha (List.mem_cons_of_mem _ k)) (fun k => hb (List.mem_cons_of_mem _ k)) h.2
      exact ⟨by rw [h.1, e], f⟩

theorem fullName_split {g n g' n' : Str} (hg : Word g) (hn : Word n) (hg' : Word g') (hn' : Word n')
    {ls ls' : List Str} (h : fullName (inGroup g n) ls = fullName (inGroup g' n') ls') :
    g = g' ∧ n = n' ∧ fullName [] ls = fullName [] ls' := by
  have e : ∀ (g n : Str) (ls : List Str), fullName (inGroup g n) ls = g ++ '[' :: (n ++ ']' :: fullName [] ls) := by
    intro g n ls
    by_cases hl : ls = [] <;> simp [fullName, inGroup, hl]
  rw [e, e] at h
  obtain ⟨e1, f1⟩ := split_at hg.opening hg'.opening h
  obtain ⟨e2, f2⟩ := split_at hn.closing hn'.closing f1
  exact ⟨e1, e2, f2⟩

theorem fullName_inj {as bs : List Str} (hl : as.length = bs.length) (ha : ∀ a ∈ as, ¬ [',', ' '] <:+: a)
    (hb : ∀ b ∈ bs, ¬ [',', ' '] <:+: b) (h : fullName [] as = fullName [] bs) : as = bs := by
  cases as with
  | nil =>
    cases bs with
    | nil => rfl
    | cons b bs => simp at hl
  | cons a as =>
    cases bs with
    | nil => simp at hl
    | cons b bs =>
      rw [fullName, if_neg (by simp), fullName, if_neg (by simp)] at h
      have h' : [',', ' '].intercalate (a :: as) = [',', ' '].intercalate (b :: bs) := by simpa using h
      rw [← join_eq, ← join_eq] at h'
      exact join_inj hl ha hb h'

/-! ### Histories -/

/-- What is true of each component. -/
structure Good (W : Printing) (n : Str) (c : Comp) : Prop where
  name : Word n
  group : Word c.group
  shape : Shaped (c.items.map Item.coords)
  plain : ∀ i ∈ c.items, ∀ x ∈ i.coords, Plain x
  pos : ∀ i ∈ c.items, ∀ j ∈ c.items, i.pos = j.pos → i = j
  plainNames : c.flag = false → ∀ i ∈ c.items, i.named = none
  fullNames : c.flag = true → ∀ i ∈ c.items, i.named = some (i.coords.map (labelOf W))

structure Inv (W : Printing) (s : State) : Prop where
  good : ∀ x ∈ s.comps, Good W x.1 x.2
  distinct : (s.comps.map Prod.fst).Nodup

theorem newItems_coords : ∀ (k : Nat) (cs : List (List Coord)), (newItems k cs).map Item.coords = cs
  | _, [] => rfl
  | k, c :: cs => by simp [newItems, newItems_coords (k + 1) cs]

theorem newItems_named : ∀ (k : Nat) (cs : List (List Coord)), ∀ i ∈ newItems k cs, i.named = none ∧ k ≤ i.pos
  | _, [], i, h => by simp [newItems] at h
  | k, c :: cs, i, h => by
      simp only [newItems, List.mem_cons] at h
      rcases h with rfl | h
      · exact ⟨rfl, Nat.le_refl _⟩
      · have := newItems_named (k + 1) cs i h
        exact ⟨this.1, by omega⟩

theorem newItems_pos : ∀ (k : Nat) (cs : List (List Coord)), ∀ i ∈ newItems k cs, ∀ j ∈ newItems k cs,
    i.pos = j.pos → i = j
  | _, [], i, h, _, _, _ => by simp [newItems] at h
  | k, c :: cs, i, hi, j, hj, e => by
      simp only [newItems, List.mem_cons] at hi hj
      rcases hi with rfl | hi <;> rcases hj with rfl | hj
      · rfl
      · have := (newItems_named (k + 1) cs j hj).2
        simp only [] at e
        omega
      · have := (newItems_named (k + 1) cs i hi).2
        simp only [] at e
        omega
      · exact newItems_pos (k + 1) cs i hi j hj e

theorem good_new {m : Made} (h : Proper m) : Good W m.name ⟨m.group, newItems 0 m.coords, false⟩ where
  name := h.name
  group := h.group
  shape := by rw [newItems_coords]; exact h.shape
  plain := by
    intro i hi x hx
    have : i.coords ∈ m.coords := by
      rw [← newItems_coords 0 m.coords]
      exact List.mem_map_of_mem hi
    exact h.plain _ this x hx
  pos := newItems_pos 0 m.coords
  plainNames := fun _ i hi => (newItems_named 0 m.coords i hi).1
  fullNames := fun k => by simp at k

theorem inv_add {s : State} (I : Inv W s) {m : Made} (h : Proper m) : Inv W (s.add m) := by
  unfold State.add
  split
  · exact I
  · rename_i hc
    refine ⟨?_, ?_⟩
    · intro x hx
      rcases List.mem_append.1 hx with hx | hx
      · exact I.good x hx
      · rw [List.mem_singleton.1 hx]
        exact good_new h
    · simp only [List.map_append, List.map_cons, List.map_nil]
      refine List.nodup_append.2 ⟨I.distinct, by simp, ?_⟩
      intro a ha b hb
      rw [List.mem_singleton.1 hb]
      rintro rfl
      exact hc (List.contains_iff_mem.2 ha)

theorem inv_delete {s : State} (I : Inv W s) (n g : Str) : Inv W (s.delete n g) :=
  ⟨fun x hx => I.good x (List.mem_filter.1 hx).1,
    I.distinct.sublist (List.Sublist.map _ List.filter_sublist)⟩

theorem recoord_good (L : Lawful W) {c : Comp} (h : ∀ i ∈ c.items, ∀ x ∈ i.coords, Plain x) : recoord W c = c := by
  have : c.items.map (fun i => { i with coords := i.coords.map (restored W) }) = c.items := by
    conv_rhs => rw [← List.map_id c.items]
    refine List.map_congr_left fun i hi => ?_
    have : i.coords.map (restored W) = i.coords := by
      conv_rhs => rw [← List.map_id i.coords]
      exact List.map_congr_left fun x hx => restored_plain L (h i hi x hx)
    simp [this]
  rw [recoord, this]

theorem rename_items (W : Printing) (c : Comp) : ∀ i ∈ (rename W c).items, ∃ j ∈ c.items,
    i.pos = j.pos ∧ i.coords = j.coords := by
  intro i hi
  unfold rename at hi
  split at hi
  · obtain ⟨j, hj, rfl⟩ := List.mem_map.1 hi
    exact ⟨j, hj, rfl, rfl⟩
  · exact ⟨i, hi, rfl, rfl⟩

theorem good_rename {n : Str} {c : Comp} (G : Good W n c) : Good W n (rename W c) := by
  unfold rename
  split
  · rename_i hc
    refine ⟨G.name, G.group, ?_, ?_, ?_, ?_, ?_⟩
    · have : (c.items.map (fun i => { i with named := some (i.coords.map (shown W)) })).map Item.coords =
          c.items.map Item.coords := by simp [Function.comp_def]
      simp only [this]
      exact G.shape
    · intro i hi
      obtain ⟨j, hj, rfl⟩ := List.mem_map.1 hi
      exact G.plain j hj
    · intro i hi j hj e
      obtain ⟨i', hi', rfl⟩ := List.mem_map.1 hi
      obtain ⟨j', hj', rfl⟩ := List.mem_map.1 hj
      rw [G.pos i' hi' j' hj' e]
    · intro k
      simp at k
    · intro _ i hi
      obtain ⟨j, hj, rfl⟩ := List.mem_map.1 hi
      simp only [Option.some.injEq]
      exact List.map_congr_left fun x _ => shown_eq W x
  · exact G

theorem verbose_comps (L : Lawful W) {s : State} (I : Inv W s) :
    (s.verboseStrings W).comps = s.comps.map (fun x => (x.1, rename W x.2)) := by
  unfold State.verboseStrings
  refine List.map_congr_left fun x hx => ?_
  rw [recoord_good L (good_rename (I.good x hx)).plain]

theorem inv_verbose (L : Lawful W) {s : State} (I : Inv W s) : Inv W (s.verboseStrings W) := by
  refine ⟨?_, ?_⟩
  · intro x hx
    rw [verbose_comps L I] at hx
    obtain ⟨y, hy, rfl⟩ := List.mem_map.1 hx
    exact good_rename (I.good y hy)
  · rw [verbose_comps L I]
    simpa [Function.comp_def] using I.distinct

theorem inv_fold {s : State} (I : Inv W s) : ∀ {made : List Made}, (∀ m ∈ made, Proper m) →
    Inv W (made.foldl (fun s m => (s.delete m.name m.group).add m) s) := by
  intro made
  induction made generalizing s with
  | nil => exact fun _ => I
  | cons m made ih =>
    intro h
    exact ih (inv_add (inv_delete I _ _) (h m (by simp))) (fun x hx => h x (List.mem_cons_of_mem _ hx))

theorem inv_step (L : Lawful W) {s : State} (I : Inv W s) {c : Call} (h : AllMade Proper c) : Inv W (s.step W c) := by
  cases c with
  | add m => exact inv_add I h
  | delete n g => exact inv_delete I n g
  | verbose => exact inv_verbose L I
  | update made =>
    cases made with
    | none => exact I
    | some made =>
      simp only [State.step, State.rebuild]
      split
      · exact inv_verbose L (inv_fold I h)
      · exact inv_fold I h

theorem inv_run (L : Lawful W) {cs : List Call} : ∀ {s : State}, Inv W s → (∀ c ∈ cs, AllMade Proper c) →
    Inv W (s.run W cs) := by
  induction cs with
  | nil => exact fun I _ => I
  | cons c cs ih =>
    intro s I h
    exact ih (inv_step L I (h c (by simp))) (fun x hx => h x (List.mem_cons_of_mem _ hx))

theorem inv_empty : Inv W State.empty := ⟨fun _ h => by simp [State.empty] at h, by simp [State.empty]⟩

/-- All components with solver objects are renamed. -/
def Full (s : State) : Prop := s.verbose = true ∧ ∀ x ∈ s.comps, Objects x.2 → x.2.flag = true

theorem rename_flag (W : Printing) {c : Comp} (h : Objects (rename W c)) : (rename W c).flag = true := by
  unfold rename at h ⊢
  split
  · rfl
  · rename_i hc
    rw [if_neg hc] at h
    simp only [Bool.and_eq_true, Bool.not_eq_true', not_and, Bool.not_eq_false] at hc
    exact hc (List.contains_iff_mem.2 h)

theorem full_verbose (W : Printing) (s : State) : Full (s.verboseStrings W) := by
  refine ⟨rfl, ?_⟩
  intro x hx ho
  obtain ⟨y, _, rfl⟩ := List.mem_map.1 hx
  exact rename_flag W (c := y.2) ho

theorem fold_verbose (made : List Made) : ∀ s : State,
    (made.foldl (fun s m => (s.delete m.name m.group).add m) s).verbose = s.verbose := by
  induction made with
  | nil => exact fun _ => rfl
  | cons m made ih =>
    intro s
    rw [List.foldl_cons, ih]
    unfold State.add
    split <;> rfl

theorem full_step {s : State} (F : Full s) {c : Call} (h : NoAdd c) : Full (s.step W c) := by
  cases c with
  | add m => exact absurd h (by simp [NoAdd])
  | delete n g => exact ⟨F.1, fun x hx => F.2 x (List.mem_filter.1 hx).1⟩
  | verbose => exact full_verbose W s
  | update made =>
    cases made with
    | none => exact F
    | some made =>
      simp only [State.step, State.rebuild, F.1, if_true]
      exact full_verbose W _

theorem full_run {cs : List Call} : ∀ {s : State}, Full s → (∀ c ∈ cs, NoAdd c) → Full (s.run W cs) := by
  induction cs with
  | nil => exact fun F _ => F
  | cons c cs ih =>
    intro s F h
    exact ih (full_step F (h c (by simp))) (fun x hx => h x (List.mem_cons_of_mem _ hx))

theorem run_append (W : Printing) (as bs : List Call) : ∀ s : State, s.run W (as ++ bs) = (s.run W as).run W bs := by
  induction as with
  | nil => exact fun _ => rfl
  | cons a as ih => exact fun s => ih _

theorem forall₂_length {as bs : List Coord} (h : List.Forall₂ SameKind as bs) : as.length = bs.length := by
  induction h with
  | nil => rfl
  | cons _ _ ih => simp [ih]

/-- Objects with the same name are the same. -/
theorem identify (L : Lawful W) {s : State} (I : Inv W s) {n n' : Str} {c c' : Comp} {i j : Item} (hi : Held s n c i)
    (hj : Held s n' c' j) (h : i.name W c.group n = j.name W c'.group n') : n = n' ∧ c = c' ∧ i.coords = j.coords := by
  have G : Good W n c := I.good _ hi.1
  have G' : Good W n' c' := I.good _ hj.1
  have one : ∀ {n : Str} {c : Comp} {i : Item}, Good W n c → i ∈ c.items →
      i.name W c.group n = .ok (fullName (inGroup c.group n)
        (if c.flag then i.coords.map (labelOf W) else [numeral i.pos])) := by
    intro n c i G hi
    cases hf : c.flag with
    | false => exact name_default (G.plainNames hf i hi)
    | true => exact name_verbose L G.group G.name (G.plain i hi) (G.fullNames hf i hi)
  rw [one G hi.2, one G' hj.2] at h
  have h' := Except.ok.inj h
  obtain ⟨_, hn, hf⟩ := fullName_split G.group G.name G'.group G'.name h'
  have hc : c = c' := by
    have h1 := hi.1
    have h2 := hj.1
    rw [← hn] at h2
    have := List.inj_on_of_nodup_map I.distinct h1 h2 rfl
    exact (Prod.mk.inj this).2
  subst hc
  subst hn
  refine ⟨rfl, rfl, ?_⟩
  have k : List.Forall₂ SameKind i.coords j.coords :=
    G.shape _ (List.mem_map_of_mem hi.2) _ (List.mem_map_of_mem hj.2)
  cases hfl : c.flag with
  | true =>
    simp only [hfl, if_true] at hf
    have e := fullName_inj (by simpa using forall₂_length k)
      (by
        intro a ha
        obtain ⟨x, hx, rfl⟩ := List.mem_map.1 ha
        exact label_noSep L (G.plain i hi.2 x hx))
      (by
        intro a ha
        obtain ⟨x, hx, rfl⟩ := List.mem_map.1 ha
        exact label_noSep L (G.plain j hj.2 x hx)) hf
    exact labels_inj L k (G.plain i hi.2) (G.plain j hj.2) e
  | false =>
    simp only [hfl] at hf
    have e := fullName_inj (as := [numeral i.pos]) (bs := [numeral j.pos]) rfl
      (by
        intro a ha
        rw [List.mem_singleton.1 ha]
        exact label_noSep L (c := .whole i.pos) trivial)
      (by
        intro a ha
        rw [List.mem_singleton.1 ha]
        exact label_noSep L (c := .whole j.pos) trivial) (by simpa using hf)
    rw [G.pos i hi.2 j hj.2 (numeral_inj (by simpa using e))]

end Names
end Calliope
