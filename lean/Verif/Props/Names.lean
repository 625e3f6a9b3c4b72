import Verif.Proofs.Names

/-!
# C98: names of solver objects

With verbose strings, a name such as `variables[flow_cap][a, b]` says which object it is, and objects keep such names
when inputs are updated.

That is so with Pyomo, if no label has a comma followed by a blank, and times are on whole minutes.  Otherwise different
objects have the same name (`C98_ambiguous`), and asking for verbose strings changes the times of the backend
(`C98_seconds`).  With Gurobi, verbose strings are an error if a dimension is of numbers, as `clusters` is
(`C98_gurobi_number`), and are lost when inputs are updated (`C98_gurobi_update`).
-/

namespace Calliope
namespace Names

open Runs (Str numeral)

section

variable {W : Printing}

/-- Whatever was done, two objects of the backend with the same name are of the same component, at the same
coordinates. -/
theorem C98_identify_partial (L : Lawful W) (calls : List Call) (hc : ∀ c ∈ calls, AllMade Proper c)
    {n n' : Str} {c c' : Comp} {i j : Item} (hi : Held (State.empty.run W calls) n c i)
    (hj : Held (State.empty.run W calls) n' c' j) (h : i.name W c.group n = j.name W c'.group n') :
    n = n' ∧ c = c' ∧ i.coords = j.coords :=
  identify L (inv_run L inv_empty hc) hi hj h

/-- After `verbose_strings`, and any deletions and updates after it, each object is named by its component and its
coordinates. -/
theorem C98_verbose (L : Lawful W) (before after : List Call) (hb : ∀ c ∈ before, AllMade Proper c)
    (ha : ∀ c ∈ after, AllMade Proper c) (hn : ∀ c ∈ after, NoAdd c) {n : Str} {c : Comp} {i : Item}
    (hi : Held (State.empty.run W (before ++ .verbose :: after)) n c i) (ho : Objects c) :
    i.name W c.group n = .ok (fullName (inGroup c.group n) (i.coords.map (labelOf W))) := by
  have I : Inv W (State.empty.run W (before ++ .verbose :: after)) := inv_run L inv_empty (by
    intro x hx
    rcases List.mem_append.1 hx with hx | hx
    · exact hb x hx
    · rcases List.mem_cons.1 hx with rfl | hx
      · trivial
      · exact ha x hx)
  have F : Full (State.empty.run W (before ++ .verbose :: after)) := by
    rw [run_append]
    exact full_run (s := (State.empty.run W before).step W .verbose) (full_verbose W _) hn
  have G : Good W n c := I.good _ hi.1
  exact name_verbose L G.group G.name (G.plain i hi.2) (G.fullNames (F.2 _ hi.1 ho) i hi.2)

/-- A component that is added later has plain names, until verbose strings are asked for again. -/
theorem C98_added (L : Lawful W) (before : List Call) (hb : ∀ c ∈ before, AllMade Proper c) (m : Made) (hm : Proper m)
    (new : m.name ∉ (State.empty.run W before).comps.map Prod.fst) :
    (∃ c, (m.name, c) ∈ (State.empty.run W (before ++ [.verbose, .add m])).comps ∧
      c.items.map Item.coords = m.coords ∧
      ∀ i ∈ c.items, i.name W c.group m.name = .ok (fullName (inGroup m.group m.name) [numeral i.pos])) ∧
    (∀ c i, Held (State.empty.run W (before ++ [.verbose, .add m, .verbose])) m.name c i → Objects c →
      i.name W c.group m.name = .ok (fullName (inGroup c.group m.name) (i.coords.map (labelOf W)))) := by
  refine ⟨?_, ?_⟩
  · rw [run_append]
    have I := inv_run L (cs := before) inv_empty hb
    have e : ((State.empty.run W before).run W [.verbose, .add m]) =
        ((State.empty.run W before).verboseStrings W).add m := rfl
    have hnot : (((State.empty.run W before).verboseStrings W).comps.map Prod.fst).contains m.name = false := by
      rw [verbose_comps L I, Bool.eq_false_iff]
      intro k
      have := List.contains_iff_mem.1 k
      simp only [List.map_map, Function.comp_def] at this
      exact new this
    refine ⟨⟨m.group, newItems 0 m.coords, false⟩, ?_, newItems_coords 0 m.coords, ?_⟩
    · rw [e, State.add, hnot]
      simp
    · intro i hi
      exact name_default (newItems_named 0 m.coords i hi).1
  · intro c i hi ho
    have := C98_verbose L (before ++ [.verbose, .add m]) [] (by
      intro x hx
      rcases List.mem_append.1 hx with hx | hx
      · exact hb x hx
      · simp only [List.mem_cons, List.not_mem_nil, or_false] at hx
        rcases hx with rfl | rfl
        · trivial
        · exact hm) (by simp) (by simp) (n := m.name) (c := c) (i := i)
    simp only [List.append_assoc, List.cons_append, List.nil_append] at this
    exact this hi ho

/-- Deleting a component leaves all others as they are; a name of another group is left alone. -/
theorem C98_deleted (s : State) (n g : Str) (x : Str × Comp) :
    x ∈ (s.step W (.delete n g)).comps ↔ x ∈ s.comps ∧ ¬ (x.1 = n ∧ x.2.group = g) := by
  simp only [State.step, State.delete, List.mem_filter, Bool.not_eq_true', Bool.and_eq_false_iff, beq_eq_false_iff_ne]
  tauto

/-- With Gurobi too. -/
theorem C98_gurobi_deleted (s : List (Str × GComp)) (n g : Str) (x : Str × GComp) :
    x ∈ gDelete s n g ↔ x ∈ s ∧ ¬ (x.1 = n ∧ x.2.group = g) := by
  simp only [gDelete, List.mem_filter, Bool.not_eq_true', Bool.and_eq_false_iff, beq_eq_false_iff_ne]
  tauto

/-- Labels with a comma and a blank: two different objects have the same name. -/
theorem C98_ambiguous (L : Lawful W) : ∃ (m : Made) (c : Comp) (i j : Item),
    Word m.name ∧ Word m.group ∧ Shaped m.coords ∧ m.coords.Nodup ∧
    Held (State.empty.run W [.add m, .verbose]) m.name c i ∧ Held (State.empty.run W [.add m, .verbose]) m.name c j ∧
    i.coords ≠ j.coords ∧ i.name W c.group m.name = j.name W c.group m.name := by
  refine ⟨⟨"flow".toList, "variables".toList,
    [[.text "a, b".toList, .text "c".toList], [.text "a".toList, .text "b, c".toList]]⟩,
    ⟨"variables".toList,
      [⟨0, [.text "a, b".toList, .text "c".toList], some ["a, b".toList, "c".toList]⟩,
       ⟨1, [.text "a".toList, .text "b, c".toList], some ["a".toList, "b, c".toList]⟩], true⟩,
    ⟨0, [.text "a, b".toList, .text "c".toList], some ["a, b".toList, "c".toList]⟩,
    ⟨1, [.text "a".toList, .text "b, c".toList], some ["a".toList, "b, c".toList]⟩, ?_, ?_, ?_, ?_, ?_, ?_, ?_, ?_⟩
  · exact ⟨by decide, by decide, by simp⟩
  · exact ⟨by decide, by decide, by simp⟩
  · intro a ha b hb
    simp only [List.mem_cons, List.not_mem_nil, or_false] at ha hb
    rcases ha with rfl | rfl <;> rcases hb with rfl | rfl <;>
      exact .cons trivial (.cons trivial .nil)
  · decide
  · exact ⟨by
      simp [State.run, State.step, State.add, State.verboseStrings, State.empty, rename, recoord, renamedGroups, newItems,
        shown, printed, restored], by simp⟩
  · exact ⟨by
      simp [State.run, State.step, State.add, State.verboseStrings, State.empty, rename, recoord, renamedGroups, newItems,
        shown, printed, restored], by simp⟩
  · decide
  · simp only [Item.name]
    rw [L.plain _ (by decide), L.plain _ (by decide)]
    simp only []
    rw [subIndex_container ⟨by decide, by decide, by simp⟩ ⟨by decide, by decide, by simp⟩,
      subIndex_container ⟨by decide, by decide, by simp⟩ ⟨by decide, by decide, by simp⟩]
    decide

/-- Asking for verbose strings changes the times in the backend to whole minutes. -/
theorem C98_seconds (L : Lawful W) (s : State) (n : Str) (c : Comp) (i : Item) (hi : Held s n c i) (t : Int)
    (ht : .time t ∈ i.coords) :
    ∃ c' i', Held (s.verboseStrings W) n c' i' ∧ i'.pos = i.pos ∧ .time (60 * (t / 60)) ∈ i'.coords ∧
      i'.coords.length = i.coords.length ∧ (¬ 60 ∣ t → i.coords = [.time t] → i'.coords ≠ i.coords) := by
  refine ⟨recoord W (rename W c), ?_⟩
  have hmem : (n, recoord W (rename W c)) ∈ (s.verboseStrings W).comps :=
    List.mem_map.2 ⟨(n, c), hi.1, rfl⟩
  have hj : ∃ j ∈ (rename W c).items, j.pos = i.pos ∧ j.coords = i.coords := by
    unfold rename
    split
    · exact ⟨_, List.mem_map_of_mem hi.2, rfl, rfl⟩
    · exact ⟨i, hi.2, rfl, rfl⟩
  obtain ⟨j, hj, e1, e2⟩ := hj
  have hr : restored W (.time t) = .time (60 * (t / 60)) := by simp only [restored, L.back]
  refine ⟨{ j with coords := j.coords.map (restored W) }, ⟨hmem, List.mem_map_of_mem hj⟩, e1, ?_, ?_, ?_⟩
  · simp only [e2]
    exact List.mem_map.2 ⟨_, ht, hr⟩
  · simp [e2]
  · intro hd hc h
    simp only [e2, hc, List.map_cons, List.map_nil, hr, List.cons.injEq, Coord.time.injEq, and_true] at h
    exact hd ⟨t / 60, h.symm⟩

/-! ### Gurobi -/

/-- A coordinate that is no number. -/
def NoNumber : Coord → Prop
  | .whole _ => False
  | _ => True

/-- The components that are renamed. -/
def Waiting (c : GComp) : Prop :=
  c.group ∈ ["variables".toList, "constraints".toList, "piecewise_constraints".toList] ∧ c.flag = false

theorem texts_ok {cs : List Coord} (h : ∀ c ∈ cs, NoNumber c) : texts W cs = .ok (cs.map (labelOf W)) := by
  induction cs with
  | nil => rfl
  | cons c cs ih =>
    have hc := h c (by simp)
    have := ih (fun x hx => h x (List.mem_cons_of_mem _ hx))
    cases c with
    | text s => simp [texts, printed, this, labelOf]
    | whole n => exact absurd hc (by simp [NoNumber])
    | time t => simp [texts, printed, this, labelOf]

theorem texts_error {cs : List Coord} (h : ¬ ∀ c ∈ cs, NoNumber c) : texts W cs = .error .typeError := by
  induction cs with
  | nil => exact absurd (by simp) h
  | cons c cs ih =>
    cases c with
    | whole n => rfl
    | text s =>
      have : ¬ ∀ c ∈ cs, NoNumber c := fun k => h (by
        intro x hx
        rcases List.mem_cons.1 hx with rfl | hx
        · trivial
        · exact k x hx)
      simp [texts, printed, ih this]
    | time t =>
      have : ¬ ∀ c ∈ cs, NoNumber c := fun k => h (by
        intro x hx
        rcases List.mem_cons.1 hx with rfl | hx
        · trivial
        · exact k x hx)
      simp [texts, printed, ih this]

theorem gItems_ok {n : Str} {is : List GItem} (h : ∀ i ∈ is, ∀ c ∈ i.coords, NoNumber c) :
    gRenameItems W n is = (is.map (fun i => ⟨i.coords, some (n ++ bracketed (i.coords.map (labelOf W)))⟩), .ok ()) := by
  induction is with
  | nil => rfl
  | cons i is ih =>
    have := ih (fun x hx => h x (List.mem_cons_of_mem _ hx))
    simp [gRenameItems, texts_ok (h i (by simp)), this]

theorem gItems_error {n : Str} {is : List GItem} (h : ¬ ∀ i ∈ is, ∀ c ∈ i.coords, NoNumber c) :
    (gRenameItems W n is).2 = .error .typeError := by
  induction is with
  | nil => exact absurd (by simp) h
  | cons i is ih =>
    by_cases hi : ∀ c ∈ i.coords, NoNumber c
    · have : ¬ ∀ i ∈ is, ∀ c ∈ i.coords, NoNumber c := fun k => h (by
        intro x hx
        rcases List.mem_cons.1 hx with rfl | hx
        · exact hi
        · exact k x hx)
      simp [gRenameItems, texts_ok hi, ih this]
    · simp [gRenameItems, texts_error hi]

theorem waiting_iff {c : GComp} : (gRenamedGroups.contains c.group && !c.flag) = true ↔ Waiting c := by
  rw [Bool.and_eq_true, List.contains_iff_mem, Bool.not_eq_true']
  rfl

/-- The object after it was renamed, if it is. -/
theorem gRename_ok {n : Str} {c : GComp} (h : Waiting c → ∀ i ∈ c.items, ∀ x ∈ i.coords, NoNumber x) :
    (gRename W n c).2 = .ok () ∧ (Waiting c → (gRename W n c).1.items =
      c.items.map (fun i => ⟨i.coords, some (n ++ bracketed (i.coords.map (labelOf W)))⟩)) := by
  by_cases hw : Waiting c
  · rw [gRename, if_pos (waiting_iff.2 hw), gItems_ok (h hw)]
    exact ⟨rfl, fun _ => rfl⟩
  · rw [gRename, if_neg (fun k => hw (waiting_iff.1 k))]
    exact ⟨rfl, fun k => absurd k hw⟩

theorem gRename_error {n : Str} {c : GComp} (hw : Waiting c) (h : ¬ ∀ i ∈ c.items, ∀ x ∈ i.coords, NoNumber x) :
    (gRename W n c).2 = .error .typeError := by
  rw [gRename, if_pos (waiting_iff.2 hw)]
  have := gItems_error (W := W) (n := n) h
  cases hr : gRenameItems W n c.items with
  | mk is r =>
    rw [hr] at this
    subst this
    rfl

theorem gAll_ok {s : List (Str × GComp)} (h : ∀ x ∈ s, Waiting x.2 → ∀ i ∈ x.2.items, ∀ c ∈ i.coords, NoNumber c) :
    gRenameAll W s = (s.map (fun x => (x.1, (gRename W x.1 x.2).1)), .ok ()) := by
  induction s with
  | nil => rfl
  | cons x s ih =>
    obtain ⟨n, c⟩ := x
    have h1 := (gRename_ok (W := W) (n := n) (h (n, c) (by simp))).1
    have h2 := ih (fun y hy => h y (List.mem_cons_of_mem _ hy))
    rw [gRenameAll]
    cases hr : gRename W n c with
    | mk c' r =>
      rw [hr] at h1
      subst h1
      simp [h2, hr]

theorem gAll_error {s : List (Str × GComp)}
    (h : ¬ ∀ x ∈ s, Waiting x.2 → ∀ i ∈ x.2.items, ∀ c ∈ i.coords, NoNumber c) :
    (gRenameAll W s).2 = .error .typeError := by
  induction s with
  | nil => exact absurd (by simp) h
  | cons x s ih =>
    obtain ⟨n, c⟩ := x
    rw [gRenameAll]
    by_cases hx : Waiting c → ∀ i ∈ c.items, ∀ y ∈ i.coords, NoNumber y
    · have h1 := (gRename_ok (W := W) (n := n) hx).1
      have : ¬ ∀ x ∈ s, Waiting x.2 → ∀ i ∈ x.2.items, ∀ c ∈ i.coords, NoNumber c := fun k => h (by
        intro y hy
        rcases List.mem_cons.1 hy with rfl | hy
        · exact hx
        · exact k y hy)
      cases hr : gRename W n c with
      | mk c' r =>
        rw [hr] at h1
        subst h1
        simp [ih this]
    · have hw : Waiting c := by
        by_contra k
        exact hx (fun w => absurd w k)
      have h1 := gRename_error (W := W) (n := n) hw (fun k => hx (fun _ => k))
      cases hr : gRename W n c with
      | mk c' r =>
        rw [hr] at h1
        subst h1
        rfl

/-- With Gurobi, if no dimension is of numbers, `verbose_strings` names each object that has no name yet by its
component and its coordinates, and says so in the attribute `coords_in_name`. -/
theorem C98_gurobi_partial (s : List (Str × GComp))
    (h : ∀ x ∈ s, Waiting x.2 → ∀ i ∈ x.2.items, ∀ c ∈ i.coords, NoNumber c) {n : Str} {c : GComp} (hc : (n, c) ∈ s)
    (hw : Waiting c) : (gVerboseStrings W s).2 = .ok () ∧
    ∃ c', (n, c') ∈ (gVerboseStrings W s).1 ∧ c'.flag = true ∧ c'.items.map GItem.name =
      c.items.map (fun i => some (n ++ "[".toList ++ [',', ' '].intercalate (i.coords.map (labelOf W)) ++ "]".toList)) := by
  rw [gVerboseStrings, gAll_ok h]
  refine ⟨rfl, gRecoord W (gRename W n c).1, ?_, ?_, ?_⟩
  · simp only [List.map_map]
    exact List.mem_map.2 ⟨(n, c), hc, rfl⟩
  · rw [gRecoord]
    simp only []
    rw [gRename, if_pos (waiting_iff.2 hw), gItems_ok (h _ hc hw)]
  · rw [gRecoord]
    simp only []
    rw [(gRename_ok (W := W) (n := n) (h _ hc)).2 hw]
    simp only [List.map_map, Function.comp_def, bracketed, join_eq]
    simp

/-- With Gurobi, `verbose_strings` raises if an object that has no name yet has a number among its coordinates. -/
theorem C98_gurobi_number (s : List (Str × GComp)) {n : Str} {c : GComp} (hc : (n, c) ∈ s) (hw : Waiting c)
    {i : GItem} (hi : i ∈ c.items) {k : Nat} (hk : .whole k ∈ i.coords) :
    (gVerboseStrings W s).2 = .error .typeError := by
  rw [gVerboseStrings]
  exact gAll_error fun h => absurd (h _ hc hw i hi _ hk) (by simp [NoNumber])

/-- With Gurobi, the objects of components that `update_input` builds again have no name, whether verbose strings were
asked for or not. -/
theorem C98_gurobi_update (s : List (Str × GComp)) (made : List Made) (m : Made) (hm : m ∈ made)
    (hd : (made.map Made.name).Nodup) (there : ∀ c, (m.name, c) ∈ s → c.group = m.group) :
    ∃ c, (m.name, c) ∈ gUpdate s made ∧ c.items.map GItem.coords = m.coords ∧ ∀ i ∈ c.items, i.name = none := by
  induction made generalizing s with
  | nil => simp at hm
  | cons x made ih =>
    simp only [List.map_cons, List.nodup_cons] at hd
    rw [gUpdate, List.foldl_cons]
    rcases List.mem_cons.1 hm with rfl | hm
    · have hn : ((gDelete s m.name m.group).map Prod.fst).contains m.name = false := by
        rw [Bool.eq_false_iff]
        intro k
        obtain ⟨y, hy, e⟩ := List.mem_map.1 (List.contains_iff_mem.1 k)
        obtain ⟨hy, hf⟩ := List.mem_filter.1 hy
        have := there y.2 (by rw [← e]; exact hy)
        simp [e, this] at hf
      have keep : ∀ (made : List Made) (s : List (Str × GComp)) (c : GComp), m.name ∉ made.map Made.name →
          (m.name, c) ∈ s → (m.name, c) ∈ made.foldl (fun s m => gAdd (gDelete s m.name m.group) m) s := by
        intro made
        induction made with
        | nil => exact fun _ _ _ h => h
        | cons y made ih =>
          intro s c hy h
          simp only [List.map_cons, List.mem_cons, not_or] at hy
          refine ih _ c hy.2 ?_
          have : (m.name, c) ∈ gDelete s y.name y.group := List.mem_filter.2 ⟨h, by simp [hy.1]⟩
          show (m.name, c) ∈ gAdd (gDelete s y.name y.group) y
          unfold gAdd
          split
          · exact this
          · exact List.mem_append_left _ this
      refine ⟨⟨m.group, m.coords.map (fun c => ⟨c, none⟩), false⟩, keep made _ _ hd.1 ?_, ?_, ?_⟩
      · rw [gAdd, hn]
        simp
      · simp [Function.comp_def]
      · intro i hi
        obtain ⟨c, _, rfl⟩ := List.mem_map.1 hi
        rfl
    · have hne : m.name ≠ x.name := fun e => hd.1 (by rw [← e]; exact List.mem_map_of_mem hm)
      refine ih (gAdd (gDelete s x.name x.group) x) hm hd.2 ?_
      intro c hc
      unfold gAdd at hc
      split at hc
      · exact there c (List.mem_filter.1 hc).1
      · rcases List.mem_append.1 hc with hc | hc
        · exact there c (List.mem_filter.1 hc).1
        · exact absurd (Prod.mk.inj (List.mem_singleton.1 hc)).1 hne

end

/-! ### Examples -/

namespace Demo

/-- Times are printed as a sign and a number of minutes. -/
def world : Printing where
  stamp m := (if 0 ≤ m then 'p' else 'n') :: numeral m.natAbs
  parse s := match s with
    | 'p' :: r => 60 * (Nat.ofDigitChars 10 r 0 : Int)
    | 'n' :: r => - (60 * (Nat.ofDigitChars 10 r 0 : Int))
    | _ => 0
  expand s := if '\\' ∈ s then .error .valueError else .ok s

theorem numeral_value (k : Nat) : Nat.ofDigitChars 10 (numeral k) 0 = k := by
  rw [← Runs.str_eq]
  simp [Runs.str, Nat.ofDigitChars_ten_toDigits]

theorem numeral_noChar (k : Nat) {c : Char} (h : c.isDigit = false) : c ∉ numeral k := by
  rw [← Runs.str_eq]
  intro hc
  have := Runs.str_digit k _ hc
  rw [h] at this
  exact absurd this (by decide)

theorem lawful : Lawful world where
  back m := by
    by_cases h : 0 ≤ m
    · simp only [world, h, if_true, numeral_value]
      omega
    · simp only [world, h, if_false, numeral_value]
      omega
  comma m := by
    intro h
    simp only [world, List.mem_cons] at h
    rcases h with h | h
    · split at h <;> exact absurd h (by decide)
    · exact numeral_noChar _ (by decide) h
  backslash m := by
    intro h
    simp only [world, List.mem_cons] at h
    rcases h with h | h
    · split at h <;> exact absurd h (by decide)
    · exact numeral_noChar _ (by decide) h
  plain s h := by simp [world, h]

def flow : Made := ⟨"flow_out".toList, "variables".toList,
  [[.text "a".toList, .time 3600], [.text "b".toList, .time 7200]]⟩

def eff : Made := ⟨"eff".toList, "parameters".toList, [[]]⟩

theorem plain_text {s : Str} (h : ',' ∉ s) (h' : '\\' ∉ s) : Plain (.text s) := ⟨fun k => h (sep_infix k), h'⟩

theorem word {n : Str} (h : (n.all (fun c => c != '[' && c != ']') && !(n.head?.any Char.isDigit)) = true) : Word n := by
  simp only [Bool.and_eq_true, List.all_eq_true, bne_iff_ne, Bool.not_eq_true'] at h
  refine ⟨fun k => (h.1 _ k).1 rfl, fun k => (h.1 _ k).2 rfl, ?_⟩
  intro c hc
  have := h.2
  rw [Option.mem_def.1 hc] at this
  simpa using this

theorem proper_flow : Proper flow where
  name := word (by decide +kernel)
  group := word (by decide +kernel)
  shape := by
    intro a ha b hb
    rcases List.mem_cons.1 ha with rfl | ha
    · rcases List.mem_cons.1 hb with rfl | hb
      · exact .cons trivial (.cons trivial .nil)
      · rw [List.mem_singleton.1 hb]
        exact .cons trivial (.cons trivial .nil)
    · rw [List.mem_singleton.1 ha]
      rcases List.mem_cons.1 hb with rfl | hb
      · exact .cons trivial (.cons trivial .nil)
      · rw [List.mem_singleton.1 hb]
        exact .cons trivial (.cons trivial .nil)
  plain := by
    intro cs hcs c hc
    rcases List.mem_cons.1 hcs with rfl | hcs
    · rcases List.mem_cons.1 hc with rfl | hc
      · exact plain_text (by decide +kernel) (by decide +kernel)
      · rw [List.mem_singleton.1 hc]
        exact ⟨60, by decide +kernel⟩
    · rw [List.mem_singleton.1 hcs] at hc
      rcases List.mem_cons.1 hc with rfl | hc
      · exact plain_text (by decide +kernel) (by decide +kernel)
      · rw [List.mem_singleton.1 hc]
        exact ⟨120, by decide +kernel⟩

theorem proper_eff : Proper eff where
  name := word (by decide +kernel)
  group := word (by decide +kernel)
  shape := by
    intro a ha b hb
    simp only [eff, List.mem_cons, List.not_mem_nil, or_false] at ha hb
    rw [ha, hb]
    exact .nil
  plain := by
    intro cs hcs c hc
    simp only [eff, List.mem_cons, List.not_mem_nil, or_false] at hcs
    rw [hcs] at hc
    simp at hc

/-- An input is updated after verbose strings were asked for; its name has no index. -/
example : (State.empty.run world [.add eff, .add flow, .verbose, .update (some [eff, flow])]).comps.map
    (fun x => x.2.items.map (fun i => (i.name world x.2.group x.1).toOption.map String.ofList)) =
    [[some "parameters[eff]"], [some "variables[flow_out][a, p60]", some "variables[flow_out][b, p120]"]] := by
  decide +kernel

example : (State.empty.run world [.add eff, .add flow]).comps.map
    (fun x => x.2.items.map (fun i => (i.name world x.2.group x.1).toOption.map String.ofList)) =
    [[some "parameters[eff][0]"], [some "variables[flow_out][0]", some "variables[flow_out][1]"]] := by
  decide +kernel

/-- The hypotheses of `C98_verbose` are met. -/
example : ∃ (c : Comp) (i : Item),
    Held (State.empty.run world ([.add eff, .add flow] ++ .verbose :: [.update (some [flow])])) flow.name c i ∧
    Objects c ∧ i.name world c.group flow.name =
      .ok (fullName (inGroup c.group flow.name) (i.coords.map (labelOf world))) := by
  refine ⟨⟨"variables".toList,
    [⟨0, [.text "a".toList, .time 3600], some ["a".toList, "p60".toList]⟩,
     ⟨1, [.text "b".toList, .time 7200], some ["b".toList, "p120".toList]⟩], true⟩,
    ⟨1, [.text "b".toList, .time 7200], some ["b".toList, "p120".toList]⟩, ?_⟩
  have hh : Held (State.empty.run world ([.add eff, .add flow] ++ .verbose :: [.update (some [flow])])) flow.name
      ⟨"variables".toList,
        [⟨0, [.text "a".toList, .time 3600], some ["a".toList, "p60".toList]⟩,
         ⟨1, [.text "b".toList, .time 7200], some ["b".toList, "p120".toList]⟩], true⟩
      ⟨1, [.text "b".toList, .time 7200], some ["b".toList, "p120".toList]⟩ := by
    refine ⟨?_, by decide⟩
    decide +kernel
  have ho : Objects ⟨"variables".toList,
        [⟨0, [.text "a".toList, .time 3600], some ["a".toList, "p60".toList]⟩,
         ⟨1, [.text "b".toList, .time 7200], some ["b".toList, "p120".toList]⟩], true⟩ := by
    unfold Objects
    decide
  refine ⟨hh, ho, C98_verbose lawful _ _ ?_ ?_ ?_ hh ho⟩
  · intro c hc
    simp only [List.mem_cons, List.not_mem_nil, or_false] at hc
    rcases hc with rfl | rfl
    · exact proper_eff
    · exact proper_flow
  · intro c hc
    simp only [List.mem_cons, List.not_mem_nil, or_false] at hc
    subst hc
    intro m hm
    simp only [List.mem_cons, List.not_mem_nil, or_false] at hm
    rw [hm]
    exact proper_flow
  · intro c hc
    simp only [List.mem_cons, List.not_mem_nil, or_false] at hc
    subst hc
    trivial

/-- A time that is not on a whole minute. -/
example : (State.empty.run world [.add ⟨"x".toList, "variables".toList, [[.time 90]]⟩, .verbose]).comps.map
    (fun x => x.2.items.map Item.coords) = [[[.time 60]]] := by decide +kernel

/-- Gurobi: names are given, are lost by an update, and cannot be given with clusters. -/
example : (gVerboseStrings world (gAdd [] flow)).1.map (fun x => x.2.items.map (fun i => i.name.map String.ofList)) =
    [[some "flow_out[a, p60]", some "flow_out[b, p120]"]] := by decide +kernel

example : (gUpdate (gVerboseStrings world (gAdd [] flow)).1 [flow]).map (fun x => x.2.items.map GItem.name) =
    [[none, none]] := by decide +kernel

example : (gVerboseStrings world (gAdd [] ⟨"storage_intra_cluster_max".toList, "variables".toList,
    [[.text "a".toList, .whole 3]]⟩)).2 = .error .typeError :=
  C98_gurobi_number (W := world) _ (n := "storage_intra_cluster_max".toList)
    (c := ⟨"variables".toList, [⟨[.text "a".toList, .whole 3], none⟩], false⟩) (by decide) ⟨by decide, rfl⟩
    (i := ⟨[.text "a".toList, .whole 3], none⟩) (by decide) (k := 3) (by decide)

end Demo

end Names
end Calliope
