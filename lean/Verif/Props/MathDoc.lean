import Verif.Proofs.MathDoc

/-!
# C99: what the math documentation lists

`build all ds` is `MathDocumentation(model, include="all" | "valid")` for definitions `ds` in the
order in which they are added; `document s objective` are the component lists of the text.
-/

namespace Calliope
namespace MathDoc

section Order
variable (all : Bool) (ops : List Op) (o : String)

theorem names_sorted (s : State) (hn : (s.data.map Prod.fst).Nodup) (g : Grp) :
    (namesIn (document s o) g).Pairwise (· < ·) := by
  rw [namesIn_eq]
  split
  · rw [itemsOf_names]
    exact sortNames_sorted _ (hn.sublist (List.Sublist.map _ List.filter_sublist))
  · exact List.Pairwise.nil

/-- **C99 (order).** After any history of additions and deletions, each section lists names in
strictly ascending order: alphabetical and without repetition. -/
theorem C99_sorted (g : Grp) :
    (namesIn (document (run all ops) o) g).Pairwise (· < ·) ∧
      (namesIn (document (finish (run all ops)) o) g).Pairwise (· < ·) :=
  ⟨names_sorted o _ (run_nodup all ops) g, names_sorted o _ (finish_nodup _ (run_nodup all ops)) g⟩

theorem cross_refs (s : State) (hn : (s.data.map Prod.fst).Nodup) (g g' : Grp) (i j : Item)
    (hi : Shown (document s o) g i) (hj : Shown (document s o) g' j) :
    j.name ∈ i.usedIn ↔ i.name ∈ j.uses := by
  rw [shown_iff] at hi hj
  obtain ⟨n, e, hm, -, -, rfl⟩ := hi
  obtain ⟨n', e', hm', -, -, rfl⟩ := hj
  rw [item_usedIn s hn o g n e hm, item_uses]
  show n' ∈ e.usedIn ∧ n' ≠ n ↔ (∃ x, (n, x) ∈ s.data ∧ n' ∈ x.usedIn) ∧ n ≠ n'
  constructor
  · rintro ⟨h1, h2⟩
    exact ⟨⟨e, hm, h1⟩, h2.symm⟩
  · rintro ⟨⟨x, hx, h1⟩, h2⟩
    have := ((lookup_of_mem s.data hn n x).2 hx).symm.trans ((lookup_of_mem s.data hn n e).2 hm)
    obtain rfl := Option.some.inj this
    exact ⟨h1, h2.symm⟩

/-- **C99 (cross-references).** After any history, "used in" and "uses" are inverse to each other
between the components of the document. -/
theorem C99_mutual (g g' : Grp) (i j : Item) :
    (Shown (document (run all ops) o) g i → Shown (document (run all ops) o) g' j →
      (j.name ∈ i.usedIn ↔ i.name ∈ j.uses)) ∧
    (Shown (document (finish (run all ops)) o) g i →
      Shown (document (finish (run all ops)) o) g' j →
      (j.name ∈ i.usedIn ↔ i.name ∈ j.uses)) :=
  ⟨cross_refs o _ (run_nodup all ops) g g' i j,
    cross_refs o _ (finish_nodup _ (run_nodup all ops)) g g' i j⟩

/-- **C99 (deletion, negative).** Deleting a component takes it out of the document but not out of
the "used in" lists of the others. -/
theorem C99_deleted_still_named (g g' : Grp) (i : Item) (b : String)
    (hi : Shown (document (run all ops) o) g i) (hb : b ∈ i.usedIn)
    (hin : i.name ≠ b) :
    (∀ j, Shown (document (run all (ops ++ [.delete g' b])) o) g' j → j.name ≠ b) ∧
      ∃ i', Shown (document (run all (ops ++ [.delete g' b])) o) g i' ∧ i'.name = i.name ∧
        b ∈ i'.usedIn := by
  have hr : run all (ops ++ [.delete g' b]) = delete (run all ops) g' b := by
    unfold run
    rw [List.foldl_append]
    rfl
  have hn := run_nodup all ops
  have hn' := run_nodup all (ops ++ [.delete g' b])
  rw [hr] at hn' ⊢
  refine ⟨?_, ?_⟩
  · intro j hj
    rw [shown_iff] at hj
    obtain ⟨n, e, hm, heg, -, rfl⟩ := hj
    intro h
    have h' : n = b := h
    subst h'
    unfold delete at hm
    simp only [List.mem_filter] at hm
    simp [heg] at hm
  · rw [shown_iff] at hi
    obtain ⟨n, e, hm, heg, hl, rfl⟩ := hi
    have hin' : n ≠ b := hin
    have hm' : (n, e) ∈ (delete (run all ops) g' b).data := by
      unfold delete
      simp only [List.mem_filter]
      exact ⟨hm, by simp [hin']⟩
    refine ⟨itemOf (delete (run all ops) g' b) o g n, ?_, rfl, ?_⟩
    · rw [shown_iff]
      exact ⟨n, e, hm', heg, hl, rfl⟩
    · rw [item_usedIn _ hn' o g n e hm']
      exact (item_usedIn _ hn o g n e hm b).1 hb

end Order

section Build
variable (ds : List Decl) (hn : (ds.map Decl.name).Nodup) (o : String)

include hn in
/-- Which definitions a section lists. -/
theorem section_iff (all : Bool) (g : Grp) (hg : isInput g = false) (n : String) :
    n ∈ namesIn (document (build all ds) o) g ↔
      ∃ d ∈ ds, d.name = n ∧ d.group = g ∧ registered d = true ∧ (textOf all d).isSome = true := by
  rw [mem_namesIn]
  constructor
  · rintro ⟨i, hi, rfl⟩
    rw [shown_iff] at hi
    obtain ⟨n, e, hm, heg, hl, rfl⟩ := hi
    obtain ⟨d, hd, hr, hdn, hdg, -⟩ := build_entry all ds hn n e g hm heg
    refine ⟨d, hd, hdn, hdg, hr, ?_⟩
    unfold listed at hl
    rw [hg, Bool.false_and, Bool.or_false, build_strings] at hl
    have := (inv_added all ds hn).strings d hd
    rw [hdn, hdg, hr, hg] at this
    rw [this] at hl
    simpa using hl
  · rintro ⟨d, hd, rfl, rfl, hr, ht⟩
    obtain ⟨e, hm, heg⟩ := build_has all ds hn d hd hr
    refine ⟨itemOf (build all ds) o d.group d.name, ?_, rfl⟩
    rw [shown_iff]
    refine ⟨d.name, e, hm, heg, ?_, rfl⟩
    unfold listed
    rw [Bool.or_eq_true]
    left
    rw [build_strings, (inv_added all ds hn).strings d hd, hr, hg]
    simpa using ht

include hn in
/-- **C99 (`include="valid"`).** A section lists exactly the active components that exist for some
index item of the model. -/
theorem C99_valid (g : Grp) (hg : isInput g = false) (n : String) :
    n ∈ namesIn (document (build false ds) o) g ↔
      ∃ d ∈ ds, d.name = n ∧ d.group = g ∧ Applies d := by
  rw [section_iff ds hn o false g hg]
  constructor
  · rintro ⟨d, hd, rfl, rfl, hr, ht⟩
    refine ⟨d, hd, rfl, rfl, ?_⟩
    obtain ⟨g, n, act, sh, top, tr, eqs, parts⟩ := d
    cases g <;> cases act <;> cases top <;>
      simp_all [textOf, shows, isInput, Applies, OfEquations, equationsValid]
  · rintro ⟨d, hd, rfl, rfl, hr⟩
    refine ⟨d, hd, rfl, rfl, ?_, ?_⟩
    · obtain ⟨g, n, act, sh, top, tr, eqs, parts⟩ := d
      cases g <;> simp_all [registered, Applies]
    · obtain ⟨g, n, act, sh, top, tr, eqs, parts⟩ := d
      cases g <;>
        simp_all [textOf, shows, isInput, Applies, OfEquations, equationsValid]

include hn in
/-- **C99 (`include="all"`).** The sections of objectives, constraints, global and postprocessed
expressions list exactly the active definitions.  Missing: variables and piecewise constraints
(`C99_inactive_listed`). -/
theorem C99_all_partial (g : Grp) (hg : OfEquations g) (n : String) :
    n ∈ namesIn (document (build true ds) o) g ↔
      ∃ d ∈ ds, d.name = n ∧ d.group = g ∧ d.active = true := by
  have hi : isInput g = false := by rcases hg with rfl | rfl | rfl | rfl <;> rfl
  rw [section_iff ds hn o true g hi]
  constructor
  · rintro ⟨d, hd, rfl, rfl, hr, -⟩
    refine ⟨d, hd, rfl, rfl, ?_⟩
    obtain ⟨g, n, act, sh, top, tr, eqs, parts⟩ := d
    cases g <;> simp_all [registered, OfEquations]
  · rintro ⟨d, hd, rfl, rfl, hr⟩
    refine ⟨d, hd, rfl, rfl, ?_, ?_⟩
    · obtain ⟨g, n, act, sh, top, tr, eqs, parts⟩ := d
      cases g <;> simp_all [registered, OfEquations]
    · obtain ⟨g, n, act, sh, top, tr, eqs, parts⟩ := d
      cases g <;> simp_all [textOf, shows, OfEquations, isInput]

include hn in
/-- **C99 (`include="all"`, variables and piecewise constraints).** Active ones are listed. -/
theorem C99_all_active (d : Decl) (hd : d ∈ ds) (ha : d.active = true)
    (hg : isInput d.group = false) : d.name ∈ namesIn (document (build true ds) o) d.group := by
  rw [section_iff ds hn o true _ hg]
  refine ⟨d, hd, rfl, rfl, ?_, ?_⟩
  · obtain ⟨g, n, act, sh, top, tr, eqs, parts⟩ := d
    cases g <;> simp_all [registered]
  · obtain ⟨g, n, act, sh, top, tr, eqs, parts⟩ := d
    cases g <;> simp_all [textOf, shows, isInput]

include hn in
/-- **C99 (negative).** With `include="all"` deactivated components are documented as if they were
part of the problem: every deactivated piecewise constraint, and every deactivated variable of
which the backend keeps metadata. -/
theorem C99_inactive_listed (d : Decl) (hd : d ∈ ds)
    (h : d.group = .piecewise ∨ (d.group = .variables ∧ d.shell = true)) :
    d.name ∈ namesIn (document (build true ds) o) d.group := by
  have hg : isInput d.group = false := by rcases h with h | ⟨h, -⟩ <;> rw [h] <;> rfl
  rw [section_iff ds hn o true _ hg]
  refine ⟨d, hd, rfl, rfl, ?_, ?_⟩
  · rcases h with h | ⟨h, h'⟩ <;> simp [registered, *]
  · rcases h with h | ⟨h, h'⟩ <;> simp [textOf, shows, *]

include hn in
/-- The text of a listed component. -/
theorem text_eq (all : Bool) (g : Grp) (hg : isInput g = false) (i : Item)
    (hi : Shown (document (build all ds) o) g i) :
    ∃ d ∈ ds, d.name = i.name ∧ d.group = g ∧ i.text = textOf all d := by
  rw [shown_iff] at hi
  obtain ⟨n, e, hm, heg, hl, rfl⟩ := hi
  obtain ⟨d, hd, hr, hdn, hdg, -⟩ := build_entry all ds hn n e g hm heg
  refine ⟨d, hd, hdn, hdg, ?_⟩
  show stringOf (build all ds) g n = _
  have := (inv_added all ds hn).strings d hd
  rw [hdn, hdg, hr, hg] at this
  rw [build_strings, this]
  simp

include hn in
/-- **C99 (equations).** Where a component of equations has an index item at which its own where
string holds, its text has every equation (`include="all"`), or exactly those equations whose
where string holds somewhere (`include="valid"`), in the order of the definition. Missing: a
component without any such item (`C99_all_silent`). -/
theorem C99_equations_partial (all : Bool) (g : Grp) (hg : OfEquations g) (d : Decl) (hd : d ∈ ds)
    (hdg : d.group = g) (ht : d.top = true) (i : Item)
    (hi : Shown (document (build all ds) o) g i) (hin : i.name = d.name) :
    i.text = some ((d.eqs.filter (fun e => all || e.holds)).map Eqn.text) := by
  have hig : isInput g = false := by rcases hg with rfl | rfl | rfl | rfl <;> rfl
  have hmem : i.name ∈ namesIn (document (build all ds) o) g := (mem_namesIn _ _ _ _).2 ⟨i, hi, rfl⟩
  obtain ⟨d'', hd'', hn'', -, -, hs⟩ := (section_iff ds hn o all g hig _).1 hmem
  have e'' : d'' = d := List.inj_on_of_nodup_map hn hd'' hd (hn''.trans hin)
  rw [e''] at hs
  clear hd'' hn'' e'' d''
  obtain ⟨d', hd', hn', -, hx⟩ := text_eq ds hn o all g hig i hi
  obtain rfl : d' = d := List.inj_on_of_nodup_map hn hd' hd (hn'.trans hin)
  rw [hx]
  obtain ⟨g', n, act, sh, top, tr, eqs, parts⟩ := d'
  simp only at hdg ht
  subst hdg ht
  rcases hg with rfl | rfl | rfl | rfl <;>
    simp_all [textOf, equationTexts]

include hn in
/-- **C99 (negative).** With `include="all"`, an active component whose where string holds nowhere
in this model is listed with no equation at all, although "all" promises every equation. -/
theorem C99_all_silent (d : Decl) (hd : d ∈ ds) (hg : OfEquations d.group) (ha : d.active = true)
    (ht : d.top = false) :
    ∃ i, Shown (document (build true ds) o) d.group i ∧ i.name = d.name ∧ i.text = some [] := by
  have hig : isInput d.group = false := by rcases hg with h | h | h | h <;> rw [h] <;> rfl
  obtain ⟨i, hi, hin⟩ := (mem_namesIn _ _ _ _).1 (C99_all_active ds hn o d hd ha hig)
  refine ⟨i, hi, hin, ?_⟩
  obtain ⟨d', hd', hn', -, hx⟩ := text_eq ds hn o true d.group hig i hi
  obtain rfl : d' = d := List.inj_on_of_nodup_map hn hd' hd (hn'.trans hin)
  rw [hx]
  obtain ⟨g', n, act, sh, top, tr, eqs, parts⟩ := d'
  simp only at hg ha ht
  subst ha ht
  rcases hg with rfl | rfl | rfl | rfl <;> simp [textOf, equationTexts, shows]

include hn in
/-- Cross-references by definition. -/
theorem usedIn_iff (all : Bool) (g : Grp) (i : Item)
    (hi : Shown (document (build all ds) o) g i) (b : String) :
    ∃ x ∈ ds, registered x = true ∧ x.name = i.name ∧ x.group = g ∧
      (b ∈ i.usedIn ↔ b ≠ i.name ∧ ∃ y, Earlier ds x y ∧ registered y = true ∧ y.name = b ∧
        i.name ∈ recorded y) := by
  rw [shown_iff] at hi
  obtain ⟨n, e, hm, heg, hl, rfl⟩ := hi
  obtain ⟨d, hd, hr, hdn, hdg, -, hu⟩ := build_entry all ds hn n e g hm heg
  refine ⟨d, hd, hr, hdn, hdg, ?_⟩
  rw [item_usedIn _ (build_nodup all ds hn) o g n e hm]
  show b ∈ e.usedIn ∧ b ≠ n ↔ b ≠ n ∧ _
  constructor
  · rintro ⟨h1, h2⟩
    exact ⟨h2, (hu b h2).1 h1⟩
  · rintro ⟨h1, h2⟩
    exact ⟨(hu b h1).2 h2, h1⟩

theorem mentions_of_recorded (d : Decl) (a : String) (h : a ∈ recorded d) : Mentions d a := by
  obtain ⟨g, n, act, sh, top, tr, eqs, parts⟩ := d
  unfold Mentions
  simp only
  cases g <;> simp only [recorded, equationRefs, lessLetters, List.mem_append, List.mem_filter,
    List.mem_flatMap, List.not_mem_nil] at h
  case «variables» =>
    rcases h with h | h
    · split at h
      · exact Or.inl h
      · simp at h
    · exact Or.inr (Or.inr h.1)
  case piecewise =>
    rcases h with h | h
    · exact Or.inl h
    · exact Or.inr (Or.inr h)
  all_goals
    rcases h with h | h
    · exact Or.inl h
    · split at h
      · exact Or.inr (Or.inl (List.mem_flatMap.1 h))
      · simp at h

include hn in
/-- **C99 (cross-references are right).** Whatever a component is said to be used in was added after
it and does name it in its definition. -/
theorem C99_used_in_sound (all : Bool) (g : Grp) (i : Item)
    (hi : Shown (document (build all ds) o) g i) (b : String) (hb : b ∈ i.usedIn) :
    ∃ x y, Earlier ds x y ∧ x.name = i.name ∧ x.group = g ∧ y.name = b ∧ Mentions y i.name := by
  obtain ⟨x, hx, hr, hxn, hxg, h⟩ := usedIn_iff ds hn o all g i hi b
  obtain ⟨-, y, hy, -, hyn, hm⟩ := h.1 hb
  exact ⟨x, y, hy, hxn, hxg, hyn, mentions_of_recorded y _ hm⟩

/-- A definition of the shape its group allows: inputs are made of nothing, variables and piecewise
constraints have no equations, the rest no bounds or values. -/
def Shaped (d : Decl) : Prop :=
  (isInput d.group = true → d.topRefs = [] ∧ d.eqs = [] ∧ d.parts = []) ∧
  (d.group = .variables ∨ d.group = .piecewise → d.eqs = []) ∧
  (OfEquations d.group → d.parts = [])

include hn in
/-- **C99 (cross-references are complete).** A component is said to be used in every active one
that was added later, names it and exists for some index item.  Missing: names added later than
the component that uses them, components that exist nowhere (`C99_all_silent`,
`C99_unused_nowhere`), and one-letter names in bounds (`C99_one_letter`). -/
theorem C99_used_in_partial (all : Bool) (g : Grp) (i : Item)
    (hi : Shown (document (build all ds) o) g i) (x y : Decl) (hxy : Earlier ds x y)
    (hx : x.name = i.name) (hs : Shaped y) (ha : y.active = true) (ht : y.top = true)
    (hm : Mentions y i.name) (hl : y.group = .variables → i.name.length ≠ 1) :
    y.name ∈ i.usedIn := by
  obtain ⟨x', hx', hr, hxn, hxg, h⟩ := usedIn_iff ds hn o all g i hi y.name
  obtain rfl : x' = x := List.inj_on_of_nodup_map hn hx' hxy.mem.1 (hxn.trans hx.symm)
  rw [h]
  refine ⟨?_, y, hxy, ?_, rfl, ?_⟩
  · intro he
    obtain ⟨l₁, l₂, l₃, rfl⟩ := hxy
    rw [List.map_append, List.nodup_append] at hn
    have := hn.2.1
    rw [List.map_cons, List.nodup_cons] at this
    exact this.1 (List.mem_map.2 ⟨y, by simp, he.trans hx.symm⟩)
  · obtain ⟨g', n, act, sh, top, tr, eqs, parts⟩ := y
    cases g' <;> simp_all [registered]
  · obtain ⟨g', n, act, sh, top, tr, eqs, parts⟩ := y
    obtain ⟨s1, s2, s3⟩ := hs
    simp only at ha ht hl
    subst ha ht
    unfold Mentions at hm
    simp only at hm
    cases g'
    case «parameters» =>
      obtain ⟨h1, h2, h3⟩ := s1 rfl
      simp only at h1 h2 h3
      subst h1 h2 h3
      simp at hm
    case «lookups» =>
      obtain ⟨h1, h2, h3⟩ := s1 rfl
      simp only at h1 h2 h3
      subst h1 h2 h3
      simp at hm
    case «variables» =>
      have h2 : eqs = [] := s2 (Or.inl rfl)
      subst h2
      simp only [recorded, lessLetters, if_true, List.mem_append, List.mem_filter,
        List.mem_flatMap]
      rcases hm with hm | ⟨e, he, -⟩ | hm
      · exact Or.inl hm
      · simp at he
      · refine Or.inr ⟨hm, ?_⟩
        rw [Bool.not_eq_true', ← Bool.not_eq_true, List.contains_iff_mem, List.mem_map]
        rintro ⟨c, -, hc⟩
        exact hl rfl (by rw [← hc]; simp)
    case piecewise =>
      have h2 : eqs = [] := s2 (Or.inr rfl)
      subst h2
      simp only [recorded, List.mem_append, List.mem_flatMap]
      rcases hm with hm | ⟨e, he, -⟩ | hm
      · exact Or.inl hm
      · simp at he
      · exact Or.inr hm
    all_goals
      have h3 : parts = [] := s3 (by simp [OfEquations])
      subst h3
      simp only [recorded, equationRefs, if_true, List.mem_append, List.mem_flatMap]
      rcases hm with hm | hm | ⟨e, he, -⟩
      · exact Or.inl hm
      · exact Or.inr hm
      · simp at he

include hn in
/-- **C99 (negative).** A name that occurs only in the equations of a component that exists nowhere
is not said to be used there, even with `include="all"`. -/
theorem C99_unused_nowhere (all : Bool) (g : Grp) (i : Item)
    (hi : Shown (document (build all ds) o) g i) (y : Decl) (hy : y ∈ ds)
    (hg : OfEquations y.group) (ht : y.top = false) (hm : i.name ∉ y.topRefs) :
    y.name ∉ i.usedIn := by
  obtain ⟨x, hx, hr, hxn, hxg, h⟩ := usedIn_iff ds hn o all g i hi y.name
  rw [h]
  rintro ⟨-, y', hy', -, hyn, hrec⟩
  obtain rfl : y' = y := List.inj_on_of_nodup_map hn hy'.mem.2 hy hyn
  obtain ⟨g', n, act, sh, top, tr, eqs, parts⟩ := y'
  simp only at ht hg hm
  subst ht
  rcases hg with rfl | rfl | rfl | rfl <;> simp [recorded, equationRefs, hm] at hrec

include hn in
/-- **C99 (negative).** A parameter whose one-letter name is a letter of a variable's name is not
said to be used in the bounds of that variable. -/
theorem C99_one_letter (all : Bool) (g : Grp) (i : Item)
    (hi : Shown (document (build all ds) o) g i) (y : Decl) (hy : y ∈ ds)
    (hg : y.group = .variables) (hm : i.name ∉ y.topRefs) (c : Char) (hc : i.name = String.ofList [c])
    (hcn : c ∈ y.name.toList) : y.name ∉ i.usedIn := by
  obtain ⟨x, hx, hr, hxn, hxg, h⟩ := usedIn_iff ds hn o all g i hi y.name
  rw [h]
  rintro ⟨-, y', hy', -, hyn, hrec⟩
  obtain rfl : y' = y := List.inj_on_of_nodup_map hn hy'.mem.2 hy hyn
  obtain ⟨g', n, act, sh, top, tr, eqs, parts⟩ := y'
  simp only at hg hm hcn
  subst hg
  simp only [recorded, lessLetters, List.mem_append, List.mem_filter] at hrec
  rcases hrec with hrec | ⟨-, hrec⟩
  · split at hrec
    · exact hm hrec
    · simp at hrec
  · rw [Bool.not_eq_true', ← Bool.not_eq_true, List.contains_iff_mem] at hrec
    exact hrec (List.mem_map.2 ⟨c, hcn, hc.symm⟩)

include hn in
/-- When an input is listed. -/
theorem input_iff (all : Bool) (g : Grp) (hg : isInput g = true) (n : String) :
    n ∈ namesIn (document (build all ds) o) g ↔
      ∃ x ∈ ds, x.name = n ∧ x.group = g ∧ x.active = true ∧
        ∃ y, Earlier ds x y ∧ registered y = true ∧ n ∈ recorded y := by
  have hreg : ∀ d : Decl, d.group = g → registered d = d.active ∧ recorded d = [] := by
    intro d hd
    unfold registered recorded
    rw [hd]
    cases g <;> first | exact ⟨rfl, rfl⟩ | simp [isInput] at hg
  have hstr : ∀ m, stringOf (build all ds) g m = none := by
    intro m
    rw [build_strings]
    unfold stringOf
    rw [(inv_added all ds hn).input g m hg]
  rw [mem_namesIn]
  constructor
  · rintro ⟨i, hi, rfl⟩
    rw [shown_iff] at hi
    obtain ⟨n, e, hm, heg, hl, rfl⟩ := hi
    obtain ⟨d, hd, hr, hdn, hdg, hs, hu⟩ := build_entry all ds hn n e g hm heg
    unfold listed at hl
    rw [hstr, hg] at hl
    simp only [Option.isSome_none, Bool.false_or, Bool.true_and, Bool.not_eq_true',
      List.isEmpty_eq_false_iff_exists_mem] at hl
    obtain ⟨b, hb⟩ := hl
    refine ⟨d, hd, hdn, hdg, by rw [← (hreg d hdg).1]; exact hr, ?_⟩
    by_cases hbn : b = n
    · subst hbn
      have := hs hb
      rw [(hreg d hdg).2] at this
      simp at this
    · obtain ⟨y, hy, h1, -, h3⟩ := (hu b hbn).1 hb
      exact ⟨y, hy, h1, h3⟩
  · rintro ⟨x, hx, rfl, rfl, ha, y, hy, hyr, hrec⟩
    obtain ⟨e, hm, heg⟩ := build_has all ds hn x hx (by rw [(hreg x rfl).1]; exact ha)
    obtain ⟨d, hd, hr, hdn, hdg, hs, hu⟩ := build_entry all ds hn x.name e x.group hm heg
    obtain rfl : d = x := List.inj_on_of_nodup_map hn hd hx hdn
    refine ⟨itemOf (build all ds) o d.group d.name, ?_, rfl⟩
    rw [shown_iff]
    refine ⟨d.name, e, hm, heg, ?_, rfl⟩
    unfold listed
    rw [hstr, hg]
    simp only [Option.isSome_none, Bool.false_or, Bool.true_and, Bool.not_eq_true',
      List.isEmpty_eq_false_iff_exists_mem]
    have hne : y.name ≠ d.name := by
      intro he
      obtain rfl : y = d := List.inj_on_of_nodup_map hn hy.mem.2 hx he
      rw [(hreg y rfl).2] at hrec
      simp at hrec
    exact ⟨y.name, (hu _ hne).2 ⟨y, hy, hyr, rfl, hrec⟩⟩

include hn in
/-- **C99 (inputs).** A listed parameter or lookup is active and is named in the definition of a
component added later. -/
theorem C99_inputs_sound (all : Bool) (g : Grp) (hg : isInput g = true) (n : String)
    (h : n ∈ namesIn (document (build all ds) o) g) :
    ∃ x y, Earlier ds x y ∧ x.name = n ∧ x.group = g ∧ x.active = true ∧ Mentions y n := by
  obtain ⟨x, hx, hxn, hxg, ha, y, hy, -, hr⟩ := (input_iff ds hn o all g hg n).1 h
  exact ⟨x, y, hy, hxn, hxg, ha, mentions_of_recorded y n hr⟩

theorem recorded_of_mentions (y : Decl) (n : String) (hs : Shaped y) (ha : y.active = true)
    (ht : y.top = true) (hm : Mentions y n) (hl : y.group = .variables → n.length ≠ 1) :
    registered y = true ∧ n ∈ recorded y := by
  refine ⟨?_, ?_⟩
  · obtain ⟨g', m, act, sh, top, tr, eqs, parts⟩ := y
    cases g' <;> simp_all [registered]
  · obtain ⟨g', m, act, sh, top, tr, eqs, parts⟩ := y
    obtain ⟨s1, s2, s3⟩ := hs
    simp only at ha ht hl
    subst ha ht
    unfold Mentions at hm
    simp only at hm
    cases g'
    case «parameters» =>
      obtain ⟨h1, h2, h3⟩ := s1 rfl
      simp only at h1 h2 h3
      subst h1 h2 h3
      simp at hm
    case «lookups» =>
      obtain ⟨h1, h2, h3⟩ := s1 rfl
      simp only at h1 h2 h3
      subst h1 h2 h3
      simp at hm
    case «variables» =>
      have h2 : eqs = [] := s2 (Or.inl rfl)
      subst h2
      simp only [recorded, lessLetters, if_true, List.mem_append, List.mem_filter,
        List.mem_flatMap]
      rcases hm with hm | ⟨e, he, -⟩ | hm
      · exact Or.inl hm
      · simp at he
      · refine Or.inr ⟨hm, ?_⟩
        rw [Bool.not_eq_true', ← Bool.not_eq_true, List.contains_iff_mem, List.mem_map]
        rintro ⟨c, -, hc⟩
        exact hl rfl (by rw [← hc]; simp)
    case piecewise =>
      have h2 : eqs = [] := s2 (Or.inr rfl)
      subst h2
      simp only [recorded, List.mem_append, List.mem_flatMap]
      rcases hm with hm | ⟨e, he, -⟩ | hm
      · exact Or.inl hm
      · simp at he
      · exact Or.inr hm
    all_goals
      have h3 : parts = [] := s3 (by simp [OfEquations])
      subst h3
      simp only [recorded, equationRefs, if_true, List.mem_append, List.mem_flatMap]
      rcases hm with hm | hm | ⟨e, he, -⟩
      · exact Or.inl hm
      · exact Or.inr hm
      · simp at he

include hn in
/-- **C99 (inputs are complete).** An active parameter or lookup is listed when an active component
added later names it and exists for some index item.  Missing: as in `C99_used_in_partial`. -/
theorem C99_inputs_partial (all : Bool) (x y : Decl) (hg : isInput x.group = true)
    (hx : x.active = true) (hxy : Earlier ds x y) (hs : Shaped y) (ha : y.active = true)
    (ht : y.top = true) (hm : Mentions y x.name) (hl : y.group = .variables → x.name.length ≠ 1) :
    x.name ∈ namesIn (document (build all ds) o) x.group := by
  obtain ⟨h1, h2⟩ := recorded_of_mentions y x.name hs ha ht hm hl
  exact (input_iff ds hn o all x.group hg x.name).2 ⟨x, hxy.mem.1, rfl, rfl, hx, y, hxy, h1, h2⟩

include hn in
/-- **C99 (negative).** With `include="valid"` a parameter is listed, as used in `y`, although `y`
exists nowhere and is not in the document. -/
theorem C99_valid_dangling (x y : Decl) (hg : isInput x.group = true) (hx : x.active = true)
    (hxy : Earlier ds x y) (hy : OfEquations y.group) (ha : y.active = true) (ht : y.top = false)
    (hm : x.name ∈ y.topRefs) :
    (∃ i, Shown (document (build false ds) o) x.group i ∧ i.name = x.name ∧ y.name ∈ i.usedIn) ∧
      ∀ g, isInput g = false → y.name ∉ namesIn (document (build false ds) o) g := by
  have hr : registered y = true ∧ x.name ∈ recorded y := by
    obtain ⟨g', m, act, sh, top, tr, eqs, parts⟩ := y
    rcases hy with h | h | h | h <;> simp only at h ha hm <;> subst h ha <;>
      simp [registered, recorded, equationRefs, hm]
  have hl := (input_iff ds hn o false x.group hg x.name).2
    ⟨x, hxy.mem.1, rfl, rfl, hx, y, hxy, hr.1, hr.2⟩
  refine ⟨?_, ?_⟩
  · obtain ⟨i, hi, hin⟩ := (mem_namesIn _ _ _ _).1 hl
    refine ⟨i, hi, hin, ?_⟩
    obtain ⟨x', hx', -, hxn, -, h⟩ := usedIn_iff ds hn o false x.group i hi y.name
    obtain rfl : x' = x := List.inj_on_of_nodup_map hn hx' hxy.mem.1 (hxn.trans hin)
    rw [h, hin]
    refine ⟨?_, y, hxy, hr.1, rfl, hr.2⟩
    intro he
    obtain rfl : y = x' := List.inj_on_of_nodup_map hn hxy.mem.2 hx' he
    rcases hy with h | h | h | h <;> rw [h] at hg <;> simp [isInput] at hg
  · intro g hgi h
    obtain ⟨d, hd, hdn, -, -, hdt, -⟩ := (C99_valid ds hn o g hgi y.name).1 h
    obtain rfl : d = y := List.inj_on_of_nodup_map hn hd hxy.mem.2 hdn
    rw [ht] at hdt
    simp at hdt

/-- The label of an objective. -/
theorem C99_objective (all : Bool) (i : Item)
    (hi : Shown (document (build all ds) o) .objectives i) :
    (i.label = i.name ++ " (active)" ↔ i.name = o) ∧
      (i.label = i.name ++ " (inactive)" ↔ i.name ≠ o) := by
  rw [shown_iff] at hi
  obtain ⟨n, e, -, -, -, rfl⟩ := hi
  show ((if n = o then n ++ " (active)" else n ++ " (inactive)") = n ++ " (active)" ↔ n = o) ∧
    ((if n = o then n ++ " (active)" else n ++ " (inactive)") = n ++ " (inactive)" ↔ n ≠ o)
  have hne : n ++ " (inactive)" ≠ n ++ " (active)" := by
    intro h
    have := congrArg String.length h
    simp only [String.length_append, Nat.add_left_cancel_iff] at this
    exact absurd this (by decide)
  by_cases h : n = o
  · rw [if_pos h]
    exact ⟨by simp [h], by simpa [h] using fun h' => hne (h ▸ h'.symm)⟩
  · rw [if_neg h]
    exact ⟨by simpa [h] using hne, by simp [h]⟩

end Build

/-- **C99 (negative).** The null array of a deactivated postprocessed expression takes the place of an
active component of the same name, which disappears from the document. -/
theorem C99_hidden (all : Bool) (ds : List Decl) (d : Decl) (hg : d.group = .postprocessed)
    (ha : d.active = false) (o : String) (g : Grp) :
    d.name ∉ namesIn (document (build all (ds ++ [d])) o) g := by
  intro h
  obtain ⟨i, hi, hin⟩ := (mem_namesIn _ _ _ _).1 h
  rw [shown_iff] at hi
  obtain ⟨n, e, hm, heg, -, rfl⟩ := hi
  have hn : n = d.name := hin
  subst hn
  have hadd : add all (added all ds) d =
      { added all ds with dead := (added all ds).dead ++ [d.name] } := by
    unfold add
    rw [hg, ha]
    rfl
  have hnd : ((build all (ds ++ [d])).data.map Prod.fst).Nodup := by
    apply finish_nodup
    have := run_nodup all ((ds ++ [d]).map Op.add)
    unfold run at this
    rw [List.foldl_map] at this
    exact this
  have hl := (lookup_of_mem _ hnd d.name e).2 hm
  unfold build finish at hl
  rw [added_snoc, hadd] at hl
  simp only [List.foldl_append, List.foldl_cons, List.foldl_nil] at hl
  rw [put_lookup, if_pos rfl] at hl
  rw [← Option.some.inj hl] at heg
  exact absurd heg (by simp)

/-- **C99 (format).** `write` renders in the given format, or in that of the file's extension if none
is given, and only in LaTeX, reStructuredText and Markdown; MkDocs features need Markdown. -/
theorem C99_format (suffix format : Option String) (mkdocs : Bool) (f : String) :
    write suffix format mkdocs = .ok f ↔
      (format = some f ∨ (format = none ∧ (suffix = some f ∧ f.toList.head? ≠ some '.' ∨
        suffix = some ("." ++ f)))) ∧
      (f = "tex" ∨ f = "rst" ∨ f = "md") ∧ (mkdocs = true → f = "md") := by
  have key : ∀ g : String, (formatOf suffix format = some g) ↔ (format = some g ∨ (format = none ∧
      (suffix = some g ∧ g.toList.head? ≠ some '.' ∨ suffix = some ("." ++ g)))) := by
    intro g
    unfold formatOf
    cases format with
    | some x => simp
    | none =>
      cases suffix with
      | none => simp
      | some x =>
        simp only [Option.some.injEq, reduceCtorEq, true_and, false_or]
        rw [← String.toList_inj, String.toList_ofList, ← String.toList_inj (s₁ := x) (s₂ := g),
          ← String.toList_inj (s₁ := x) (s₂ := "." ++ g), String.toList_append]
        have hd : ".".toList = ['.'] := rfl
        rw [hd]
        generalize x.toList = l
        generalize g.toList = k
        cases l with
        | nil => cases k <;> simp [lessDot]
        | cons c r =>
          by_cases hc : c = '.'
          · subst hc
            show r = k ↔ _
            constructor
            · rintro rfl; right; rfl
            · rintro (⟨h, h'⟩ | h)
              · rw [← h] at h'; simp at h'
              · simpa using h
          · have : lessDot (c :: r) = c :: r := by
              unfold lessDot
              split
              · rename_i h; exact absurd (List.cons.inj h).1 hc
              · rfl
            rw [this]
            constructor
            · rintro rfl; left; exact ⟨rfl, by simpa using hc⟩
            · rintro (⟨h, -⟩ | h)
              · exact h
              · simp at h; exact absurd h.1 hc
  rw [← key f]
  unfold write
  cases hf : formatOf suffix format with
  | none => simp
  | some x =>
    simp only [Option.some.injEq]
    by_cases hx : ["tex", "rst", "md"].contains x = true
    · rw [if_pos hx]
      simp only [List.contains_iff_mem, List.mem_cons, List.not_mem_nil, or_false] at hx
      by_cases hk : (mkdocs && x != "md") = true
      · rw [if_pos hk]
        simp only [Bool.and_eq_true, bne_iff_ne] at hk
        constructor
        · intro h; exact absurd h (by simp)
        · rintro ⟨rfl, -, h⟩; exact absurd (h hk.1) hk.2
      · rw [if_neg hk]
        constructor
        · intro h
          obtain rfl : x = f := by simpa using h
          refine ⟨rfl, hx, ?_⟩
          intro hm
          by_contra hne
          exact hk (by simp [hm, hne])
        · rintro ⟨rfl, -⟩; rfl
    · rw [if_neg hx]
      constructor
      · intro h; exact absurd h (by simp)
      · rintro ⟨rfl, h, -⟩
        exact absurd (by rw [List.contains_iff_mem]; simpa using h) hx

section Demo

def p (n : String) : Decl := ⟨.parameters, n, true, false, true, [], [], []⟩

/-- A small model: parameters `k` and `flow_cap_max`, a variable bounded by both, a deactivated
variable, a constraint with two equations, one that holds nowhere, a deactivated piecewise
constraint, two objectives. -/
def demo : List Decl :=
  [p "flow_cap_max", p "k", p "unused",
   ⟨.variables, "stock", true, false, true, [], [], [⟨"k <= stock", ["k", "stock"], true⟩,
      ⟨"stock <= flow_cap_max", ["flow_cap_max", "stock"], true⟩]⟩,
   ⟨.variables, "spare", false, true, false, [], [], [⟨"0 <= spare", ["spare"], true⟩]⟩,
   ⟨.constraints, "limit", true, false, true, ["k"], [⟨"stock <= k", ["stock", "k"], true⟩,
      ⟨"stock <= 1", ["stock"], false⟩], []⟩,
   ⟨.constraints, "nowhere", true, false, false, ["flow_cap_max"],
      [⟨"stock = 0", ["stock"], false⟩], []⟩,
   ⟨.piecewise, "curve", false, false, false, [], [], [⟨"y", ["stock"], true⟩]⟩,
   ⟨.objectives, "min_cost", true, false, true, [], [⟨"stock", ["stock"], true⟩], []⟩,
   ⟨.objectives, "other", true, false, true, [], [⟨"stock", ["stock"], true⟩], []⟩]

example : (demo.map Decl.name).Nodup := by decide +kernel

example : (document (build true demo) "min_cost").map (fun x => (x.1, x.2.map Item.label)) =
    [(.objectives, ["min_cost (active)", "other (inactive)"]),
     (.constraints, ["limit", "nowhere"]), (.piecewise, ["curve"]),
     (.variables, ["spare", "stock"]), (.parameters, ["flow_cap_max", "k"])] := by
  decide +kernel

example : (document (build false demo) "min_cost").map (fun x => (x.1, x.2.map Item.label)) =
    [(.objectives, ["min_cost (active)", "other (inactive)"]), (.constraints, ["limit"]),
     (.piecewise, []), (.variables, ["stock"]), (.parameters, ["flow_cap_max", "k"])] := by
  decide +kernel

example : (itemsOf (build false demo) "min_cost" .parameters).map (fun i => (i.name, i.usedIn)) =
    [("flow_cap_max", ["nowhere", "stock"]), ("k", ["limit"])] := by
  decide +kernel

example : (itemsOf (build true demo) "min_cost" .constraints).map (fun i => (i.text, i.uses)) =
    [(some ["stock <= k", "stock <= 1"], ["k", "stock"]), (some [], ["flow_cap_max"])] := by
  decide +kernel

/-- The hypotheses of `C99_one_letter` hold of `k` and `stock`, those of `C99_valid_dangling` of
`flow_cap_max` and `nowhere`, those of `C99_used_in_partial` of `flow_cap_max` and `stock`. -/
example : ∃ i, Shown (document (build false demo) "min_cost") .parameters i ∧ i.name = "k" ∧
    'k' ∈ "stock".toList :=
  ⟨itemOf (build false demo) "min_cost" .parameters "k",
    ⟨itemsOf (build false demo) "min_cost" .parameters, by decide +kernel, by decide +kernel⟩, rfl,
    by decide +kernel⟩

example : Earlier demo (demo[0]) (demo[6]) ∧ Earlier demo (demo[0]) (demo[3]) ∧
    Shaped (demo[3]) ∧ Mentions (demo[3]) "flow_cap_max" := by
  refine ⟨⟨[], demo.take 6 |>.drop 1, demo.drop 7, by decide +kernel⟩,
    ⟨[], demo.take 3 |>.drop 1, demo.drop 4, by decide +kernel⟩, ?_, ?_⟩
  · exact ⟨by decide +kernel, fun _ => rfl, fun h => by
      rcases h with h | h | h | h <;> exact absurd h (by decide +kernel)⟩
  · exact Or.inr (Or.inr ⟨demo[3].parts[1], by decide +kernel, by decide +kernel⟩)

/-- Deleting `limit` leaves it in the list of `k`. -/
example : (itemsOf (run true (demo.map Op.add ++ [.delete .constraints "limit"])) "" .parameters).map
    (fun i => (i.name, i.usedIn)) = [("flow_cap_max", ["nowhere", "stock"]), ("k", ["limit"])] := by
  decide +kernel

/-- A deactivated postprocessed expression called `limit` hides the constraint. -/
example : namesIn (document (build true (demo ++
    [⟨.postprocessed, "limit", false, false, false, [], [], []⟩])) "") .constraints = ["nowhere"] := by
  decide +kernel

example : write (some ".md") none true = .ok "md" ∧ write (some ".txt") none false =
    .error .valueError ∧ write none (some "tex") true = .error .modelError := by
  decide +kernel

end Demo

end MathDoc
end Calliope
