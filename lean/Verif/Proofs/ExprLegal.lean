import Verif.Proofs.ExprSum

namespace Calliope
namespace Expr

open Grid

variable {V : Type}

theorem rollAll_iff (coords : String → List Label) : ∀ (shifts : List (String × Int)) (a : Arr (Option V)),
    (∃ b, rollAll coords shifts a = .ok b) ↔ ∀ p ∈ shifts, p.1 ∈ a.dims
  | [], a => by simp [rollAll]
  | (d, n) :: rest, a => by
      simp only [rollAll]
      by_cases hd : d ∈ a.dims
      · rw [if_pos (by simpa using hd), rollAll_iff coords rest]
        constructor
        · intro h p hp
          rcases List.mem_cons.1 hp with rfl | hp
          · exact hd
          · exact h p hp
        · intro h p hp
          exact h p (List.mem_cons_of_mem _ hp)
      · rw [if_neg (by simpa using hd)]
        constructor
        · rintro ⟨b, hb⟩
          cases hb
        · intro h
          exact absurd (h (d, n) (List.mem_cons_self ..)) hd

variable [AddCommMonoid V]

omit [AddCommMonoid V] in
theorem cells_exists {α : Type} {E : Env V} {g : Arr α} (hg : g.dims.Nodup) (P : α → Prop) :
    (∃ c ∈ cells E.coords g.dims, P (g.val c)) ↔ ∃ ρ, In E g.dims ρ ∧ P (g.at ρ) := by
  constructor
  · rintro ⟨c, hc, hp⟩
    have hlen := length_of_mem_cells hc
    have hmap := map_override (fun _ => "") g.dims c hg hlen
    have h2 := along_override (ρ := fun _ => "") hc
    refine ⟨override (fun _ => "") g.dims c, h2.2, ?_⟩
    unfold Arr.at
    rw [hmap]
    exact hp
  · rintro ⟨ρ, hρ, hp⟩
    exact ⟨g.dims.map ρ, mem_cells hρ, hp⟩

omit [AddCommMonoid V] in
theorem cells_forall {α : Type} {E : Env V} {g : Arr α} (hg : g.dims.Nodup) (P : α → Prop) :
    (∀ c ∈ cells E.coords g.dims, P (g.val c)) ↔ ∀ ρ, In E g.dims ρ → P (g.at ρ) := by
  have h := cells_exists (E := E) hg (fun v => ¬ P v)
  constructor
  · intro h1 ρ hρ
    exact h1 _ (mem_cells hρ)
  · intro h1 c hc
    by_contra h2
    obtain ⟨ρ, hρ, h3⟩ := h.1 ⟨c, hc, h2⟩
    exact h3 (h1 ρ hρ)

omit [AddCommMonoid V] in
theorem sliceArr_ok {E : Env V} {slices : String → Option SliceDef} {s : Slicer} {d : String}
    (h : Sliceable E slices s) (hl : ∀ ρ, In E (sliceDims E slices s) ρ →
      ∃ l, labelOf E slices ρ s = some l ∧ l ∈ E.coords d) : ∃ g, sliceArr E slices s = .ok g := by
  cases s with
  | label l => exact ⟨_, rfl⟩
  | ref n =>
    simp only [Sliceable] at h
    simp only [labelOf, sliceDims] at hl
    simp only [sliceArr]
    cases hs : slices n with
    | none =>
      rw [hs] at hl
      obtain ⟨l, h1, _⟩ := hl (fun _ => "") (fun d hd => by cases hd)
      cases h1
    | some sd =>
      rw [hs] at h hl
      cases sd with
      | label l => exact ⟨_, rfl⟩
      | valAt e i =>
        obtain ⟨l, h1, _⟩ := hl (fun _ => "") (fun d hd => by cases hd)
        simp only [] at h1
        rw [← pyIndex_eq] at h1
        simp only [h1]
        exact ⟨_, rfl⟩
      | lookup m shifts =>
        obtain ⟨g, hg, h1⟩ := h
        simp only [hg]
        exact (rollAll_iff E.coords shifts g).2 h1

omit [AddCommMonoid V] in
theorem sliceable_of_ok {E : Env V} {slices : String → Option SliceDef} {s : Slicer} {g : Arr (Option Label)}
    (h : sliceArr E slices s = .ok g) : Sliceable E slices s := by
  cases s with
  | label l => trivial
  | ref n =>
    simp only [sliceArr] at h
    simp only [Sliceable]
    cases hs : slices n with
    | none => trivial
    | some sd =>
      rw [hs] at h
      cases sd with
      | label l => trivial
      | valAt e i => trivial
      | lookup m shifts =>
        simp only [] at h
        cases hm : E.lookup m with
        | none => rw [hm] at h; cases h
        | some g' =>
          rw [hm] at h
          exact ⟨g', hm, (rollAll_iff E.coords shifts g').1 ⟨g, h⟩⟩

omit [AddCommMonoid V] in
theorem sliceArrs_ok {E : Env V} {slices : String → Option SliceDef} : ∀ {ss : List (String × Slicer)},
    (∀ p ∈ ss, ∃ g, sliceArr E slices p.2 = .ok g) → ∃ gs, sliceArrs E slices ss = .ok gs
  | [], _ => ⟨[], rfl⟩
  | (d, s) :: rest, h => by
      obtain ⟨g, hg⟩ := h (d, s) (List.mem_cons_self ..)
      obtain ⟨gs, hgs⟩ := sliceArrs_ok (fun p hp => h p (List.mem_cons_of_mem _ hp))
      simp only [] at hg
      simp only [sliceArrs, hg, hgs]
      exact ⟨_, rfl⟩

omit [AddCommMonoid V] in
theorem allMatch_iff {E : Env V} (hE : WellFormed E) {slices : String → Option SliceDef} {d : String} {s : Slicer}
    {g : Arr (Option Label)} (h : sliceArr E slices s = .ok g) :
    allMatch E.coords (d, g) = true ↔ ∀ ρ, In E (sliceDims E slices s) ρ →
      ∃ l, labelOf E slices ρ s = some l ∧ l ∈ E.coords d := by
  obtain ⟨h1, h2, h3⟩ := sliceArr_labelOf hE h
  have hc := cells_forall (E := E) h1 (fun v => ∃ l, v = some l ∧ l ∈ E.coords d)
  have hin : ∀ ρ, In E g.dims ρ ↔ In E (sliceDims E slices s) ρ := fun ρ =>
    ⟨fun h e he => h e ((h2 e).2 he), fun h e he => h e ((h2 e).1 he)⟩
  simp only [h3, hin] at hc
  rw [← hc]
  unfold allMatch
  rw [List.all_eq_true]
  apply forall_congr'
  intro c
  apply imp_congr Iff.rfl
  show (match g.val c with
    | some l => (E.coords d).contains l
    | none => false) = true ↔ _
  cases g.val c with
  | none => simp
  | some l => simp

omit [AddCommMonoid V] in
theorem selAll_iff {E : Env V} (hE : WellFormed E) {slices : String → Option SliceDef} (ss : List (String × Slicer))
    (a : Arr (Option V)) : (∃ b, selAll E slices a ss = .ok b) ↔ (ss.map Prod.fst).Nodup ∧
      ∀ p ∈ ss, p.1 ∈ a.dims ∧ Sliceable E slices p.2 ∧ ∀ ρ, In E (sliceDims E slices p.2) ρ →
        ∃ l, labelOf E slices ρ p.2 = some l ∧ l ∈ E.coords p.1 := by
  unfold selAll
  constructor
  · rintro ⟨b, hb⟩
    split at hb
    · cases hb
    · rename_i gs hgs
      simp only [] at hb
      split at hb
      · rename_i hcond
        simp only [Bool.and_eq_true, List.all_eq_true, List.contains_eq_mem, decide_eq_true_eq] at hcond
        obtain ⟨⟨h1, h2⟩, h3⟩ := hcond
        rw [sliceArrs_fst hgs] at h1 h2
        refine ⟨h2, ?_⟩
        intro p hp
        obtain ⟨q, hq, he, hpq⟩ := forall₂_left (sliceArrs_forall hgs) p hp
        refine ⟨h1 _ (List.mem_map_of_mem hp), sliceable_of_ok hpq, ?_⟩
        have := h3 q hq
        obtain ⟨d, g⟩ := q
        simp only [] at he hpq
        subst he
        exact (allMatch_iff hE hpq).1 this
      · cases hb
  · rintro ⟨h1, h2⟩
    obtain ⟨gs, hgs⟩ := sliceArrs_ok (fun p hp => sliceArr_ok (h2 p hp).2.1 (h2 p hp).2.2)
    rw [hgs]
    simp only []
    rw [if_pos]
    · exact ⟨_, rfl⟩
    · simp only [Bool.and_eq_true, List.all_eq_true, List.contains_eq_mem, decide_eq_true_eq]
      rw [sliceArrs_fst hgs]
      refine ⟨⟨?_, h1⟩, ?_⟩
      · intro d hd
        obtain ⟨p, hp, rfl⟩ := List.mem_map.1 hd
        exact (h2 p hp).1
      · rintro ⟨d, g⟩ hq
        obtain ⟨p, hp, he, hpq⟩ := forall₂_right (sliceArrs_forall hgs) _ hq
        simp only [] at he hpq
        subst he
        exact (allMatch_iff hE hpq).2 (h2 p hp).2.2

theorem groupArr_iff {E : Env V} {a : Arr (Option V)} {x : Fn V} (h : Agrees a x)
    {g : Arr (Option Label)} (hg : g.dims.Nodup) (gd : String) :
    (∃ b, groupArr E.coords a g gd = .ok b) ↔ (∀ d ∈ g.dims, d ∈ x.dims) ∧
      (gd ∈ x.dims → gd ∈ g.dims) ∧ ∃ ρ, In E g.dims ρ ∧ g.at ρ ≠ none := by
  rw [← cells_exists hg (fun v => v ≠ none)]
  unfold groupArr
  simp only []
  by_cases h1 : ∀ d ∈ g.dims, d ∈ x.dims
  · have h1' : g.dims.all (a.dims.contains ·) = true :=
      List.all_eq_true.2 (fun d hd => by simpa using (h.2.1 d).2 (h1 d hd))
    rw [if_pos h1']
    by_cases h2 : ∃ c ∈ cells E.coords g.dims, g.val c ≠ none
    · obtain ⟨c, hc, hv⟩ := h2
      rw [if_neg (by
        intro hall
        have := List.all_eq_true.1 hall c hc
        rw [Option.isNone_iff_eq_none] at this
        exact hv this)]
      by_cases h3 : gd ∈ x.dims ∧ gd ∉ g.dims
      · rw [if_pos (by simp [(h.2.1 gd).2 h3.1, h3.2])]
        constructor
        · rintro ⟨b, hb⟩
          cases hb
        · rintro ⟨_, h4, _⟩
          exact absurd (h4 h3.1) h3.2
      · rw [if_neg (by
          intro hk
          simp only [List.contains_eq_mem, List.mem_filter, Bool.not_eq_true', decide_eq_false_iff_not,
            decide_eq_true_eq] at hk
          exact h3 ⟨(h.2.1 gd).1 hk.1, hk.2⟩)]
        refine ⟨fun _ => ⟨h1, ?_, c, hc, hv⟩, fun _ => ⟨_, rfl⟩⟩
        intro h4
        by_cases h5 : gd ∈ g.dims
        · exact h5
        · exact absurd ⟨h4, h5⟩ h3
    · rw [if_pos (List.all_eq_true.2 (fun c hc => by
        rw [Option.isNone_iff_eq_none]
        by_cases hv : g.val c = none
        · exact hv
        · exact absurd ⟨c, hc, hv⟩ h2))]
      constructor
      · rintro ⟨b, hb⟩
        cases hb
      · rintro ⟨_, _, h3⟩
        exact absurd h3 h2
  · rw [if_neg (by
      intro hall
      apply h1
      intro d hd
      have := List.all_eq_true.1 hall d hd
      exact (h.2.1 d).1 (by simpa using this))]
    constructor
    · rintro ⟨b, hb⟩
      cases hb
    · rintro ⟨h2, _⟩
      exact absurd h2 h1

omit [AddCommMonoid V] in
theorem noMatch_iff {E : Env V} {p : String × Arr (Option Label)} (hp : p.2.dims.Nodup) :
    noMatch E.coords p = false ↔ ∃ ρ l, In E p.2.dims ρ ∧ p.2.at ρ = some l ∧ l ∈ E.coords p.1 := by
  have h := cells_exists (E := E) hp (fun v => ∃ l, v = some l ∧ l ∈ E.coords p.1)
  have h' : (∃ ρ l, In E p.2.dims ρ ∧ p.2.at ρ = some l ∧ l ∈ E.coords p.1) ↔
      ∃ ρ, In E p.2.dims ρ ∧ ∃ l, p.2.at ρ = some l ∧ l ∈ E.coords p.1 :=
    ⟨fun ⟨ρ, l, h1, h2⟩ => ⟨ρ, h1, l, h2⟩, fun ⟨ρ, h1, l, h2⟩ => ⟨ρ, l, h1, h2⟩⟩
  rw [h', ← h]
  unfold noMatch
  rw [List.all_eq_false]
  constructor
  · rintro ⟨c, hc, hv⟩
    refine ⟨c, hc, ?_⟩
    split at hv
    · rename_i l hl
      exact ⟨l, hl, by simpa using hv⟩
    · simp at hv
  · rintro ⟨c, hc, l, hl, hlc⟩
    refine ⟨c, hc, ?_⟩
    rw [hl]
    simp [hlc]

omit [AddCommMonoid V] in
theorem lookups_ok_iff (E : Env V) : ∀ (ls : List (String × String)),
    (∃ gs, lookups E ls = .ok gs) ↔ ∀ p ∈ ls, ∃ g, E.lookup p.2 = some g
  | [] => by simp [lookups]
  | (d, n) :: rest => by
      simp only [lookups]
      cases hl : E.lookup n with
      | none =>
        constructor
        · rintro ⟨gs, h⟩
          cases h
        · intro h
          obtain ⟨g, hg⟩ := h (d, n) (List.mem_cons_self ..)
          rw [hl] at hg
          cases hg
      | some g =>
        simp only []
        have ih := lookups_ok_iff E rest
        constructor
        · rintro ⟨gs, h⟩
          split at h
          · cases h
          · rename_i gs' hgs
            intro p hp
            rcases List.mem_cons.1 hp with rfl | hp
            · exact ⟨g, hl⟩
            · exact ih.1 ⟨gs', hgs⟩ p hp
        · intro h
          obtain ⟨gs, hgs⟩ := ih.2 (fun p hp => h p (List.mem_cons_of_mem _ hp))
          rw [hgs]
          exact ⟨_, rfl⟩

theorem selectArr_iff {E : Env V} (hE : WellFormed E) {a : Arr (Option V)} {x : Fn V} (h : Agrees a x)
    {ls : List (String × String)} {gs : List (String × Arr (Option Label))}
    (hgs : lookups E ls = .ok gs) :
    (∃ b, selectArr E.coords a gs = .ok b) ↔ (∀ d ∈ ls.map Prod.fst, d ∈ x.dims) ∧
      ∀ p ∈ ls, ∃ g, E.lookup p.2 = some g ∧ (∀ d, d ∈ g.dims ↔ d ∈ ls.map Prod.fst) ∧
        ∃ ρ l, In E g.dims ρ ∧ g.at ρ = some l ∧ l ∈ E.coords p.1 := by
  have hf := lookups_fst E ls gs hgs
  have hq : ∀ q ∈ gs, ∃ p ∈ ls, q.1 = p.1 ∧ E.lookup p.2 = some q.2 := by
    intro q hq
    rw [← lookups_filterMap E ls gs hgs] at hq
    obtain ⟨p, hp, he⟩ := List.mem_filterMap.1 hq
    cases hl : E.lookup p.2 with
    | none => rw [hl] at he; cases he
    | some g =>
      rw [hl] at he
      cases he
      exact ⟨p, hp, rfl, hl⟩
  have hp' : ∀ p ∈ ls, ∀ g, E.lookup p.2 = some g → (p.1, g) ∈ gs := by
    intro p hp g hg
    rw [← lookups_filterMap E ls gs hgs]
    exact List.mem_filterMap.2 ⟨p, hp, by rw [hg]; rfl⟩
  unfold selectArr
  simp only [hf]
  constructor
  · rintro ⟨b, hb⟩
    split at hb
    · rename_i h1
      split at hb
      · rename_i h2
        split at hb
        · rename_i h3
          split at hb
          · cases hb
          · rename_i h4
            refine ⟨?_, ?_⟩
            · intro d hd
              have := List.all_eq_true.1 h1 d hd
              exact (h.2.1 d).1 (by simpa using this)
            · intro p hp
              obtain ⟨g, hg⟩ := (lookups_ok_iff E ls).1 ⟨gs, hgs⟩ p hp
              have hm := hp' p hp g hg
              refine ⟨g, hg, ?_, ?_⟩
              · intro d
                constructor
                · intro hd
                  have := List.all_eq_true.1 (List.all_eq_true.1 h3 _ hm) d hd
                  simpa using this
                · intro hd
                  have := List.all_eq_true.1 (List.all_eq_true.1 h2 _ hm) d hd
                  simpa using this
              · have hno : noMatch E.coords (p.1, g) = false := by
                  cases hc : noMatch E.coords (p.1, g) with
                  | false => rfl
                  | true => exact absurd (List.any_eq_true.2 ⟨_, hm, hc⟩) h4
                exact (noMatch_iff (hE.lookup _ _ hg)).1 hno
        · cases hb
      · cases hb
    · cases hb
  · rintro ⟨h1, h2⟩
    have hspec : ∀ q ∈ gs, (∀ d, d ∈ q.2.dims ↔ d ∈ ls.map Prod.fst) ∧ noMatch E.coords q = false := by
      intro q hq'
      obtain ⟨p, hp, h3, h4⟩ := hq q hq'
      obtain ⟨g, hg, h5, h6⟩ := h2 p hp
      rw [hg] at h4
      cases h4
      refine ⟨h5, (noMatch_iff (hE.lookup _ _ hg)).2 ?_⟩
      rw [h3]
      exact h6
    rw [if_pos (List.all_eq_true.2 (fun d hd => by simpa using (h.2.1 d).2 (h1 d hd))),
      if_pos (List.all_eq_true.2 (fun q hq => List.all_eq_true.2 (fun d hd => by
        simpa using ((hspec q hq).1 d).2 hd))),
      if_pos (List.all_eq_true.2 (fun q hq => List.all_eq_true.2 (fun d hd => by
        simpa using ((hspec q hq).1 d).1 hd))),
      if_neg (by
        intro hany
        obtain ⟨q, hq, hn⟩ := List.any_eq_true.1 hany
        rw [(hspec q hq).2] at hn
        cases hn)]
    exact ⟨_, rfl⟩

omit [AddCommMonoid V] in
theorem compArr_iff {E : Env V} {n : String} :
    (∃ a, compArr E n = .ok a) ↔ (∃ c, E.comp n = some c) ∨ E.isDim n = true := by
  unfold compArr
  cases hc : E.comp n with
  | some c => simp
  | none =>
    simp only []
    by_cases hd : E.isDim n = true
    · rw [if_pos hd]
      simp [hd]
    · rw [if_neg hd]
      simp [hd]

/-- The shape of most cases: evaluate the argument, then go on. -/
theorem bind_ok {E : Env V} (hE : WellFormed E) {slices : String → Option SliceDef} {w : Arr Bool}
    (hw : w.dims.Nodup) {t : Ex V} (ht : Ok t) {P : Prop}
    (ih : (∃ a, evalEx E slices (fun _ _ => .error .keyError) w t = .ok a) ↔
      Legal E slices w.at w.dims t) (k : Arr (Option V) → Res V)
    (hk : ∀ a, Agrees a (mean E slices w.at w.dims t) → ((∃ b, k a = .ok b) ↔ P)) :
    (∃ b, (match evalEx E slices (fun _ _ => .error .keyError) w t with
      | .error x => .error x
      | .ok a => k a) = (.ok b : Res V)) ↔ Legal E slices w.at w.dims t ∧ P := by
  cases he : evalEx E slices (fun _ _ => .error .keyError) w t with
  | error x =>
    rw [he] at ih
    simp only []
    constructor
    · rintro ⟨b, hb⟩
      cases hb
    · rintro ⟨h, _⟩
      obtain ⟨a, ha⟩ := ih.2 h
      cases ha
  | ok a =>
    rw [he] at ih
    have hag := eval_mean hE hw ht he
    have hl := ih.1 ⟨a, rfl⟩
    simp only [hk a hag]
    exact ⟨fun h => ⟨hl, h⟩, fun h => h.2⟩

mutual
theorem eval_ok_iff {E : Env V} (hE : WellFormed E) {slices : String → Option SliceDef} :
    ∀ {w : Arr Bool} (_ : w.dims.Nodup) {t : Ex V} (_ : Ok t),
      (∃ a, evalEx E slices (fun _ _ => .error .keyError) w t = .ok a) ↔
        Legal E slices w.at w.dims t
  | w, hw, .num v, _ => by simp [evalEx, Legal]
  | w, hw, .comp n, _ => by
      simp only [evalEx, Legal]
      exact compArr_iff
  | w, hw, .sliced n ss, _ => by
      simp only [evalEx, Legal]
      cases hc : compArr E n with
      | error x =>
        have : ¬ ∃ a, compArr E n = .ok a := by rw [hc]; rintro ⟨a, ha⟩; cases ha
        rw [compArr_iff] at this
        simp only []
        constructor
        · rintro ⟨b, hb⟩
          cases hb
        · rintro ⟨_, ⟨c, h1, _⟩ | ⟨_, h1, _⟩⟩
          · exact absurd (.inl ⟨c, h1⟩) this
          · exact absurd (.inr h1) this
      | ok a =>
        simp only []
        rw [selAll_iff hE]
        have hag := agrees_comp hE hc
        cases hcn : E.comp n with
        | some c =>
          rw [hcn] at hag
          have hd : ∀ d, d ∈ a.dims ↔ d ∈ c.arr.dims := hag.2.1
          constructor
          · rintro ⟨h1, h2⟩
            exact ⟨h1, .inl ⟨c, rfl, fun p hp => ⟨(hd _).1 (h2 p hp).1, (h2 p hp).2⟩⟩⟩
          · rintro ⟨h1, ⟨c', h2, h3⟩ | ⟨h2, _⟩⟩
            · cases h2
              exact ⟨h1, fun p hp => ⟨(hd _).2 (h3 p hp).1, (h3 p hp).2⟩⟩
            · cases h2
        | none =>
          rw [hcn] at hag
          have hd : ∀ d, d ∈ a.dims ↔ d ∈ ([] : List String) := hag.2.1
          have hdim : E.isDim n = true := by
            rcases compArr_iff.1 ⟨a, hc⟩ with ⟨c, h1⟩ | h1
            · rw [hcn] at h1; cases h1
            · exact h1
          constructor
          · rintro ⟨h1, h2⟩
            refine ⟨h1, .inr ⟨rfl, hdim, ?_⟩⟩
            cases ss with
            | nil => rfl
            | cons p ps =>
              have := (hd _).1 (h2 p (List.mem_cons_self ..)).1
              cases this
          · rintro ⟨h1, ⟨c', h2, _⟩ | ⟨_, _, h3⟩⟩
            · cases h2
            · subst h3
              exact ⟨h1, fun p hp => by cases hp⟩
  | w, hw, .sub n, _ => by simp [evalEx, Legal]
  | w, hw, .sign o t, ht => by
      simp only [Ok] at ht
      simp only [evalEx, Legal]
      exact (bind_ok hE hw ht (eval_ok_iff hE hw ht) _ (P := True) (fun a _ => by simp [Except.ok.injEq])).trans (by simp)
  | w, hw, .chain t r, ht => by
      simp only [Ok] at ht
      simp only [evalEx, Legal]
      exact bind_ok hE hw ht.1 (eval_ok_iff hE hw ht.1) _
        (fun a ha => evalRest_ok_iff hE hw ht.2)
  | w, hw, .sum t over, ht => by
      simp only [Ok] at ht
      simp only [evalEx, Legal]
      exact (bind_ok hE hw ht (eval_ok_iff hE hw ht) _ (P := True) (fun a _ => by simp [Except.ok.injEq])).trans (by simp)
  | w, hw, .reduceCarrier t flow, ht => by
      simp only [Ok] at ht
      simp only [evalEx, Legal]
      refine bind_ok hE hw ht (eval_ok_iff hE hw ht) _ (fun a _ => ?_)
      cases E.carrier flow <;> simp
  | w, hw, .cond t c, ht => by
      simp only [Ok] at ht
      simp only [evalEx, Legal]
      refine bind_ok hE hw ht.1 (eval_ok_iff hE hw ht.1) _ (fun a _ => ?_)
      exact (bind_ok hE hw ht.2 (eval_ok_iff hE hw ht.2) _ (P := True) (fun b _ => by simp)).trans (by simp)
  | w, hw, .roll t shifts, ht => by
      simp only [Ok] at ht
      simp only [evalEx, Legal]
      refine bind_ok hE (w := trueArr) List.nodup_nil ht (eval_ok_iff hE (w := trueArr) List.nodup_nil ht) _
        (fun a ha => ?_)
      rw [rollAll_iff]
      exact ⟨fun h p hp => (ha.2.1 _).1 (h p hp), fun h p hp => (ha.2.1 _).2 (h p hp)⟩
  | w, hw, .groupSum t g d, ht => by
      simp only [Ok] at ht
      simp only [evalEx, Legal]
      refine bind_ok hE (w := trueArr) List.nodup_nil ht (eval_ok_iff hE (w := trueArr) List.nodup_nil ht) _
        (fun a ha => ?_)
      cases hl : E.lookup g with
      | none => simp
      | some k =>
        simp only [Option.some.injEq, exists_eq_left']
        exact groupArr_iff ha (hE.lookup _ _ hl) d
  | w, hw, .groupDatetime t o g, ht => by
      simp only [Ok] at ht
      simp only [evalEx, Legal]
      refine bind_ok hE (w := trueArr) List.nodup_nil ht (eval_ok_iff hE (w := trueArr) List.nodup_nil ht) _
        (fun a ha => ?_)
      rw [groupArr_iff ha (by simp)]
      simp only [List.mem_singleton, forall_eq]
      refine and_congr Iff.rfl (and_congr Iff.rfl ?_)
      constructor
      · rintro ⟨ρ, hρ, _⟩ h0
        have := hρ o (List.mem_singleton.2 rfl)
        rw [h0] at this
        cases this
      · intro h0
        obtain ⟨l, hl⟩ := List.exists_mem_of_ne_nil _ h0
        refine ⟨fun _ => l, ?_, by simp [Arr.at]⟩
        intro d hd
        rw [List.mem_singleton] at hd
        subst hd
        exact hl
  | w, hw, .sumNextN t o n, ht => by
      simp only [Ok] at ht
      simp only [evalEx, Legal]
      refine bind_ok hE hw ht.1 (eval_ok_iff hE hw ht.1) _ (fun a ha => ?_)
      unfold nextArr
      by_cases ho : o ∈ a.dims
      · rw [if_pos (by simpa using ho)]
        simp [(ha.2.1 o).1 ho]
      · rw [if_neg (by simpa using ho)]
        have : o ∉ (mean E slices w.at w.dims t).dims := fun h => ho ((ha.2.1 o).2 h)
        simp [this]
  | w, hw, .select t ls, ht => by
      simp only [Ok] at ht
      simp only [evalEx, Legal]
      refine bind_ok hE hw ht.1 (eval_ok_iff hE hw ht.1) _ (fun a ha => ?_)
      cases hl : lookups E ls with
      | ok gs => exact selectArr_iff hE ha hl
      | error x =>
        simp only []
        constructor
        · rintro ⟨b, hb⟩
          cases hb
        · rintro ⟨_, h⟩
          obtain ⟨gs, hgs⟩ := (lookups_ok_iff E ls).2 (fun p hp => by
            obtain ⟨g, hg, _⟩ := h p hp
            exact ⟨g, hg⟩)
          rw [hgs] at hl
          cases hl
theorem evalRest_ok_iff {E : Env V} (hE : WellFormed E) {slices : String → Option SliceDef} :
    ∀ {w : Arr Bool} (_ : w.dims.Nodup) {acc : Arr (Option V)} {r : ExRest V} (_ : OkRest r),
      (∃ a, evalRest E slices (fun _ _ => .error .keyError) w acc r = .ok a) ↔
        LegalRest E slices w.at w.dims r
  | w, hw, acc, .one o t, ht => by
      simp only [OkRest] at ht
      simp only [evalRest, LegalRest]
      exact (bind_ok hE hw ht (eval_ok_iff hE hw ht) _ (P := True) (fun a _ => by simp [Except.ok.injEq])).trans (by simp)
  | w, hw, acc, .more o t r, ht => by
      simp only [OkRest] at ht
      simp only [evalRest, LegalRest]
      exact bind_ok hE hw ht.1 (eval_ok_iff hE hw ht.1) _
        (fun a ha => evalRest_ok_iff hE hw ht.2)
end

end Expr
end Calliope
