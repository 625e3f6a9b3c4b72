import Verif.Spec.Grid

namespace Calliope
namespace Grid

variable {U V W : Type}

theorem lookup_zip_map (ρ : String → Label) (d : String) : ∀ (ds : List String), d ∈ ds →
    (ds.zip (ds.map ρ)).lookup d = some (ρ d)
  | [], h => by cases h
  | e :: ds, h => by
      simp only [List.map_cons, List.zip_cons_cons, List.lookup_cons]
      by_cases he : d = e
      · subst he; simp
      · rw [beq_false_of_ne he]
        exact lookup_zip_map ρ d ds (by
          rcases List.mem_cons.1 h with h | h
          · exact absurd h he
          · exact h)

theorem pick_map (ρ : String → Label) (dims want : List String) (h : ∀ d ∈ want, d ∈ dims) :
    pick dims (dims.map ρ) want = want.map ρ := by
  unfold pick
  apply List.map_congr_left
  intro d hd
  rw [lookup_zip_map ρ d dims (h d hd)]; rfl

@[simp] theorem at_scalar (v : V) (ρ : String → Label) : (scalar v).at ρ = v := rfl

@[simp] theorem at_map (f : V → W) (a : Arr V) (ρ : String → Label) :
    (map f a).at ρ = f (a.at ρ) := rfl

theorem mem_joinDims {a b : List String} {d : String} : d ∈ joinDims a b ↔ d ∈ a ∨ d ∈ b := by
  unfold joinDims
  simp only [List.mem_append, List.mem_filter, Bool.not_eq_true', List.contains_eq_mem,
    decide_eq_false_iff_not]
  constructor
  · rintro (h | h)
    · exact .inl h
    · exact .inr h.1
  · rintro (h | h)
    · exact .inl h
    · by_cases ha : d ∈ a
      · exact .inl ha
      · exact .inr ⟨h, ha⟩

/-- Broadcasting does not change the value of either operand. -/
@[simp] theorem at_zip (f : U → V → W) (a : Arr U) (b : Arr V) (ρ : String → Label) :
    (zip f a b).at ρ = f (a.at ρ) (b.at ρ) := by
  show f (a.val (pick _ ((joinDims a.dims b.dims).map ρ) a.dims))
    (b.val (pick _ ((joinDims a.dims b.dims).map ρ) b.dims)) = _
  rw [pick_map ρ _ _ (fun d hd => mem_joinDims.2 (.inl hd)),
    pick_map ρ _ _ (fun d hd => mem_joinDims.2 (.inr hd))]
  rfl

theorem length_of_mem_cells {coords : String → List Label} : ∀ {ds : List String} {c : List Label},
    c ∈ cells coords ds → c.length = ds.length
  | [], c, h => by simp [cells] at h; simp [h]
  | d :: ds, c, h => by
      simp only [cells, List.mem_flatMap, List.mem_map] at h
      obtain ⟨l, _, c', hc', rfl⟩ := h
      simp [length_of_mem_cells hc']

theorem lookup_zip_some (d : String) : ∀ (ds : List String) (g : List Label), d ∈ ds →
    g.length = ds.length → ∃ x, (ds.zip g).lookup d = some x
  | [], _, h, _ => by cases h
  | e :: es, [], _, hg => by simp at hg
  | e :: es, x :: xs, h, hg => by
      simp only [List.zip_cons_cons, List.lookup_cons]
      by_cases he : d = e
      · subst he; exact ⟨x, by simp⟩
      · rw [beq_false_of_ne he]
        exact lookup_zip_some d es xs (by
          rcases List.mem_cons.1 h with h | h
          · exact absurd h he
          · exact h) (by simpa using hg)

theorem lookup_append_zip (ρ : String → Label) (d : String) (g : List Label) (gone : List String) :
    ∀ (kept : List String), (d ∈ kept → d ∉ gone) → d ∈ kept ++ gone → g.length = gone.length →
    (((kept ++ gone).zip (kept.map ρ ++ g)).lookup d).getD "" = override ρ gone g d
  | [], _, h, hg => by
      simp only [List.nil_append, List.map_nil] at h ⊢
      unfold override
      obtain ⟨x, hx⟩ := lookup_zip_some d gone g h hg
      rw [hx]; rfl
  | k :: ks, hd, h, hg => by
      simp only [List.cons_append, List.map_cons, List.zip_cons_cons, List.lookup_cons]
      by_cases hk : d = k
      · subst hk
        have hng : d ∉ gone := hd (List.mem_cons_self ..)
        unfold override
        have : (gone.zip g).lookup d = none := by
          rw [List.lookup_eq_none_iff]
          intro p hp
          have := (List.of_mem_zip hp).1
          rw [bne_iff_ne]
          rintro rfl; exact hng this
        rw [this]; simp
      · rw [beq_false_of_ne hk]
        refine lookup_append_zip ρ d g gone ks (fun h' => hd (List.mem_cons_of_mem _ h')) ?_ hg
        rcases List.mem_cons.1 h with h | h
        · exact absurd h hk
        · exact h

/-- A reduced array holds, at each item, `f` of the values of the array at that item with the labels of
the dimensions reduced over replaced by all their combinations. -/
theorem at_reduce (coords : String → List Label) (f : List V → W) (over : List String) (a : Arr V)
    (ρ : String → Label) :
    (reduce coords f over a).at ρ =
      f ((cells coords (a.dims.filter (fun d => over.contains d))).map (fun g =>
        a.at (override ρ (a.dims.filter (fun d => over.contains d)) g))) := by
  show f _ = f _
  congr 1
  apply List.map_congr_left
  intro g hg
  unfold Arr.at pick
  congr 1
  apply List.map_congr_left
  intro d hd
  apply lookup_append_zip
  · intro h1 h2
    simp only [List.mem_filter, Bool.not_eq_true'] at h1 h2
    rw [h1.2] at h2
    exact absurd h2.2 (by decide)
  · simp only [List.mem_append, List.mem_filter]
    cases h : over.contains d
    · exact .inl ⟨hd, rfl⟩
    · exact .inr ⟨hd, rfl⟩
  · exact length_of_mem_cells hg

theorem at_transpose {sets : List String} {a b : Arr V} (h : transpose sets a = some b)
    (ρ : String → Label) : b.at ρ = a.at ρ := by
  unfold transpose at h
  split at h
  · rename_i hc
    cases h
    simp only [Bool.and_eq_true, List.all_eq_true, List.contains_eq_mem, decide_eq_true_eq] at hc
    show a.val (pick sets (sets.map ρ) a.dims) = _
    rw [pick_map ρ _ _ hc.1]; rfl
  · cases h

theorem mem_cells {coords : String → List Label} : ∀ {ds : List String} {σ : String → Label},
    (∀ d ∈ ds, σ d ∈ coords d) → ds.map σ ∈ cells coords ds
  | [], _, _ => by simp [cells]
  | d :: ds, σ, h => by
      simp only [cells, List.map_cons, List.mem_flatMap, List.mem_map]
      exact ⟨σ d, h d (List.mem_cons_self ..), ds.map σ,
        mem_cells (fun e he => h e (List.mem_cons_of_mem _ he)), rfl⟩

theorem override_map (ρ σ : String → Label) (ds : List String) (d : String) :
    override ρ ds (ds.map σ) d = if d ∈ ds then σ d else ρ d := by
  unfold override
  by_cases h : d ∈ ds
  · rw [lookup_zip_map σ d ds h, if_pos h]; rfl
  · rw [if_neg h]
    have : (ds.zip (ds.map σ)).lookup d = none := by
      rw [List.lookup_eq_none_iff]
      intro p hp
      have := (List.of_mem_zip hp).1
      rw [bne_iff_ne]
      rintro rfl; exact h this
    rw [this]; rfl

theorem mem_of_cells {coords : String → List Label} {ρ : String → Label} :
    ∀ {ds : List String} {g : List Label}, g ∈ cells coords ds → ∀ d ∈ ds,
      override ρ ds g d ∈ coords d
  | [], _, _, d, hd => by cases hd
  | e :: ds, g, h, d, hd => by
      simp only [cells, List.mem_flatMap, List.mem_map] at h
      obtain ⟨l, hl, c, hc, rfl⟩ := h
      unfold override
      simp only [List.zip_cons_cons, List.lookup_cons]
      by_cases he : d = e
      · subst he; simpa using hl
      · rw [beq_false_of_ne he]
        refine mem_of_cells (ρ := ρ) hc d ?_
        rcases List.mem_cons.1 hd with h | h
        · exact absurd h he
        · exact h

theorem along_override {coords : String → List Label} {ρ : String → Label} {ds : List String}
    {g : List Label} (h : g ∈ cells coords ds) : Along coords ds ρ (override ρ ds g) := by
  refine ⟨?_, mem_of_cells h⟩
  intro d hd
  unfold override
  have : (ds.zip g).lookup d = none := by
    rw [List.lookup_eq_none_iff]
    intro p hp
    have := (List.of_mem_zip hp).1
    rw [bne_iff_ne]
    rintro rfl; exact hd this
  rw [this]; rfl

theorem override_of_along {coords : String → List Label} {ρ σ : String → Label} {ds : List String}
    (h : Along coords ds ρ σ) : override ρ ds (ds.map σ) = σ := by
  funext d
  rw [override_map]
  by_cases hd : d ∈ ds
  · rw [if_pos hd]
  · rw [if_neg hd, h.1 d hd]

/-- Combinations of labels along some dimensions, and items that differ only along them. -/
theorem exists_cells_iff (coords : String → List Label) (ds : List String) (ρ : String → Label)
    (P : (String → Label) → Prop) :
    (∃ g ∈ cells coords ds, P (override ρ ds g)) ↔ ∃ σ, Along coords ds ρ σ ∧ P σ := by
  constructor
  · rintro ⟨g, hg, hp⟩
    exact ⟨_, along_override hg, hp⟩
  · rintro ⟨σ, ha, hp⟩
    exact ⟨ds.map σ, mem_cells ha.2, by rw [override_of_along ha]; exact hp⟩

theorem forall_cells_iff (coords : String → List Label) (ds : List String) (ρ : String → Label)
    (P : (String → Label) → Prop) :
    (∀ g ∈ cells coords ds, P (override ρ ds g)) ↔ ∀ σ, Along coords ds ρ σ → P σ := by
  constructor
  · intro h σ ha
    have := h (ds.map σ) (mem_cells ha.2)
    rwa [override_of_along ha] at this
  · intro h g hg
    exact h _ (along_override hg)

theorem at_congr (a : Arr V) {ρ σ : String → Label} (h : ∀ d ∈ a.dims, σ d = ρ d) :
    a.at σ = a.at ρ := by
  unfold Arr.at
  rw [List.map_congr_left h]

end Grid
end Calliope
