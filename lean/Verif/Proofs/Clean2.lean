import Verif.Proofs.Clean

/-! # Proofs about cleaning the inputs: undefined members -/

namespace Calliope
namespace Clean

open Grid ModelData

variable {V : Type}

theorem lookup_map_key {β γ : Type} (f : String → β → γ) (p : String) : ∀ (l : List (String × β)),
    (l.map (fun x => (x.1, f x.1 x.2))).lookup p = (l.lookup p).map (f p)
  | [] => rfl
  | (n, b) :: l => by
      simp only [List.map_cons, List.lookup_cons]
      by_cases h : p = n
      · subst h; simp
      · rw [beq_false_of_ne h]; exact lookup_map_key f p l

theorem toBool_iff (T : Types V) (x : Option (ModelData.Scalar V)) : toBool T x = true ↔ truth T.nonzero x := by
  rcases x with _ | ⟨b | v | s⟩
  · simp [toBool, truth]
  · simp [toBool, truth]
  · simp [toBool, truth]
  · simp [toBool, truth]

theorem bool_typed (T : Types V) (x : Option (ModelData.Scalar V)) :
    (some (ModelData.Scalar.bool (toBool T x)) : Option (ModelData.Scalar V)) =
      some (.bool (@decide (truth T.nonzero x) (Classical.propDecidable _))) := by
  congr 2
  by_cases h : truth T.nonzero x
  · rw [(toBool_iff T x).2 h]; simp [h]
  · have : toBool T x = false := by
      rw [← Bool.not_eq_true]; exact fun h' => h ((toBool_iff T x).1 h')
    rw [this]; simp [h]

theorem truth_bool (nz : V → Bool) (b : Bool) : truth nz (some (.bool b)) ↔ b = true := by
  simp [truth]

theorem truth_none (nz : V → Bool) : ¬ truth nz (none : Option (ModelData.Scalar V)) := by simp [truth]

theorem truth_typed (T : Types V) (p : String) (x : Option (ModelData.Scalar V)) :
    truth T.nonzero (typed T p x) ↔ truth T.nonzero x := by
  unfold typed
  by_cases h : T.isBool p
  · rw [if_pos h, truth_bool]; simp
  · rw [if_neg h]

theorem typed_typed (T : Types V) (p : String) (x : Option (ModelData.Scalar V)) :
    typed T p (typed T p x) = typed T p x := by
  by_cases h : T.isBool p
  · have := truth_typed T p x
    unfold typed at this ⊢
    simp only [h, if_true] at this ⊢
    congr 2
    rw [decide_eq_decide, if_pos h]
    exact this
  · unfold typed
    simp only [h, if_false, Bool.false_eq_true]

/-! ### Types -/

theorem lookup_types (T : Types V) (ds : DS V) (p : String) :
    (updateTypes T ds).vars.lookup p = (ds.vars.lookup p).map (fun a =>
      if T.isBool p then map (fun v => some (.bool (toBool T v))) a else a) :=
  lookup_map_key (fun p a => if T.isBool p then map (fun v => some (ModelData.Scalar.bool (toBool T v))) a else a) p
    ds.vars

theorem types_at (T : Types V) (p : String) (a : Arr (Option (ModelData.Scalar V))) (ρ : String → Label) :
    (if T.isBool p then map (fun v => some (.bool (toBool T v))) a else a).at ρ = typed T p (a.at ρ) := by
  unfold typed
  by_cases h : T.isBool p
  · simp only [h, if_true]
    exact bool_typed T (a.at ρ)
  · simp only [h, if_false, Bool.false_eq_true]

theorem types_dims (T : Types V) (p : String) (a : Arr (Option (ModelData.Scalar V))) :
    (if T.isBool p then map (fun v => some (.bool (toBool T v))) a else a).dims = a.dims := by
  by_cases h : T.isBool p
  · simp only [h, if_true]; rfl
  · simp only [h, if_false, Bool.false_eq_true]

theorem names_map {β : Type} (f : String → β → β) (l : List (String × β)) :
    (l.map (fun x => (x.1, f x.1 x.2))).map Prod.fst = l.map Prod.fst := by
  rw [List.map_map]; rfl

/-! ### The definition matrix -/

theorem defMatrix_ok {T : Types V} {ds : DS V} {dm : Arr Bool} (h : defMatrix T (updateTypes T ds) = .ok dm) :
    (∀ d, d ∈ dm.dims ↔ Index ds d) ∧ ∀ ρ, dm.at ρ = true ↔ Defines T ds ρ := by
  unfold defMatrix DS.var at h
  rw [lookup_types, lookup_types] at h
  rcases ha : ds.vars.lookup "carrier_in" with _ | a
  · rw [ha] at h; cases h
  · rcases hb : ds.vars.lookup "carrier_out" with _ | b
    · rw [ha, hb] at h; cases h
    · rw [ha, hb] at h
      simp only [Option.map_some] at h
      cases h
      refine ⟨fun d => ?_, fun ρ => ?_⟩
      · show d ∈ joinDims _ _ ↔ _
        rw [mem_joinDims, types_dims, types_dims]
        simp [Index, Over, ha, hb]
      · rw [at_zip, types_at, types_at, Bool.or_eq_true, toBool_iff, toBool_iff, truth_typed, truth_typed]
        simp [Defines, valueOf, ha, hb]

theorem defMatrix_iff {T : Types V} {ds : DS V} :
    (∃ dm, defMatrix T (updateTypes T ds) = .ok dm) ↔
      (∃ a, ds.vars.lookup "carrier_in" = some a) ∧ ∃ b, ds.vars.lookup "carrier_out" = some b := by
  unfold defMatrix DS.var
  rw [lookup_types, lookup_types]
  rcases ha : ds.vars.lookup "carrier_in" with _ | a
  · simp
  · rcases hb : ds.vars.lookup "carrier_out" with _ | b <;> simp

theorem good_iff {T : Types V} {ds : DS V} {dm : Arr Bool} (h : defMatrix T (updateTypes T ds) = .ok dm)
    (ρ : String → Label) : Good dm ds.coords ρ ↔ Combination T ds ρ := by
  obtain ⟨h1, h2⟩ := defMatrix_ok h
  unfold Good Combination
  simp only [h1, h2]

/-! ### Masking -/

/-- The dataset after values are masked. -/
def masked (T : Types V) (ds : DS V) (dm : Arr Bool) : DS V :=
  ⟨ds.coords, (updateTypes T ds).vars.map (fun x => (x.1, mask T (labelsU ds.coords) dm x.1 x.2))⟩

theorem lookup_masked (T : Types V) (ds : DS V) (dm : Arr Bool) (p : String) :
    (masked T ds dm).vars.lookup p = ((updateTypes T ds).vars.lookup p).map (mask T (labelsU ds.coords) dm p) :=
  lookup_map_key (mask T (labelsU ds.coords) dm) p _

theorem mask_dims (T : Types V) (coords : String → List Label) (dm : Arr Bool) (p : String)
    (a : Arr (Option (ModelData.Scalar V))) : (mask T coords dm p a).dims = a.dims := by
  have : joinDims a.dims (dm.dims.filter (fun d => !(dm.dims.filter (fun d => !a.dims.contains d)).contains d)) =
      a.dims := by
    unfold joinDims
    rw [List.filter_filter, List.filter_eq_nil_iff.2, List.append_nil]
    intro d hd
    simp only [List.contains_eq_mem, List.mem_filter, Bool.not_eq_true', decide_eq_false_iff_not, not_and,
      Bool.and_eq_true]
    tauto
  unfold mask
  by_cases h : T.isBool p
  · simp only [h, if_true]; exact this
  · simp only [h, if_false, Bool.false_eq_true]; exact this

theorem over_masked {T : Types V} {ds : DS V} {dm : Arr Bool} {p d : String} :
    Over (masked T ds dm) p d ↔ Over ds p d := by
  apply over_of_dims
  rw [lookup_masked, lookup_types]
  rcases ds.vars.lookup p with _ | a
  · rfl
  · simp only [Option.map_some, mask_dims, types_dims]

theorem names_masked (T : Types V) (ds : DS V) (dm : Arr Bool) :
    (masked T ds dm).vars.map Prod.fst = ds.vars.map Prod.fst := by
  unfold masked updateTypes
  simp [List.map_map, Function.comp_def]

open Classical in
theorem mask_at {T : Types V} {coords : String → List Label} {dm : Arr Bool} {p : String}
    {a : Arr (Option (ModelData.Scalar V))} (ρ : String → Label) :
    (mask T coords dm p a).at ρ = typed T p
      (if ∃ σ, Along coords (dm.dims.filter (fun d => (dm.dims.filter (fun d => !a.dims.contains d)).contains d)) ρ σ ∧
        dm.at σ = true then a.at ρ else none) ∨ T.isBool p = false := by
  by_cases h : T.isBool p
  · left
    unfold mask typed
    simp only [h, if_true]
    show some (ModelData.Scalar.bool (toBool T ((zip _ a _).at ρ))) = _
    rw [bool_typed, at_zip]
    have := at_any coords (dm.dims.filter (fun d => !a.dims.contains d)) dm ρ
    by_cases hc : (reduce coords (fun l => l.any id) (dm.dims.filter (fun d => !a.dims.contains d)) dm).at ρ = true
    · rw [if_pos hc, if_pos (this.1 hc)]
    · rw [if_neg hc, if_neg (fun h' => hc (this.2 h'))]
  · right; simpa using h

open Classical in
theorem mask_at' {T : Types V} {coords : String → List Label} {dm : Arr Bool} {p : String}
    {a : Arr (Option (ModelData.Scalar V))} (ρ : String → Label) :
    (mask T coords dm p a).at ρ = typed T p
      (if ∃ σ, Along coords (dm.dims.filter (fun d => (dm.dims.filter (fun d => !a.dims.contains d)).contains d)) ρ σ ∧
        dm.at σ = true then a.at ρ else none) := by
  by_cases h : T.isBool p
  · rcases mask_at (T := T) (coords := coords) (dm := dm) (p := p) (a := a) ρ with h' | h'
    · exact h'
    · rw [h] at h'; cases h'
  · unfold mask typed
    simp only [h, if_false, Bool.false_eq_true]
    rw [at_zip]
    have := at_any coords (dm.dims.filter (fun d => !a.dims.contains d)) dm ρ
    by_cases hc : (reduce coords (fun l => l.any id) (dm.dims.filter (fun d => !a.dims.contains d)) dm).at ρ = true
    · rw [if_pos hc, if_pos (this.1 hc)]
    · rw [if_neg hc, if_neg (fun h' => hc (this.2 h'))]

theorem matters_iff {T : Types V} {ds : DS V} {dm : Arr Bool} (h : defMatrix T (updateTypes T ds) = .ok dm)
    {p : String} {a : Arr (Option (ModelData.Scalar V))} (ha : ds.vars.lookup p = some a) {ρ : String → Label}
    (hi : Inside ds.coords ds p ρ) :
    (∃ σ, Along (labelsU ds.coords)
      (dm.dims.filter (fun d => (dm.dims.filter (fun d => !a.dims.contains d)).contains d)) ρ σ ∧ dm.at σ = true) ↔
    Matters T ds p ρ := by
  have hov : ∀ d, Over ds p d ↔ d ∈ a.dims := by
    intro d; simp [Over, ha]
  have hg : ∀ d, d ∈ (dm.dims.filter (fun d => (dm.dims.filter (fun d => !a.dims.contains d)).contains d)) ↔
      d ∈ dm.dims ∧ d ∉ a.dims := by
    intro d
    simp only [List.mem_filter, List.contains_eq_mem, decide_eq_true_eq, Bool.not_eq_true', decide_eq_false_iff_not]
    tauto
  obtain ⟨h1, h2⟩ := defMatrix_ok h
  constructor
  · rintro ⟨σ, hal, hs⟩
    refine ⟨σ, (good_iff h σ).1 ⟨?_, hs⟩, ?_⟩
    · intro d hd
      by_cases hda : d ∈ a.dims
      · rw [hal.1 d (fun hm => ((hg d).1 hm).2 hda)]
        exact hi d ((hov d).2 hda)
      · exact mem_labelsU.1 (hal.2 d ((hg d).2 ⟨hd, hda⟩))
    · intro d _ hod
      exact hal.1 d (fun hm => ((hg d).1 hm).2 ((hov d).1 hod))
  · rintro ⟨σ, hc, hag⟩
    obtain ⟨g1, g2⟩ := (good_iff h σ).2 hc
    refine ⟨fun d => if d ∈ dm.dims ∧ d ∉ a.dims then σ d else ρ d, ⟨?_, ?_⟩, ?_⟩
    · intro d hd
      rw [hg] at hd
      simp only [if_neg hd]
    · intro d hd
      rw [hg] at hd
      simp only [if_pos hd]
      exact mem_labelsU.2 (g1 d hd.1)
    · rw [← g2]
      apply at_congr
      intro d hd
      by_cases hda : d ∈ a.dims
      · rw [if_neg (fun hh => hh.2 hda)]
        exact (hag d ((h1 d).1 hd) ((hov d).2 hda)).symm
      · rw [if_pos ⟨hd, hda⟩]

open Classical in
theorem valueOf_masked {T : Types V} {ds : DS V} {dm : Arr Bool} (h : defMatrix T (updateTypes T ds) = .ok dm)
    {p : String} {a : Arr (Option (ModelData.Scalar V))} (ha : ds.vars.lookup p = some a) {ρ : String → Label}
    (hi : Inside ds.coords ds p ρ) :
    valueOf (masked T ds dm) p ρ = typed T p (if Matters T ds p ρ then valueOf ds p ρ else none) := by
  unfold valueOf
  rw [lookup_masked, lookup_types, ha]
  simp only [Option.map_some]
  rw [mask_at', types_dims, types_at]
  by_cases hm : Matters T ds p ρ
  · rw [if_pos hm, if_pos ((matters_iff h ha hi).2 hm), typed_typed]
  · rw [if_neg hm, if_neg (fun h' => hm ((matters_iff h ha hi).1 h'))]

/-! ### Cleaning -/

theorem clean_eq {T : Types V} {ds ds' : DS V} (h : cleanUndefined T ds = .ok ds') :
    ∃ dm, defMatrix T (updateTypes T ds) = .ok dm ∧ ds' = dropUndefined (masked T ds dm) dm := by
  unfold cleanUndefined at h
  simp only [] at h
  rcases hd : defMatrix T (updateTypes T ds) with e | dm
  · rw [hd] at h; cases h
  · rw [hd] at h
    cases h
    exact ⟨dm, rfl, rfl⟩

theorem clean_ok {T : Types V} {ds : DS V} :
    (∃ ds', cleanUndefined T ds = .ok ds') ↔
      (∃ a, ds.vars.lookup "carrier_in" = some a) ∧ ∃ b, ds.vars.lookup "carrier_out" = some b := by
  rw [← defMatrix_iff (T := T)]
  constructor
  · rintro ⟨ds', h⟩
    obtain ⟨dm, h1, _⟩ := clean_eq h
    exact ⟨dm, h1⟩
  · rintro ⟨dm, h⟩
    unfold cleanUndefined
    simp only [h]
    exact ⟨_, rfl⟩

theorem clean_coords {T : Types V} {ds ds' : DS V} (h : cleanUndefined T ds = .ok ds') (x : String × Label) :
    x ∈ ds'.coords ↔ x ∈ ds.coords ∧ (Index ds x.1 → ∃ ρ, Combination T ds ρ ∧ ρ x.1 = x.2) := by
  obtain ⟨dm, h1, rfl⟩ := clean_eq h
  rw [dropUndefined_coords]
  have : ∀ ρ, Good dm (masked T ds dm).coords ρ ↔ Combination T ds ρ := good_iff h1
  simp only [this, (defMatrix_ok h1).1]
  rfl

open Classical in
theorem clean_value {T : Types V} {ds ds' : DS V} (h : cleanUndefined T ds = .ok ds')
    (hn : (ds.vars.map Prod.fst).Nodup) {p : String} (hp : p ≠ "definition_matrix")
    (hv : ∃ a, ds.vars.lookup p = some a) {ρ : String → Label} (hi : Inside ds'.coords ds p ρ) :
    valueOf ds' p ρ = typed T p (if Matters T ds p ρ then valueOf ds p ρ else none) := by
  have hsub : ∀ x ∈ ds'.coords, x ∈ ds.coords := fun x hx => ((clean_coords h x).1 hx).1
  obtain ⟨dm, h1, rfl⟩ := clean_eq h
  obtain ⟨a, ha⟩ := hv
  rw [valueOf_dropUndefined (by rw [names_masked]; exact hn), valueOf_before hp,
    valueOf_masked h1 ha (fun d hd => hsub _ (hi d hd))]
  intro d hd
  exact hi d (over_masked.1 ((over_before hp).1 hd))

theorem clean_matrix {T : Types V} {ds ds' : DS V} (h : cleanUndefined T ds = .ok ds')
    (hn : (ds.vars.map Prod.fst).Nodup) {ρ : String → Label} (hi : ∀ d, Index ds d → (d, ρ d) ∈ ds'.coords) :
    (valueOf ds' "definition_matrix" ρ = some (.bool true) ↔ Defines T ds ρ) ∧
      ∃ b, valueOf ds' "definition_matrix" ρ = some (.bool b) := by
  obtain ⟨dm, h1, rfl⟩ := clean_eq h
  have hv : valueOf (before (masked T ds dm) dm) "definition_matrix" ρ = some (.bool (dm.at ρ)) := by
    simp only [valueOf, before, lookup_putVar, if_true]
    rfl
  rw [valueOf_dropUndefined (by rw [names_masked]; exact hn), hv]
  · refine ⟨?_, _, rfl⟩
    rw [← (defMatrix_ok h1).2 ρ]
    simp
  · intro d hd
    exact hi d (((defMatrix_ok h1).1 d).1 (over_matrix.1 hd))

theorem clean_var {T : Types V} {ds ds' : DS V} (h : cleanUndefined T ds = .ok ds')
    (hn : (ds.vars.map Prod.fst).Nodup) {p : String} (hp : p ≠ "definition_matrix") :
    (∃ a, ds'.vars.lookup p = some a) ↔
      (∃ a, ds.vars.lookup p = some a) ∧ ∃ ρ, Inside ds'.coords ds p ρ ∧ valueOf ds' p ρ ≠ none := by
  obtain ⟨dm, h1, rfl⟩ := clean_eq h
  have hn' : ((masked T ds dm).vars.map Prod.fst).Nodup := by rw [names_masked]; exact hn
  have hio : ∀ ρ, Inside (dropUndefined (masked T ds dm) dm).coords (before (masked T ds dm) dm) p ρ ↔
      Inside (dropUndefined (masked T ds dm) dm).coords ds p ρ := by
    intro ρ
    unfold Inside
    simp only [over_before hp, over_masked]
  rw [dropUndefined_var hn']
  constructor
  · rintro ⟨ρ, hi, hne⟩
    refine ⟨?_, ρ, (hio ρ).1 hi, by rw [valueOf_dropUndefined hn' hi]; exact hne⟩
    rcases ha : ds.vars.lookup p with _ | a
    · exfalso
      apply hne
      rw [valueOf_before hp]
      unfold valueOf
      rw [lookup_masked, lookup_types, ha]
      rfl
    · exact ⟨a, rfl⟩
  · rintro ⟨_, ρ, hi, hne⟩
    refine ⟨ρ, (hio ρ).2 hi, ?_⟩
    rw [← valueOf_dropUndefined hn' ((hio ρ).2 hi)]
    exact hne

theorem clean_over {T : Types V} {ds ds' : DS V} (h : cleanUndefined T ds = .ok ds')
    (hn : (ds.vars.map Prod.fst).Nodup) {p : String} (hp : p ≠ "definition_matrix")
    (hv : ∃ a, ds'.vars.lookup p = some a) (d : String) : Over ds' p d ↔ Over ds p d := by
  obtain ⟨dm, h1, rfl⟩ := clean_eq h
  have hn' : ((masked T ds dm).vars.map Prod.fst).Nodup := by rw [names_masked]; exact hn
  obtain ⟨a, ha⟩ := hv
  have hd := dropUndefined_dims hn' ha
  rw [← over_masked (T := T) (ds := ds) (dm := dm), ← over_before (ds := masked T ds dm) (dm := dm) hp]
  apply over_of_dims
  rw [hd, ha]
  rfl

theorem clean_nodup {T : Types V} {ds ds' : DS V} (h : cleanUndefined T ds = .ok ds')
    (hn : (ds.vars.map Prod.fst).Nodup) : (ds'.vars.map Prod.fst).Nodup := by
  obtain ⟨dm, h1, rfl⟩ := clean_eq h
  exact dropUndefined_nodup (by rw [names_masked]; exact hn)

theorem clean_over_matrix {T : Types V} {ds ds' : DS V} (h : cleanUndefined T ds = .ok ds')
    (hn : (ds.vars.map Prod.fst).Nodup) (hv : ∃ a, ds'.vars.lookup "definition_matrix" = some a) (d : String) :
    Over ds' "definition_matrix" d ↔ Index ds d := by
  obtain ⟨dm, h1, rfl⟩ := clean_eq h
  have hn' : ((masked T ds dm).vars.map Prod.fst).Nodup := by rw [names_masked]; exact hn
  obtain ⟨a, ha⟩ := hv
  have hd := dropUndefined_dims hn' ha
  rw [← (defMatrix_ok h1).1, ← over_matrix (ds := masked T ds dm)]
  apply over_of_dims
  rw [hd, ha]
  rfl

theorem clean_matrix_var {T : Types V} {ds ds' : DS V} (h : cleanUndefined T ds = .ok ds')
    (hn : (ds.vars.map Prod.fst).Nodup) {ρ : String → Label} (hc : Combination T ds ρ) :
    ∃ a, ds'.vars.lookup "definition_matrix" = some a := by
  have hi : ∀ d, Index ds d → (d, ρ d) ∈ ds'.coords :=
    fun d hd => (clean_coords h _).2 ⟨hc.1 d hd, fun _ => ⟨ρ, hc, rfl⟩⟩
  have := ((clean_matrix h hn hi).1).2 hc.2
  unfold valueOf at this
  rcases hv : ds'.vars.lookup "definition_matrix" with _ | a
  · rw [hv] at this; cases this
  · exact ⟨a, rfl⟩

end Clean
end Calliope
