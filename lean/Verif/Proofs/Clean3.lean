import Verif.Proofs.Clean2

/-! # Proofs about cleaning the inputs: subsets -/

namespace Calliope
namespace Clean

open Grid ModelData

variable {V : Type}

/-! ### Selecting -/

theorem selectDim_ok {ds ds' : DS V} {dim : String} {keep : List Label} (h : selectDim ds dim keep = .ok ds') :
    Sub ds' ds ∧ ∀ x, x ∈ ds'.coords ↔ x ∈ ds.coords ∧ (x.1 = dim → x.2 ∈ keep) := by
  unfold selectDim at h
  split at h
  · cases h
    refine ⟨sub_dropLabels _ _ _, fun x => ?_⟩
    rw [dropLabels_coords]
    obtain ⟨d, l⟩ := x
    by_cases he : d = dim
    · subst he
      by_cases hm : (d, l) ∈ ds.coords
      · simp [hm, mem_labelsU]
      · simp [hm]
    · simp [he]
  · cases h

theorem selectDims_ok : ∀ {sel : List (String × List Label)} {ds ds' : DS V}, selectDims ds sel = .ok ds' →
    Sub ds' ds ∧ ∀ x, x ∈ ds'.coords ↔ x ∈ ds.coords ∧ Selected sel x
  | [], ds, ds', h => by
      cases h
      exact ⟨Sub.refl ds, fun x => by simp [Selected]⟩
  | (dim, keep) :: rest, ds, ds', h => by
      simp only [selectDims] at h
      split at h
      · rename_i hnil
        obtain ⟨h1, h2⟩ := selectDims_ok h
        refine ⟨h1, fun x => ?_⟩
        rw [h2]
        constructor
        · rintro ⟨hx, hs⟩
          refine ⟨hx, fun k hk => ?_⟩
          rcases List.mem_cons.1 hk with hk | hk
          · exfalso
            simp only [Prod.mk.injEq] at hk
            have : x.2 ∈ labelsU ds.coords dim := mem_labelsU.2 (by rw [← hk.1]; exact hx)
            rw [hnil] at this
            cases this
          · exact hs k hk
        · rintro ⟨hx, hs⟩
          exact ⟨hx, fun k hk => hs k (List.mem_cons_of_mem _ hk)⟩
      · rcases hd : selectDim ds dim keep with e | ds1
        · rw [hd] at h; cases h
        · rw [hd] at h
          obtain ⟨a1, a2⟩ := selectDim_ok hd
          obtain ⟨h1, h2⟩ := selectDims_ok h
          refine ⟨h1.trans a1, fun x => ?_⟩
          rw [h2, a2]
          constructor
          · rintro ⟨⟨hx, hk⟩, hs⟩
            refine ⟨hx, fun k hk' => ?_⟩
            rcases List.mem_cons.1 hk' with he | he
            · simp only [Prod.mk.injEq] at he
              rw [he.2]
              exact hk he.1
            · exact hs k he
          · rintro ⟨hx, hs⟩
            refine ⟨⟨hx, fun he => hs keep (by rw [← he]; exact List.mem_cons_self ..)⟩, fun k hk => ?_⟩
            exact hs k (List.mem_cons_of_mem _ hk)

/-! ### Counting nodes -/

theorem countP_one {l : List Label} (hl : l.Nodup) (p : Label → Bool) :
    l.countP p = 1 ↔ ∃ n ∈ l, p n = true ∧ ∀ m ∈ l, p m = true → m = n := by
  rw [List.countP_eq_length_filter, List.length_eq_one_iff]
  constructor
  · rintro ⟨n, hn⟩
    have h1 : n ∈ l.filter p := by rw [hn]; simp
    rw [List.mem_filter] at h1
    refine ⟨n, h1.1, h1.2, fun m hm hp => ?_⟩
    have : m ∈ l.filter p := List.mem_filter.2 ⟨hm, hp⟩
    rw [hn] at this
    simpa using this
  · rintro ⟨n, h1, h2, h3⟩
    refine ⟨n, List.perm_singleton.1 ?_⟩
    rw [List.perm_ext_iff_of_nodup (hl.filter p) (List.nodup_singleton n)]
    intro m
    rw [List.mem_filter, List.mem_singleton]
    constructor
    · rintro ⟨a, b⟩
      exact h3 m a b
    · rintro rfl
      exact ⟨h1, h2⟩

theorem filter_one {l : List String} (h : l.Nodup) {x : String} (hx : x ∈ l) :
    l.filter (fun d => [x].contains d) = [x] := by
  refine List.perm_singleton.1 ?_
  rw [List.perm_ext_iff_of_nodup (h.filter _) (List.nodup_singleton x)]
  intro m
  simp only [List.mem_filter, List.contains_cons, List.contains_nil, Bool.or_false, beq_iff_eq, List.mem_singleton]
  constructor
  · exact fun h => h.2
  · rintro rfl; exact ⟨hx, rfl⟩

theorem override_node (ρ : String → Label) (n : Label) : override ρ ["nodes"] [n] = withNode ρ n := by
  funext d
  unfold override withNode
  by_cases h : d = "nodes"
  · subst h; simp
  · rw [if_neg h]
    simp [List.lookup_cons, beq_false_of_ne h]

theorem sums_at {coords : List (String × Label)} {dm : Arr Bool} (hd : dm.dims.Nodup) (hn : "nodes" ∈ dm.dims)
    (ρ : String → Label) :
    (reduce (labelsU coords) count ["nodes"] dm).at ρ =
      (labelsU coords "nodes").countP (fun n => dm.at (withNode ρ n)) := by
  rw [at_reduce, filter_one hd hn]
  simp only [cells, List.map_cons, List.map_nil, count, List.countP_map, List.flatMap_def]
  rw [show ((labelsU coords "nodes").map (fun l => [[l]])).flatten = (labelsU coords "nodes").map (fun l => [l]) from by
    induction labelsU coords "nodes" with
    | nil => rfl
    | cons x xs ih => simp [ih]]
  rw [List.countP_map]
  apply List.countP_congr
  intro n _
  simp only [Function.comp_def, id, override_node]

/-! ### Hanging links -/

theorem stored_ok {ds : DS V} {dm : Arr Bool} (h : storedMatrix ds = .ok dm) :
    (∀ d, d ∈ dm.dims ↔ Over ds "definition_matrix" d) ∧
    (∀ ρ, dm.at ρ = true ↔ valueOf ds "definition_matrix" ρ = some (.bool true)) ∧
    ∃ a, ds.vars.lookup "definition_matrix" = some a ∧ a.dims = dm.dims := by
  unfold storedMatrix DS.var at h
  rcases ha : ds.vars.lookup "definition_matrix" with _ | a
  · rw [ha] at h; cases h
  · rw [ha] at h
    cases h
    refine ⟨fun d => by simp [Over, ha, map], fun ρ => ?_, a, rfl, rfl⟩
    simp only [valueOf, ha, at_map]
    rcases a.at ρ with _ | ⟨b | v | s⟩ <;> simp [isTrue]

theorem isTransmission_iff (ds : DS V) (t : Label) : isTransmission ds t = true ↔ IsLink ds t := by
  unfold isTransmission IsLink valueOf DS.var
  rcases ds.vars.lookup "base_tech" with _ | a
  · simp
  · simp only []
    rcases a.at (fun _ => t) with _ | ⟨b | v | s⟩ <;> simp

/-- A link with some carrier at just one node. -/
def Alone (dm : Arr Bool) (coords : List (String × Label)) (t : Label) : Prop :=
  ∃ ρ, Good dm coords ρ ∧ ρ "techs" = t ∧ ∀ n, Good dm coords (withNode ρ n) → n = ρ "nodes"

theorem withNode_self (ρ : String → Label) : withNode ρ (ρ "nodes") = ρ := by
  funext d
  unfold withNode
  by_cases h : d = "nodes"
  · rw [if_pos h, h]
  · rw [if_neg h]

theorem withNode_withNode (ρ : String → Label) (m n : Label) : withNode (withNode ρ m) n = withNode ρ n := by
  funext d
  unfold withNode
  by_cases h : d = "nodes"
  · rw [if_pos h, if_pos h]
  · rw [if_neg h, if_neg h, if_neg h]

theorem hanging_iff {ds : DS V} {dm : Arr Bool} (hd : dm.dims.Nodup) (hn : "nodes" ∈ dm.dims)
    (ht : "techs" ∈ dm.dims) (t : Label) :
    t ∈ hangingLinks ds dm ↔ ("techs", t) ∈ ds.coords ∧ IsLink ds t ∧ Alone dm ds.coords t := by
  unfold hangingLinks
  simp only []
  rw [List.mem_filter, mem_labelsU, Bool.and_eq_true, isTransmission_iff]
  refine and_congr_right (fun hc => and_congr_right (fun _ => ?_))
  have hdims : (map (fun n => n == 1) (reduce (labelsU ds.coords) count ["nodes"] dm)).dims =
      dm.dims.filter (fun d => !["nodes"].contains d) := rfl
  rw [at_any, hdims]
  have hg : ∀ d, d ∈ ((dm.dims.filter (fun d => !["nodes"].contains d)).filter (fun d =>
      ((dm.dims.filter (fun d => !["nodes"].contains d)).filter (fun d => d ≠ "techs")).contains d)) ↔
      d ∈ dm.dims ∧ d ≠ "nodes" ∧ d ≠ "techs" := by
    intro d
    simp only [List.mem_filter, List.contains_eq_mem, decide_eq_true_eq, List.mem_singleton, Bool.not_eq_true',
      decide_eq_false_iff_not]
    tauto
  have hone : ∀ σ, (map (fun n => n == 1) (reduce (labelsU ds.coords) count ["nodes"] dm)).at σ = true ↔
      ∃ n ∈ labelsU ds.coords "nodes", dm.at (withNode σ n) = true ∧
        ∀ m ∈ labelsU ds.coords "nodes", dm.at (withNode σ m) = true → m = n := by
    intro σ
    rw [at_map, beq_iff_eq, sums_at hd hn, countP_one (l := labelsU ds.coords "nodes") (List.nodup_dedup _)]
  constructor
  · rintro ⟨σ, ha, hs⟩
    obtain ⟨n, h1, h2, h3⟩ := (hone σ).1 hs
    have hst : σ "techs" = t := ha.1 "techs" (fun h => ((hg _).1 h).2.2 rfl)
    have hwt : withNode σ n "techs" = t := by simp [withNode, hst]
    have hin : ∀ m, ("nodes", m) ∈ ds.coords → ∀ d ∈ dm.dims, (d, withNode σ m d) ∈ ds.coords := by
      intro m hm d hdd
      unfold withNode
      by_cases hdn : d = "nodes"
      · rw [if_pos hdn, hdn]; exact hm
      · rw [if_neg hdn]
        by_cases hdt : d = "techs"
        · rw [hdt, hst]; exact hc
        · exact mem_labelsU.1 (ha.2 d ((hg d).2 ⟨hdd, hdn, hdt⟩))
    refine ⟨withNode σ n, ⟨hin n (mem_labelsU.1 h1), h2⟩, hwt, ?_⟩
    rintro m ⟨g1, g2⟩
    rw [withNode_withNode] at g1 g2
    have hm : m ∈ labelsU ds.coords "nodes" := mem_labelsU.2 (by simpa [withNode] using g1 "nodes" hn)
    rw [h3 m hm g2]
    simp [withNode]
  · rintro ⟨ρ, ⟨g1, g2⟩, g3, g4⟩
    refine ⟨fun d => if d ∈ dm.dims ∧ d ≠ "nodes" ∧ d ≠ "techs" then ρ d else t, ⟨?_, ?_⟩, ?_⟩
    · intro d hdd
      rw [hg] at hdd
      simp only [if_neg hdd]
    · intro d hdd
      rw [hg] at hdd
      simp only [if_pos hdd]
      exact mem_labelsU.2 (g1 d hdd.1)
    · rw [hone]
      have he : ∀ n, dm.at (withNode (fun d => if d ∈ dm.dims ∧ d ≠ "nodes" ∧ d ≠ "techs" then ρ d else t) n) =
          dm.at (withNode ρ n) := by
        intro n
        apply at_congr
        intro d hdd
        unfold withNode
        by_cases hdn : d = "nodes"
        · rw [if_pos hdn, if_pos hdn]
        · rw [if_neg hdn, if_neg hdn]
          by_cases hdt : d = "techs"
          · subst hdt; simp [g3]
          · simp only [if_pos (show d ∈ dm.dims ∧ d ≠ "nodes" ∧ d ≠ "techs" from ⟨hdd, hdn, hdt⟩)]
      refine ⟨ρ "nodes", mem_labelsU.2 (g1 _ hn), by rw [he, withNode_self]; exact g2, ?_⟩
      intro m hm hmd
      rw [he] at hmd
      refine g4 m ⟨?_, hmd⟩
      intro d hdd
      unfold withNode
      by_cases hdn : d = "nodes"
      · rw [if_pos hdn, hdn]; exact mem_labelsU.1 hm
      · rw [if_neg hdn]; exact g1 d hdd

/-! ### Subsetting -/

theorem isLink_sub {ds' ds : DS V} (h : Sub ds' ds) (hr : Ready ds) {t : Label} (ht : ("techs", t) ∈ ds'.coords) :
    IsLink ds' t ↔ IsLink ds t := by
  unfold IsLink
  rw [h.vals]
  intro d hd
  rw [hr.only d hd]
  exact ht

/-- What subsetting does, step by step. -/
structure Steps (ds : DS V) (sel : List (String × List Label)) (ds1 : DS V) (dm : Arr Bool) : Prop where
  sub : Sub ds1 ds
  coords : ∀ x, x ∈ ds1.coords ↔ x ∈ ds.coords ∧ Selected sel x
  stored : storedMatrix ds1 = .ok dm

theorem subset_eq {ds out : DS V} {sel : List (String × List Label)} (h : subsetDims ds sel = .ok out) :
    ∃ ds1 dm, Steps ds sel ds1 dm ∧
      out = dropUndefined ((hangingLinks ds1 dm).foldl (dropLabel "techs") ds1) dm := by
  unfold subsetDims at h
  rcases hs : selectDims ds sel with e | ds1
  · rw [hs] at h; cases h
  · rw [hs] at h
    simp only [] at h
    rcases hm : storedMatrix ds1 with e | dm
    · rw [hm] at h; cases h
    · rw [hm] at h
      simp only [] at h
      split at h
      · cases h
      · cases h
        obtain ⟨a, b⟩ := selectDims_ok hs
        exact ⟨ds1, dm, ⟨a, b, hm⟩, rfl⟩

theorem Steps.dims {ds ds1 : DS V} {sel : List (String × List Label)} {dm : Arr Bool} (s : Steps ds sel ds1 dm)
    (d : String) : d ∈ dm.dims ↔ Over ds "definition_matrix" d := by
  rw [(stored_ok s.stored).1, over_of_dims (s.sub.dims _)]

theorem Steps.nodup {ds ds1 : DS V} {sel : List (String × List Label)} {dm : Arr Bool} (s : Steps ds sel ds1 dm)
    (hr : Ready ds) : dm.dims.Nodup := by
  obtain ⟨a, ha, hd⟩ := (stored_ok s.stored).2.2
  have := s.sub.dims "definition_matrix"
  rw [ha] at this
  rcases hb : ds.vars.lookup "definition_matrix" with _ | b
  · rw [hb] at this; cases this
  · rw [hb] at this
    simp only [Option.map_some, Option.some.injEq] at this
    rw [← hd, this]
    exact hr.dims b hb

theorem Steps.good {ds ds1 : DS V} {sel : List (String × List Label)} {dm : Arr Bool} (s : Steps ds sel ds1 dm)
    (ρ : String → Label) : Good dm ds1.coords ρ ↔ Marked ds sel ρ := by
  unfold Good Marked
  simp only [s.dims, s.coords]
  constructor
  · rintro ⟨h1, h2⟩
    refine ⟨?_, h1⟩
    rw [(stored_ok s.stored).2.1, s.sub.vals _ _ (fun d hd => (s.coords _).2 (h1 d hd))] at h2
    exact h2
  · rintro ⟨h1, h2⟩
    refine ⟨h2, ?_⟩
    rw [(stored_ok s.stored).2.1, s.sub.vals _ _ (fun d hd => (s.coords _).2 (h2 d hd))]
    exact h1

theorem Steps.hanging {ds ds1 : DS V} {sel : List (String × List Label)} {dm : Arr Bool} (s : Steps ds sel ds1 dm)
    (hr : Ready ds) (t : Label) : t ∈ hangingLinks ds1 dm ↔ Hanging ds sel t := by
  rw [hanging_iff (s.nodup hr) ((s.dims _).2 hr.nodes) ((s.dims _).2 hr.techs)]
  unfold Hanging Alone
  simp only [s.good]
  constructor
  · rintro ⟨h1, h2, h3⟩
    exact ⟨(isLink_sub s.sub hr h1).1 h2, h3⟩
  · rintro ⟨h2, ρ, h3, h4, h5⟩
    have h1 : ("techs", t) ∈ ds1.coords := by
      rw [s.coords, ← h4]
      exact h3.2 _ hr.techs
    exact ⟨h1, (isLink_sub s.sub hr h1).2 h2, ρ, h3, h4, h5⟩

theorem subset_coords {ds out : DS V} {sel : List (String × List Label)} (hr : Ready ds)
    (h : subsetDims ds sel = .ok out) (x : String × Label) :
    x ∈ out.coords ↔ x ∈ ds.coords ∧ Selected sel x ∧ (Over ds "definition_matrix" x.1 →
      ∃ ρ, Marked ds sel ρ ∧ ¬ Hanging ds sel (ρ "techs") ∧ ρ x.1 = x.2) := by
  obtain ⟨ds1, dm, s, rfl⟩ := subset_eq h
  rw [dropUndefined_coords]
  have hg : ∀ ρ, Good dm ((hangingLinks ds1 dm).foldl (dropLabel "techs") ds1).coords ρ ↔
      Marked ds sel ρ ∧ ¬ Hanging ds sel (ρ "techs") := by
    intro ρ
    rw [← s.good, ← s.hanging hr]
    unfold Good
    simp only [dropLabels_coords]
    constructor
    · rintro ⟨h1, h2⟩
      exact ⟨⟨fun d hd => (h1 d hd).1, h2⟩, fun hh => (h1 _ ((s.dims _).2 hr.techs)).2 ⟨rfl, hh⟩⟩
    · rintro ⟨⟨h1, h2⟩, h3⟩
      refine ⟨fun d hd => ⟨h1 d hd, ?_⟩, h2⟩
      rintro ⟨rfl, hh⟩
      exact h3 hh
  rw [dropLabels_coords, s.coords, s.dims]
  simp only [hg]
  constructor
  · rintro ⟨⟨⟨a, b⟩, _⟩, c⟩
    refine ⟨a, b, fun ho => ?_⟩
    obtain ⟨ρ, ⟨c1, c2⟩, c3⟩ := c ho
    exact ⟨ρ, c1, c2, c3⟩
  · rintro ⟨a, b, c⟩
    refine ⟨⟨⟨a, b⟩, ?_⟩, fun ho => ?_⟩
    · rintro ⟨he, hh⟩
      obtain ⟨ρ, _, c2, c3⟩ := c (by rw [he]; exact hr.techs)
      apply c2
      rw [he] at c3
      rw [c3]
      exact (s.hanging hr _).1 hh
    · obtain ⟨ρ, c1, c2, c3⟩ := c ho
      exact ⟨ρ, ⟨c1, c2⟩, c3⟩

theorem subset_value {ds out : DS V} {sel : List (String × List Label)} (hr : Ready ds)
    (h : subsetDims ds sel = .ok out) {p : String} (hp : p ≠ "definition_matrix") {ρ : String → Label}
    (hi : Inside out.coords ds p ρ) : valueOf out p ρ = valueOf ds p ρ := by
  obtain ⟨ds1, dm, s, rfl⟩ := subset_eq h
  have hs := (sub_dropLabels "techs" (hangingLinks ds1 dm) ds1).trans s.sub
  have hn : (((hangingLinks ds1 dm).foldl (dropLabel "techs") ds1).vars.map Prod.fst).Nodup := by
    rw [hs.names]; exact hr.names
  rw [valueOf_dropUndefined hn, valueOf_before hp, hs.vals]
  · intro d hd
    exact ((dropUndefined_coords _ _ _).1 (hi d hd)).1
  · intro d hd
    exact hi d ((over_of_dims (hs.dims p)).1 ((over_before hp).1 hd))

theorem subset_matrix {ds out : DS V} {sel : List (String × List Label)} (hr : Ready ds)
    (h : subsetDims ds sel = .ok out) {ρ : String → Label} (hi : Inside out.coords ds "definition_matrix" ρ) :
    valueOf out "definition_matrix" ρ = some (.bool true) ↔ valueOf ds "definition_matrix" ρ = some (.bool true) := by
  have hsub : ∀ x ∈ out.coords, x ∈ ds.coords ∧ Selected sel x := fun x hx =>
    ⟨((subset_coords hr h x).1 hx).1, ((subset_coords hr h x).1 hx).2.1⟩
  obtain ⟨ds1, dm, s, rfl⟩ := subset_eq h
  have hs := (sub_dropLabels "techs" (hangingLinks ds1 dm) ds1).trans s.sub
  have hn : (((hangingLinks ds1 dm).foldl (dropLabel "techs") ds1).vars.map Prod.fst).Nodup := by
    rw [hs.names]; exact hr.names
  rw [valueOf_dropUndefined hn]
  · have hv : valueOf (before ((hangingLinks ds1 dm).foldl (dropLabel "techs") ds1) dm) "definition_matrix" ρ =
        some (.bool (dm.at ρ)) := by
      simp only [valueOf, before, lookup_putVar, if_true]
      rfl
    rw [hv]
    simp only [Option.some.injEq, ModelData.Scalar.bool.injEq]
    rw [(stored_ok s.stored).2.1, s.sub.vals]
    intro d hd
    exact (s.coords _).2 (hsub _ (hi d hd))
  · intro d hd
    exact hi d ((s.dims d).1 (over_matrix.1 hd))

end Clean
end Calliope
