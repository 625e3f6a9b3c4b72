import Verif.Proofs.Grid
import Verif.Proofs.ModelData2
import Verif.Spec.Clean

/-! # Proofs about cleaning the inputs -/

namespace Calliope
namespace Clean

open Grid ModelData

variable {V : Type}

theorem mem_labelsU {coords : List (String × Label)} {d : String} {l : Label} :
    l ∈ labelsU coords d ↔ (d, l) ∈ coords := by
  simp [labelsU, labelsOf]

theorem at_any (coords : String → List Label) (over : List String) (a : Arr Bool) (ρ : String → Label) :
    (reduce coords (fun l => l.any id) over a).at ρ = true ↔
      ∃ σ, Along coords (a.dims.filter (fun d => over.contains d)) ρ σ ∧ a.at σ = true := by
  rw [at_reduce, ← exists_cells_iff coords _ ρ (fun σ => a.at σ = true)]
  simp

theorem anyCell_iff' (coords : String → List Label) (a : Arr Bool) :
    anyCell coords a = true ↔ ∃ σ, (∀ d ∈ a.dims, σ d ∈ coords d) ∧ a.at σ = true := by
  have hk : (reduce coords (fun l => l.any id) a.dims a).dims = [] := by
    show a.dims.filter (fun d => !a.dims.contains d) = []
    simp
  have hat : (reduce coords (fun l => l.any id) a.dims a).at (fun _ => "") = anyCell coords a := by
    show (reduce coords (fun l => l.any id) a.dims a).val _ = _
    rw [hk]; rfl
  rw [← hat, at_any]
  constructor
  · rintro ⟨σ, h, hs⟩
    exact ⟨σ, fun d hd => h.2 d (by simp [hd]), hs⟩
  · rintro ⟨σ, h, hs⟩
    refine ⟨fun d => if d ∈ a.dims then σ d else "", ⟨?_, ?_⟩, ?_⟩
    · intro d hd
      have : d ∉ a.dims := fun hm => hd (by simp [hm])
      simp [this]
    · intro d hd
      have hm : d ∈ a.dims := by simpa using hd
      simp only [hm, if_true]
      exact h d hm
    · rw [← hs]
      apply at_congr
      intro d hd
      simp [hd]

/-! ### Smaller datasets -/

/-- A dataset with some labels dropped. -/
structure Sub (ds' ds : DS V) : Prop where
  coords : ∀ x ∈ ds'.coords, x ∈ ds.coords
  dims : ∀ p, (ds'.vars.lookup p).map Arr.dims = (ds.vars.lookup p).map Arr.dims
  names : ds'.vars.map Prod.fst = ds.vars.map Prod.fst
  vals : ∀ p ρ, Inside ds'.coords ds p ρ → valueOf ds' p ρ = valueOf ds p ρ

theorem over_of_dims {ds' ds : DS V} {p d : String}
    (h : (ds'.vars.lookup p).map Arr.dims = (ds.vars.lookup p).map Arr.dims) : Over ds' p d ↔ Over ds p d := by
  unfold Over
  rcases h1 : ds'.vars.lookup p with _ | a
  · rcases h2 : ds.vars.lookup p with _ | b
    · exact Iff.rfl
    · rw [h1, h2] at h; cases h
  · rcases h2 : ds.vars.lookup p with _ | b
    · rw [h1, h2] at h; cases h
    · rw [h1, h2] at h
      simp only [Option.map_some, Option.some.injEq] at h
      simp only [Option.some.injEq, exists_eq_left', h]

theorem Sub.refl (ds : DS V) : Sub ds ds := ⟨fun _ h => h, fun _ => rfl, rfl, fun _ _ _ => rfl⟩

theorem Sub.trans {a b c : DS V} (h1 : Sub a b) (h2 : Sub b c) : Sub a c := by
  refine ⟨fun x hx => h2.coords x (h1.coords x hx), fun p => (h1.dims p).trans (h2.dims p),
    h1.names.trans h2.names, ?_⟩
  intro p ρ hi
  rw [h1.vals p ρ (fun d hd => hi d ((over_of_dims (h2.dims p)).1 hd))]
  exact h2.vals p ρ (fun d hd => h1.coords _ (hi d hd))

theorem dropLabels_coords (dim : String) : ∀ (ls : List Label) (ds : DS V) (x : String × Label),
    x ∈ (ls.foldl (dropLabel dim) ds).coords ↔ x ∈ ds.coords ∧ ¬ (x.1 = dim ∧ x.2 ∈ ls)
  | [], ds, x => by simp
  | l :: ls, ds, x => by
      rw [List.foldl_cons, dropLabels_coords dim ls]
      obtain ⟨d, k⟩ := x
      simp only [dropLabel, List.mem_filter, ne_eq, Prod.mk.injEq, decide_eq_true_eq, List.mem_cons]
      tauto

theorem sub_dropLabels (dim : String) (ls : List Label) (ds : DS V) : Sub (ls.foldl (dropLabel dim) ds) ds := by
  refine ⟨fun x hx => ((dropLabels_coords dim ls ds x).1 hx).1, fun p => (dropLabels_at dim p (fun _ => "") ls ds).2.1,
    (dropLabels_at dim "" (fun _ => "") ls ds).2.2, ?_⟩
  intro p ρ hi
  rw [(dropLabels_at dim p ρ ls ds).1, if_neg]
  rintro ⟨h1, h2⟩
  exact ((dropLabels_coords dim ls ds (dim, ρ dim)).1 (hi dim h1)).2 ⟨rfl, h2⟩

/-! ### Dropping undefined labels -/

/-- A combination that is marked. -/
def Good (dm : Arr Bool) (coords : List (String × Label)) (ρ : String → Label) : Prop :=
  (∀ d ∈ dm.dims, (d, ρ d) ∈ coords) ∧ dm.at ρ = true

theorem anyDefined_iff {dm : Arr Bool} {coords : List (String × Label)} {dim : String} {l : Label}
    (hl : (dim, l) ∈ coords) (hd : dim ∈ dm.dims) :
    anyDefined (labelsU coords) dm dim l = true ↔ ∃ ρ, Good dm coords ρ ∧ ρ dim = l := by
  unfold anyDefined
  rw [at_any]
  have hg : ∀ d, d ∈ (dm.dims.filter (fun d => (dm.dims.filter (fun d => d ≠ dim)).contains d)) ↔
      d ∈ dm.dims ∧ d ≠ dim := by
    intro d
    simp only [List.mem_filter, List.contains_eq_mem, decide_eq_true_eq]
    tauto
  constructor
  · rintro ⟨σ, ha, hs⟩
    have h0 : σ dim = l := ha.1 dim (fun h => ((hg dim).1 h).2 rfl)
    refine ⟨σ, ⟨?_, hs⟩, h0⟩
    intro d hdd
    by_cases he : d = dim
    · subst he; rw [h0]; exact hl
    · exact mem_labelsU.1 (ha.2 d ((hg d).2 ⟨hdd, he⟩))
  · rintro ⟨ρ, ⟨h1, h2⟩, h3⟩
    refine ⟨fun d => if d ∈ dm.dims then ρ d else l, ⟨?_, ?_⟩, ?_⟩
    · intro d hdd
      by_cases hm : d ∈ dm.dims
      · have : d = dim := by
          by_contra hne
          exact hdd ((hg d).2 ⟨hm, hne⟩)
        subst this
        simp [hm, h3]
      · simp [hm]
    · intro d hdd
      have := ((hg d).1 hdd).1
      simp only [this, if_true]
      exact mem_labelsU.2 (h1 d this)
    · rw [← h2]
      apply at_congr
      intro d hdd
      simp [hdd]

theorem dropNa_coords {dm : Arr Bool} {ds : DS V} {dim : String} (hd : dim ∈ dm.dims) (x : String × Label) :
    x ∈ (dropNa dm ds dim).coords ↔
      x ∈ ds.coords ∧ (x.1 = dim → ∃ ρ, Good dm ds.coords ρ ∧ ρ x.1 = x.2) := by
  unfold dropNa
  rw [dropLabels_coords]
  obtain ⟨d, l⟩ := x
  by_cases he : d = dim
  · subst he
    by_cases hm : (d, l) ∈ ds.coords
    · simp only [hm, true_and, List.mem_filter, mem_labelsU, Bool.not_eq_true', forall_const,
        ← anyDefined_iff hm hd]
      simp
    · simp [hm]
  · simp [he]

theorem dropNas_coords {dm : Arr Bool} : ∀ (P : List String) (ds : DS V), (∀ d ∈ P, d ∈ dm.dims) →
    ∀ x, x ∈ (P.foldl (dropNa dm) ds).coords ↔
      x ∈ ds.coords ∧ (x.1 ∈ P → ∃ ρ, Good dm ds.coords ρ ∧ ρ x.1 = x.2)
  | [], ds, _, x => by simp
  | dim :: P, ds, hp, x => by
      have hd := hp dim (List.mem_cons_self ..)
      rw [List.foldl_cons, dropNas_coords P _ (fun d h => hp d (List.mem_cons_of_mem _ h)), dropNa_coords hd]
      have hg : ∀ ρ, Good dm (dropNa dm ds dim).coords ρ ↔ Good dm ds.coords ρ := by
        intro ρ
        constructor
        · rintro ⟨h1, h2⟩
          exact ⟨fun d hdd => ((dropNa_coords hd _).1 (h1 d hdd)).1, h2⟩
        · rintro ⟨h1, h2⟩
          exact ⟨fun d hdd => (dropNa_coords hd _).2 ⟨h1 d hdd, fun _ => ⟨ρ, ⟨h1, h2⟩, rfl⟩⟩, h2⟩
      simp only [hg, List.mem_cons]
      tauto

theorem sub_dropNas (dm : Arr Bool) : ∀ (P : List String) (ds : DS V), Sub (P.foldl (dropNa dm) ds) ds
  | [], ds => Sub.refl ds
  | dim :: P, ds => (sub_dropNas dm P _).trans (sub_dropLabels dim _ ds)

theorem lookup_filter_ne {β : Type} (n p : String) (h : p ≠ n) : ∀ (l : List (String × β)),
    (l.filter (fun x => x.1 ≠ n)).lookup p = l.lookup p
  | [] => rfl
  | (k, b) :: l => by
      by_cases hk : k = n
      · subst hk
        simp only [ne_eq, not_true_eq_false, decide_false, Bool.false_eq_true, not_false_eq_true,
          List.filter_cons_of_neg, List.lookup_cons, beq_false_of_ne h]
        exact lookup_filter_ne k p h l
      · rw [List.filter_cons_of_pos (by simpa using hk), List.lookup_cons, List.lookup_cons,
          lookup_filter_ne n p h l]

theorem lookup_putVar (vars : List (String × Arr (Option (ModelData.Scalar V)))) (n : String) (a : Arr (Option (ModelData.Scalar V)))
    (p : String) : (putVar vars n a).lookup p = if p = n then some a else vars.lookup p := by
  unfold putVar
  rw [List.lookup_append]
  by_cases h : p = n
  · subst h
    have : (vars.filter (fun x => x.1 ≠ p)).lookup p = none := by
      apply lookup_none_of
      simp
    rw [this]
    simp
  · rw [lookup_filter_ne n p h, if_neg h, List.lookup_cons, beq_false_of_ne h]
    simp

theorem nodup_putVar {vars : List (String × Arr (Option (ModelData.Scalar V)))} {n : String} {a : Arr (Option (ModelData.Scalar V))}
    (h : (vars.map Prod.fst).Nodup) : ((putVar vars n a).map Prod.fst).Nodup := by
  unfold putVar
  rw [List.map_append, List.nodup_append]
  refine ⟨h.sublist (List.Sublist.map _ List.filter_sublist), by simp, ?_⟩
  intro x hx y hy
  simp only [List.mem_map, List.mem_filter, ne_eq, decide_eq_true_eq] at hx
  obtain ⟨z, ⟨_, hz⟩, rfl⟩ := hx
  simp only [List.map_cons, List.map_nil, List.mem_singleton] at hy
  subst hy
  exact hz

theorem lookup_filter {β : Type} (f : String × β → Bool) (p : String) : ∀ (l : List (String × β)),
    (l.map Prod.fst).Nodup → (l.filter f).lookup p = (l.lookup p).filter (fun b => f (p, b))
  | [], _ => rfl
  | (k, b) :: l, h => by
      simp only [List.map_cons, List.nodup_cons] at h
      have ih := lookup_filter f p l h.2
      by_cases hk : p = k
      · subst hk
        rw [List.lookup_cons]
        simp only [beq_self_eq_true]
        by_cases hf : f (p, b) = true
        · rw [List.filter_cons_of_pos hf, List.lookup_cons]
          simp only [beq_self_eq_true, Option.filter, hf, if_true]
        · rw [List.filter_cons_of_neg hf, ih, lookup_none_of h.1]
          simp only [Option.filter, hf, if_false, Bool.false_eq_true]
      · rw [List.lookup_cons, beq_false_of_ne hk]
        by_cases hf : f (k, b) = true
        · rw [List.filter_cons_of_pos hf, List.lookup_cons, beq_false_of_ne hk]
          exact ih
        · rw [List.filter_cons_of_neg hf]
          exact ih

/-! ### Dropping undefined members -/

/-- The dataset before empty variables are dropped. -/
def dropped (ds : DS V) (dm : Arr Bool) : DS V :=
  dm.dims.foldl (dropNa dm) ⟨ds.coords, putVar ds.vars "definition_matrix" (map (fun b => some (.bool b)) dm)⟩

theorem dropUndefined_coords (ds : DS V) (dm : Arr Bool) (x : String × Label) :
    x ∈ (dropUndefined ds dm).coords ↔
      x ∈ ds.coords ∧ (x.1 ∈ dm.dims → ∃ ρ, Good dm ds.coords ρ ∧ ρ x.1 = x.2) :=
  dropNas_coords dm.dims _ (fun _ h => h) x

theorem good_kept {ds : DS V} {dm : Arr Bool} {ρ : String → Label} (h : Good dm ds.coords ρ) :
    ∀ d ∈ dm.dims, (d, ρ d) ∈ (dropUndefined ds dm).coords :=
  fun d hd => (dropUndefined_coords ds dm _).2 ⟨h.1 d hd, fun _ => ⟨ρ, h, rfl⟩⟩

/-- What is stored before labels are dropped. -/
def before (ds : DS V) (dm : Arr Bool) : DS V :=
  ⟨ds.coords, putVar ds.vars "definition_matrix" (map (fun b => some (.bool b)) dm)⟩

theorem sub_dropped (ds : DS V) (dm : Arr Bool) : Sub (dropped ds dm) (before ds dm) := sub_dropNas dm _ _

theorem valueOf_before {ds : DS V} {dm : Arr Bool} {p : String} (hp : p ≠ "definition_matrix") (ρ : String → Label) :
    valueOf (before ds dm) p ρ = valueOf ds p ρ := by
  simp only [valueOf, before, lookup_putVar, if_neg hp]

theorem over_before {ds : DS V} {dm : Arr Bool} {p d : String} (hp : p ≠ "definition_matrix") :
    Over (before ds dm) p d ↔ Over ds p d := by
  simp only [Over, before, lookup_putVar, if_neg hp]

theorem over_matrix {ds : DS V} {dm : Arr Bool} {d : String} :
    Over (before ds dm) "definition_matrix" d ↔ d ∈ dm.dims := by
  simp [Over, before, lookup_putVar, map]

theorem dropped_nodup {ds : DS V} {dm : Arr Bool} (hn : (ds.vars.map Prod.fst).Nodup) :
    ((dropped ds dm).vars.map Prod.fst).Nodup := by
  rw [(sub_dropped ds dm).names]
  exact nodup_putVar hn

theorem lookup_dropUndefined {ds : DS V} {dm : Arr Bool} (hn : (ds.vars.map Prod.fst).Nodup) (p : String) :
    (dropUndefined ds dm).vars.lookup p =
      ((dropped ds dm).vars.lookup p).filter (fun a => !empty (labelsU (dropped ds dm).coords) a) :=
  lookup_filter _ p _ (dropped_nodup hn)

theorem empty_none {coords : List (String × Label)} {a : Arr (Option (ModelData.Scalar V))}
    (h : empty (labelsU coords) a = true) {ρ : String → Label} (hρ : ∀ d ∈ a.dims, (d, ρ d) ∈ coords) :
    a.at ρ = none := by
  unfold empty at h
  by_contra hne
  have : anyCell (labelsU coords) (map Option.isSome a) = true := by
    rw [anyCell_iff']
    refine ⟨ρ, fun d hd => mem_labelsU.2 (hρ d hd), ?_⟩
    show (a.at ρ).isSome = true
    exact Option.isSome_iff_ne_none.2 hne
  rw [this] at h
  cases h

theorem valueOf_dropUndefined {ds : DS V} {dm : Arr Bool} (hn : (ds.vars.map Prod.fst).Nodup) {p : String}
    {ρ : String → Label} (hi : Inside (dropUndefined ds dm).coords (before ds dm) p ρ) :
    valueOf (dropUndefined ds dm) p ρ = valueOf (before ds dm) p ρ := by
  have hs := sub_dropped ds dm
  rw [← hs.vals p ρ hi]
  unfold valueOf
  rw [lookup_dropUndefined hn]
  rcases ha : (dropped ds dm).vars.lookup p with _ | a
  · rfl
  · by_cases he : empty (labelsU (dropped ds dm).coords) a = true
    · simp only [Option.filter, he, Bool.not_true, Bool.false_eq_true, if_false]
      refine (empty_none he (fun d hd => ?_)).symm
      exact hi d ((over_of_dims (hs.dims p)).1 ⟨a, ha, hd⟩)
    · simp only [Bool.not_eq_true] at he
      simp only [Option.filter, he, Bool.not_false, if_true]

theorem dropUndefined_var {ds : DS V} {dm : Arr Bool} (hn : (ds.vars.map Prod.fst).Nodup) (p : String) :
    (∃ a, (dropUndefined ds dm).vars.lookup p = some a) ↔
      ∃ ρ, Inside (dropUndefined ds dm).coords (before ds dm) p ρ ∧ valueOf (before ds dm) p ρ ≠ none := by
  have hs := sub_dropped ds dm
  rw [lookup_dropUndefined hn]
  constructor
  · rintro ⟨a, ha⟩
    rw [Option.filter_eq_some_iff] at ha
    obtain ⟨ha, he⟩ := ha
    simp only [empty, Bool.not_not] at he
    rw [anyCell_iff'] at he
    obtain ⟨σ, h1, h2⟩ := he
    have hi : Inside (dropUndefined ds dm).coords (before ds dm) p σ := by
      intro d hd
      obtain ⟨b, hb, hdb⟩ := (over_of_dims (hs.dims p)).2 hd
      rw [ha] at hb
      cases hb
      exact mem_labelsU.1 (h1 d hdb)
    refine ⟨σ, hi, ?_⟩
    rw [← hs.vals p σ hi]
    unfold valueOf
    rw [ha]
    exact Option.isSome_iff_ne_none.1 h2
  · rintro ⟨ρ, hi, hne⟩
    rw [← hs.vals p ρ hi] at hne
    unfold valueOf at hne
    rcases ha : (dropped ds dm).vars.lookup p with _ | a
    · rw [ha] at hne; exact absurd rfl hne
    · rw [ha] at hne
      refine ⟨a, ?_⟩
      rw [Option.filter_eq_some_iff]
      refine ⟨rfl, ?_⟩
      by_contra hc
      simp only [Bool.not_eq_true', Bool.not_eq_false] at hc
      exact hne (empty_none hc (fun d hd => hi d ((over_of_dims (hs.dims p)).1 ⟨a, ha, hd⟩)))

theorem dropUndefined_dims {ds : DS V} {dm : Arr Bool} (hn : (ds.vars.map Prod.fst).Nodup) {p : String}
    {a : Arr (Option (ModelData.Scalar V))} (ha : (dropUndefined ds dm).vars.lookup p = some a) :
    ((before ds dm).vars.lookup p).map Arr.dims = some a.dims := by
  rw [lookup_dropUndefined hn, Option.filter_eq_some_iff] at ha
  rw [← (sub_dropped ds dm).dims p, ha.1]
  rfl

theorem dropUndefined_nodup {ds : DS V} {dm : Arr Bool} (hn : (ds.vars.map Prod.fst).Nodup) :
    ((dropUndefined ds dm).vars.map Prod.fst).Nodup :=
  (dropped_nodup hn).sublist (List.Sublist.map _ List.filter_sublist)

end Clean
end Calliope
