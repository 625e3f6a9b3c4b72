import Verif.Proofs.Where

namespace Calliope
namespace Where

open Grid Infix

theorem foldl_true_at (ρ : String → Label) : ∀ (ds : List String) (a : Arr Bool),
    (ds.foldl (fun a d => zip (fun x y => x && y) a ⟨[d], fun _ => true⟩) a).at ρ = a.at ρ
  | [], _ => rfl
  | d :: ds, a => by
      simp only [List.foldl_cons]
      rw [foldl_true_at ρ ds, at_zip]
      simp [Arr.at]

theorem foldl_true_dims : ∀ (ds : List String) (a : Arr Bool) (x : String),
    x ∈ (ds.foldl (fun a d => zip (fun x y => x && y) a ⟨[d], fun _ => true⟩) a).dims ↔
      x ∈ a.dims ∨ x ∈ ds
  | [], _, _ => by simp
  | d :: ds, a, x => by
      simp only [List.foldl_cons]
      rw [foldl_true_dims ds]
      simp only [zip, mem_joinDims, List.mem_cons, List.not_mem_nil, or_false, or_assoc]

/-- The dimensions of a component are dimensions of the model. -/
def Known (e : Env) (sets : List String) : Prop := ∀ d ∈ sets, d ∈ e.matrix.dims ∨ d ∈ e.dims

theorem known_iff (e : Env) (sets : List String) :
    ((sets.filter (fun d => !e.matrix.dims.contains d)).any (fun d => !e.dims.contains d)) = false ↔
      Known e sets := by
  unfold Known
  rw [List.any_eq_false]
  simp only [List.mem_filter, Bool.not_eq_true', List.contains_eq_mem, decide_eq_false_iff_not,
    Decidable.not_not, and_imp]
  constructor
  · intro h d hd
    by_cases hm : d ∈ e.matrix.dims
    · exact .inl hm
    · exact .inr (h d hd hm)
  · intro h d hd hm
    exact (h d hd).resolve_left hm

theorem foreach_at {e : Env} {sets : List String} (ρ : String → Label) :
    (foreachMask e sets).at ρ = true ↔ Known e sets ∧ e.matrix.at ρ = true := by
  unfold foreachMask
  simp only []
  split
  · rename_i h
    simp only [at_scalar, Bool.false_eq_true, false_iff, not_and]
    intro hk
    rw [(known_iff e sets).2 hk] at h
    cases h
  · rename_i h
    rw [foldl_true_at]
    exact ⟨fun h' => ⟨(known_iff e sets).1 (by simpa using h), h'⟩, And.right⟩

theorem foreach_dims {e : Env} {sets : List String} (hk : Known e sets) :
    ∀ d ∈ sets, d ∈ (foreachMask e sets).dims := by
  intro d hd
  unfold foreachMask
  simp only []
  rw [if_neg (by rw [(known_iff e sets).2 hk]; simp)]
  rw [foldl_true_dims]
  by_cases hm : d ∈ e.matrix.dims
  · exact .inl hm
  · exact .inr (List.mem_filter.2 ⟨hd, by simpa using hm⟩)

theorem anyCell_iff {e : Env} {ρ : String → Label} (hρ : Valid e ρ) (a : Arr Bool) :
    anyCell e.coords a = true ↔ ∃ σ, Valid e σ ∧ a.at σ = true := by
  have hkept : (reduce e.coords (howFn .any) a.dims a).dims = [] := by
    rw [reduce_dims]; simp
  have hat : (reduce e.coords (howFn .any) a.dims a).at ρ = anyCell e.coords a := by
    show (reduce e.coords (howFn .any) a.dims a).val _ = _
    rw [hkept]; rfl
  rw [← hat, reduce_any]
  constructor
  · rintro ⟨σ, hσ, h⟩
    refine ⟨σ, fun d => ?_, h⟩
    by_cases hd : d ∈ a.dims.filter (fun d => a.dims.contains d)
    · exact hσ.2 d hd
    · rw [hσ.1 d hd]; exact hρ d
  · rintro ⟨σ, hσ, h⟩
    refine ⟨fun d => if d ∈ a.dims then σ d else ρ d, ⟨?_, ?_⟩, ?_⟩
    · intro d hd
      have : d ∉ a.dims := fun h' => hd (List.mem_filter.2 ⟨h', by simpa using h'⟩)
      simp [this]
    · intro d hd
      have : d ∈ a.dims := (List.mem_filter.1 hd).1
      simp [this, hσ d]
    · rw [← h]
      exact at_congr a (fun d hd => by simp [hd])

theorem evalWheres_at {e : Env} (ρ : String → Label) : ∀ {ws : List (Tree Op Leaf)} {acc a : Arr Bool},
    evalWheres e acc ws = .ok a →
    (a.at ρ = true ↔ acc.at ρ = true ∧ ∀ w ∈ ws, Truth e ρ w)
  | [], acc, a, h => by cases h; simp
  | w :: ws, acc, a, h => by
      simp only [evalWheres] at h
      cases hw : evalTree e w with
      | error x => rw [hw] at h; cases h
      | ok b =>
        rw [hw] at h
        rw [evalWheres_at ρ h, at_zip, Bool.and_eq_true, evalTree_ok ρ hw]
        simp [and_assoc]

theorem evalWheres_dims {e : Env} : ∀ {ws : List (Tree Op Leaf)} {acc a : Arr Bool},
    evalWheres e acc ws = .ok a → ∀ d ∈ acc.dims, d ∈ a.dims
  | [], acc, a, h, d, hd => by cases h; exact hd
  | w :: ws, acc, a, h, d, hd => by
      simp only [evalWheres] at h
      cases hw : evalTree e w with
      | error x => rw [hw] at h; cases h
      | ok b =>
        rw [hw] at h
        exact evalWheres_dims h d (mem_joinDims.2 (.inl hd))

theorem evalWheres_returns {e : Env} : ∀ {ws : List (Tree Op Leaf)} {acc : Arr Bool},
    (∀ w ∈ ws, ∃ b, evalTree e w = .ok b) → ∃ a, evalWheres e acc ws = .ok a
  | [], acc, _ => ⟨acc, rfl⟩
  | w :: ws, acc, h => by
      obtain ⟨b, hb⟩ := h w (by simp)
      simp only [evalWheres, hb]
      exact evalWheres_returns (fun w' hw' => h w' (List.mem_cons_of_mem _ hw'))

theorem dropDims_returns {e : Env} {sets : List String} {w : Arr Bool} (h : ∀ d ∈ sets, d ∈ w.dims) :
    ∃ a, dropDims e sets w = .ok a := by
  unfold dropDims
  unfold transpose
  rw [if_pos]
  · exact ⟨_, rfl⟩
  · simp only [Bool.and_eq_true, List.all_eq_true, reduce_dims, List.mem_filter,
      List.contains_eq_mem, decide_eq_true_eq, Bool.not_eq_true', decide_eq_false_iff_not]
    constructor
    · rintro d ⟨hd, hn⟩
      exact Classical.byContradiction fun hc => hn ⟨hd, hc⟩
    · intro d hd
      exact ⟨h d hd, fun hc => hc.2 hd⟩

theorem dropDims_dims {e : Env} {sets : List String} {w a : Arr Bool} (h : dropDims e sets w = .ok a) :
    a.dims = sets := by
  unfold dropDims at h
  unfold transpose at h
  by_cases hc : ((reduce e.coords (howFn .any) (w.dims.filter (fun d => !sets.contains d)) w).dims.all
      (sets.contains ·) && sets.all
        ((reduce e.coords (howFn .any) (w.dims.filter (fun d => !sets.contains d)) w).dims.contains ·))
      = true
  · rw [if_pos hc] at h
    cases h; rfl
  · rw [if_neg hc] at h
    cases h

theorem dropDims_at {e : Env} {sets : List String} {w a : Arr Bool} (h : dropDims e sets w = .ok a)
    {ρ : String → Label} (hρ : Valid e ρ) :
    a.at ρ = true ↔ ∃ σ, Valid e σ ∧ SameAlong sets ρ σ ∧ w.at σ = true := by
  unfold dropDims at h
  split at h
  · rename_i b hb
    cases h
    rw [at_transpose hb, reduce_any]
    have hmem : ∀ d, d ∈ w.dims.filter (fun d =>
        (w.dims.filter (fun d => !sets.contains d)).contains d) ↔ d ∈ w.dims ∧ d ∉ sets := by
      intro d
      simp only [List.mem_filter, List.contains_eq_mem, decide_eq_true_eq, Bool.not_eq_true',
        decide_eq_false_iff_not]
      constructor
      · rintro ⟨h1, _, h2⟩; exact ⟨h1, h2⟩
      · rintro ⟨h1, h2⟩; exact ⟨h1, h1, h2⟩
    constructor
    · rintro ⟨σ, hσ, ht⟩
      refine ⟨σ, fun d => ?_, fun d hd => hσ.1 d (fun hc => ((hmem d).1 hc).2 hd), ht⟩
      by_cases hd : d ∈ w.dims.filter (fun d =>
          (w.dims.filter (fun d => !sets.contains d)).contains d)
      · exact hσ.2 d hd
      · rw [hσ.1 d hd]; exact hρ d
    · rintro ⟨σ, hv, hs, ht⟩
      refine ⟨fun d => if d ∈ w.dims ∧ d ∉ sets then σ d else ρ d, ⟨?_, ?_⟩, ?_⟩
      · intro d hd
        have : ¬ (d ∈ w.dims ∧ d ∉ sets) := fun hc => hd ((hmem d).2 hc)
        simp only [if_neg this]
      · intro d hd
        simp only [if_pos ((hmem d).1 hd)]
        exact hv d
      · rw [← ht]
        refine at_congr w (fun d hd => ?_)
        by_cases hm : d ∈ sets
        · rw [if_neg (fun hc => hc.2 hm), hs d hm]
        · rw [if_pos ⟨hd, hm⟩]
  · cases h

/-- Both conditions on an item, each for some item that agrees with it along the component's
dimensions. -/
theorem topLevel_ok {e : Env} {sets : List String} {w : Tree Op Leaf} {t : Arr Bool}
    (h : topLevel e sets w = .ok t) {ρ₀ : String → Label} (hρ₀ : Valid e ρ₀) :
    (anyCell e.coords t = false ∧
      ¬ ∃ σ, Valid e σ ∧ Known e sets ∧ e.matrix.at σ = true ∧ Truth e σ w) ∨
    (anyCell e.coords t = true ∧ Known e sets ∧ t.dims = sets ∧ ∀ ρ, Valid e ρ →
      (t.at ρ = true ↔ ∃ σ, Valid e σ ∧ SameAlong sets ρ σ ∧ e.matrix.at σ = true ∧ Truth e σ w)) := by
  unfold topLevel at h
  simp only [] at h
  by_cases hf : anyCell e.coords (foreachMask e sets) = true
  · rw [if_pos hf] at h
    have hk : Known e sets := by
      obtain ⟨σ, _, hσ⟩ := (anyCell_iff hρ₀ _).1 hf
      exact ((foreach_at σ).1 hσ).1
    cases hw : evalWheres e (foreachMask e sets) [w] with
    | error x => rw [hw] at h; cases h
    | ok a =>
      rw [hw] at h
      have hat : ∀ σ, a.at σ = true ↔ (Known e sets ∧ e.matrix.at σ = true) ∧ Truth e σ w := by
        intro σ
        rw [evalWheres_at σ hw, foreach_at]
        simp
      simp only at h
      by_cases ha : anyCell e.coords a = true
      · rw [if_pos ha] at h
        refine .inr ?_
        have hd := dropDims_dims h
        have hiff : ∀ ρ, Valid e ρ → (t.at ρ = true ↔
            ∃ σ, Valid e σ ∧ SameAlong sets ρ σ ∧ e.matrix.at σ = true ∧ Truth e σ w) := by
          intro ρ hρ
          rw [dropDims_at h hρ]
          constructor
          · rintro ⟨σ, h1, h2, h3⟩
            exact ⟨σ, h1, h2, ((hat σ).1 h3).1.2, ((hat σ).1 h3).2⟩
          · rintro ⟨σ, h1, h2, h3, h4⟩
            exact ⟨σ, h1, h2, (hat σ).2 ⟨⟨hk, h3⟩, h4⟩⟩
        refine ⟨?_, hk, hd, hiff⟩
        obtain ⟨σ, hv, hσ⟩ := (anyCell_iff hρ₀ a).1 ha
        exact (anyCell_iff hρ₀ t).2 ⟨σ, hv, (hiff σ hv).2
          ⟨σ, hv, fun _ _ => rfl, ((hat σ).1 hσ).1.2, ((hat σ).1 hσ).2⟩⟩
      · rw [if_neg ha] at h
        cases h
        refine .inl ⟨by simpa using ha, ?_⟩
        rintro ⟨σ, hv, h1, h2, h3⟩
        exact ha ((anyCell_iff hρ₀ _).2 ⟨σ, hv, (hat σ).2 ⟨⟨h1, h2⟩, h3⟩⟩)
  · rw [if_neg hf] at h
    cases h
    refine .inl ⟨by simpa using hf, ?_⟩
    rintro ⟨σ, hv, h1, h2, _⟩
    exact hf ((anyCell_iff hρ₀ _).2 ⟨σ, hv, (foreach_at σ).2 ⟨h1, h2⟩⟩)

theorem equationMask_ok {e : Env} {sets : List String} {top : Tree Op Leaf} {ws : List (Tree Op Leaf)}
    {m : Option (Arr Bool)} (h : equationMask e sets top ws = .ok m) {ρ : String → Label}
    (hρ : Valid e ρ) :
    (∃ a, m = some a ∧ a.at ρ = true) ↔
      Known e sets ∧
      (∃ σ, Valid e σ ∧ SameAlong sets ρ σ ∧ e.matrix.at σ = true ∧ Truth e σ top) ∧
      (∃ σ, Valid e σ ∧ SameAlong sets ρ σ ∧ ∀ w ∈ ws, Truth e σ w) := by
  unfold equationMask at h
  cases ht : topLevel e sets top with
  | error x => rw [ht] at h; cases h
  | ok t =>
    rw [ht] at h
    simp only at h
    rcases topLevel_ok ht hρ with ⟨hn, hno⟩ | ⟨hy, hk, hd, hiff⟩
    · rw [if_neg (by rw [hn]; simp)] at h
      cases h
      constructor
      · rintro ⟨a, ha, _⟩; cases ha
      · rintro ⟨hk, ⟨σ, h1, _, h2, h3⟩, _⟩
        exact absurd ⟨σ, h1, hk, h2, h3⟩ hno
    · rw [if_pos hy] at h
      cases hw : evalWheres e t ws with
      | error x => rw [hw] at h; cases h
      | ok a =>
        rw [hw] at h
        simp only at h
        have hat : ∀ σ, a.at σ = true ↔ t.at σ = true ∧ ∀ w ∈ ws, Truth e σ w :=
          fun σ => evalWheres_at σ hw
        have hsame : ∀ σ, SameAlong sets ρ σ → t.at σ = t.at ρ :=
          fun σ hs => at_congr t (fun d hd' => hs d (hd ▸ hd'))
        have key : (∃ σ, Valid e σ ∧ SameAlong sets ρ σ ∧ a.at σ = true) ↔
            Known e sets ∧
            (∃ σ, Valid e σ ∧ SameAlong sets ρ σ ∧ e.matrix.at σ = true ∧ Truth e σ top) ∧
            (∃ σ, Valid e σ ∧ SameAlong sets ρ σ ∧ ∀ w ∈ ws, Truth e σ w) := by
          constructor
          · rintro ⟨σ, h1, h2, h3⟩
            obtain ⟨h4, h5⟩ := (hat σ).1 h3
            rw [hsame σ h2, hiff ρ hρ] at h4
            exact ⟨hk, h4, σ, h1, h2, h5⟩
          · rintro ⟨_, h4, σ, h1, h2, h5⟩
            exact ⟨σ, h1, h2, (hat σ).2 ⟨by rw [hsame σ h2, hiff ρ hρ]; exact h4, h5⟩⟩
        by_cases ha : anyCell e.coords a = true
        · rw [if_pos ha] at h
          cases hdd : dropDims e sets a with
          | error x => rw [hdd] at h; cases h
          | ok b =>
            rw [hdd] at h
            cases h
            rw [← key, ← dropDims_at hdd hρ]
            simp
        · rw [if_neg ha] at h
          cases h
          rw [← key]
          constructor
          · rintro ⟨_, hc, _⟩; cases hc
          · rintro ⟨σ, h1, _, h3⟩
            exact absurd ((anyCell_iff hρ a).2 ⟨σ, h1, h3⟩) ha

theorem equationMask_dims {e : Env} {sets : List String} {top : Tree Op Leaf}
    {ws : List (Tree Op Leaf)} {a : Arr Bool} (h : equationMask e sets top ws = .ok (some a)) :
    a.dims = sets := by
  unfold equationMask at h
  cases ht : topLevel e sets top with
  | error x => rw [ht] at h; cases h
  | ok t =>
    rw [ht] at h
    simp only at h
    by_cases hc : anyCell e.coords t = true
    · rw [if_pos hc] at h
      cases hw : evalWheres e t ws with
      | error x => rw [hw] at h; cases h
      | ok b =>
        rw [hw] at h
        simp only at h
        by_cases ha : anyCell e.coords b = true
        · rw [if_pos ha] at h
          cases hdd : dropDims e sets b with
          | error x => rw [hdd] at h; cases h
          | ok c =>
            rw [hdd] at h
            cases h
            exact dropDims_dims hdd
        · rw [if_neg ha] at h; cases h
    · rw [if_neg hc] at h; cases h

theorem equationMask_returns {e : Env} {sets : List String} {top : Tree Op Leaf}
    {ws : List (Tree Op Leaf)} {ρ₀ : String → Label} (hρ₀ : Valid e ρ₀)
    (hw : ∀ w ∈ top :: ws, ∃ b, evalTree e w = .ok b) :
    ∃ m, equationMask e sets top ws = .ok m := by
  unfold equationMask
  have htop : ∃ t, topLevel e sets top = .ok t := by
    unfold topLevel
    simp only []
    by_cases hf : anyCell e.coords (foreachMask e sets) = true
    · rw [if_pos hf]
      have hk : Known e sets := by
        obtain ⟨σ, _, hσ⟩ := (anyCell_iff hρ₀ _).1 hf
        exact ((foreach_at σ).1 hσ).1
      obtain ⟨a, ha⟩ := evalWheres_returns (acc := foreachMask e sets) (ws := [top])
        (fun w h => hw w (by simp at h; simp [h]))
      rw [ha]
      simp only
      split
      · exact dropDims_returns (fun d hd => evalWheres_dims ha d (foreach_dims hk d hd))
      · exact ⟨_, rfl⟩
    · rw [if_neg hf]; exact ⟨_, rfl⟩
  obtain ⟨t, ht⟩ := htop
  rw [ht]
  simp only
  by_cases hc : anyCell e.coords t = true
  · rw [if_pos hc]
    obtain ⟨a, ha⟩ := evalWheres_returns (acc := t) (ws := ws)
      (fun w h => hw w (List.mem_cons_of_mem _ h))
    rw [ha]
    simp only
    split
    · rcases topLevel_ok ht hρ₀ with ⟨hn, _⟩ | ⟨_, _, hd, _⟩
      · rw [hn] at hc; cases hc
      · obtain ⟨b, hb⟩ := dropDims_returns (e := e) (sets := sets) (w := a)
          (fun d hd' => evalWheres_dims ha d (hd ▸ hd'))
        rw [hb]
        exact ⟨_, rfl⟩
    · exact ⟨_, rfl⟩
  · rw [if_neg hc]; exact ⟨_, rfl⟩

end Where
end Calliope
