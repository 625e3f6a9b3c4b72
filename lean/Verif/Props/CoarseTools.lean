import Verif.Props.Coarse
import Verif.Props.SupplyDemo

/-!
# Small models and the ones at a coarser time resolution
-/

namespace Calliope
namespace Coarse

open Grid Infix Expr Expand Build Where BaseMath Time Mini

/-- The tables of a small model have all that the balances depend on. -/
def fit (M : Mini) : Bool :=
  M.ok && SupplyDemo.decisions.all M.chooses &&
  ["timestep_resolution", "flow_out_parasitic_eff", "area_use", "sink_use_equals", "sink_use_max", "sink_use_min",
    "source_use_equals", "source_use_max", "source_use_min", "source_eff", "flow_out_eff", "flow_out_eff_per_distance",
    "flow_in_eff", "flow_in_eff_per_distance", "distance", "storage", "storage_initial", "storage_cap", "storage_loss",
    "unmet_demand", "unused_supply"].all (fun n => M.has n []) &&
  ["flow_out", "flow_in", "flow_export"].all (fun n => M.has n ["nodes", "techs", "carriers", "timesteps"]) &&
  ["flow_out_inc_eff", "flow_in_inc_eff"].all (fun n => M.has n ["carriers"]) &&
  ["flow_cap", "timestep_resolution", "flow_out_parasitic_eff"].all (M.every (fun x => decide (0 ≤ x))) &&
  M.within ["nodes", "techs"] ["base_tech"] &&
  M.within ["nodes", "techs", "carriers", "timesteps"] ["sink_use_equals", "sink_use_max", "sink_use_min", "sink_unit"] &&
  M.within ["nodes", "techs", "timesteps"] ["source_use_equals", "source_use_max", "source_use_min", "source_unit",
    "include_storage"] &&
  M.within ["nodes", "techs", "timesteps"] ["include_storage", "base_tech", "cyclic_storage", "cluster_first_timestep"]

section
variable {M : Mini} (h : fit M = true)
include h

theorem fit_ok : M.ok = true := by
  simp only [fit, Bool.and_eq_true] at h
  obtain ⟨⟨⟨⟨⟨⟨⟨⟨⟨h, _⟩, _⟩, _⟩, _⟩, _⟩, _⟩, _⟩, _⟩, _⟩ := h
  exact h
theorem fit_chooses {v : Variable Rat} (hv : v ∈ SupplyDemo.decisions) : Solves M.W M.E v (M.quantity v.name) := by
  simp only [fit, Bool.and_eq_true] at h
  obtain ⟨⟨⟨⟨⟨⟨⟨⟨⟨_, h⟩, _⟩, _⟩, _⟩, _⟩, _⟩, _⟩, _⟩, _⟩ := h
  exact chooses_ok (List.all_eq_true.1 h v hv)
theorem fit_has : ∀ n ∈ ["timestep_resolution", "flow_out_parasitic_eff", "area_use", "sink_use_equals", "sink_use_max",
    "sink_use_min", "source_use_equals", "source_use_max", "source_use_min", "source_eff", "flow_out_eff",
    "flow_out_eff_per_distance", "flow_in_eff", "flow_in_eff_per_distance", "distance", "storage", "storage_initial",
    "storage_cap", "storage_loss", "unmet_demand", "unused_supply"], Is M.E n [] (M.quantity n) := by
  simp only [fit, Bool.and_eq_true] at h
  obtain ⟨⟨⟨⟨⟨⟨⟨⟨⟨_, _⟩, h⟩, _⟩, _⟩, _⟩, _⟩, _⟩, _⟩, _⟩ := h
  exact fun n hn => has_ok (List.all_eq_true.1 h n hn)
theorem fit_flow : ∀ n ∈ ["flow_out", "flow_in", "flow_export"],
    Is M.E n ["nodes", "techs", "carriers", "timesteps"] (M.quantity n) := by
  simp only [fit, Bool.and_eq_true] at h
  obtain ⟨⟨⟨⟨⟨⟨⟨⟨⟨_, _⟩, _⟩, h⟩, _⟩, _⟩, _⟩, _⟩, _⟩, _⟩ := h
  exact fun n hn => has_ok (List.all_eq_true.1 h n hn)
theorem fit_eff : ∀ n ∈ ["flow_out_inc_eff", "flow_in_inc_eff"], Is M.E n ["carriers"] (M.quantity n) := by
  simp only [fit, Bool.and_eq_true] at h
  obtain ⟨⟨⟨⟨⟨⟨⟨⟨⟨_, _⟩, _⟩, _⟩, h⟩, _⟩, _⟩, _⟩, _⟩, _⟩ := h
  exact fun n hn => has_ok (List.all_eq_true.1 h n hn)
theorem fit_nonneg : ∀ n ∈ ["flow_cap", "timestep_resolution", "flow_out_parasitic_eff"],
    ∀ ρ, Valid M.W ρ → 0 ≤ M.quantity n ρ := by
  simp only [fit, Bool.and_eq_true] at h
  obtain ⟨⟨⟨⟨⟨⟨⟨⟨⟨_, _⟩, _⟩, _⟩, _⟩, h⟩, _⟩, _⟩, _⟩, _⟩ := h
  exact fun n hn => nonneg_ok (List.all_eq_true.1 h n hn)
theorem fit_kind : Within M.W ["nodes", "techs"] ["base_tech"] := by
  simp only [fit, Bool.and_eq_true] at h
  obtain ⟨⟨⟨⟨⟨⟨⟨⟨⟨_, _⟩, _⟩, _⟩, _⟩, _⟩, h⟩, _⟩, _⟩, _⟩ := h
  exact within_ok h
theorem fit_sink : Within M.W ["nodes", "techs", "carriers", "timesteps"]
    ["sink_use_equals", "sink_use_max", "sink_use_min", "sink_unit"] := by
  simp only [fit, Bool.and_eq_true] at h
  obtain ⟨⟨⟨⟨⟨⟨⟨⟨⟨_, _⟩, _⟩, _⟩, _⟩, _⟩, _⟩, h⟩, _⟩, _⟩ := h
  exact within_ok h
theorem fit_source : Within M.W ["nodes", "techs", "timesteps"]
    ["source_use_equals", "source_use_max", "source_use_min", "source_unit", "include_storage"] := by
  simp only [fit, Bool.and_eq_true] at h
  obtain ⟨⟨⟨⟨⟨⟨⟨⟨⟨_, _⟩, _⟩, _⟩, _⟩, _⟩, _⟩, _⟩, h⟩, _⟩ := h
  exact within_ok h
theorem fit_storage : StorageInputs M.W := by
  simp only [fit, Bool.and_eq_true] at h
  obtain ⟨⟨⟨⟨⟨⟨⟨⟨⟨_, _⟩, _⟩, _⟩, _⟩, _⟩, _⟩, _⟩, _⟩, h⟩ := h
  exact within_ok h

def plantOf : Plant M.W M.E where
  out := M.quantity "flow_out"
  inn := M.quantity "flow_in"
  exp := M.quantity "flow_export"
  source := M.quantity "source_use"
  level := M.quantity "storage"
  cap := M.quantity "flow_cap"
  sourceCap := M.quantity "source_cap"
  storageCap := M.quantity "storage_cap"
  hours := M.quantity "timestep_resolution"
  parasitic := M.quantity "flow_out_parasitic_eff"
  isOut := fit_chooses h (v := flowOutVar) (by simp [SupplyDemo.decisions])
  isInn := fit_chooses h (v := flowInVar) (by simp [SupplyDemo.decisions])
  isExp := fit_chooses h (v := flowExportVar) (by simp [SupplyDemo.decisions])
  isSource := fit_chooses h (v := sourceUseVar) (by simp [SupplyDemo.decisions])
  isLevel := fit_chooses h (v := storageVar) (by simp [SupplyDemo.decisions])
  isCap := .inl (fit_chooses h (v := flowCapVar) (by simp [SupplyDemo.decisions]))
  isSourceCap := .inl (fit_chooses h (v := sourceCapVar) (by simp [SupplyDemo.decisions]))
  isStorageCap := .inl (fit_chooses h (v := storageCapVar) (by simp [SupplyDemo.decisions]))
  isHours := fit_has h _ (by simp)
  isParasitic := fit_has h _ (by simp)
  capNonneg := fit_nonneg h _ (by simp)
  hoursNonneg := fit_nonneg h _ (by simp)
  parasiticNonneg := fit_nonneg h _ (by simp)

def needsOf : Needs M.W M.E where
  area := M.quantity "area_use"
  sinkEquals := M.quantity "sink_use_equals"
  sinkMax := M.quantity "sink_use_max"
  sinkMin := M.quantity "sink_use_min"
  sourceEquals := M.quantity "source_use_equals"
  sourceMax := M.quantity "source_use_max"
  sourceMin := M.quantity "source_use_min"
  sourceEff := M.quantity "source_eff"
  isArea := fit_has h _ (by simp)
  isSinkEquals := fit_has h _ (by simp)
  isSinkMax := fit_has h _ (by simp)
  isSinkMin := fit_has h _ (by simp)
  isSourceEquals := fit_has h _ (by simp)
  isSourceMax := fit_has h _ (by simp)
  isSourceMin := fit_has h _ (by simp)
  isSourceEff := fit_has h _ (by simp)
  kindWithin := fit_kind h
  sinkWithin := fit_sink h
  sourceWithin := fit_source h

def effsOf : Efficiencies M.E where
  out := M.quantity "flow_out_eff"
  parasitic := M.quantity "flow_out_parasitic_eff"
  outPerDistance := M.quantity "flow_out_eff_per_distance"
  inn := M.quantity "flow_in_eff"
  innPerDistance := M.quantity "flow_in_eff_per_distance"
  distance := M.quantity "distance"
  isOut := fit_has h _ (by simp)
  isParasitic := fit_has h _ (by simp)
  isOutPerDistance := fit_has h _ (by simp)
  isInn := fit_has h _ (by simp)
  isInnPerDistance := fit_has h _ (by simp)
  isDistance := fit_has h _ (by simp)

def storeOf : StorageData M.E where
  level := M.quantity "storage"
  out := M.quantity "flow_out_inc_eff"
  inn := M.quantity "flow_in_inc_eff"
  init := M.quantity "storage_initial"
  cap := M.quantity "storage_cap"
  loss := M.quantity "storage_loss"
  hours := M.quantity "timestep_resolution"
  isLevel := fit_has h _ (by simp)
  isOut := fit_eff h _ (by simp)
  isInn := fit_eff h _ (by simp)
  isInit := fit_has h _ (by simp)
  isCap := fit_has h _ (by simp)
  isLoss := fit_has h _ (by simp)
  isHours := fit_has h _ (by simp)

def flowsOf : Flows M.E where
  out := M.quantity "flow_out"
  inn := M.quantity "flow_in"
  exp := M.quantity "flow_export"
  unmet := M.quantity "unmet_demand"
  unused := M.quantity "unused_supply"
  isOut := fit_flow h _ (by simp)
  isInn := fit_flow h _ (by simp)
  isExp := fit_flow h _ (by simp)
  isUnmet := fit_has h _ (by simp)
  isUnused := fit_has h _ (by simp)

end

theorem definesOf {M : Mini} {c : Component Rat} (h : M.knows c.foreach c = true) :
    Defines M.W M.E List.dedup c (M.quantity c.defn.name) := knows_ok h (fun _ hg => quantity_is hg)

/-! ## Two models -/

/-- A property of points of a small model that depends on `ds` only. -/
theorem at_all {M : Mini} {ds : List String} {P : Point → Prop} (hn : ds.Nodup)
    (hP : ∀ ρ σ, SameAlong ds ρ σ → P σ → P ρ) (h : ∀ c ∈ M.rows ds, P (M.point (ds.zip c))) :
    ∀ ρ, Valid M.W ρ → P ρ := fun _ hρ => forall_points hn (fun ρ σ _ => hP ρ σ) h hρ

/-- The dimensions of a component are among `ds`. -/
def spans (M : Mini) (n : String) (ds : List String) : Bool :=
  match M.data.lookup n with
  | some (ds', _) => ds'.all (fun d => decide (d ∈ ds))
  | none => true

theorem spans_same {M : Mini} {n : String} {ds : List String} (h : spans M n ds = true) {ρ σ : Point}
    (hs : SameAlong ds ρ σ) : M.quantity n ρ = M.quantity n σ := by
  unfold spans at h
  unfold Mini.quantity
  split at h
  · rename_i ds' g hl
    simp only [hl]
    simp only [List.all_eq_true, decide_eq_true_eq] at h
    congr 1
    exact List.map_congr_left (fun d hd => (hs d (h d hd)).symm)
  · rename_i hl
    simp only [hl]

theorem same_step {ds : List String} {ρ σ : Point} (hs : SameAlong ds ρ σ) (t : Label) :
    SameAlong ds (set ρ "timesteps" t) (set σ "timesteps" t) := by
  intro d hd
  unfold Expr.set
  split
  · rfl
  · exact hs d hd

/-- The data of an input. -/
def holdsData (M : Mini) (n : String) (a : Arr (Option Rat)) (d : Rat) (ds : List String) : Bool :=
  decide ds.Nodup && spans M n ds && M.has n [] && (M.W.input n).arr.dims.all (fun d => decide (d ∈ ds)) &&
  a.dims.all (fun d => decide (d ∈ ds)) &&
  (M.rows ds).all (fun r => decide (GivenAt M.W n (M.point (ds.zip r)) ↔ a.at (M.point (ds.zip r)) ≠ none) &&
    decide (M.quantity n (M.point (ds.zip r)) = (a.at (M.point (ds.zip r))).getD d))

theorem holdsData_ok {M : Mini} {n : String} {a : Arr (Option Rat)} {d : Rat} (ds : List String)
    (h : holdsData M n a d ds = true) : Data M.W M.E n a (some d) := by
  simp only [holdsData, Bool.and_eq_true, decide_eq_true_eq, List.all_eq_true] at h
  obtain ⟨⟨⟨⟨⟨h1, h2⟩, h3⟩, h4⟩, h5⟩, h6⟩ := h
  refine at_all h1 ?_ ?_
  · intro ρ σ hs hP
    rw [← at_congr a (fun d hd => hs d (h5 d hd)), ← givenAt_same h4 hs, (has_ok h3).at, spans_same h2 hs,
      ← (has_ok h3).at]
    exact hP
  · intro r hr
    refine ⟨(h6 r hr).1, ?_⟩
    rw [(has_ok h3).at, (h6 r hr).2]
    cases a.at (M.point (ds.zip r)) <;> rfl

section
variable {F K : Mini} {steps : Label → List Label}

/-- The data of an input, before and after. -/
theorem resampled_ok {n : String} {a : Arr (Option Rat)} {d : Rat} (ds : List String)
    (h : holdsData F n a d ds = true) (h' : holdsData K n (resampled steps (methodOf n) a) d ds = true) :
    Resampled F.W K.W F.E K.E steps n a := ⟨some d, holdsData_ok ds h, holdsData_ok ds h'⟩

def adds (F K : Mini) (steps : Label → List Label) (n : String) (ds : List String) : Bool :=
  decide ds.Nodup && decide ("timesteps" ∈ ds) && spans F n ds && spans K n ds &&
  (K.rows ds).all (fun r => decide (K.quantity n (K.point (ds.zip r)) =
    sumSteps (steps (K.point (ds.zip r) "timesteps")) (F.quantity n) (K.point (ds.zip r))))

theorem adds_ok {n : String} (ds : List String) (h : adds F K steps n ds = true) :
    Added K.W steps (F.quantity n) (K.quantity n) := by
  simp only [adds, Bool.and_eq_true, decide_eq_true_eq, List.all_eq_true] at h
  obtain ⟨⟨⟨⟨h1, h2⟩, h3⟩, h4⟩, h5⟩ := h
  refine at_all h1 ?_ h5
  intro ρ σ hs hP
  rw [spans_same h4 hs, hP, hs _ h2]
  unfold sumSteps
  congr 1
  exact List.map_congr_left (fun t _ => (spans_same h3 (same_step hs t)).symm)

def keeps (F K : Mini) (steps : Label → List Label) (n : String) (ds : List String) : Bool :=
  decide ds.Nodup && decide ("timesteps" ∈ ds) && spans F n ds && spans K n ds &&
  (K.rows ds).all (fun r => (steps (K.point (ds.zip r) "timesteps")).all (fun t =>
    decide (K.quantity n (K.point (ds.zip r)) = F.quantity n (set (K.point (ds.zip r)) "timesteps" t))))

theorem keeps_ok {n : String} (ds : List String) (h : keeps F K steps n ds = true) :
    Kept K.W steps (F.quantity n) (K.quantity n) := by
  simp only [keeps, Bool.and_eq_true, decide_eq_true_eq, List.all_eq_true] at h
  obtain ⟨⟨⟨⟨h1, h2⟩, h3⟩, h4⟩, h5⟩ := h
  refine at_all h1 ?_ h5
  intro ρ σ hs hP t ht
  rw [spans_same h4 hs, spans_same h3 (same_step hs t)]
  exact hP t (by rw [hs _ h2]; exact ht)

def ends (F K : Mini) (steps : Label → List Label) (n : String) (ds : List String) : Bool :=
  decide ds.Nodup && decide ("timesteps" ∈ ds) && spans F n ds && spans K n ds &&
  (K.rows ds).all (fun r => ((steps (K.point (ds.zip r) "timesteps")).getLast?.toList).all (fun t =>
    decide (K.quantity n (K.point (ds.zip r)) = F.quantity n (set (K.point (ds.zip r)) "timesteps" t))))

theorem ends_ok {n : String} (ds : List String) (h : ends F K steps n ds = true) :
    Ends K.W steps (F.quantity n) (K.quantity n) := by
  simp only [ends, Bool.and_eq_true, decide_eq_true_eq, List.all_eq_true, Option.mem_toList] at h
  obtain ⟨⟨⟨⟨h1, h2⟩, h3⟩, h4⟩, h5⟩ := h
  refine at_all h1 ?_ h5
  intro ρ σ hs hP t ht
  rw [spans_same h4 hs, spans_same h3 (same_step hs t)]
  exact hP t (by rw [hs _ h2]; exact ht)

/-- An input that does not change within intervals. -/
def steady (K : Mini) (steps : Label → List Label) (a : Arr (Option Rat)) (ds : List String) : Bool :=
  decide ds.Nodup && decide ("timesteps" ∈ ds) && a.dims.all (fun d => decide (d ∈ ds)) &&
  (K.rows ds).all (fun r => (steps (K.point (ds.zip r) "timesteps")).all (fun t =>
    (steps (K.point (ds.zip r) "timesteps")).all (fun u =>
      decide (a.at (set (K.point (ds.zip r)) "timesteps" t) = a.at (set (K.point (ds.zip r)) "timesteps" u)))))

theorem steady_ok {a : Arr (Option Rat)} {ds : List String} (h : steady K steps a ds = true) :
    ∀ ρ, Valid K.W ρ → ∀ t ∈ steps (ρ "timesteps"), ∀ u ∈ steps (ρ "timesteps"),
      a.at (set ρ "timesteps" t) = a.at (set ρ "timesteps" u) := by
  simp only [steady, Bool.and_eq_true, decide_eq_true_eq, List.all_eq_true] at h
  obtain ⟨⟨⟨h1, h2⟩, h3⟩, h5⟩ := h
  refine at_all h1 ?_ h5
  intro ρ σ hs hP t ht u hu
  have e : ∀ x, a.at (set ρ "timesteps" x) = a.at (set σ "timesteps" x) :=
    fun x => (at_congr a (fun d hd => same_step hs x d (h3 d hd))).symm
  rw [e, e]
  rw [← hs _ h2] at ht hu
  exact hP t ht u hu

/-- Inputs as tables, with their defaults: they are those of both models, and do not change within intervals. -/
def evens (F K : Mini) (steps : Label → List Label) (ds : List String) (names : List String)
    (tables : List (String × Arr (Option Rat) × Rat)) : Bool :=
  names.all (fun n => match tables.lookup n with
    | some (a, d) => holdsData F n a d ds && holdsData K n (resampled steps (methodOf n) a) d ds && steady K steps a ds
    | none => false)

theorem evens_ok (ds : List String) {names : List String} (tables : List (String × Arr (Option Rat) × Rat))
    (h : evens F K steps ds names tables = true) {ρ : Point} (hρ : Valid K.W ρ) :
    Even F.W K.W F.E K.E steps names ρ := by
  intro n hn
  have := List.all_eq_true.1 h n hn
  split at this
  · rename_i a d _
    simp only [Bool.and_eq_true] at this
    exact ⟨a, resampled_ok ds this.1.1 this.1.2, steady_ok this.2 ρ hρ⟩
  · simp at this

/-- The second model has intervals for time steps. -/
theorem coarser_ok (h1 : (K.coords "timesteps").flatMap steps = F.coords "timesteps")
    (h2 : ∀ T ∈ K.coords "timesteps", steps T ≠ []) (h3 : ∀ d, d ≠ "timesteps" → K.coords d = F.coords d)
    (h4 : K.labels.map Prod.fst = F.labels.map Prod.fst) (h5 : K.along = F.along) (h6 : K.items = F.items)
    (h7 : "timesteps" ∉ F.along) : Coarser F.W K.W steps :=
  ⟨h1, h2, h3, h4, by
    show (⟨K.along, fun c => decide (c ∈ K.items)⟩ : Arr Bool) = ⟨F.along, fun c => decide (c ∈ F.items)⟩
    rw [h5, h6], h7⟩

end

end Coarse
end Calliope
