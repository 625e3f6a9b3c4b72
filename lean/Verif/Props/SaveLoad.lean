import Verif.Proofs.SaveLoad

/-!
# Property of saving a model to NetCDF and reading it back (C93)

`save m f k` is what is at a path where `f` was, after `k` of the three writes of `to_netcdf` (all of them if `k = 3`);
`read S f change` is `calliope.read_netcdf` of a path where `f` is, `change` being the effect of the overrides it is given.
`Done`, `Settled`, `Same`, `Given` and `Keeps` are defined in `Verif/Spec/SaveLoad.lean`.
-/

namespace Calliope
namespace SaveLoad

open Grid ModelData Clean

section

variable {D V μ β : Type}

/-! ### Saved and read: nothing is done twice -/

theorem clean_done {S : Steps D μ β} {c : Init} {b : β} {r r' : Runtime} {d d' : D} (h : clean S c b r d = .ok (d', r')) :
    r'.subset = c.subset ∧ r'.resample = c.resample ∧ r'.timeCluster = c.timeCluster ∧ r'.instantiated = true ∧
      r'.priority = r.priority := by
  unfold clean at h
  split at h
  · cases h
  · split at h
    · cases h
    · rename_i d2 r2 h2
      split at h
      · cases h
      · cases h
        unfold dimensions at h2
        split at h2
        · cases h2
        · split at h2
          · cases h2
          · rename_i d1 r1 h1
            split at h2
            · cases h2
            · rename_i d3 r3 h3
              split at h2
              · cases h2
              · have e1 : r1.subset = c.subset ∧ r1.priority = r.priority := by
                  unfold stepSubset at h1
                  split at h1
                  · split at h1
                    · cases h1
                    · cases h1; exact ⟨rfl, rfl⟩
                  · rename_i hh
                    cases h1
                    exact ⟨(not_not.1 hh).symm, rfl⟩
                have e3 : r3.subset = r1.subset ∧ r3.resample = c.resample ∧ r3.priority = r1.priority := by
                  unfold stepResample at h3
                  split at h3
                  · split at h3
                    · cases h3
                    · cases h3; exact ⟨rfl, rfl, rfl⟩
                  · rename_i hh
                    cases h3
                    exact ⟨rfl, (not_not.1 hh).symm, rfl⟩
                have e2 : r2.subset = r3.subset ∧ r2.resample = r3.resample ∧ r2.timeCluster = c.timeCluster ∧
                    r2.priority = r3.priority := by
                  unfold stepCluster at h2
                  split at h2
                  · rename_i _ _ _ hc
                    split at h2
                    · cases h2
                    · cases h2; exact ⟨rfl, rfl, hc.symm, rfl⟩
                  · rename_i hr hc
                    cases h2
                    exact ⟨rfl, rfl, hr.trans hc.symm, rfl⟩
                  · rename_i hr
                    split at h2
                    · rename_i ht
                      cases h2
                      exact ⟨rfl, rfl, hr.trans ht.symm, rfl⟩
                    · cases h2
                exact ⟨e2.1.trans (e3.1.trans e1.1), e2.2.1.trans e3.2.1, e2.2.2.1, rfl,
                  e2.2.2.2.trans (e3.2.2.trans e1.2)⟩

theorem priority_eq (c : Init) : Imports.mathPriority c.mode c.extraMath =
    "base" :: (if c.mode = "base" then [] else [c.mode]) ++ c.extraMath := by
  unfold Imports.mathPriority
  by_cases h : c.mode = "base"
  · rw [if_neg (not_not.2 h), if_pos h]
  · rw [if_pos h, if_neg h]
    rfl

theorem withMath_done {S : Steps D μ β} {a a' : Attrs μ β} (h : withMath S a = .ok a') :
    a'.config = a.config ∧ a'.runtime.priority = Imports.mathPriority a.config.mode a.config.extraMath := by
  unfold withMath at h
  split at h
  · split at h
    · cases h
    · cases h; exact ⟨rfl, rfl⟩
  · rename_i hh
    cases h
    exact ⟨rfl, (not_not.1 hh).symm⟩

/-- **C93** A model that has been initialised from data has done what its configuration asks for, and says so. -/
theorem C93_done {S : Steps D μ β} {inputs : D} {a : Attrs μ β} {res : Option D} {change : Init → Init} {m : Model D μ β}
    (h : init S inputs a res change = .ok m) (hd : S.hasData inputs = true) :
    Done m.attrs ∧ m.attrs.config = change a.config ∧ m.results = res.getD S.empty ∧ m.isBuilt = false ∧
      m.isSolved = res.isSome := by
  unfold init at h
  split at h
  · cases h
  · rename_i a' ha
    obtain ⟨w1, w2⟩ := withMath_done ha
    rw [if_pos hd] at h
    split at h
    · cases h
    · rename_i d r hc
      cases h
      obtain ⟨c1, c2, c3, c4, c5⟩ := clean_done hc
      refine ⟨⟨c1, c2, c3, c4, ?_⟩, w1, rfl, rfl, rfl⟩
      show r.priority = _
      rw [c5, w2, ← w1, priority_eq]

theorem withMath_same {S : Steps D μ β} {a : Attrs μ β} (h : Done a) : withMath S a = .ok a := by
  unfold withMath
  rw [if_neg]
  rw [h.math, priority_eq]
  exact fun hh => hh rfl

theorem dimensions_same {S : Steps D μ β} {a : Attrs μ β} (h : Done a) {d : D} (hd : S.dated d = true) :
    dimensions S a.config a.mathBuild a.runtime d = .ok (d, a.runtime) := by
  unfold dimensions
  have h1 : stepSubset S a.config a.mathBuild a.runtime d = .ok (d, a.runtime) := by
    unfold stepSubset
    rw [if_neg (fun hh => hh h.subset.symm)]
  have h2 : stepResample S a.config a.mathBuild a.runtime d = .ok (d, a.runtime) := by
    unfold stepResample
    rw [if_neg (fun hh => hh h.resample.symm)]
  have h3 : stepInfer S a.runtime d = .ok d := by
    unfold stepInfer
    rw [if_pos h.instantiated]
  rw [if_neg (by rw [hd]; decide), h1]
  simp only
  rw [h2]
  simp only
  rw [h3]
  simp only
  unfold stepCluster
  have h4 := h.cluster
  cases hr : a.runtime.timeCluster with
  | none =>
    rw [hr] at h4
    rw [← h4]
  | some q =>
    rw [hr] at h4
    simp only
    rw [if_pos h4.symm]

theorem instantiate {r : Runtime} (h : r.instantiated = true) : ({ r with instantiated := true } : Runtime) = r := by
  cases r
  cases h
  rfl

theorem read_saved (S : Steps D μ β) (m : Model D μ β) (f : File D μ β) (change : Init → Init) :
    read S (save m f 3) change = init S m.inputs m.attrs (some m.results) change := rfl

/-- **C93** A model that is saved and read back has its configuration, math and runtime attributes, and its results.  Of
the steps of initialisation only those are done again that do not depend on the configuration: removing what is not
defined, colours, distances and types.  No subset, resampling or clustering is applied twice. -/
theorem C93_reopen {S : Steps D μ β} {m : Model D μ β} (hdone : Done m.attrs) (hdata : S.hasData m.inputs = true) {d d' : D}
    (ht : tidy S m.attrs.mathBuild m.inputs = .ok d) (hdated : S.dated d = true)
    (hty : S.types m.attrs.mathBuild d = .ok d') (f : File D μ β) :
    read S (save m f 3) id = .ok ⟨d', m.results, m.attrs, false, true⟩ := by
  rw [read_saved]
  unfold init
  have : ({ m.attrs with config := id m.attrs.config } : Attrs μ β) = m.attrs := rfl
  rw [this, withMath_same hdone]
  simp only
  rw [if_pos hdata]
  have hc : clean S m.attrs.config m.attrs.mathBuild m.attrs.runtime m.inputs = .ok (d', m.attrs.runtime) := by
    unfold clean
    rw [ht]
    simp only
    rw [dimensions_same hdone hdated]
    simp only
    rw [hty]
    simp only
    rw [instantiate hdone.instantiated]
  rw [hc]
  rfl

/-! ### The inputs -/

theorem hasData_of {ds : DS V} (k : ∃ a, ds.vars.lookup "carrier_in" = some a) : (!ds.vars.isEmpty) = true := by
  obtain ⟨a, ha⟩ := k
  cases hv : ds.vars with
  | nil => rw [hv] at ha; cases ha
  | cons x xs => rfl

theorem tidy_ok {T : β → Types V} {dist : DS V → Label → Label → V} {dates : Dates V β} {noMath : μ} {noBuild : β}
    {build : List String → μ → Except Err β} {b : β} {ds d : DS V} :
    tidy (steps T dist dates noMath noBuild build) b ds = .ok d ↔
      ∃ d1, cleanUndefined (T b) ds = .ok d1 ∧ distanceStep dist (colourStep d1) = .ok d := by
  unfold tidy
  simp only [steps]
  cases h : cleanUndefined (T b) ds with
  | error e => simp
  | ok d1 => simp

/-- **C93** (partial: of models with nothing left to do, see `C93_fresh` and `C93_loses`) Saved and read back, a model has
the same inputs: the same labels, the same inputs over the same dimensions, the same values. -/
theorem C93_inputs_partial {T : β → Types V} {dist : DS V → Label → Label → V} {dates : Dates V β} {noMath : μ} {noBuild : β}
    {build : List String → μ → Except Err β} {m : Model (DS V) μ β} (hdone : Done m.attrs)
    (hs : Settled (T m.attrs.mathBuild) m.inputs)
    (hlabels : ∀ a b : DS V, (∀ x, x ∈ a.coords ↔ x ∈ b.coords) → dates.dated a = dates.dated b)
    (hdated : dates.dated m.inputs = true) (f : File (DS V) μ β) :
    ∃ d, read (steps T dist dates noMath noBuild build) (save m f 3) id = .ok ⟨d, m.results, m.attrs, false, true⟩ ∧
      Same d m.inputs := by
  obtain ⟨d1, d2, h1, h2, _, s2, s3⟩ := again dist hs
  refine ⟨_, C93_reopen (S := steps T dist dates noMath noBuild build) hdone ?_ (d := d2) ?_ ?_ rfl f, s3⟩
  · exact hasData_of (hs.tidy.carriers _ (.inl rfl))
  · exact tidy_ok.2 ⟨d1, h1, h2⟩
  · exact (hlabels _ _ s2.labels).trans hdated

/-- **C93** The inputs of a new model are such that there is nothing left to do, if the steps of time and subsets that were
asked for leave them so. -/
theorem C93_fresh {T : β → Types V} {dist : DS V → Label → Label → V} {dates : Dates V β} {noMath : μ} {noBuild : β}
    {build : List String → μ → Except Err β} {inputs : DS V} {a : Attrs μ β} {res : Option (DS V)} {change : Init → Init}
    {m : Model (DS V) μ β} (h : init (steps T dist dates noMath noBuild build) inputs a res change = .ok m)
    (hT : Typing (T m.attrs.mathBuild)) (hg : Given (T m.attrs.mathBuild) inputs)
    (hsubset : m.attrs.config.subset ≠ a.runtime.subset →
      Keeps (T m.attrs.mathBuild) (dates.subset m.attrs.mathBuild m.attrs.config.subset))
    (hresample : m.attrs.config.resample ≠ a.runtime.resample →
      Keeps (T m.attrs.mathBuild) (dates.resample m.attrs.mathBuild m.attrs.config.resample))
    (hcluster : ∀ p, m.attrs.config.timeCluster = some p → Keeps (T m.attrs.mathBuild) (dates.cluster p)) :
    Settled (T m.attrs.mathBuild) m.inputs := by
  have hdata : (steps T dist dates noMath noBuild build).hasData inputs = true := by
    have := (hg.index "nodes").2 (.inl rfl)
    rcases this with ⟨x, hx, _⟩ | ⟨x, hx, _⟩
    · exact hasData_of ⟨x, hx⟩
    · show (!inputs.vars.isEmpty) = true
      cases hv : inputs.vars with
      | nil => rw [hv] at hx; cases hx
      | cons y ys => rfl
  unfold init at h
  split at h
  · cases h
  · rename_i a' ha
    have hr : a'.runtime.subset = a.runtime.subset ∧ a'.runtime.resample = a.runtime.resample := by
      unfold withMath at ha
      split at ha
      · split at ha
        · cases ha
        · cases ha; exact ⟨rfl, rfl⟩
      · cases ha
        exact ⟨rfl, rfl⟩
    rw [if_pos hdata] at h
    split at h
    · cases h
    · rename_i d r hc
      cases h
      simp only at hT hg hsubset hresample hcluster ⊢
      unfold clean at hc
      split at hc
      · cases hc
      · rename_i d0 ht
        split at hc
        · cases hc
        · rename_i d4 r4 hdim
          split at hc
          · cases hc
          · rename_i hty
            cases hc
            change Except.ok (updateTypes (T a'.mathBuild) d4) = _ at hty
            rw [← Except.ok.inj hty]
            suffices hs : Settled (T a'.mathBuild) d4 from
              (types_same hs.tidy).settled (types_names _ _ hs.tidy.names) hs
            have k0 : Settled (T a'.mathBuild) d0 ∧ ∃ l, ("timesteps", l) ∈ d0.coords := by
              obtain ⟨d1, h1, h2⟩ := tidy_ok.1 ht
              exact first hT dist hg h1 h2
            unfold dimensions at hdim
            split at hdim
            · cases hdim
            · split at hdim
              · cases hdim
              · rename_i d1 r1 h1
                split at hdim
                · cases hdim
                · rename_i d2 r2 h2
                  split at hdim
                  · cases hdim
                  · rename_i d3 h3
                    have k1 : (Settled (T a'.mathBuild) d1 ∧ ∃ l, ("timesteps", l) ∈ d1.coords) ∧
                        r1.resample = a.runtime.resample := by
                      unfold stepSubset at h1
                      split at h1
                      · rename_i hne
                        split at h1
                        · cases h1
                        · rename_i d' hd'
                          cases h1
                          rw [hr.1] at hne
                          exact ⟨hsubset hne _ _ hd' k0.1 k0.2, hr.2⟩
                      · cases h1
                        exact ⟨k0, hr.2⟩
                    have k2 : Settled (T a'.mathBuild) d2 ∧ ∃ l, ("timesteps", l) ∈ d2.coords := by
                      unfold stepResample at h2
                      split at h2
                      · rename_i hne
                        split at h2
                        · cases h2
                        · rename_i d' hd'
                          cases h2
                          rw [k1.2] at hne
                          exact hresample hne _ _ hd' k1.1.1 k1.1.2
                      · cases h2
                        exact k1.1
                    have k3 : Settled (T a'.mathBuild) d3 ∧ ∃ l, ("timesteps", l) ∈ d3.coords := by
                      unfold stepInfer at h3
                      split at h3
                      · cases h3
                        exact k2
                      · change Except.ok _ = _ at h3
                        rw [← Except.ok.inj h3]
                        obtain ⟨l, hl⟩ := k2.2
                        exact ⟨infer_settled hT _ _ k2.1 hl, l, hl⟩
                    unfold stepCluster at hdim
                    split at hdim
                    · rename_i p _ hp
                      split at hdim
                      · cases hdim
                      · rename_i d' hd'
                        cases hdim
                        exact (hcluster _ hp _ _ hd' k3.1 k3.2).1
                    · cases hdim
                      exact k3.1
                    · split at hdim
                      · cases hdim
                        exact k3.1
                      · cases hdim

/-- **C93** (the limit of `C93_inputs_partial`) A value that belongs to nothing that is defined, as a subset of carriers
may leave it, is gone after saving and reading. -/
theorem C93_loses {T : β → Types V} {dist : DS V → Label → Label → V} {dates : Dates V β} {noMath : μ} {noBuild : β}
    {build : List String → μ → Except Err β} {m m' : Model (DS V) μ β} (hdone : Done m.attrs)
    (hn : (m.inputs.vars.map Prod.fst).Nodup) {f : File (DS V) μ β}
    (h : read (steps T dist dates noMath noBuild build) (save m f 3) id = .ok m') {p : String}
    (hp : p ≠ "definition_matrix" ∧ p ≠ "color" ∧ p ≠ "distance") (hb : (T m.attrs.mathBuild).isBool p = false)
    (hv : ∃ x, m.inputs.vars.lookup p = some x) {ρ : String → Label} (hi : Inside m'.inputs.coords m.inputs p ρ)
    (hnm : ¬ Matters (T m.attrs.mathBuild) m.inputs p ρ) : valueOf m'.inputs p ρ = none := by
  have hdata : (steps T dist dates noMath noBuild build).hasData m.inputs = true := by
    obtain ⟨x, hx⟩ := hv
    show (!m.inputs.vars.isEmpty) = true
    cases hvv : m.inputs.vars with
    | nil => rw [hvv] at hx; cases hx
    | cons y ys => rfl
  rw [read_saved] at h
  unfold init at h
  have : ({ m.attrs with config := id m.attrs.config } : Attrs μ β) = m.attrs := rfl
  rw [this, withMath_same hdone] at h
  simp only at h
  rw [if_pos hdata] at h
  unfold clean at h
  cases ht : tidy (steps T dist dates noMath noBuild build) m.attrs.mathBuild m.inputs with
  | error e => rw [ht] at h; cases h
  | ok d =>
    rw [ht] at h
    simp only at h
    have hdim : dimensions (steps T dist dates noMath noBuild build) m.attrs.config m.attrs.mathBuild m.attrs.runtime d =
        .ok (d, m.attrs.runtime) ∨ ∃ e, dimensions (steps T dist dates noMath noBuild build) m.attrs.config
          m.attrs.mathBuild m.attrs.runtime d = .error e := by
      by_cases hdt : (steps T dist dates noMath noBuild build).dated d = true
      · exact .inl (dimensions_same hdone hdt)
      · right
        refine ⟨.modelError, ?_⟩
        unfold dimensions
        rw [if_pos (by simpa using hdt)]
    rcases hdim with hdim | ⟨e, hdim⟩
    · rw [hdim] at h
      simp only at h
      have hin : m'.inputs = updateTypes (T m.attrs.mathBuild) d := by
        change Except.ok _ = _ at h
        rw [← Except.ok.inj h]
      rw [hin] at hi ⊢
      obtain ⟨d1, hcl, ht⟩ := tidy_ok.1 ht
      have hco : (updateTypes (T m.attrs.mathBuild) d).coords = d1.coords :=
        (distance_coords ht : d.coords = (colourStep d1).coords)
      rw [hco] at hi
      have hd1 : valueOf d1 p ρ = none := by
        rw [clean_value hcl hn hp.1 hv hi, if_neg hnm]
        simp [typed, hb]
      have hd2 : valueOf d p ρ = valueOf d1 p ρ := by
        have hcs : valueOf (colourStep d1) p ρ = valueOf d1 p ρ := by
          rw [show colourStep d1 = put d1 "color" _ from rfl, put_value, if_neg hp.2.1]
        rw [← hcs]
        unfold distanceStep at ht
        split at ht
        · split at ht
          · cases ht
          · split at ht
            · cases ht
            · split at ht
              · cases ht
              · rename_i out _
                cases ht
                cases out with
                | none => rfl
                | some x =>
                  rw [show putDistance (colourStep d1) (some x) = put (colourStep d1) "distance" x from rfl, put_value,
                    if_neg hp.2.2]
        · cases ht
          rfl
      have hd3 : valueOf (updateTypes (T m.attrs.mathBuild) d) p ρ = valueOf d p ρ := by
        unfold valueOf
        rw [lookup_types]
        cases d.vars.lookup p with
        | none => rfl
        | some x => simp [hb]
      rw [hd3, hd2, hd1]
    · rw [hdim] at h
      cases h

/-! ### What is not kept, and interrupted writing -/

/-- **C93** (false of the code: that a model that has not been solved is read back as one that has not been solved)
Whatever is read counts as solved. -/
theorem C93_always_solved {S : Steps D μ β} {f : File D μ β} {change : Init → Init} {m : Model D μ β}
    (h : read S f change = .ok m) : m.isSolved = true ∧ m.isBuilt = false := by
  unfold read init at h
  split at h
  · cases h
  · split at h
    · split at h
      · cases h
      · cases h
        exact ⟨rfl, rfl⟩
    · cases h
      exact ⟨rfl, rfl⟩

/-- Empty math has no `base` (model_math.py:87-92). -/
theorem C93_no_base (rest : List String) : Imports.buildMath ("base" :: rest) .nil none = .error .modelError := rfl

/-- **C93** A file without the group of attributes cannot be read as a model, with any overrides. -/
theorem C93_no_attrs {S : Steps D μ β} (hS : ∀ rest, S.buildMath ("base" :: rest) S.noMath = .error .modelError)
    {f : File D μ β} (hf : f.groups.attrs = none) (change : Init → Init) : read S f change = .error .modelError := by
  unfold read init readGroups withMath
  rw [hf]
  simp only [Option.getD_none]
  rw [if_pos]
  · rw [priority_eq]
    simp only [List.cons_append]
    rw [hS]
  · rw [priority_eq]
    simp [Runtime.default]

/-- **C93** If saving is interrupted after it has begun and before it ends, reading raises a `ModelError`: no file is read
as a model with part of its data. -/
theorem C93_interrupted {S : Steps D μ β} (hS : ∀ rest, S.buildMath ("base" :: rest) S.noMath = .error .modelError)
    (m : Model D μ β) (f : File D μ β) {k : Nat} (h1 : 1 ≤ k) (h3 : k < 3) (change : Init → Init) :
    read S (save m f k) change = .error .modelError := by
  apply C93_no_attrs hS
  obtain rfl | rfl : k = 1 ∨ k = 2 := by omega
  · rfl
  · rfl

/-- **C93** Reading a path where there is no NetCDF file raises a `ModelError`. -/
theorem C93_no_file {S : Steps D μ β} (hS : ∀ rest, S.buildMath ("base" :: rest) S.noMath = .error .modelError)
    {f : File D μ β} (hf : f = .absent ∨ f = .broken) (change : Init → Init) : read S f change = .error .modelError := by
  apply C93_no_attrs hS
  rcases hf with rfl | rfl <;> rfl

/-- **C93** Saving replaces the file: nothing of what was at the path remains, also if saving is interrupted. -/
theorem C93_replaces (m : Model D μ β) (f g : File D μ β) {k : Nat} (h : 1 ≤ k) : save m f k = save m g k := by
  obtain ⟨j, rfl⟩ : ∃ j, k = j + 1 := ⟨k - 1, by omega⟩
  rfl

/-- **C93** The clustering of a model cannot be changed when reading it. -/
theorem C93_cluster_fixed {S : Steps D μ β} {m : Model D μ β} {q : String} (hq : m.attrs.runtime.timeCluster = some q)
    (hdata : S.hasData m.inputs = true) {change : Init → Init} (hc : (change m.attrs.config).timeCluster ≠ some q)
    (f : File D μ β) : ∃ e, read S (save m f 3) change = .error e := by
  cases h : read S (save m f 3) change with
  | error e => exact ⟨e, rfl⟩
  | ok m' =>
    exfalso
    rw [read_saved] at h
    unfold init at h
    split at h
    · cases h
    · rename_i a' ha
      have hr : a'.config = change m.attrs.config ∧ a'.runtime.timeCluster = some q := by
        unfold withMath at ha
        split at ha
        · split at ha
          · cases ha
          · cases ha; exact ⟨rfl, hq⟩
        · cases ha
          exact ⟨rfl, hq⟩
      rw [if_pos hdata] at h
      split at h
      · cases h
      · rename_i d r hcl
        unfold clean at hcl
        split at hcl
        · cases hcl
        · split at hcl
          · cases hcl
          · rename_i d2 r2 hdim
            unfold dimensions at hdim
            split at hdim
            · cases hdim
            · split at hdim
              · cases hdim
              · rename_i d1 r1 h1
                split at hdim
                · cases hdim
                · rename_i d3 r3 h3
                  split at hdim
                  · cases hdim
                  · have e1 : r1.timeCluster = some q := by
                      unfold stepSubset at h1
                      split at h1
                      · split at h1
                        · cases h1
                        · cases h1; exact hr.2
                      · cases h1
                        exact hr.2
                    have e3 : r3.timeCluster = some q := by
                      unfold stepResample at h3
                      split at h3
                      · split at h3
                        · cases h3
                        · cases h3; exact e1
                      · cases h3
                        exact e1
                    unfold stepCluster at hdim
                    rw [e3] at hdim
                    simp only at hdim
                    rw [if_neg (by rw [hr.1]; exact hc)] at hdim
                    cases hdim

end

/-! ### A model, saved and read -/

namespace Demo

def yes (l : List (List Label)) : Arr (Option (ModelData.Scalar Nat)) :=
  ⟨["nodes", "techs", "carriers"], fun c => if c ∈ l then some (.bool true) else none⟩

def T : Types Nat := ⟨fun p => p = "carrier_in" ∨ p = "carrier_out", fun v => v ≠ 0⟩

/-- A line from `a` to `b` without a distance; `chp` makes power at `a` and heat at `b`; node `c` has nothing. -/
def given : DS Nat :=
  ⟨[("nodes", "a"), ("nodes", "b"), ("nodes", "c"), ("techs", "chp"), ("techs", "line"),
    ("carriers", "power"), ("carriers", "heat"), ("timesteps", "1"), ("timesteps", "2")],
   [("carrier_in", yes [["a", "line", "power"], ["b", "line", "power"]]),
    ("carrier_out", yes [["a", "chp", "power"], ["b", "chp", "heat"], ["a", "line", "power"], ["b", "line", "power"]]),
    ("flow_cap_max", ⟨["nodes", "techs"], fun c =>
      if c = ["a", "chp"] then some (.num 5) else if c = ["b", "chp"] then some (.num 9)
      else if c = ["c", "chp"] then some (.num 7) else none⟩),
    ("latitude", ⟨["nodes"], fun _ => some (.num 1)⟩),
    ("longitude", ⟨["nodes"], fun _ => some (.num 2)⟩),
    ("base_tech", ⟨["techs"], fun c => if c = ["line"] then some (.str "transmission") else some (.str "supply")⟩)]⟩

/-- Subsets of carriers; no resampling or clustering. -/
def dates : Dates Nat Def where
  dated ds := ds.coords.any (fun x => x.1 == "timesteps")
  subset _ sel ds := Clean.subsetDims ds (sel.filterMap (fun x => x.2.map (fun l => (x.1, l))))
  resample _ _ ds := .ok ds
  cluster _ ds := .ok ds
  resolution _ _ := 1
  one := 1

def S : Steps (DS Nat) Def Def :=
  steps (fun _ => T) (fun _ _ _ => 42) dates .nil .nil (fun p d => Imports.buildMath p d none)

def math : Def := .sub "base" .nil .nil

def attrs : Attrs Def Def := ⟨.default, math, .nil, .default⟩

def new : Except Err (Model (DS Nat) Def Def) := init S given attrs none id

/-- The subset of carriers `[power]` is asked for. -/
def power : Except Err (Model (DS Nat) Def Def) :=
  init S given attrs none (fun c => { c with subset := [("carriers", some ["power"])] })

/-- Saved and read back. -/
def back (f : File (DS Nat) Def Def) : Except Err (Model (DS Nat) Def Def) → Except Err (Model (DS Nat) Def Def)
  | .error e => .error e
  | .ok m => read S (save m f 3) id

/-- The capacity of `chp` at a node, and the distance of the line. -/
def cap (n : Label) : Except Err (Model (DS Nat) Def Def) → Option (ModelData.Scalar Nat)
  | .error _ => none
  | .ok m => valueOf m.inputs "flow_cap_max" (Clean.Demo.ρ n "chp" "power")

def length : Except Err (Model (DS Nat) Def Def) → Option (ModelData.Scalar Nat)
  | .error _ => none
  | .ok m => valueOf m.inputs "distance" (fun _ => "line")

def ran : Except Err (Model (DS Nat) Def Def) → Bool
  | .error _ => false
  | .ok _ => true

theorem typing : Typing T := ⟨rfl, rfl, rfl, rfl, rfl, rfl⟩

/-- The inputs are as `C93_fresh` wants them. -/
theorem ready : Given T given := by
  refine ⟨by decide, fun d => ?_, ⟨Clean.Demo.ρ "a" "chp" "power", ?_, ?_⟩, ⟨"1", by decide⟩, ?_⟩
  · have h1 : Over given "carrier_in" d ↔ d ∈ ["nodes", "techs", "carriers"] := by
      simp [Over, given, yes]
    have h2 : Over given "carrier_out" d ↔ d ∈ ["nodes", "techs", "carriers"] := by
      simp [Over, given, List.lookup, yes]
    unfold Index
    rw [h1, h2]
    simp
  · intro d hd
    have h1 : Over given "carrier_in" d ↔ d ∈ ["nodes", "techs", "carriers"] := by
      simp [Over, given, yes]
    have h2 : Over given "carrier_out" d ↔ d ∈ ["nodes", "techs", "carriers"] := by
      simp [Over, given, List.lookup, yes]
    unfold Index at hd
    rw [h1, h2, or_self] at hd
    simp only [List.mem_cons, List.not_mem_nil, or_false] at hd
    rcases hd with rfl | rfl | rfl <;> decide
  · exact .inr (.inl (by decide +kernel))
  · intro p hp d hd
    rcases hp with rfl | rfl | rfl
    · simp [Over, given, List.lookup] at hd
    · simp [Over, given, List.lookup] at hd
    · simpa [Over, given, List.lookup] using hd

/-- The hypotheses of `C93_fresh` and `C93_inputs_partial` are met: the model is made, settled, and read back with the same
inputs. -/
example : ∃ m d, new = .ok m ∧ Done m.attrs ∧ Settled T m.inputs ∧
    read S (save m .absent 3) id = .ok ⟨d, m.results, m.attrs, false, true⟩ ∧ Same d m.inputs := by
  have hr : ran new = true := by decide +kernel
  cases hm : new with
  | error e => rw [hm] at hr; cases hr
  | ok m =>
    have hdone := C93_done hm (by decide)
    have hrt : m.attrs.config = Init.default := hdone.2.1
    have hs : Settled T m.inputs := by
      refine C93_fresh hm typing ready ?_ ?_ ?_
      · intro hne
        rw [hrt] at hne
        exact absurd rfl hne
      · intro hne
        rw [hrt] at hne
        exact absurd rfl hne
      · intro p hp
        rw [hrt] at hp
        cases hp
    have hd : (match new with | .ok m => dates.dated m.inputs | .error _ => false) = true := by decide +kernel
    rw [hm] at hd
    obtain ⟨d, h1, h2⟩ := C93_inputs_partial (T := fun _ => T) (dist := fun _ _ _ => 42) (dates := dates) (noMath := .nil)
      (noBuild := .nil) (build := fun p d => Imports.buildMath p d none) hdone.1 hs (fun a b hab => by
        simp only [dates]
        rw [Bool.eq_iff_iff, List.any_eq_true, List.any_eq_true]
        exact exists_congr fun x => and_congr_left fun _ => hab x) hd .absent
    exact ⟨m, d, rfl, hdone.1, hs, h1, h2⟩

/-- Values are there and are kept; the value of the unused node is not; the distance has been computed once. -/
example : cap "a" new = some (.num 5) ∧ cap "b" new = some (.num 9) ∧ cap "c" new = none ∧
    length new = some (.num 42) ∧ cap "b" (back .absent new) = some (.num 9) ∧ length (back .broken new) = some (.num 42) := by
  decide +kernel

/-- The hypothesis about math of `C93_interrupted`. -/
example : ∀ rest, S.buildMath ("base" :: rest) S.noMath = .error .modelError := fun rest => C93_no_base rest

/-- **C93** (false of the code: that inputs are always kept) With the subset `[power]` of carriers, the capacity of `chp`
at `b`, where it makes heat only, is among the inputs, but not after saving and reading. -/
theorem C93_subset_loses : cap "b" power = some (.num 9) ∧ ran (back .absent power) = true ∧
    cap "b" (back .absent power) = none ∧ cap "a" (back .absent power) = some (.num 5) := by
  decide +kernel

/-- A clustered model is not read with another clustering. -/
example : ran (match init S given attrs none (fun c => { c with timeCluster := some "x" }) with
    | .ok m => read S (save m .absent 3) (fun c => { c with timeCluster := none })
    | .error e => .error e) = false ∧
    ran (back .absent (init S given attrs none (fun c => { c with timeCluster := some "x" }))) = true := by
  decide +kernel

end Demo

end SaveLoad
end Calliope
