import Verif.Model.Imports
import Verif.Model.Clean

/-!
# Model of saving a whole model to NetCDF and reading it back

Source: `/repo/src/calliope/model.py:33-49,160-223,419-423`, `/repo/src/calliope/io.py:31-47,136-180`,
`/repo/src/calliope/preprocess/model_data.py:685-697,782-810`.

Simplifications:
* A group of the file gives back what was written to it (`/verif/lean/Verif/Model/Serialise.lean` models what happens to
  attributes).  Writing a group happens as a whole or not at all: the state of a file that is left in the middle of writing
  a group is not modelled, except as a file that cannot be opened (`broken`).
* Datasets are of a type `D`; the steps of cleaning are given by `Steps D`, of which
  `/verif/lean/Verif/Model/Clean.lean` models those without time.
* Of the configuration, what initialisation looks at is kept; `rest` is all of the other settings and the definition.
* Timings, versions and logging are left out.
-/

namespace Calliope
namespace SaveLoad

open Imports

/-- The initialisation options that matter (config_schema.py:48-127). -/
structure Init where
  subset : List (String × Option (List String))
  resample : List (String × Option String)
  timeCluster : Option String
  mode : String
  extraMath : List String
  rest : Nat
  deriving DecidableEq, Repr

/-- `CalliopeConfig()`: all defaults. -/
def Init.default : Init := ⟨[], [], none, "base", [], 0⟩

/-- `CalliopeRuntime` (runtime_attrs_schema.py:12-45). -/
structure Runtime where
  subset : List (String × Option (List String))
  resample : List (String × Option String)
  timeCluster : Option String
  instantiated : Bool
  priority : List String
  termination : Option String
  deriving DecidableEq, Repr

/-- `CalliopeRuntime()`. -/
def Runtime.default : Runtime := ⟨[], [], none, false, [], none⟩

/-- `CalliopeAttrs` (schemas/__init__.py:16-22): configuration and definition, math (`math.init`, `math.build`) and
runtime. -/
structure Attrs (μ β : Type) where
  config : Init
  mathInit : μ
  mathBuild : β
  runtime : Runtime
  deriving DecidableEq

/-- The functions that initialisation uses. -/
structure Steps (D μ β : Type) where
  /-- `xr.Dataset()` -/
  empty : D
  /-- `bool(dataset)`: it has data variables -/
  hasData : D → Bool
  /-- `CalliopeMath()` -/
  noMath : μ
  noBuild : β
  /-- `build_math` (model_math.py:66-99) -/
  buildMath : List String → μ → Except Err β
  /-- `clean_data_from_undefined_members`, `add_colors`, `add_link_distances` (model_data.py:699-780) -/
  undefined : β → D → Except Err D
  colours : D → D
  distances : D → Except Err D
  /-- some coordinate is a date (model_data.py:784-786) -/
  dated : D → Bool
  /-- `_subset_dims`, `_resample_dims` (model_data.py:866-924) -/
  subset : β → List (String × Option (List String)) → D → Except Err D
  resample : β → List (String × Option String) → D → Except Err D
  /-- `add_inferred_time_params` (time.py:18-45) -/
  infer : D → Except Err D
  /-- `time.cluster` (time.py:125-174) -/
  cluster : String → D → Except Err D
  /-- `_update_dtypes` of coordinates and data (model_data.py:693-696) -/
  types : β → D → Except Err D

variable {D μ β : Type}

/-- A `calliope.Model` (model.py:178-188). -/
structure Model (D μ β : Type) where
  inputs : D
  results : D
  attrs : Attrs μ β
  isBuilt : Bool
  isSolved : Bool

/-! ### Cleaning -/

/-- Subsets, unless already applied (model_data.py:791-793). -/
def stepSubset (S : Steps D μ β) (c : Init) (b : β) (r : Runtime) (d : D) : Except Err (D × Runtime) :=
  if c.subset ≠ r.subset then
    match S.subset b c.subset d with
    | .error e => .error e
    | .ok d' => .ok (d', { r with subset := c.subset })
  else .ok (d, r)

/-- Resampling, unless already applied (model_data.py:794-796). -/
def stepResample (S : Steps D μ β) (c : Init) (b : β) (r : Runtime) (d : D) : Except Err (D × Runtime) :=
  if c.resample ≠ r.resample then
    match S.resample b c.resample d with
    | .error e => .error e
    | .ok d' => .ok (d', { r with resample := c.resample })
  else .ok (d, r)

/-- Inferred time parameters, the first time (model_data.py:798-799). -/
def stepInfer (S : Steps D μ β) (r : Runtime) (d : D) : Except Err D :=
  if r.instantiated then .ok d else S.infer d

/-- Clustering, which cannot be changed later (model_data.py:801-809). -/
def stepCluster (S : Steps D μ β) (c : Init) (r : Runtime) (d : D) : Except Err (D × Runtime) :=
  match r.timeCluster, c.timeCluster with
  | none, some p =>
    match S.cluster p d with
    | .error e => .error e
    | .ok d' => .ok (d', { r with timeCluster := some p })
  | none, none => .ok (d, r)
  | some q, t => if t = some q then .ok (d, r) else .error .modelError

/-- `update_and_resample_dimensions` (model_data.py:782-810).  The runtime attributes change at the end (line 810); as each
step looks at other attributes than those changed before it, they are changed here step by step. -/
def dimensions (S : Steps D μ β) (c : Init) (b : β) (r : Runtime) (d : D) : Except Err (D × Runtime) :=
  if S.dated d = false then .error .modelError
  else
    match stepSubset S c b r d with
    | .error e => .error e
    | .ok (d1, r1) =>
      match stepResample S c b r1 d1 with
      | .error e => .error e
      | .ok (d2, r2) =>
        match stepInfer S r2 d2 with
        | .error e => .error e
        | .ok d3 => stepCluster S c r2 d3

/-- The first steps of cleaning (model_data.py:688-690). -/
def tidy (S : Steps D μ β) (b : β) (d : D) : Except Err D :=
  match S.undefined b d with
  | .error e => .error e
  | .ok d' => S.distances (S.colours d')

/-- `ModelDataCleaner.clean` (model_data.py:685-697). -/
def clean (S : Steps D μ β) (c : Init) (b : β) (r : Runtime) (d : D) : Except Err (D × Runtime) :=
  match tidy S b d with
  | .error e => .error e
  | .ok d1 =>
    match dimensions S c b r d1 with
    | .error e => .error e
    | .ok (d2, r2) =>
      match S.types b d2 with
      | .error e => .error e
      | .ok d3 => .ok (d3, { r2 with instantiated := true })

/-! ### Initialisation -/

/-- The math is built again if another is asked for (model.py:190-202). -/
def withMath (S : Steps D μ β) (a : Attrs μ β) : Except Err (Attrs μ β) :=
  if mathPriority a.config.mode a.config.extraMath ≠ a.runtime.priority then
    match S.buildMath (mathPriority a.config.mode a.config.extraMath) a.mathInit with
    | .error e => .error e
    | .ok b => .ok { a with
        mathBuild := b
        runtime := { a.runtime with priority := mathPriority a.config.mode a.config.extraMath } }
  else .ok a

/-- `Model(inputs, attrs, results)` (model.py:160-223), `change` the effect of the keyword arguments on the
configuration (line 188). -/
def init (S : Steps D μ β) (inputs : D) (a : Attrs μ β) (results : Option D) (change : Init → Init) :
    Except Err (Model D μ β) :=
  match withMath S { a with config := change a.config } with
  | .error e => .error e
  | .ok a' =>
    if S.hasData inputs then
      match clean S a'.config a'.mathBuild a'.runtime inputs with
      | .error e => .error e
      | .ok (d, r) => .ok ⟨d, results.getD S.empty, { a' with runtime := r }, false, results.isSome⟩
    else .ok ⟨inputs, results.getD S.empty, a', false, results.isSome⟩

/-- `read_dict` (model.py:105-154) once the definition is prepared: `c` its configuration, `mi` its math, `build` the
data builder (`/verif/lean/Verif/Model/ModelData.lean`).  The math is built first, and what it was built from is noted in
the runtime attributes (lines 134-153). -/
def readDict (S : Steps D μ β) (build : β → Except Err D) (c : Init) (mi : μ) : Except Err (Model D μ β) :=
  match S.buildMath (mathPriority c.mode c.extraMath) mi with
  | .error e => .error e
  | .ok b =>
    match build b with
    | .error e => .error e
    | .ok inputs =>
      init S inputs ⟨c, mi, b, { Runtime.default with priority := mathPriority c.mode c.extraMath }⟩ none id

/-! ### Files -/

/-- A file: its groups. -/
structure Groups (D μ β : Type) where
  inputs : Option D
  results : Option D
  attrs : Option (Attrs μ β)

/-- What is at a path: nothing, something that NetCDF cannot open, or a NetCDF file. -/
inductive File (D μ β : Type) where
  | absent
  | broken
  | netcdf (g : Groups D μ β)

/-- The groups of a file to which one is added: mode `"a"`. -/
def File.groups : File D μ β → Groups D μ β
  | .netcdf g => g
  | _ => ⟨none, none, none⟩

/-- The three writes of `to_netcdf` (model.py:421-423): mode `"w"` replaces the file, mode `"a"` adds a group to it. -/
def writes (m : Model D μ β) : List (File D μ β → File D μ β) :=
  [fun _ => .netcdf ⟨some m.inputs, none, none⟩,
   fun f => .netcdf { f.groups with results := some m.results },
   fun f => .netcdf { f.groups with attrs := some m.attrs }]

/-- `to_netcdf` (model.py:419-423) to a path where `f` is, until it is stopped after `k` of its writes, by an error or the
end of the process; it returns if `k` is 3. -/
def save (m : Model D μ β) (f : File D μ β) (k : Nat) : File D μ β :=
  ((writes m).take k).foldl (fun f w => w f) f

/-- `io.read_netcdf` (io.py:31-47): a group is empty if opening it raises an `OSError`, which it does if it is not in the
file, and also if there is no such file or it cannot be opened.  Empty attributes give defaults (model.py:46,
schemas/__init__.py:16-22). -/
def readGroups (S : Steps D μ β) (f : File D μ β) : D × D × Attrs μ β :=
  (f.groups.inputs.getD S.empty, f.groups.results.getD S.empty,
    f.groups.attrs.getD ⟨.default, S.noMath, S.noBuild, .default⟩)

/-- `calliope.read_netcdf` (model.py:33-49). -/
def read (S : Steps D μ β) (f : File D μ β) (change : Init → Init) : Except Err (Model D μ β) :=
  init S (readGroups S f).1 (readGroups S f).2.2 (some (readGroups S f).2.1) change

/-! ### The steps of cleaning, for datasets -/

section datasets

open Grid ModelData Clean

variable {V : Type}

/-- `add_colors` (model_data.py:720-740). -/
def colourStep (ds : DS V) : DS V :=
  ⟨ds.coords, putVar ds.vars "color" (addColors palette (labelsU ds.coords "techs") (ds.var "color"))⟩

/-- `ds["distance"] = …` if there is something to assign. -/
def putDistance (ds : DS V) : Option (Arr (Option (ModelData.Scalar V))) → DS V
  | none => ds
  | some a => ⟨ds.coords, putVar ds.vars "distance" a⟩

/-- `add_link_distances` (model_data.py:742-780), `dist` the distance of two nodes by the coordinates in the dataset. -/
def distanceStep (dist : DS V → Label → Label → V) (ds : DS V) : Except Err (DS V) :=
  if (ds.var "latitude").isSome && (ds.var "longitude").isSome then
    if (ds.var "base_tech").isNone then .error .attributeError
    else
      match storedMatrix ds with
      | .error e => .error e
      | .ok dm =>
        match addDistances (labelsU ds.coords) dm (dist ds) (isTransmission ds) true (ds.var "distance") with
        | .error e => .error e
        | .ok out => .ok (putDistance ds out)
  else .ok ds

/-- The functions that depend on dates, which are not modelled here. -/
structure Dates (V β : Type) where
  dated : DS V → Bool
  subset : β → List (String × Option (List String)) → DS V → Except Err (DS V)
  resample : β → List (String × Option String) → DS V → Except Err (DS V)
  cluster : String → DS V → Except Err (DS V)
  /-- hours from a time step to the next (`/verif/lean/Verif/Model/Time.lean`) -/
  resolution : DS V → Label → V
  /-- 1.0 -/
  one : V

/-- An array over time steps. -/
def timed (f : Label → V) : Arr (Option (ModelData.Scalar V)) := ⟨["timesteps"], fun c => some (.num (f (c.headD "")))⟩

/-- `add_inferred_time_params` (time.py:18-45): `timestep_resolution` and `timestep_weights`. -/
def inferStep (resolution : DS V → Label → V) (one : V) (ds : DS V) : DS V :=
  ⟨ds.coords, putVar (putVar ds.vars "timestep_resolution" (timed (resolution ds))) "timestep_weights"
    (timed (fun _ => one))⟩

/-- The steps for datasets; `T b` are the types that the math `b` gives to inputs. -/
def steps (T : β → Types V) (dist : DS V → Label → Label → V) (dates : Dates V β) (noMath : μ) (noBuild : β)
    (buildMath : List String → μ → Except Err β) : Steps (DS V) μ β where
  empty := ⟨[], []⟩
  hasData ds := !ds.vars.isEmpty
  noMath := noMath
  noBuild := noBuild
  buildMath := buildMath
  undefined b ds := cleanUndefined (T b) ds
  colours := colourStep
  distances := distanceStep dist
  dated := dates.dated
  subset := dates.subset
  resample := dates.resample
  infer ds := .ok (inferStep dates.resolution dates.one ds)
  cluster := dates.cluster
  types b ds := .ok (updateTypes (T b) ds)

end datasets

end SaveLoad
end Calliope
