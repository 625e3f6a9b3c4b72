import Verif.Model.AttrDict
import Verif.Model.Text

/-!
# Model of `calliope.preprocess.model_definition`

Source: `/repo/src/calliope/preprocess/model_definition.py` (281 lines).

Values are trees (`Dict Scalar`), so two variables never share a sub-dictionary.  The two
places where sharing changes the outcome are modelled separately in
`Verif/Model/AttrDictHeap.lean`.
-/

namespace Calliope

/-- Non-dictionary values that occur in a model definition.  `other` stands for any value
whose content the modelled functions never inspect (floats, other lists, dates, ...). -/
inductive Scalar where
  | str (s : String)
  | int (i : Int)
  | bool (b : Bool)
  | list (l : List String)
  | other (n : Nat)
  deriving DecidableEq, Repr

abbrev Def := Dict Scalar

namespace ModelDefinition

/-! ## Scenarios -/

/-- An element of a scenario's list: a name, or a dictionary (rejected, lines 174-177). -/
inductive Item where
  | name (s : String)
  | dict
  deriving DecidableEq, Repr

/-- `overrides`/`scenarios` sections as used by `_load_overrides_from_scenario`:
`scenarios` maps a name to its (listified, line 169) items, `overrides` is the list of
override names. -/
structure Scenarios where
  scenarios : List (String × List Item)
  overrides : List String

/-- `set.add` (line 187) on a set kept as a list without repeats.  Python sets have no
specified iteration order; consumers are analysed for every order (property C10). -/
def addNew (s : List String) (x : String) : List String := if x ∈ s then s else s ++ [x]

/-- The loop of `_load_overrides_from_scenario` (model_definition.py:173-187) over the items of
one scenario; `rec` is the recursive call of line 180 on the items of a nested scenario. -/
def itemsLoop (s : Scenarios) (rec : List Item → Option (Except Err (List String))) :
    List Item → List String → Option (Except Err (List String))
  | [], acc => some (.ok acc)
  | .dict :: _, _ => some (.error .modelError)                  -- lines 174-177
  | .name o :: rest, acc =>
      match s.scenarios.lookup o with
      | some items =>                                           -- lines 178-181
          match rec items with
          | none => none
          | some (.error e) => some (.error e)
          | some (.ok l) => itemsLoop s rec rest (l.foldl addNew acc)
      | none =>
          if o ∈ s.overrides then itemsLoop s rec rest (addNew acc o)   -- line 187
          else some (.error .modelError)                        -- lines 182-185

/-- `_load_overrides_from_scenario` on a list of items.  `fuel` bounds the recursion depth:
`none` means the call has not returned at that depth (Python keeps recursing). -/
def loadItems (s : Scenarios) : Nat → List Item → Option (Except Err (List String))
  | 0, items => itemsLoop s (fun _ => none) items []
  | fuel + 1, items => itemsLoop s (loadItems s fuel) items []

/-- `_load_overrides_from_scenario` (model_definition.py:164-189): the items of a named scenario,
or the comma-separated names in the string itself (`scenario.split(",")`, line 171). -/
def loadOverrides (s : Scenarios) (fuel : Nat) (scenario : String) :
    Option (Except Err (List String)) :=
  match s.scenarios.lookup scenario with
  | some items => loadItems s fuel items
  | none => loadItems s fuel ((Text.split ',' scenario).map .name)

/-- `_combine_overrides` (model_definition.py:146-161) on the override dictionaries in the
order of the list.  The round trip through YAML text (lines 150-151) is taken to return the
same dictionary (no `import` key inside overrides).  `KeyError` becomes `ModelError`. -/
def combineOverrides {α : Type} : Dict α → List (Dict α) → Except Err (Dict α)
  | acc, [] => .ok acc
  | acc, o :: os =>
      match acc.union o false with
      | .ok acc' => combineOverrides acc' os
      | .error .keyError => .error .modelError
      | .error e => .error e

/-- `self.pop(key, default)` of a dict, keeping the rest (lines 104-105, 126-127). -/
def pop {α : Type} (d : Dict α) (k : Key) : Dict α := d.del1 k

/-- `_load_scenario_overrides` (model_definition.py:70-143) given the combined scenario
override dictionary (`none`: no scenario requested).  `overrides` is `AttrDict(override_dict)`
(the empty dictionary for None).  The `locations` rename (lines 131-139) is modelled;
logging is not. -/
def loadScenarioOverrides (modelDef overrides : Def) (scenario : Option Def) :
    Except Err Def :=
  match modelDef.unionReplace overrides true with               -- lines 99-101
  | .error e => .error e
  | .ok m1 =>
      let m2 := pop (pop m1 "overrides") "scenarios"            -- lines 104-105
      let m3 : Except Err Def := match scenario with                             -- lines 106-120
        | none => .ok m2
        | some s => m2.unionReplace s true
      match m3 with
      | .error e => .error e
      | .ok m3 =>
          let m4 : Except Err Def :=                            -- lines 124-130
            if overrides = .nil then .ok m3
            else m3.unionReplace (pop (pop overrides "scenarios") "overrides") true
          match m4 with
          | .error e => .error e
          | .ok m4 =>                                           -- lines 131-139
              match m4.get1 "locations" with
              | none => .ok m4
              | some v => .ok ((m4.put1 "nodes" v).del1 "locations")

/-! ## Templates -/

/-- `TEMPLATE_CALL` and `TEMPLATES_SECTION` (lines 209-210). -/
def callKey : Key := "template"
def sectionKey : Key := "templates"

/-- `_resolve_template` (model_definition.py:229-257).  `raw` is `_raw_templates`, `memo` is
`resolved_templates`.  `fuel` bounds the recursion depth, `none` = not returned at that depth.
A template that is not a dictionary but reached by inheritance is a Python type error
(`"template" in 5`), as is a template name that is not a string. -/
def resolveTemplate (raw memo : Def) : Nat → List String → Key → Option (Except Err Def)
  | 0, _, _ => none
  | fuel + 1, stack, name =>
      if name ∈ stack then some (.error .modelError)            -- lines 236-239
      else
        match raw.get1 name with
        | none => some (.error .keyError)                       -- line 243
        | some (.leaf _) => some (.error .typeError)
        | some (.dict rawData) =>
            let inherited : Option (Except Err Def) :=
              match rawData.get1 callKey with
              | none => some (.ok .nil)
              | some (.leaf (some (.str n))) =>
                  match memo.get1 n with
                  | some (.dict r) => some (.ok r)              -- lines 247-248
                  | some (.leaf _) => some (.error .typeError)  -- never stored
                  | none => resolveTemplate raw memo fuel (name :: stack) n   -- line 250
              | some (.leaf _) => some (.error .keyError)       -- not the name of any template
              | some (.dict _) => some (.error .typeError)      -- unhashable
            match inherited with
            | none => none
            | some (.error e) => some (.error e)
            | some (.ok inh) =>
                match (Dict.nil : Def).union inh false with     -- line 251
                | .error e => some (.error e)
                | .ok result =>
                    some (result.union (rawData.del1 callKey) true)   -- lines 253-254

/-- The loop of `_resolve` over the templates section (model_definition.py:222-226);
`todo` are the entries still to resolve.  Each template may need as much depth as there are
templates plus one (proved sufficient, property C12). -/
def resolveAll (raw : Def) : Def → Def → Option (Except Err Def)
  | .nil, memo => some (.ok memo)
  | .leaf _ _ _, _ => some (.error .modelError)                 -- lines 224-225
  | .sub k _ rest, memo =>
      match resolveTemplate raw memo (raw.keys.length + 1) [] k with
      | none => none
      | some (.error e) => some (.error e)
      | some (.ok r) => resolveAll raw rest (memo.put1 k (.dict r))

/-- The template named by a section (model_definition.py:266-269). -/
def calledTemplate (resolved : Def) (sec : Def) : Except Err Def :=
  match sec.get1 callKey with
  | none => .ok .nil
  | some (.leaf (some (.str n))) =>
      match resolved.get1 n with
      | some (.dict r) => .ok r
      | _ => .error .keyError
  | some (.leaf _) => .error .keyError
  | some (.dict _) => .error .typeError

/-- `_resolve_data` of one section, given its already resolved entries `localD`
(model_definition.py:260-278).  The check of lines 261-265 is done by the caller. -/
def wrapSection (resolved sec localD : Def) : Except Err Def :=
  match calledTemplate resolved sec with
  | .error e => .error e
  | .ok t => t.union localD true

/-- The loop of `_resolve_data` over the entries of a section (model_definition.py:271-274)
with the recursive call on sub-dictionaries.  Lists are returned as they are (line 280),
including any dictionaries inside them. -/
def resolveEntries (resolved : Def) : Def → Except Err Def
  | .nil => .ok .nil
  | .leaf k a rest =>
      match resolveEntries resolved rest with
      | .error e => .error e
      | .ok r => if k = callKey ∨ k = sectionKey then .ok r else .ok (.leaf k a r)
  | .sub k d rest =>
      if k = callKey ∨ k = sectionKey then resolveEntries resolved rest
      else if sectionKey ∈ d.keys then .error .modelError       -- lines 261-265
      else
        match resolveEntries resolved d with
        | .error e => .error e
        | .ok localD =>
            match wrapSection resolved d localD with
            | .error e => .error e
            | .ok d' =>
                match resolveEntries resolved rest with
                | .error e => .error e
                | .ok r => .ok (.sub k d' r)

/-- `self._raw_templates` (model_definition.py:214).  A `templates` entry that is not a
dictionary has no `.items()` (AttributeError at line 223). -/
def rawTemplates (data : Def) : Except Err Def :=
  match data.get1 sectionKey with
  | none => .ok .nil
  | some (.dict t) => .ok t
  | some (.leaf _) => .error .attributeError

/-- `TemplateSolver(data).resolved_templates` (model_definition.py:222-226). -/
def resolvedTemplates (data : Def) : Option (Except Err Def) :=
  match rawTemplates data with
  | .error e => some (.error e)
  | .ok raw => resolveAll raw raw .nil

/-- `TemplateSolver(data).resolved_data` (model_definition.py:227,259-281). -/
def solveTemplates (data : Def) : Option (Except Err Def) :=
  match resolvedTemplates data with
  | none => none
  | some (.error e) => some (.error e)
  | some (.ok resolved) =>
      match resolveEntries resolved data with
      | .error e => some (.error e)
      | .ok localD => some (wrapSection resolved data localD)

/-- `prepare_model_definition` up to the merged definition (model_definition.py:46-51):
scenario and override application, template resolution, keyword arguments.
`initKwargs` is the keyword dictionary, applied under `config.init`. -/
def prepare (modelDef overrides : Def) (scenario : Option Def) (initKwargs : Def) :
    Option (Except Err Def) :=
  match loadScenarioOverrides modelDef overrides scenario with
  | .error e => some (.error e)
  | .ok d =>
      match solveTemplates d with
      | none => none
      | some (.error e) => some (.error e)
      | some (.ok r) =>
          some (r.union (.sub "config" (.sub "init" initKwargs .nil) .nil) true)

end ModelDefinition
end Calliope
