import Verif.Proofs.Runs

/-!
# Properties C59 and C60: generated run scripts and scenarios

Vocabulary: `Verif/Spec/Runs.lean`.
-/

namespace Calliope
namespace Runs

variable {α : Type}

/-! ## C59 -/

/-- With scenarios given, the runs are the parts between semicolons; without, they are the scenarios of the model
(with the overrides applied), or its overrides when it has no scenarios. -/
theorem C59_runs (q : Request α) :
    (∀ s, q.scenarios = some s → ∃ runs, runsOf q = .ok runs ∧ runs ≠ [] ∧ (∀ r ∈ runs, ';' ∉ r) ∧
      Text.joinChars ';' runs = s) ∧
    (∀ c : Dict α, q.scenarios = none →
      (c = q.config ∧ (q.overrideDict = none ∨ q.overrideDict = some []) ∨
        (∃ d ds, q.overrideDict = some (d :: ds)) ∧ q.config.unionReplace q.overrideDef true = .ok c) →
      (∀ e, c.get1 "scenarios" = some (.dict e) → runsOf q = .ok (e.keys.map String.toList)) ∧
      (∀ e, c.get1 "scenarios" = none → c.get1 "overrides" = some (.dict e) →
        runsOf q = .ok (e.keys.map String.toList))) := by
  constructor
  · intro s hs
    obtain ⟨h1, h2, _⟩ := Text.C01_dotted_keys ';' s
    exact ⟨Text.splitChars ';' s, by simp [runsOf, hs], Text.splitChars_ne_nil _ _, h1, h2⟩
  · intro c hs hc
    have hcfg : configOf q = .ok c := by
      unfold configOf
      rcases hc with ⟨rfl, h | h⟩ | ⟨⟨d, ds, h⟩, hu⟩
      · rw [h]; rfl
      · rw [h]; rfl
      · rw [h]; exact hu
    constructor
    · intro e he
      unfold runsOf
      rw [hs]
      simp only
      rw [hcfg]
      simp [he, keysOf]
    · intro e he ho
      unfold runsOf
      rw [hs]
      simp only
      rw [hcfg]
      simp [he, ho, keysOf]

/-- A model with two scenarios, without a list on the command line. -/
def exampleRequest : Request Nat where
  modelFile := "model.yaml".toList
  scenarios := none
  additionalArgs := some "--debug".toList
  overrideDict := none
  config := .sub "scenarios" (.leaf "low" none (.leaf "high" none .nil)) .nil
  overrideDef := .nil

example : runsOf exampleRequest = .ok ["low".toList, "high".toList] := by decide

/-- One command per run, and the command of the `k`-th run starts that run: its words are
`calliope run MODEL --scenario RUN --save_netcdf FILE`, and no more unless further options were given. -/
theorem C59_commands (q : Request α) (runs : List Str) (hruns : runsOf q = .ok runs) (hm : Plain q.modelFile)
    (hr : ∀ r ∈ runs, Plain r) :
    ∃ commands : List Str, generateRuns q = .ok commands ∧ commands.length = runs.length ∧
      ∀ (k : Nat) run, runs[k]? = some run → ∃ cmd file rest, commands[k]? = some cmd ∧
        words cmd = ["calliope".toList, "run".toList, q.modelFile, "--scenario".toList, run,
          "--save_netcdf".toList, file] ++ rest ∧
        (q.overrideDict = none → q.additionalArgs = none → rest = []) := by
  refine ⟨commandsFrom q runs.length 0 runs, by simp [generateRuns, hruns], commandsFrom_length _ _ _ _, ?_⟩
  intro k run hk
  obtain ⟨rest, hw, hrest⟩ := command_words q runs.length (0 + k) run hm (hr run (List.mem_of_getElem? hk))
  refine ⟨_, outFile runs.length (0 + k) run, rest, by rw [commandsFrom_get, hk]; rfl, hw, ?_⟩
  intro h1 h2
  exact hrest (by rw [h1]; rfl) (by rw [h2]; rfl)

/-- The output files are in the order of the runs and hence pairwise distinct, whatever the number of runs:
compared character by character, the file of an earlier run comes first. -/
theorem C59_files (q : Request α) (runs : List Str) (hruns : runsOf q = .ok runs) (hm : Plain q.modelFile)
    (hr : ∀ r ∈ runs, Plain r) (commands : List Str) (hc : generateRuns q = .ok commands)
    (i j : Nat) (hij : i < j) (ci cj fi fj : Str) (hi : commands[i]? = some ci) (hj : commands[j]? = some cj)
    (hfi : (words ci)[6]? = some fi) (hfj : (words cj)[6]? = some fj) : fi < fj := by
  have hc' : commandsFrom q runs.length 0 runs = commands := by
    simpa [generateRuns, hruns] using hc
  subst hc'
  rw [commandsFrom_get] at hi hj
  rw [Option.map_eq_some_iff] at hi hj
  obtain ⟨ri, hri, rfl⟩ := hi
  obtain ⟨rj, hrj, rfl⟩ := hj
  obtain ⟨resti, hwi, _⟩ := command_words q runs.length (0 + i) ri hm (hr ri (List.mem_of_getElem? hri))
  obtain ⟨restj, hwj, _⟩ := command_words q runs.length (0 + j) rj hm (hr rj (List.mem_of_getElem? hrj))
  rw [hwi] at hfi
  rw [hwj] at hfj
  simp only [List.cons_append, List.getElem?_cons_succ, List.getElem?_cons_zero, Option.some.injEq] at hfi hfj
  subst hfi hfj
  have hjlt : j < runs.length := by
    by_contra h
    rw [List.getElem?_eq_none (by omega)] at hrj
    simp at hrj
  unfold outFile
  simp only [List.append_assoc]
  refine lex_prefix _ ?_
  exact padded_lt (by omega) (by omega) _ _

/-- The bash script: with argument `k` it runs the `k`-th command, with any other argument nothing; without
argument it runs `1` to `n`. -/
theorem C59_script (q : Request α) (runs : List Str) (hruns : runsOf q = .ok runs) (hm : Plain q.modelFile)
    (hr : ∀ r ∈ runs, Plain r)
    (ho : ∀ d, q.overrideDict = some d → '\n' ∉ d ∧ ';' ∉ d)
    (ha : ∀ a, q.additionalArgs = some a → '\n' ∉ a ∧ ';' ∉ a ∧ (∀ l x, a = l ++ [x] → x ≠ ' '))
    (commands : List Str) (hc : generateRuns q = .ok commands) :
    (∀ k, 1 ≤ k → k ≤ runs.length → job (bashScript commands) (numeral k) = commands[k - 1]?) ∧
    (∀ arg, (∀ k, 1 ≤ k → k ≤ runs.length → arg ≠ numeral k) → job (bashScript commands) arg = none) ∧
    ("    for i in $(seq 1 ".toList ++ numeral runs.length ++ "); do process_case $i; done".toList) ∈
      linesOf (bashScript commands) := by
  have hc' : commandsFrom q runs.length 0 runs = commands := by
    simpa [generateRuns, hruns] using hc
  subst hc'
  have hlen := commandsFrom_length q runs.length 0 runs
  have hread : ∀ c ∈ commandsFrom q runs.length 0 runs, Readable c := by
    intro c hcm
    obtain ⟨k, hk⟩ := List.getElem?_of_mem hcm
    rw [commandsFrom_get, Option.map_eq_some_iff] at hk
    obtain ⟨r, hrk, rfl⟩ := hk
    exact command_readable q _ _ r hm (hr r (List.mem_of_getElem? hrk)) ho ha
  refine ⟨?_, ?_, ?_⟩
  · intro k h1 h2
    have := job_eq _ hread (k - 1) (by rw [hlen]; omega)
    rw [Nat.sub_add_cancel h1] at this
    rw [this, List.getElem?_eq_getElem (by rw [hlen]; omega)]
  · intro arg harg
    refine job_none _ hread arg ?_
    intro k hk
    rw [hlen] at hk
    exact harg (k + 1) (by omega) (by omega)
  · rw [script_lines _ (fun c hc => (hread c hc).1), hlen, ← str_eq]
    simp [scriptTail]

/-- The cluster scripts start jobs `1` to `n`, each calling the bash script with its own number. -/
theorem C59_cluster (q : Request α) (runs : List Str) (hruns : runsOf q = .ok runs)
    (commands : List Str) (hc : generateRuns q = .ok commands) (base : Str) :
    "#BSUB -J calliope[1-".toList ++ numeral runs.length ++ "]".toList ∈ bsubLines base commands ∧
    "./".toList ++ base ++ " ${LSB_JOBINDEX}".toList ∈ bsubLines base commands ∧
    "#SBATCH --array=1-".toList ++ numeral runs.length ∈ sbatchLines base commands ∧
    "./".toList ++ base ++ " ${SLURM_ARRAY_TASK_ID}".toList ∈ sbatchLines base commands := by
  have hlen : commands.length = runs.length := by
    have : commandsFrom q runs.length 0 runs = commands := by simpa [generateRuns, hruns] using hc
    rw [← this, commandsFrom_length]
  simp only [bsubLines, sbatchLines, hlen, str_eq, List.mem_cons, true_or, or_true, and_self]

theorem example_plain : Plain exampleRequest.modelFile ∧ ∀ r ∈ ["low".toList, "high".toList], Plain r := by
  refine ⟨⟨by decide, by decide⟩, ?_⟩
  intro r hr
  simp only [List.mem_cons, List.not_mem_nil, or_false] at hr
  rcases hr with rfl | rfl
  · exact ⟨by decide, by decide⟩
  · exact ⟨by decide, by decide⟩

theorem example_options :
    (∀ d, exampleRequest.overrideDict = some d → '\n' ∉ d ∧ ';' ∉ d) ∧
    (∀ a, exampleRequest.additionalArgs = some a →
      '\n' ∉ a ∧ ';' ∉ a ∧ (∀ l x, a = l ++ [x] → x ≠ ' ')) := by
  constructor
  · intro d hd
    have : (none : Option Str) = some d := hd
    cases this
  · intro a ha
    have ha' : some "--debug".toList = some a := ha
    rw [Option.some.injEq] at ha'
    subst ha'
    refine ⟨by decide, by decide, ?_⟩
    intro l x h
    have h' : "--debu".toList ++ ['g'] = l ++ [x] := h
    have := List.append_inj_right' h' rfl
    simp only [List.cons.injEq, and_true] at this
    rw [← this]; decide

/-- The hypotheses of `C59_script` at the example. -/
example (commands : List Str) (hc : generateRuns exampleRequest = .ok commands) :
    job (bashScript commands) (numeral 2) = commands[1]? ∧ job (bashScript commands) (numeral 3) = none := by
  have h := C59_script exampleRequest ["low".toList, "high".toList] (by decide) example_plain.1 example_plain.2
    example_options.1 example_options.2 commands hc
  refine ⟨h.1 2 (by decide) (by decide), h.2.1 _ ?_⟩
  intro k h1 h2 he
  have := numeral_inj he
  simp at h2
  omega

/-- The example: ten runs would change the width; two runs give `out_1_low.nc` and `out_2_high.nc`. -/
example : (generateRuns exampleRequest).toOption.map (fun cs => cs.map (fun c => (words c)[6]?)) =
    some [some "out_1_low.nc".toList, some "out_2_high.nc".toList] := by decide

example : job (bashScript ["calliope run a".toList, "calliope run b".toList]) "2".toList =
    some "calliope run b".toList := by decide

/-- Without the padding the files of ten runs would not be in order. -/
example : ¬ ("out_9".toList < "out_10".toList) ∧ "out_09".toList < "out_10".toList := by decide

theorem splitChars_snoc (sep : Char) (s : Str) :
    Text.splitChars sep (s ++ [sep]) = Text.splitChars sep s ++ [[]] := by
  induction s with
  | nil => simp [Text.splitChars]
  | cons c s ih =>
    simp only [List.cons_append, Text.splitChars, ih]
    split
    · rfl
    · rcases h : Text.splitChars sep s with _ | ⟨w, ws⟩
      · exact absurd h (Text.splitChars_ne_nil _ _)
      · rfl

/-- A scenario list ending in a semicolon has an empty last scenario, which the shell drops: the option
`--save_netcdf` is then taken for the name of the scenario. -/
theorem C59_empty_scenario (s : Str) (q : Request α) (hs : q.scenarios = some (s ++ [';']))
    (hm : Plain q.modelFile) :
    ∃ runs commands cmd, runsOf q = .ok runs ∧ [] ∈ runs ∧ generateRuns q = .ok commands ∧ cmd ∈ commands ∧
      (words cmd)[3]? = some "--scenario".toList ∧ (words cmd)[4]? = some "--save_netcdf".toList := by
  have hr : runsOf q = .ok (Text.splitChars ';' s ++ [[]]) := by simp [runsOf, hs, splitChars_snoc]
  refine ⟨_, commandsFrom q (Text.splitChars ';' s ++ [[]]).length 0 (Text.splitChars ';' s ++ [[]]),
    command q (Text.splitChars ';' s ++ [[]]).length (0 + (Text.splitChars ';' s).length) [],
    hr, by simp, by simp only [generateRuns, hr], ?_, ?_⟩
  · refine List.mem_of_getElem? (i := (Text.splitChars ';' s).length) ?_
    rw [commandsFrom_get]
    simp
  · obtain ⟨rest, _, _, e⟩ := command_eq q (Text.splitChars ';' s ++ [[]]).length
      (0 + (Text.splitChars ';' s).length) []
    rw [e]
    have e1 : "calliope run ".toList = "calliope".toList ++ ' ' :: ("run".toList ++ ' ' :: []) := rfl
    have e2 : " --scenario ".toList = ' ' :: ("--scenario".toList ++ ' ' :: []) := rfl
    have e3 : " ".toList = ' ' :: [] := rfl
    have e4 : "--save_netcdf ".toList = "--save_netcdf".toList ++ ' ' :: [] := rfl
    rw [e1, e2, e3, e4]
    simp only [List.append_assoc, List.cons_append, List.nil_append]
    rw [words_cons _ _ (by decide) (by decide), words_cons _ _ (by decide) (by decide),
      words_cons _ _ hm.1 hm.noBlank, words_cons _ _ (by decide) (by decide), words_blank,
      words_cons _ _ (by decide) (by decide)]
    exact ⟨rfl, rfl⟩

example : ∃ s q, (q : Request Nat).scenarios = some (s ++ [';']) ∧ Plain q.modelFile :=
  ⟨"low".toList, { exampleRequest with scenarios := some "low;".toList }, rfl, example_plain.1⟩

/-! ## C60 -/

/-- One scenario per combination: as many as the product of the sizes of the groups, where a group is the parts
of an option between semicolons; the scenario at the position of a choice holds the overrides chosen. -/
theorem C60_product (overrides : List Str) (namePrefix : Option Str) (groups : List (List Str))
    (hg : List.Forall₂ (fun o g => g ≠ [] ∧ (∀ w ∈ g, ';' ∉ w) ∧ Text.joinChars ';' g = o) overrides groups) :
    (generateScenarios overrides namePrefix).length = (groups.map List.length).prod ∧
    (∀ is c, List.Forall₂ (fun g i => i < g.length) groups is →
      List.Forall₂ (fun (p : List Str × Nat) x => p.1[p.2]? = some x) (groups.zip is) c →
      ∃ name, (generateScenarios overrides namePrefix)[position groups is]? = some (name, c)) ∧
    (∀ p, p < (groups.map List.length).prod →
      ∃ is, List.Forall₂ (fun g i => i < g.length) groups is ∧ position groups is = p) := by
  have hgroups : overrides.map (Text.splitChars ';') = groups := by
    induction hg with
    | nil => rfl
    | cons h _ ih =>
      rw [List.map_cons, ih]
      exact congrArg (· :: _) ((Text.C01_dotted_keys ';' _).2.2 _ h.1 h.2.1 h.2.2)
  rw [generateScenarios_eq, hgroups]
  refine ⟨by rw [namedFrom_length, product_length], ?_, position_surj groups⟩
  intro is c hi hc
  rw [namedFrom_get, product_get groups is c hi hc]
  exact ⟨_, rfl⟩

/-- The names are pairwise distinct and in order, whatever the number of scenarios. -/
theorem C60_names (overrides : List Str) (namePrefix : Option Str) :
    (generateScenarios overrides namePrefix).Pairwise (fun a b => a.1 < b.1) ∧
    ((generateScenarios overrides namePrefix).map Prod.fst).Nodup := by
  have h := namedFrom_sorted ((given namePrefix).getD "scenario_".toList)
    (product (overrides.map (Text.splitChars ';'))).length 0
    (product (overrides.map (Text.splitChars ';'))) (by simp)
  rw [← generateScenarios_eq] at h
  refine ⟨h, ?_⟩
  rw [List.Nodup, List.pairwise_map]
  refine h.imp ?_
  intro a b hab he
  rw [he] at hab
  exact List.lt_irrefl _ hab

/-- The names start with the prefix given, or `scenario_`. -/
theorem C60_prefix (overrides : List Str) (namePrefix : Option Str) (e : Str × List Str)
    (he : e ∈ generateScenarios overrides namePrefix) :
    (∀ c cs, namePrefix = some (c :: cs) → (c :: cs) <+: e.1) ∧
    (namePrefix = none → "scenario_".toList <+: e.1) := by
  rw [generateScenarios_eq] at he
  obtain ⟨k, hk⟩ := List.getElem?_of_mem he
  rw [namedFrom_get, Option.map_eq_some_iff] at hk
  obtain ⟨c, _, rfl⟩ := hk
  constructor
  · rintro a as rfl; exact List.prefix_append _ _
  · rintro rfl; exact List.prefix_append _ _

example : List.Forall₂ (fun (o : Str) (g : List Str) => g ≠ [] ∧ (∀ w ∈ g, ';' ∉ w) ∧ Text.joinChars ';' g = o)
    ["cold;mild".toList, "low".toList] [["cold".toList, "mild".toList], ["low".toList]] :=
  .cons (by decide) (.cons (by decide) .nil)

example : (generateScenarios ["cold;mild".toList, "low;mid;high".toList] none).length = 6 := by decide
example : (generateScenarios ["cold;mild".toList, "low;mid;high".toList] none)[4]? =
    some ("scenario_5".toList, ["mild".toList, "mid".toList]) := by decide
example : position [["cold".toList, "mild".toList], ["low".toList, "mid".toList, "high".toList]] [1, 1] = 4 := by
  decide

end Runs
end Calliope
