import Verif.Props.DemoTools
import Verif.Props.InterCluster

/-!
# Small models with clusters of days

A battery; three dates `a`, `b`, `c` and two representative days, `k0` (time steps `t0`, `t1`) for `a` and `c`, and
`k1` (`t2`, `t3`) for `b`.
-/

namespace Calliope
namespace BaseMath
namespace InterDemo

open Grid Infix Expr Expand Build Where Mini

/-- What differs between the models. -/
structure Case where
  cyclic : Bool
  loss : Rat
  init : Rat
  cap : Rat
  charge : List (List Label × Rat)
  discharge : List (List Label × Rat)
  level : List (List Label × Rat)
  inter : List (List Label × Rat)

def model (k : Case) : Mini where
  labels := [("nodes", ["n"]), ("techs", ["bat"]), ("carriers", ["e"]), ("timesteps", ["t0", "t1", "t2", "t3"]),
    ("datesteps", ["a", "b", "c"]), ("clusters", ["k0", "k1"])]
  data := [("storage", ["nodes", "techs", "timesteps"], fun c => table k.level (c.drop 2)),
    ("storage_inter_cluster", ["nodes", "techs", "datesteps"], fun c => table k.inter (c.drop 2)),
    ("storage_intra_cluster_max", ["nodes", "techs", "clusters"],
      fun c => table [(["k0"], 3), (["k1"], -1)] (c.drop 2)),
    ("storage_intra_cluster_min", ["nodes", "techs", "clusters"],
      fun c => table [(["k0"], 1), (["k1"], -2)] (c.drop 2)),
    ("storage_cap", ["techs"], fun _ => k.cap), ("storage_loss", [], fun _ => k.loss),
    ("storage_initial", [], fun _ => k.init), ("timestep_resolution", ["timesteps"], fun _ => 12),
    ("flow_out_inc_eff", ["nodes", "techs", "carriers", "timesteps"], fun c => table k.discharge (c.drop 3)),
    ("flow_in_inc_eff", ["nodes", "techs", "carriers", "timesteps"], fun c => table k.charge (c.drop 3))]
  lookups := [
    ("timestep_cluster", ⟨["timesteps"], fun c => [(["t0"], "k0"), (["t1"], "k0"), (["t2"], "k1"), (["t3"], "k1")].lookup c⟩),
    ("lookup_datestep_cluster", ⟨["datesteps"], fun c => [(["a"], "k0"), (["b"], "k1"), (["c"], "k0")].lookup c⟩),
    ("lookup_datestep_last_cluster_timestep",
      ⟨["datesteps"], fun c => [(["a"], "t1"), (["b"], "t3"), (["c"], "t1")].lookup c⟩)]
  inputs := [("base_tech", ⟨.text, ⟨["techs"], fun _ => .str "storage"⟩, .nan⟩),
    ("include_storage", ⟨.boolean, scalar (.bool false), .bool false⟩),
    ("cyclic_storage", ⟨.boolean, scalar (.bool k.cyclic), .bool false⟩),
    ("storage_initial", ⟨.number, scalar (.num k.init), .num 0⟩),
    ("lookup_cluster_last_timestep", ⟨.text, ⟨["timesteps"],
      fun c => ([(["t0"], Where.Val.str "t1"), (["t2"], .str "t3")].lookup c).getD .nan⟩, .nan⟩)]
  results := [("storage", ⟨["nodes", "techs"], fun _ => true⟩)]
  along := ["nodes", "techs", "carriers"]
  items := [["n", "bat", "e"]]

/-- Cyclic, without losses: `k0` charges 3 and discharges 2, `k1` discharges 1 twice. -/
def even : Case where
  cyclic := true
  loss := 0
  init := 0
  cap := 5
  charge := [(["t0"], 3)]
  discharge := [(["t1"], 2), (["t2"], 1), (["t3"], 1)]
  level := [(["t0"], 3), (["t1"], 1), (["t2"], -1), (["t3"], -2)]
  inter := [(["a"], 2), (["b"], 3), (["c"], 1)]

theorem ok (k : Case) : (model k).ok = true := by rfl

/-- The battery at a date and time step. -/
def at' (k : Case) (d t : Label) : Point :=
  (model k).point [("datesteps", d), ("timesteps", t)]

theorem valid (k : Case) {d t : Label} (hd : d ∈ ["a", "b", "c"]) (ht : t ∈ ["t0", "t1", "t2", "t3"]) :
    Valid (model k).W (at' k d t) :=
  valid_point (ok k) (by
    simp only [List.all_cons, List.all_nil, Bool.and_true, Bool.and_eq_true, decide_eq_true_eq]
    exact ⟨hd, ht⟩)

theorem bat (k : Case) (l : List (String × Label)) (ρ : Point) {sets : List String}
    (hs : sets ∈ [["nodes", "techs", "timesteps"], ["nodes", "techs", "datesteps"], ["nodes", "techs"]])
    (hρ : Valid (model k).W ρ) (hn : ρ "nodes" = "n") (ht : ρ "techs" = "bat") : InModel (model k).W sets ρ := by
  refine in_model hρ ["n", "bat", "e"] ?_ ?_
  · simp only [List.mem_cons, List.not_mem_nil, or_false] at hs
    rcases hs with rfl | rfl | rfl <;> simp [agrees, model, hn, ht, coords, List.lookup_cons]
  · simp only [List.mem_cons, List.not_mem_nil, or_false] at hs
    rcases hs with rfl | rfl | rfl <;> rfl

theorem node (k : Case) {ρ : Point} (hρ : Valid (model k).W ρ) : ρ "nodes" = "n" ∧ ρ "techs" = "bat" :=
  ⟨List.mem_singleton.1 (hρ "nodes"), List.mem_singleton.1 (hρ "techs")⟩

theorem in1 (k : Case) {ρ : Point} (hρ : Valid (model k).W ρ) : InModel (model k).W ["nodes", "techs", "timesteps"] ρ :=
  bat k [] ρ (by simp) hρ (node k hρ).1 (node k hρ).2
theorem in2 (k : Case) {ρ : Point} (hρ : Valid (model k).W ρ) : InModel (model k).W ["nodes", "techs", "datesteps"] ρ :=
  bat k [] ρ (by simp) hρ (node k hρ).1 (node k hρ).2
theorem in3 (k : Case) {ρ : Point} (hρ : Valid (model k).W ρ) : InModel (model k).W ["nodes", "techs"] ρ :=
  bat k [] ρ (by simp) hρ (node k hρ).1 (node k hρ).2

theorem stores (k : Case) (ρ : Point) : Stores (model k).W ρ := by
  refine ⟨.inr rfl, ?_⟩
  unfold Text
  simp [W, model, valueOf, Arr.at, List.lookup]

theorem inputs (k : Case) : InterInputs (model k).W := ⟨within_ok (by rfl), within_ok (by rfl)⟩

/-- C76: on date `b` with `k1`, what is stored after `t3` is `3 - 2`, between 0 and 5. -/
example : (0 : Rat) ≤ 3 * 1 + -2 ∧ (3 : Rat) * 1 + -2 ≤ 5 := by
  have hv := valid even (d := "b") (t := "t3") (by decide) (by decide)
  exact C76_within (setting (ok even)) (within_ok (by rfl)) (within_ok (by rfl)) traverses
    (con_ok (c := storageIntraMax) (by decide +kernel)) (con_ok (c := storageIntraMin) (by decide +kernel))
    (con_ok (c := storageInterMax) (by decide +kernel)) (con_ok (c := storageInterMin) (by decide +kernel))
    hv (k := "k1") ⟨⟨_, rfl, rfl⟩, ⟨_, rfl, rfl⟩, by decide⟩ (in1 even hv) (in2 even hv)
    (stores even _).has (con_holds (by decide +kernel) hv) (con_holds (by decide +kernel) hv)
    (con_holds (by decide +kernel) hv) (con_holds (by decide +kernel) hv) (hi := -1) (lo := -2) (loss := 0)
    (by decide +kernel) (by decide +kernel)
    (by decide +kernel) (by decide +kernel) (by decide +kernel) (by decide +kernel) (by norm_num)
    (le_refl _) (by decide +kernel)

/-- The quantities of the battery. -/
def data (k : Case) : InterData (model k).E where
  level ρ := table k.level [ρ "timesteps"]
  out ρ := table k.discharge [ρ "timesteps"]
  inn ρ := table k.charge [ρ "timesteps"]
  init _ := k.init
  cap _ := k.cap
  loss _ := k.loss
  hours _ := 12
  inter ρ := table k.inter [ρ "datesteps"]
  isLevel := by
    have h := is_data (M := model k) (n := "storage") (ds := []) rfl (by decide)
    exact h
  isOut := by
    have h := is_data (M := model k) (n := "flow_out_inc_eff") (ds := ["carriers"]) rfl (by decide)
    exact h
  isInn := by
    have h := is_data (M := model k) (n := "flow_in_inc_eff") (ds := ["carriers"]) rfl (by decide)
    exact h
  isInit := by
    have h := is_data (M := model k) (n := "storage_initial") (ds := []) rfl (by decide)
    exact h
  isCap := by
    have h := is_data (M := model k) (n := "storage_cap") (ds := []) rfl (by decide)
    exact h
  isLoss := by
    have h := is_data (M := model k) (n := "storage_loss") (ds := []) rfl (by decide)
    exact h
  isHours := by
    have h := is_data (M := model k) (n := "timestep_resolution") (ds := []) rfl (by decide)
    exact h
  isInter := by
    have h := is_data (M := model k) (n := "storage_inter_cluster") (ds := []) rfl (by decide)
    exact h

theorem shapes (k : Case) : Shapes (data k) := by
  constructor <;> intros <;> simp [data, Expr.set]

/-- Hours from the start of the day to the end of a time step. -/
def elapsed (ρ : Point) : Rat := table [(["t0"], 12), (["t1"], 24), (["t2"], 12), (["t3"], 24)] [ρ "timesteps"]

/-- Cyclic, with losses: half of what is stored is lost in an hour. -/
def lossy : Case where
  cyclic := true
  loss := 1 / 2
  init := 0
  cap := 10000
  charge := [(["t0"], 4096), (["t1"], 1), (["t2"], 4096), (["t3"], 1)]
  discharge := []
  level := [(["t0"], 4096), (["t1"], 2), (["t2"], 4096), (["t3"], 2)]
  inter := [(["a"], 2 * 2 ^ 24 / (2 ^ 24 - 1)), (["b"], 2 * 2 ^ 24 / (2 ^ 24 - 1)),
    (["c"], 2 * 2 ^ 24 / (2 ^ 24 - 1))]

theorem powers (a : Rat) : ∀ n : ℕ, power a n = a ^ n := by
  intro n
  simp [power]

/-- Not cyclic: the battery starts half full and charges 1 in the first time step. -/
def begins : Case where
  cyclic := false
  loss := 0
  init := 1 / 2
  cap := 10
  charge := [(["t0"], 1)]
  discharge := []
  level := [(["t0"], 6), (["t1"], 6), (["t2"], 0), (["t3"], 0)]
  inter := [(["a"], 1 / 2), (["b"], 13 / 2), (["c"], 13 / 2)]

/-- Cyclic, with an initial level of 2 at the end of the last date. -/
def starts : Case := { even with
  init := 1 / 5, cap := 10, inter := [(["a"], 3), (["b"], 4), (["c"], 2)] }

theorem date_dim (k : Case) : "datesteps" ∈ (model k).W.dims := by
  simp [W, model]

theorem set_step (k : Case) (d t t' : Label) : set (at' k d t) "timesteps" t' = at' k d t' := by
  funext x
  unfold Expr.set at' point
  by_cases h : x = "timesteps"
  · subst h
    rfl
  · rw [if_neg h]
    have e : (x == "timesteps") = false := beq_false_of_ne h
    simp only [List.lookup, e]

theorem set_date (k : Case) (d t d' : Label) : set (at' k d t) "datesteps" d' = at' k d' t := by
  funext x
  unfold Expr.set at' point
  by_cases h : x = "datesteps"
  · subst h
    rfl
  · rw [if_neg h]
    have e : (x == "datesteps") = false := beq_false_of_ne h
    simp only [List.lookup, e]

/-- C77: from `t2` to `t3` on date `b`. -/
example : (data even).stored power elapsed (at' even "b" "t3") =
    power (1 - (data even).loss (at' even "b" "t3")) ((data even).hours (previous (model even).W (at' even "b" "t3"))) *
      (data even).stored power elapsed (previous (model even).W (at' even "b" "t3")) +
      (data even).net (at' even "b" "t3") := by
  have hv := valid even (d := "b") (t := "t3") (by decide) (by decide)
  refine C77_within_day (setting (ok even)) (data even) (shapes even) (inputs even) traverses
    (con_ok (c := balanceStorageIntra) (by decide +kernel)) hv (con_holds (by decide +kernel) hv) (in1 even hv)
    (stores even _) (by decide +kernel) (by decide +kernel) ?_ (by decide +kernel)
  exact ⟨fun x y => by simp [data, even, power], fun n => by simp [data, even, power]⟩
example : (data even).stored power elapsed (at' even "b" "t3") = 1 ∧
    (data even).stored power elapsed (previous (model even).W (at' even "b" "t3")) = 2 := by decide +kernel

/-- C77: with losses, from date `c` to date `a`. -/
example : (data lossy).stored power elapsed (at' lossy "a" "t0") =
    power (1 - (data lossy).loss (at' lossy "a" "t0")) ((data lossy).hours (at' lossy "c" "t1")) *
      (data lossy).stored power elapsed (at' lossy "c" "t1") + (data lossy).net (at' lossy "a" "t0") := by
  have hv := valid lossy (d := "a") (t := "t0") (by decide) (by decide)
  refine C77_next_day (σ := at' lossy "c" "t1") (setting (ok lossy)) (data lossy) (shapes lossy) (inputs lossy)
    (date_dim lossy) traverses
    (con_ok (c := balanceStorageIntra) (by decide +kernel)) (con_ok (c := balanceStorageInter) (by decide +kernel))
    hv (con_holds (by decide +kernel) hv) (con_holds (by decide +kernel) hv) (in1 lossy hv) (in2 lossy hv)
    (stores lossy _) (by decide +kernel) (by decide +kernel) (by decide +kernel) ?_ (by decide +kernel)
    (by decide +kernel)
  refine ⟨_, "t1", rfl, rfl, by decide +kernel, ?_⟩
  rw [back, set_date, set_step]
  rfl

/-- C77 fails: date `c` starts with 6.5, charges 1 and then holds 12.5. -/
example : (data begins).stored power elapsed (at' begins "c" "t0") =
    power (1 - (data begins).loss (at' begins "c" "t0")) ((data begins).hours (at' begins "b" "t3")) *
      (data begins).stored power elapsed (at' begins "b" "t3") + (data begins).net (at' begins "c" "t0") +
      (data begins).init (at' begins "c" "t0") * (data begins).cap (at' begins "c" "t0") := by
  have hv := valid begins (d := "c") (t := "t0") (by decide) (by decide)
  refine C77_initial_again (σ := at' begins "b" "t3") (setting (ok begins)) (data begins) (shapes begins)
    (inputs begins) (date_dim begins) traverses
    (con_ok (c := balanceStorageIntra) (by decide +kernel)) (con_ok (c := balanceStorageInter) (by decide +kernel))
    hv (con_holds (by decide +kernel) hv) (con_holds (by decide +kernel) hv) (in1 begins hv) (in2 begins hv)
    (stores begins _) (by decide +kernel) (by decide +kernel) (by decide +kernel) ?_ (by decide +kernel)
    (by decide +kernel)
  refine ⟨_, "t3", rfl, rfl, by decide +kernel, ?_⟩
  rw [back, set_date, set_step]
  rfl
example : (data begins).stored power elapsed (at' begins "c" "t0") = 25 / 2 ∧
    (data begins).stored power elapsed (at' begins "b" "t3") = 13 / 2 := by decide +kernel

/-- C77 fails: the battery of capacity 10, half full at first, holds 0.5 + 5 + 1 after charging 1. -/
example : (data begins).stored power elapsed (at' begins "a" "t0") = 1 / 2 * 1 + 1 / 2 * 10 + 1 := by
  have hv := valid begins (d := "a") (t := "t0") (by decide) (by decide)
  rw [C77_first_day (pw := power) (setting (ok begins)) (data begins)
    (inputs begins) (date_dim begins) traverses
    (con_ok (c := balanceStorageIntra) (by decide +kernel)) (con_ok (c := balanceStorageInter) (by decide +kernel))
    hv (con_holds (by decide +kernel) hv) (con_holds (by decide +kernel) hv) (in1 begins hv) (in2 begins hv)
    (stores begins _) (by decide +kernel) (by decide +kernel) (by decide +kernel) elapsed]
  decide +kernel

/-- C77: an initial level of 2, and the first date starts with 3. -/
example : (data starts).inter (at' starts "a" "t0") = 1 / 5 * 10 + 1 := by
  have hv := valid starts (d := "a") (t := "t0") (by decide) (by decide)
  rw [C77_cyclic_initial (pw := power) (l := "t1") (setting (ok starts)) (data starts) (inputs starts)
    (within_ok (by rfl)) (resultWithin_ok (by rfl)) (date_dim starts) (by decide) traverses
    (con_ok (c := setStorageInitialInter) (by decide +kernel)) (con_ok (c := balanceStorageInter) (by decide +kernel))
    hv (con_holds (by decide +kernel) hv) (con_holds (by decide +kernel) hv) (in3 starts hv) (in2 starts hv)
    (stores starts _).has ⟨_, rfl, rfl⟩ (by decide +kernel) (by decide +kernel) (by decide +kernel) rfl rfl
    (by decide +kernel)]
  decide +kernel

/-- C77: over the dates `a`, `b`, `c`, the battery charges 3 twice and discharges 2, 1 + 1 and 2. -/
example : sumOver (model even).E "datesteps"
    (fun σ => sumSteps (([("a", ["t0", "t1"]), ("b", ["t2", "t3"]), ("c", ["t0", "t1"])].lookup (σ "datesteps")).getD [])
      (data even).net (at' even "a" "t0")) (at' even "a" "t0") = 0 := by
  have hv := valid even (d := "a") (t := "t0") (by decide) (by decide)
  refine C77_period (pw := power) (setting (ok even)) (data even) (shapes even) (inputs even) (date_dim even)
    (by decide) traverses
    (con_ok (c := balanceStorageIntra) (by decide +kernel)) (con_ok (c := balanceStorageInter) (by decide +kernel))
    hv ?_ (fun _ => rfl) ?_ rfl
    (fun d => ([("a", ["t0", "t1"]), ("b", ["t2", "t3"]), ("c", ["t0", "t1"])].lookup d).getD []) ?_
  · intro x
    simp [power]
  · intro τ hτ _
    exact ⟨con_holds (by decide +kernel) hτ, con_holds (by decide +kernel) hτ, in1 even hτ, in2 even hτ,
      stores even _, .inl rfl⟩
  · simp only [show (model even).W.coords "datesteps" = ["a", "b", "c"] from rfl, List.mem_cons, List.not_mem_nil,
      or_false]
    rintro d (rfl | rfl | rfl)
    · exact ⟨"t0", "t1", ["t1"], [], ["t2", "t3"], rfl, rfl, rfl, rfl, by decide +kernel, by decide +kernel⟩
    · exact ⟨"t2", "t3", ["t3"], ["t0", "t1"], [], rfl, rfl, rfl, rfl, by decide +kernel, by decide +kernel⟩
    · exact ⟨"t0", "t1", ["t1"], [], ["t2", "t3"], rfl, rfl, rfl, rfl, by decide +kernel, by decide +kernel⟩

end InterDemo
end BaseMath
end Calliope
