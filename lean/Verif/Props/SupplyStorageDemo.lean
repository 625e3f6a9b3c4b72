import Verif.Props.SupplyStorage
import Verif.Props.DemoVars

/-!
# Examples for C124

A reservoir `dam` with a source, a store that loses half of its level in every hour, and two carriers.
-/

namespace Calliope
namespace BaseMath

open Grid Infix Expr Expand Build Where Mini

namespace SupplyStorageDemo

def both4 (a b : Rat) : List (List Label × Rat) :=
  [(["a", "dam", "e", "t0"], a), (["a", "dam", "h", "t0"], a), (["a", "dam", "e", "t1"], b), (["a", "dam", "h", "t1"], b)]

/-- The store is cyclic or not; use of the source, outflow and levels at two time steps. -/
def model (cyclic : Bool) (s0 s1 o0 o1 l0 l1 : Rat) : Mini where
  labels := [("nodes", ["a"]), ("techs", ["dam"]), ("carriers", ["e", "h"]), ("timesteps", ["t0", "t1"])]
  data := [("storage", ["nodes", "techs", "timesteps"], table [(["a", "dam", "t0"], l0), (["a", "dam", "t1"], l1)]),
    ("source_use", ["nodes", "techs", "timesteps"], table [(["a", "dam", "t0"], s0), (["a", "dam", "t1"], s1)]),
    ("flow_out_inc_eff", ["nodes", "techs", "carriers", "timesteps"], table (both4 o0 o1)),
    ("flow_in_inc_eff", ["nodes", "techs", "carriers", "timesteps"], fun _ => 0),
    ("source_eff", [], fun _ => 1 / 2), ("storage_initial", [], fun _ => 1 / 4), ("storage_cap", [], fun _ => 8),
    ("storage_loss", [], fun _ => 1 / 2), ("timestep_resolution", ["timesteps"], fun _ => 1)]
  lookups := [("lookup_cluster_last_timestep", ⟨["timesteps"], fun _ => some "t1"⟩)]
  inputs := [("base_tech", ⟨.text, ⟨["techs"], fun _ => .str "supply"⟩, .nan⟩),
    ("cyclic_storage", ⟨.boolean, scalar (.bool cyclic), .bool false⟩),
    ("cluster_first_timestep", ⟨.boolean, scalar (.bool false), .bool false⟩)]
  results := [("storage", ⟨["nodes", "techs", "timesteps"], fun _ => true⟩)]
  along := ["nodes", "techs", "carriers"]
  items := [["a", "dam", "e"], ["a", "dam", "h"]]

/-- Starting at 2: 6 arrive and 4 leave, half of 4 is lost, 2 arrive and 3 leave. -/
def dam : Mini := model false 12 4 4 3 4 1

/-- A cyclic store with levels 4 and 2. -/
def ring : Mini := model true 10 4 2 2 4 2

theorem dam_ok : dam.ok = true := by decide +kernel
theorem ring_ok : ring.ok = true := by decide +kernel

theorem is {M : Mini} {n : String} {ds' : List String} (ds : List String)
    (h : (M.data.lookup n).map Prod.fst = some ds') (hd : ∀ d ∈ ds, d ∈ ds') : Is M.E n ds (M.quantity n) := by
  rw [Option.map_eq_some_iff] at h
  obtain ⟨⟨ds'', g⟩, h, rfl⟩ := h
  rw [quantity_is h]
  exact is_data h hd

def stored (M : Mini) (hM : M = dam ∨ M = ring) : StorageData M.E where
  level := M.quantity "storage"
  out := M.quantity "flow_out_inc_eff"
  inn := M.quantity "flow_in_inc_eff"
  init := M.quantity "storage_initial"
  cap := M.quantity "storage_cap"
  loss := M.quantity "storage_loss"
  hours := M.quantity "timestep_resolution"
  isLevel := by rcases hM with rfl | rfl <;> exact is (ds' := ["nodes", "techs", "timesteps"]) _ rfl (by decide)
  isOut := by rcases hM with rfl | rfl <;> exact is (ds' := ["nodes", "techs", "carriers", "timesteps"]) _ rfl (by decide)
  isInn := by rcases hM with rfl | rfl <;> exact is (ds' := ["nodes", "techs", "carriers", "timesteps"]) _ rfl (by decide)
  isInit := by rcases hM with rfl | rfl <;> exact is (ds' := []) _ rfl (by decide)
  isCap := by rcases hM with rfl | rfl <;> exact is (ds' := []) _ rfl (by decide)
  isLoss := by rcases hM with rfl | rfl <;> exact is (ds' := []) _ rfl (by decide)
  isHours := by rcases hM with rfl | rfl <;> exact is (ds' := ["timesteps"]) _ rfl (by decide)

def sourced (M : Mini) (hM : M = dam ∨ M = ring) : SourceData M.E where
  source := M.quantity "source_use"
  eff := M.quantity "source_eff"
  isSource := by rcases hM with rfl | rfl <;> exact is (ds' := ["nodes", "techs", "timesteps"]) _ rfl (by decide)
  isEff := by rcases hM with rfl | rfl <;> exact is (ds' := []) _ rfl (by decide)

theorem inputs {M : Mini} (hM : M = dam ∨ M = ring) : SupplyInputs M.W := by
  rcases hM with rfl | rfl <;> exact ⟨within_ok (by decide +kernel), resultWithin_ok (by decide +kernel)⟩

theorem con {M : Mini} (hM : M = dam ∨ M = ring) :
    buildConstraint M.W M.E List.dedup balanceSupplyWithStorage = .ok (M.con balanceSupplyWithStorage) := by
  rcases hM with rfl | rfl <;> exact con_ok (by decide +kernel)

theorem holds {M : Mini} (hM : M = dam ∨ M = ring) : M.holds balanceSupplyWithStorage = true := by
  rcases hM with rfl | rfl <;> decide +kernel

/-- Carrier `c` at step `t`. -/
def place (c t : Label) : Point := dam.point [("carriers", c), ("timesteps", t)]

theorem place_valid {M : Mini} (hM : M = dam ∨ M = ring) {c t : Label} (hc : c ∈ ["e", "h"]) (ht : t ∈ ["t0", "t1"]) :
    Valid M.W (place c t) := by
  have : Valid dam.W (place c t) := by
    simp only [List.mem_cons, List.not_mem_nil, or_false] at hc ht
    rcases hc with rfl | rfl <;> rcases ht with rfl | rfl <;> exact valid_point dam_ok (by decide +kernel)
  rcases hM with rfl | rfl
  · exact this
  · exact this

theorem place_set (c s t : Label) : Expr.set (place c s) "timesteps" t = place c t := by
  funext d
  unfold Expr.set place Mini.point
  by_cases h : d = "timesteps"
  · subst h
    rfl
  · by_cases h2 : d = "carriers"
    · subst h2
      rfl
    · have e1 : (d == "carriers") = false := by simpa using h2
      have e2 : (d == "timesteps") = false := by simpa using h
      simp [h, List.lookup, e1, e2]

theorem all {M : Mini} (hM : M = dam ∨ M = ring) {c : Label} (hc : c ∈ ["e", "h"]) : ∀ t ∈ ["t0", "t1"],
    Satisfied (M.con balanceSupplyWithStorage) (place c t) ∧
      InModel M.W ["nodes", "techs", "carriers", "timesteps"] (place c t) ∧ SupplyStores M.W (place c t) := by
  intro t ht
  have hv := place_valid hM hc ht
  refine ⟨con_holds (holds hM) hv, ?_, ?_, ?_⟩
  · simp only [List.mem_cons, List.not_mem_nil, or_false] at hc ht
    rcases hM with rfl | rfl <;> rcases hc with rfl | rfl <;> rcases ht with rfl | rfl <;>
      first
      | exact in_model hv ["a", "dam", "e"] (by decide +kernel) (by decide +kernel)
      | exact in_model hv ["a", "dam", "h"] (by decide +kernel) (by decide +kernel)
  · rcases hM with rfl | rfl <;> exact ⟨_, rfl, rfl⟩
  · rcases hM with rfl | rfl <;> rfl

/-- What is left of the level 1 is half of it: 2 to start with, 8 from the source, less 7 and less the losses. -/
example : (stored dam (.inl rfl)).level (place "e" "t1") - (stored dam (.inl rfl)).lost power (place "e" "t1") =
    (stored dam (.inl rfl)).init (place "e" "t0") * (stored dam (.inl rfl)).cap (place "e" "t0") +
      sumOver dam.E "timesteps" ((sourced dam (.inl rfl)).gain (stored dam (.inl rfl))) (place "e" "t0") -
      sumOver dam.E "timesteps" ((stored dam (.inl rfl)).lost power) (place "e" "t0") := by
  have h := C124_horizon (Mini.setting dam_ok) (stored dam (.inl rfl)) (sourced dam (.inl rfl)) (inputs (.inl rfl)) traverses
    (con (.inl rfl)) (place_valid (c := "e") (t := "t0") (.inl rfl) (by simp) (by simp)) (fun _ => rfl)
    (x := "t0") (y := "t1") rfl rfl
    (fun t ht => by rw [place_set]; exact all (.inl rfl) (by simp) t ht) (fun _ _ => by rintro (h | h) <;> cases h) (by decide +kernel)
  rw [place_set, place_set] at h
  exact h

example : sumOver dam.E "timesteps" ((sourced dam (.inl rfl)).gain (stored dam (.inl rfl))) (place "e" "t0") = 8 - 7 := by
  decide +kernel

example : sumOver ring.E "timesteps" ((sourced ring (.inr rfl)).gain (stored ring (.inr rfl))) (place "h" "t0") =
    sumOver ring.E "timesteps" ((stored ring (.inr rfl)).lost power) (place "h" "t0") :=
  C124_cyclic (Mini.setting ring_ok) (stored ring (.inr rfl)) (sourced ring (.inr rfl)) (inputs (.inr rfl)) traverses
    (con (.inr rfl)) (place_valid (c := "h") (t := "t0") (.inr rfl) (by simp) (by simp)) (fun _ => rfl)
    (x := "t0") rfl
    (fun t ht => by rw [place_set]; exact all (.inr rfl) (by simp) t ht) (fun _ _ => by rintro (h | h) <;> cases h) (by decide +kernel)

/-- Both carriers have an outflow of 4. -/
example : (stored dam (.inl rfl)).out (place "e" "t0") = (stored dam (.inl rfl)).out (place "h" "t0") :=
  C124_carriers (Mini.setting dam_ok) (stored dam (.inl rfl)) (sourced dam (.inl rfl)) (inputs (.inl rfl)) traverses
    (con (.inl rfl)) (place_valid (.inl rfl) (by simp) (by simp)) (place_valid (.inl rfl) (by simp) (by simp))
    (all (.inl rfl) (by simp) _ (by simp)).1 (all (.inl rfl) (by simp) _ (by simp)).1
    (all (.inl rfl) (by simp) _ (by simp)).2.1 (all (.inl rfl) (by simp) _ (by simp)).2.1
    (all (.inl rfl) (by simp) _ (by simp)).2.2 (all (.inl rfl) (by simp) _ (by simp)).2.2
    (v := 2) (.inl ⟨rfl, by decide +kernel, by decide +kernel⟩) (.inl ⟨rfl, by decide +kernel, by decide +kernel⟩) rfl rfl

example : (stored dam (.inl rfl)).out (place "e" "t0") = 4 := by decide +kernel

end SupplyStorageDemo

end BaseMath
end Calliope
