import Mathlib.Tactic.Ring
import Verif.Spec.InterCluster
import Verif.Proofs.BaseValue

/-!
What the constraints on storage between clusters of days say.
-/

namespace Calliope
namespace BaseMath

open Grid Infix Expr Expand Build Where

variable {V : Type}

section
variable [Field V] {W : Where.Env} {E : Expr.Env V} {pw : V → V → V}
  {enum : List String → List String} {b : Arr (Option (Cell V))} {ρ : Point}

theorem intraMax_at (S : Setting W E pw)
    (hw : Within W ["nodes", "techs", "timesteps"] ["include_storage", "base_tech"]) (henum : Traverses enum)
    (hb : buildConstraint W E enum storageIntraMax = .ok b) (hρ : Valid W ρ) {k : Label} (hk : SameCluster E ρ k)
    (hin : InModel W ["nodes", "techs", "timesteps"] ρ) (hst : HasStorage W ρ) :
    b.at ρ = some ⟨valueAt E "storage" ρ, "<=", valueAt E "storage_intra_cluster_max" (set ρ "clusters" k)⟩ := by
  obtain ⟨⟨g, hg, hgk⟩, _, hkm⟩ := hk
  obtain ⟨h1, h2⟩ := sliceOne_at S.wf henum (by simp) hb (by simp [subRefs]) (by simp [sliceRefs, sliceNames])
    (by simp [sliceRefs, sliceNames]) (by simp [Ok, Apart]) (by simp [Ok, Apart]) hρ (local_hasStorage hw)
  rw [h2 (h1.2 ⟨hin, (truth_hasStorage ρ).2 hst⟩)]
  have hl := labelOf_lookup (s := "cluster") hg ρ
  rw [hgk] at hl
  have e1 := val_comp (E := E) (sl := fun n => List.lookup n [("cluster", SliceDef.lookup "timestep_cluster" [])])
    "storage" ρ
  have e2 := val_sliced (n := "storage_intra_cluster_max") hl hkm
  unfold val at e1 e2
  unfold withSlice
  rw [e1, e2]

theorem intraMin_at (S : Setting W E pw)
    (hw : Within W ["nodes", "techs", "timesteps"] ["include_storage", "base_tech"]) (henum : Traverses enum)
    (hb : buildConstraint W E enum storageIntraMin = .ok b) (hρ : Valid W ρ) {k : Label} (hk : SameCluster E ρ k)
    (hin : InModel W ["nodes", "techs", "timesteps"] ρ) (hst : HasStorage W ρ) :
    b.at ρ = some ⟨valueAt E "storage" ρ, ">=", valueAt E "storage_intra_cluster_min" (set ρ "clusters" k)⟩ := by
  obtain ⟨⟨g, hg, hgk⟩, _, hkm⟩ := hk
  obtain ⟨h1, h2⟩ := sliceOne_at S.wf henum (by simp) hb (by simp [subRefs]) (by simp [sliceRefs, sliceNames])
    (by simp [sliceRefs, sliceNames]) (by simp [Ok, Apart]) (by simp [Ok, Apart]) hρ (local_hasStorage hw)
  rw [h2 (h1.2 ⟨hin, (truth_hasStorage ρ).2 hst⟩)]
  have hl := labelOf_lookup (s := "cluster") hg ρ
  rw [hgk] at hl
  have e1 := val_comp (E := E) (sl := fun n => List.lookup n [("cluster", SliceDef.lookup "timestep_cluster" [])])
    "storage" ρ
  have e2 := val_sliced (n := "storage_intra_cluster_min") hl hkm
  unfold val at e1 e2
  unfold withSlice
  rw [e1, e2]

theorem interMax_at (S : Setting W E pw)
    (hw : Within W ["nodes", "techs", "datesteps"] ["include_storage", "base_tech"]) (henum : Traverses enum)
    (hb : buildConstraint W E enum storageInterMax = .ok b) (hρ : Valid W ρ) {k : Label} (hk : SameCluster E ρ k)
    (hin : InModel W ["nodes", "techs", "datesteps"] ρ) (hst : HasStorage W ρ) {y hi cap : V}
    (hy : valueAt E "storage_inter_cluster" ρ = some y)
    (hhi : valueAt E "storage_intra_cluster_max" (set ρ "clusters" k) = some hi)
    (hcap : valueAt E "storage_cap" ρ = some cap) :
    b.at ρ = some ⟨some (y + hi), "<=", some cap⟩ := by
  obtain ⟨_, ⟨g, hg, hgk⟩, hkm⟩ := hk
  obtain ⟨h1, h2⟩ := sliceOne_at S.wf henum (by simp) hb (by simp [subRefs, subRefsRest, bin])
    (by simp [sliceRefs, sliceRefsRest, bin, sliceNames]) (by simp [sliceRefs, sliceRefsRest, bin, sliceNames])
    (by simp [Ok, OkRest, Apart, ApartRest, bin]) (by simp [Ok, Apart]) hρ (local_hasStorage hw)
  rw [h2 (h1.2 ⟨hin, (truth_hasStorage ρ).2 hst⟩)]
  have hl := labelOf_lookup (s := "cluster") hg ρ
  rw [hgk] at hl
  have e1 : withSlice E "cluster" (.lookup "lookup_datestep_cluster" []) (bin (.comp "storage_inter_cluster") .plus
      (.sliced "storage_intra_cluster_max" [("clusters", .ref "cluster")])) ρ = some (y + hi) := by
    show val E _ _ _ = _
    rw [val_bin, val_comp, val_sliced hl hkm, hy, hhi, S.numbers.plus]
  have e2 : withSlice E "cluster" (.lookup "lookup_datestep_cluster" []) (.comp "storage_cap") ρ = some cap := by
    show val E _ _ _ = _
    rw [val_comp, hcap]
  rw [e1, e2]

theorem interMin_at (S : Setting W E pw)
    (hw : Within W ["nodes", "techs", "datesteps"] ["include_storage", "base_tech"]) (henum : Traverses enum)
    (hb : buildConstraint W E enum storageInterMin = .ok b) (hρ : Valid W ρ) {k : Label} (hk : SameCluster E ρ k)
    (hin : InModel W ["nodes", "techs", "datesteps"] ρ) (hst : HasStorage W ρ) {y lo loss : V}
    (hy : valueAt E "storage_inter_cluster" ρ = some y)
    (hlo : valueAt E "storage_intra_cluster_min" (set ρ "clusters" k) = some lo)
    (hloss : valueAt E "storage_loss" ρ = some loss) :
    b.at ρ = some ⟨some (y * pw (1 - loss) 24 + lo), ">=", some 0⟩ := by
  obtain ⟨_, ⟨g, hg, hgk⟩, hkm⟩ := hk
  obtain ⟨h1, h2⟩ := sliceOne_at S.wf henum (by simp) hb (by simp [subRefs, subRefsRest, bin])
    (by simp [sliceRefs, sliceRefsRest, bin, sliceNames]) (by simp [sliceRefs, sliceRefsRest, bin, sliceNames])
    (by simp [Ok, OkRest, Apart, ApartRest, bin]) (by simp [Ok, Apart]) hρ (local_hasStorage hw)
  rw [h2 (h1.2 ⟨hin, (truth_hasStorage ρ).2 hst⟩)]
  have hl := labelOf_lookup (s := "cluster") hg ρ
  rw [hgk] at hl
  have e1 : withSlice E "cluster" (.lookup "lookup_datestep_cluster" [])
      (bin (bin (.comp "storage_inter_cluster") .times
          (bin (bin (.num 1) .minus (.comp "storage_loss")) .pow (.num 24))) .plus
        (.sliced "storage_intra_cluster_min" [("clusters", .ref "cluster")])) ρ =
      some (y * pw (1 - loss) 24 + lo) := by
    show val E _ _ _ = _
    rw [val_bin, val_bin, val_bin, val_bin, val_comp, val_comp, val_sliced hl hkm, val_num, val_num, hy, hlo, hloss,
      S.numbers.minus, S.numbers.pow, S.numbers.times, S.numbers.plus]
  have e2 : withSlice E "cluster" (.lookup "lookup_datestep_cluster" []) (.num 0) ρ = some 0 := by
    show val E _ _ _ = _
    rw [val_num]
  rw [e1, e2]

theorem inter_local (hw : Within W ["nodes", "techs", "datesteps"] ["include_storage", "base_tech", "cyclic_storage"]) :
    LocalDef W (balanceStorageInter (V := V)) := by
  have h1 := hw "include_storage" (by simp)
  have h2 := hw "base_tech" (by simp)
  have h3 := hw "cyclic_storage" (by simp)
  apply localDef_leaves
  intro l hl
  have : l ∈ [Leaf.cmp (.input "include_storage") .eq (.bool true), .cmp (.input "base_tech") .eq (.str "storage"),
    .cmp (.input "cyclic_storage") .eq (.bool true), .cmp (.dim "datesteps") .eq (.valAt "datesteps" 0),
    .bool true] := by
    revert hl
    simp only [balanceStorageInter, allLeaves, leaves, leavesRest, withStorage, both, either, no, isTrue,
      isText, firstDate, always, List.flatMap_cons, List.flatMap_nil, List.append_nil, List.cons_append,
      List.nil_append, List.mem_cons, List.not_mem_nil, or_false]
    tauto
  simp only [List.mem_cons, List.not_mem_nil, or_false] at this
  rcases this with rfl | rfl | rfl | rfl | rfl
  · exact h1
  · exact h2
  · exact h3
  · show "datesteps" ∈ ["nodes", "techs", "datesteps"]
    simp
  · trivial

/-- The balance between days, but for the first day of storage that is not cyclic. -/
theorem inter_next (S : Setting W E pw) (hd : "datesteps" ∈ W.dims)
    (hw : Within W ["nodes", "techs", "datesteps"] ["include_storage", "base_tech", "cyclic_storage"])
    (henum : Traverses enum) (hb : buildConstraint W E enum balanceStorageInter = .ok b) (hρ : Valid W ρ)
    (hin : InModel W ["nodes", "techs", "datesteps"] ρ) (hst : HasStorage W ρ)
    (hnot : ¬ (FirstOf W "datesteps" ρ ∧ ¬ Flag W "cyclic_storage" ρ))
    {g : Arr (Option Label)} {l : Label} (hg : E.lookup "lookup_datestep_last_cluster_timestep" = some g)
    (hgl : g.at (back E "datesteps" ρ) = some l) (hl : l ∈ E.coords "timesteps") {y y' x loss : V}
    (hy : valueAt E "storage_inter_cluster" ρ = some y)
    (hy' : valueAt E "storage_inter_cluster" (back E "datesteps" ρ) = some y')
    (hx : valueAt E "storage" (set ρ "timesteps" l) = some x) (hloss : valueAt E "storage_loss" ρ = some loss) :
    b.at ρ = some ⟨some y, "==", some (pw (1 - loss) 24 * y' + x)⟩ := by
  obtain ⟨_, h2⟩ := constraint_reads S.wf henum (by simp [balanceStorageInter]) (by rfl) hb (inter_local hw) hρ
  have hlab := labelOf_rolled (s := "final_step") (d := "datesteps") (k := 1) hg ρ
  rw [show g.at (set ρ "datesteps" (rolled (E.coords "datesteps") 1 (ρ "datesteps"))) = some l from hgl] at hlab
  rw [h2 (.comp "storage_inter_cluster") "==" (bin (.sub "storage_previous_step") .plus (.sub "storage_intra"))
    [("storage_previous_step", bin (bin (bin (.num 1) .minus (.comp "storage_loss")) .pow (.num 24)) .times
            (.roll (.comp "storage_inter_cluster") [("datesteps", 1)])),
      ("storage_intra", .sliced "storage" [("timesteps", .ref "final_step")])]
    [("final_step", .lookup "lookup_datestep_last_cluster_timestep" [("datesteps", 1)])] hin
    ((truth_hasStorage ρ).2 hst)]
  · rw [readAs_val, readAs_val]
    simp only [inline_bin, Expr.inline]
    simp only [lookup_hit, lookup_miss, Option.getD_some, ne_eq, String.reduceEq, not_false_eq_true]
    simp only [val_bin, val_comp, val_num, val_roll]
    rw [val_sliced hlab hl, hy, show valueAt E "storage_inter_cluster" (set ρ "datesteps" _) = _ from hy', hx, hloss,
      S.numbers.minus, S.numbers.pow, S.numbers.times, S.numbers.plus]
  · refine ⟨⟨always, by simp [balanceStorageInter], by simp⟩, ⟨by simp, ?_, ?_⟩, ⟨by simp, ?_, ?_⟩⟩
    · simp [findSubs, subRefs, subRefsRest, bin]
    · intro p hp
      simp only [List.mem_cons, List.not_mem_nil, or_false] at hp
      rcases hp with rfl | rfl
      · refine ⟨_, either (both firstDate (isTrue "cyclic_storage")) (no firstDate), rfl, by simp, ?_⟩
        simp only [truth_either, truth_both, truth_no, truth_isTrue, firstDate, truth_firstOf hd]
        tauto
      · refine ⟨_, no (both firstDate (no (isTrue "cyclic_storage"))), rfl, by simp, ?_⟩
        simp only [truth_both, truth_no, truth_isTrue, firstDate, truth_firstOf hd]
        exact hnot
    · simp [bodySlices, sliceRefs, sliceRefsRest, bin, sliceNames]
    · simp [balanceStorageInter, List.lookup_cons]
  all_goals simp only [inline_bin, Expr.inline, lookup_hit, lookup_miss, Option.getD_some, ne_eq, String.reduceEq,
    not_false_eq_true]
  all_goals simp [bin, Ok, OkRest, Apart, ApartRest]

/-- The balance between days on the first day of storage that is not cyclic. -/
theorem inter_first (S : Setting W E pw) (hd : "datesteps" ∈ W.dims)
    (hw : Within W ["nodes", "techs", "datesteps"] ["include_storage", "base_tech", "cyclic_storage"])
    (henum : Traverses enum) (hb : buildConstraint W E enum balanceStorageInter = .ok b) (hρ : Valid W ρ)
    (hin : InModel W ["nodes", "techs", "datesteps"] ρ) (hst : HasStorage W ρ)
    (h1 : FirstOf W "datesteps" ρ) (hcy : ¬ Flag W "cyclic_storage" ρ) {y i : V}
    (hy : valueAt E "storage_inter_cluster" ρ = some y) (hi : valueAt E "storage_initial" ρ = some i) :
    b.at ρ = some ⟨some y, "==", some (i + 0)⟩ := by
  obtain ⟨_, h2⟩ := constraint_reads S.wf henum (by simp [balanceStorageInter]) (by rfl) hb (inter_local hw) hρ
  rw [h2 (.comp "storage_inter_cluster") "==" (bin (.sub "storage_previous_step") .plus (.sub "storage_intra"))
    [("storage_previous_step", .comp "storage_initial"), ("storage_intra", .num 0)] [] hin
    ((truth_hasStorage ρ).2 hst)]
  · rw [readAs_val, readAs_val]
    simp only [inline_bin, Expr.inline]
    simp only [lookup_hit, lookup_miss, Option.getD_some, ne_eq, String.reduceEq, not_false_eq_true]
    simp only [val_bin, val_comp, val_num]
    rw [hy, hi, S.numbers.plus]
  · refine ⟨⟨always, by simp [balanceStorageInter], by simp⟩, ⟨by simp, ?_, ?_⟩, ⟨by simp, ?_, ?_⟩⟩
    · simp [findSubs, subRefs, subRefsRest, bin]
    · intro p hp
      simp only [List.mem_cons, List.not_mem_nil, or_false] at hp
      rcases hp with rfl | rfl
      all_goals
        refine ⟨_, both firstDate (no (isTrue "cyclic_storage")), rfl, by simp, ?_⟩
        simp only [truth_both, truth_no, truth_isTrue, firstDate, truth_firstOf hd]
        exact ⟨h1, hcy⟩
    · simp [bodySlices, sliceRefs, sliceRefsRest, bin]
    · simp
  all_goals simp only [inline_bin, Expr.inline, lookup_hit, lookup_miss, Option.getD_some, ne_eq, String.reduceEq,
    not_false_eq_true]
  all_goals simp [bin, Ok, OkRest, Apart, ApartRest]

theorem intra_local (hw : Within W ["nodes", "techs", "timesteps"]
      ["include_storage", "base_tech", "cyclic_storage", "lookup_cluster_last_timestep"]) :
    LocalDef W (balanceStorageIntra (V := V)) := by
  have h1 := hw "include_storage" (by simp)
  have h2 := hw "base_tech" (by simp)
  have h3 := hw "cyclic_storage" (by simp)
  have h4 := hw "lookup_cluster_last_timestep" (by simp)
  apply localDef_leaves
  intro l hl
  have : l ∈ [Leaf.cmp (.input "include_storage") .eq (.bool true), .cmp (.input "base_tech") .eq (.str "storage"),
    .cmp (.input "base_tech") .eq (.str "supply"), .cmp (.input "base_tech") .eq (.str "demand"),
    .cmp (.input "cyclic_storage") .eq (.bool true), .cmp (.dim "timesteps") .eq (.valAt "timesteps" 0),
    .input "lookup_cluster_last_timestep", .bool true] := by
    revert hl
    simp only [balanceStorageIntra, storagePreviousStepIntra, allLeaves, leaves, leavesRest, both, either, no, isTrue,
      isText, firstStep, given, always, List.flatMap_cons, List.flatMap_nil, List.append_nil, List.cons_append,
      List.nil_append, List.mem_cons, List.not_mem_nil, or_false]
    tauto
  simp only [List.mem_cons, List.not_mem_nil, or_false] at this
  rcases this with rfl | rfl | rfl | rfl | rfl | rfl | rfl | rfl
  · exact h1
  · exact h2
  · exact h2
  · exact h2
  · exact h3
  · show "timesteps" ∈ ["nodes", "techs", "timesteps"]
    simp
  · exact h4
  · trivial

/-- The level that the storage balance within a day takes a time step to start with. -/
def BeforeIntra (W : Where.Env) (pw : V → V → V) (D : StorageData E) (ρ : Point) (v : V) : Prop :=
  (First W ρ ∧ ¬ Flag W "cyclic_storage" ρ ∧ v = D.init ρ * D.cap ρ) ∨
  (¬ (First W ρ ∧ ¬ Flag W "cyclic_storage" ρ) ∧ ¬ GivenAt W "lookup_cluster_last_timestep" ρ ∧
    v = pw (1 - D.loss ρ) (D.hours (previous W ρ)) * D.level (previous W ρ)) ∨
  (¬ (First W ρ ∧ ¬ Flag W "cyclic_storage" ρ) ∧ GivenAt W "lookup_cluster_last_timestep" ρ ∧ v = 0)

/-- The storage balance within a day. -/
theorem intra_rule (S : Setting W E pw) (D : StorageData E)
    (hw : Within W ["nodes", "techs", "timesteps"]
      ["include_storage", "base_tech", "cyclic_storage", "lookup_cluster_last_timestep"])
    (henum : Traverses enum) (hb : buildConstraint W E enum balanceStorageIntra = .ok b) (hρ : Valid W ρ)
    (hin : InModel W ["nodes", "techs", "timesteps"] ρ) (hst : Stores W ρ) {v : V} (hv : BeforeIntra W pw D ρ v) :
    b.at ρ = some ⟨some (D.level ρ), "==", some (v + D.net ρ)⟩ := by
  have hd := S.time
  obtain ⟨_, h2⟩ := constraint_reads S.wf henum (by simp [balanceStorageIntra]) (by rfl) hb (intra_local hw) hρ
  have hc : E.coords "carriers" ≠ [] := by
    rw [S.coords]
    exact List.ne_nil_of_mem (hρ "carriers")
  have htop : Truth W ρ (balanceStorageIntra (V := V)).top := by
    simp only [balanceStorageIntra, truth_both, truth_either, truth_no, truth_isTrue, truth_isText]
    exact hst
  have key : ∀ w x, (w, x) ∈ (storagePreviousStepIntra (V := V)) → Truth W ρ w → sliceRefs x = [] →
      val E (fun n => List.lookup n []) x ρ = some v → Ok x → Apart ["nodes", "techs", "timesteps"] x →
      b.at ρ = some ⟨some (D.level ρ), "==", some (v + D.net ρ)⟩ := by
    intro w x hx ht hs hval hok hap
    have h1 := mean_sum_one (slices := fun n => List.lookup n []) S.wf D.isOut (by simp) hc ρ
    have h3 := mean_sum_one (slices := fun n => List.lookup n []) S.wf D.isInn (by simp) hc ρ
    rw [h2 (.comp "storage") "==" (bin3 (.sub "storage_previous_step") .minus
        (.sum (.comp "flow_out_inc_eff") ["carriers"]) .plus (.sum (.comp "flow_in_inc_eff") ["carriers"])) [("storage_previous_step", x)] [] hin htop]
    · rw [readAs_val, readAs_val]
      simp only [inline_bin3, Expr.inline]
      simp only [lookup_hit, Option.getD_some]
      simp only [val_bin3, val_comp, D.isLevel.at, hval]
      rw [show val E _ (.sum (.comp "flow_out_inc_eff") ["carriers"]) ρ = _ from h1,
        show val E _ (.sum (.comp "flow_in_inc_eff") ["carriers"]) ρ = _ from h3, S.numbers.minus, S.numbers.plus]
      congr 3
      unfold StorageData.net
      ring
    · refine ⟨⟨always, by simp [balanceStorageIntra], by simp⟩, ⟨by simp, ?_, ?_⟩, ⟨by simp, ?_, ?_⟩⟩
      · simp [findSubs, subRefs, subRefsRest, bin3]
      · intro p hp
        simp only [List.mem_cons, List.not_mem_nil, or_false] at hp
        subst hp
        exact ⟨_, w, rfl, hx, ht⟩
      · simp [bodySlices, sliceRefs, sliceRefsRest, bin3, hs]
      · simp
    all_goals simp only [inline_bin3, Expr.inline, lookup_hit, Option.getD_some]
    · simp [Ok]
    · simp [Apart]
    · simp [bin3, Ok, OkRest, hok]
    · simp only [bin3, Apart, ApartRest]
      exact ⟨hap, by simp [NoOps], by simp [NoOps]⟩
  have hprev : ∀ n f, Is E n [] f → val E (fun n => List.lookup n []) (.roll (.comp n) [("timesteps", 1)]) ρ =
      some (f (previous W ρ)) := by
    intro n f h
    rw [val_roll, val_comp, h.at, S.coords]
    rfl
  rcases hv with ⟨k1, k2, rfl⟩ | ⟨k1, k2, rfl⟩ | ⟨k1, k2, rfl⟩
  · refine key _ _ (List.mem_cons_self ..) ?_ (by simp [sliceRefs, sliceRefsRest, bin]) ?_
      (by simp [Ok, OkRest, bin]) (by simp [Apart, ApartRest, bin])
    · simp only [truth_both, truth_no, truth_isTrue, truth_first hd]
      exact ⟨k1, k2⟩
    · rw [val_bin, val_comp, val_comp, D.isInit.at, D.isCap.at, S.numbers.times]
  · refine key _ _ (List.mem_cons_of_mem _ (List.mem_cons_self ..)) ?_ (by simp [sliceRefs, sliceRefsRest, bin]) ?_
      (by simp [Ok, OkRest, bin]) (by simp [Apart, ApartRest, bin])
    · simp only [truth_both, truth_no, truth_either, truth_isTrue, truth_first hd, truth_given]
      have : ¬ Where.Given (W.input "lookup_cluster_last_timestep").kind
        ((W.input "lookup_cluster_last_timestep").arr.at ρ) := k2
      tauto
    · rw [val_bin, val_bin, val_bin, val_num, val_comp, hprev _ _ D.isHours, hprev _ _ D.isLevel, D.isLoss.at,
        S.numbers.minus, S.numbers.pow, S.numbers.times]
  · refine key _ _ (List.mem_cons_of_mem _ (List.mem_cons_of_mem _ (List.mem_cons_self ..))) ?_
      (by simp [sliceRefs]) ?_ (by simp [Ok]) (by simp [Apart])
    · simp only [truth_both, truth_no, truth_isTrue, truth_first hd, truth_given]
      exact ⟨k2, k1⟩
    · rw [val_num]

/-- What the final day of cyclic storage with an initial level is to leave. -/
theorem initial_rule (S : Setting W E pw)
    (hw : Within W ["nodes", "techs"] ["storage_initial", "cyclic_storage"])
    (hwr : ResultWithin W ["nodes", "techs"] "storage")
    (henum : Traverses enum) (hb : buildConstraint W E enum setStorageInitialInter = .ok b) (hρ : Valid W ρ)
    (hin : InModel W ["nodes", "techs"] ρ) (hex : Exists W "storage" ρ) (hgi : GivenAt W "storage_initial" ρ)
    (hcy : Flag W "cyclic_storage" ρ) {d : Label} (hlast : (E.coords "datesteps").getLast? = some d) {y loss i cap : V}
    (hy : valueAt E "storage_inter_cluster" (set ρ "datesteps" d) = some y)
    (hloss : valueAt E "storage_loss" ρ = some loss) (hi : valueAt E "storage_initial" ρ = some i)
    (hcap : valueAt E "storage_cap" ρ = some cap) :
    b.at ρ = some ⟨some (y * pw (1 - loss) 24), "==", some (i * cap)⟩ := by
  have h1 := hw "storage_initial" (by simp)
  have h3 := hw "cyclic_storage" (by simp)
  have hloc : LocalDef W (setStorageInitialInter (V := V)) := by
    apply localDef_leaves
    intro l hl
    have : l ∈ [Leaf.result "storage", .input "storage_initial", .cmp (.input "cyclic_storage") .eq (.bool true),
        .bool true] := by
      revert hl
      simp only [setStorageInitialInter, allLeaves, leaves, leavesRest, isTrue, given, built, always,
        List.flatMap_cons, List.flatMap_nil, List.append_nil, List.cons_append, List.nil_append, List.mem_cons,
        List.not_mem_nil, or_false]
      tauto
    simp only [List.mem_cons, List.not_mem_nil, or_false] at this
    rcases this with rfl | rfl | rfl | rfl
    · exact hwr
    · exact h1
    · exact h3
    · trivial
  obtain ⟨_, h2⟩ := constraint_reads S.wf henum (by simp [setStorageInitialInter]) (by rfl) hb hloc hρ
  have hlab : Expr.labelOf E (fun n => List.lookup n [("final_step", SliceDef.valAt "datesteps" (-1))]) ρ
      (.ref "final_step") = some d := by
    simp only [Expr.labelOf, List.lookup_cons, beq_self_eq_true]
    rw [if_pos (by decide)]
    rw [← hlast, List.getLast?_eq_head?_reverse, List.head?_eq_getElem?]
    rfl
  have htop : Truth W ρ (setStorageInitialInter (V := V)).top := by
    simp only [setStorageInitialInter, Truth, RestTruth, connect, truth_isTrue, truth_built, truth_given]
    exact ⟨⟨hex, hgi⟩, hcy⟩
  have hdm : d ∈ E.coords "datesteps" := List.mem_of_getLast? hlast
  rw [h2 (bin (.sliced "storage_inter_cluster" [("datesteps", .ref "final_step")]) .times
        (bin (bin (.num 1) .minus (.comp "storage_loss")) .pow (.num 24))) "=="
      (bin (.comp "storage_initial") .times (.comp "storage_cap")) []
    [("final_step", .valAt "datesteps" (-1))] hin htop]
  · rw [readAs_val, readAs_val]
    simp only [inline_bin, Expr.inline]
    simp only [val_bin, val_comp, val_num]
    rw [val_sliced hlab hdm, hy, hloss, hi, hcap, S.numbers.minus, S.numbers.pow, S.numbers.times, S.numbers.times]
  · refine ⟨⟨always, by simp [setStorageInitialInter], by simp⟩, ⟨by simp, ?_, ?_⟩, ⟨by simp, ?_, ?_⟩⟩
    · simp [findSubs, subRefs, subRefsRest, bin]
    · simp
    · simp [bodySlices, sliceRefs, sliceRefsRest, bin, sliceNames]
    · simp [setStorageInitialInter, List.lookup_cons]
  all_goals simp only [inline_bin, Expr.inline]
  · simp [bin, Ok, OkRest]
  · simp [bin, Apart, ApartRest]
  · simp [bin, Ok, OkRest]
  · simp [bin, Apart, ApartRest]
end

end BaseMath
end Calliope
