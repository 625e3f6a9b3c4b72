import Mathlib.Tactic.Linarith
import Mathlib.Tactic.LinearCombination
import Mathlib.Tactic.Ring
import Verif.Proofs.InterCluster
import Verif.Props.BaseMath

/-!
# C76, C77: storage between clusters of days
-/

namespace Calliope
namespace BaseMath

open Grid Infix Expr Expand Build Where

variable {V : Type}

/-! ### C76 Limits -/

/-- C76: with the limits on storage within and between representative days, what is really stored in any time step of
any date is never below zero nor above the storage capacity.  `f` is the part of what the date started with that is
left by the end of the time step: at most all of it, at least what is left after 24 hours. -/
theorem C76_within [Field V] [LinearOrder V] [IsStrictOrderedRing V] {W : Where.Env} {E : Expr.Env V}
    {pw : V → V → V} (S : Setting W E pw)
    (hw1 : Within W ["nodes", "techs", "timesteps"] ["include_storage", "base_tech"])
    (hw2 : Within W ["nodes", "techs", "datesteps"] ["include_storage", "base_tech"])
    {enum : List String → List String} (henum : Traverses enum) {b1 b2 b3 b4 : Arr (Option (Cell V))}
    (hb1 : buildConstraint W E enum storageIntraMax = .ok b1) (hb2 : buildConstraint W E enum storageIntraMin = .ok b2)
    (hb3 : buildConstraint W E enum storageInterMax = .ok b3) (hb4 : buildConstraint W E enum storageInterMin = .ok b4)
    {ρ : Point} (hρ : Valid W ρ) {k : Label} (hk : SameCluster E ρ k)
    (hin1 : InModel W ["nodes", "techs", "timesteps"] ρ) (hin2 : InModel W ["nodes", "techs", "datesteps"] ρ)
    (hst : HasStorage W ρ)
    (hs1 : Satisfied b1 ρ) (hs2 : Satisfied b2 ρ) (hs3 : Satisfied b3 ρ) (hs4 : Satisfied b4 ρ)
    {x y hi lo cap loss f : V} (hx : valueAt E "storage" ρ = some x)
    (hy : valueAt E "storage_inter_cluster" ρ = some y)
    (hhi : valueAt E "storage_intra_cluster_max" (set ρ "clusters" k) = some hi)
    (hlo : valueAt E "storage_intra_cluster_min" (set ρ "clusters" k) = some lo)
    (hcap : valueAt E "storage_cap" ρ = some cap) (hloss : valueAt E "storage_loss" ρ = some loss)
    (h0 : 0 ≤ y) (hf1 : f ≤ 1) (hf2 : pw (1 - loss) 24 ≤ f) :
    0 ≤ y * f + x ∧ y * f + x ≤ cap := by
  have e1 := intraMax_at S hw1 henum hb1 hρ hk hin1 hst
  have e2 := intraMin_at S hw1 henum hb2 hρ hk hin1 hst
  rw [hx, hhi] at e1
  rw [hx, hlo] at e2
  have g1 := satisfied_le hs1 e1
  have g2 := satisfied_ge hs2 e2
  have g3 := satisfied_le hs3 (interMax_at S hw2 henum hb3 hρ hk hin2 hst hy hhi hcap)
  have g4 := satisfied_ge hs4 (interMin_at S hw2 henum hb4 hρ hk hin2 hst hy hlo hloss)
  have m1 : y * f ≤ y := by simpa using mul_le_mul_of_nonneg_left hf1 h0
  have m2 : y * pw (1 - loss) 24 ≤ y * f := mul_le_mul_of_nonneg_left hf2 h0
  constructor <;> linarith

/-- C76: at any hour of the day. -/
theorem C76_hours [Field V] [LinearOrder V] [IsStrictOrderedRing V] {pw : V → V → V} {loss : V}
    (hp : ∀ n : ℕ, pw (1 - loss) n = (1 - loss) ^ n) (h0 : 0 ≤ loss) (h1 : loss ≤ 1) {h : ℕ} (hh : h ≤ 24) :
    pw (1 - loss) h ≤ 1 ∧ pw (1 - loss) 24 ≤ pw (1 - loss) h := by
  have e : pw (1 - loss) 24 = (1 - loss) ^ 24 := by exact_mod_cast hp 24
  rw [e, hp]
  exact ⟨pow_le_one₀ (by linarith) (by linarith), pow_le_pow_of_le_one (by linarith) (by linarith) hh⟩

/-! ### C77 Balance along the dates -/

section
variable [Field V] [LE V] {W : Where.Env} {E : Expr.Env V} {pw : V → V → V}
  {enum : List String → List String} {b c : Arr (Option (Cell V))} {ρ σ : Point}

theorem set_self (ρ : Point) (d : String) : set ρ d (ρ d) = ρ := by
  funext x
  unfold Expr.set
  split
  · rename_i h
    rw [h]
  · rfl

theorem Stores.has (h : Stores W ρ) : HasStorage W ρ := h.1

/-- The inputs that the balances of storage between clusters depend on have no other dimensions than them. -/
def InterInputs (W : Where.Env) : Prop :=
  Within W ["nodes", "techs", "timesteps"]
    ["include_storage", "base_tech", "cyclic_storage", "lookup_cluster_last_timestep"] ∧
  Within W ["nodes", "techs", "datesteps"] ["include_storage", "base_tech", "cyclic_storage"]

/-- C77: within a date, what is really stored at the end of a time step is what is left of what was really stored at
the end of the time step before, plus the net charge. -/
theorem C77_within_day (S : Setting W E pw) (D : InterData E) (hD : Shapes D) (hw : InterInputs W)
    (henum : Traverses enum) (hb : buildConstraint W E enum balanceStorageIntra = .ok b) (hρ : Valid W ρ)
    (hsol : Satisfied b ρ) (hin : InModel W ["nodes", "techs", "timesteps"] ρ) (hst : Stores W ρ)
    (hnot : ¬ (First W ρ ∧ ¬ Flag W "cyclic_storage" ρ)) (hmid : ¬ GivenAt W "lookup_cluster_last_timestep" ρ)
    (hp : Powers pw (1 - D.loss ρ)) {elapsed : Point → V}
    (hel : elapsed ρ = elapsed (previous W ρ) + D.hours (previous W ρ)) :
    D.stored pw elapsed ρ =
      pw (1 - D.loss ρ) (D.hours (previous W ρ)) * D.stored pw elapsed (previous W ρ) + D.net ρ := by
  have h := satisfied_eq hsol (intra_rule S D.toStorageData hw.1 henum hb hρ hin hst
    (.inr (.inl ⟨hnot, hmid, rfl⟩)))
  have hi : D.inter (previous W ρ) = D.inter ρ := hD.inter ..
  have hl : D.loss (previous W ρ) = D.loss ρ := by
    have := hD.loss ρ (rolled (W.coords "timesteps") 1 (ρ "timesteps")) (ρ "datesteps")
    rw [set_self] at this
    exact this
  unfold InterData.stored
  rw [h, hi, hl, hel, hp.1]
  ring

/-- What is stored in the first time step of a date other than the first of storage that is not cyclic, in terms of
what was stored at the end of the date before. -/
theorem day_after (S : Setting W E pw) (D : InterData E) (hD : Shapes D) (hw : InterInputs W)
    (hd : "datesteps" ∈ W.dims) (henum : Traverses enum)
    (hb : buildConstraint W E enum balanceStorageIntra = .ok b)
    (hc : buildConstraint W E enum balanceStorageInter = .ok c) (hρ : Valid W ρ)
    (hsb : Satisfied b ρ) (hsc : Satisfied c ρ) (hin : InModel W ["nodes", "techs", "timesteps"] ρ)
    (hin' : InModel W ["nodes", "techs", "datesteps"] ρ) (hst : Stores W ρ)
    (hnot : ¬ (FirstOf W "datesteps" ρ ∧ ¬ Flag W "cyclic_storage" ρ)) (hσ : DayBefore E ρ σ)
    {elapsed : Point → V} (h24 : elapsed σ = 24) (hel : elapsed ρ = D.hours σ) {v : V}
    (hv : BeforeIntra W pw D.toStorageData ρ v) :
    D.stored pw elapsed ρ = pw (1 - D.loss ρ) (D.hours σ) * D.stored pw elapsed σ + D.net ρ + v := by
  obtain ⟨g, l, hg, hgl, hl, rfl⟩ := hσ
  have h1 := satisfied_eq hsb (intra_rule S D.toStorageData hw.1 henum hb hρ hin hst hv)
  have h2 := satisfied_eq hsc (inter_next S hd hw.2 henum hc hρ hin' hst.has hnot hg hgl hl (D.isInter.at _)
    (D.isInter.at _) (D.isLevel.at _) (D.isLoss.at _))
  have e1 : D.inter (set (back E "datesteps" ρ) "timesteps" l) = D.inter (back E "datesteps" ρ) := hD.inter ..
  have e2 : D.level (set (back E "datesteps" ρ) "timesteps" l) = D.level (set ρ "timesteps" l) := by
    have hcomm : set (back E "datesteps" ρ) "timesteps" l =
        set (set ρ "timesteps" l) "datesteps" (rolled (E.coords "datesteps") 1 (ρ "datesteps")) := by
      funext x
      unfold back Expr.set
      by_cases h : x = "timesteps"
      · subst h
        simp
      · simp [h]
    rw [hcomm, hD.level]
  have e3 : D.loss (set (back E "datesteps" ρ) "timesteps" l) = D.loss ρ := hD.loss ..
  unfold InterData.stored
  rw [h24, hel, e1, e2, e3, h1, h2]
  ring

/-- C77: from one date to the next (and from the last to the first, if the storage is cyclic), what is really stored at
the end of the first time step is what is left of what was really stored at the end of the date before, plus the net
charge. -/
theorem C77_next_day (S : Setting W E pw) (D : InterData E) (hD : Shapes D) (hw : InterInputs W)
    (hd : "datesteps" ∈ W.dims) (henum : Traverses enum)
    (hb : buildConstraint W E enum balanceStorageIntra = .ok b)
    (hc : buildConstraint W E enum balanceStorageInter = .ok c) (hρ : Valid W ρ)
    (hsb : Satisfied b ρ) (hsc : Satisfied c ρ) (hin : InModel W ["nodes", "techs", "timesteps"] ρ)
    (hin' : InModel W ["nodes", "techs", "datesteps"] ρ) (hst : Stores W ρ)
    (hnot : ¬ (FirstOf W "datesteps" ρ ∧ ¬ Flag W "cyclic_storage" ρ))
    (hnot' : ¬ (First W ρ ∧ ¬ Flag W "cyclic_storage" ρ)) (hstart : GivenAt W "lookup_cluster_last_timestep" ρ)
    (hσ : DayBefore E ρ σ) {elapsed : Point → V} (h24 : elapsed σ = 24) (hel : elapsed ρ = D.hours σ) :
    D.stored pw elapsed ρ = pw (1 - D.loss ρ) (D.hours σ) * D.stored pw elapsed σ + D.net ρ := by
  rw [day_after S D hD hw hd henum hb hc hρ hsb hsc hin hin' hst hnot hσ h24 hel
    (.inr (.inr ⟨hnot', hstart, rfl⟩)), add_zero]

/-- C77 fails for storage that is not cyclic: on every date but the first that the first representative day stands
for, the initial level appears once more from nothing. -/
theorem C77_initial_again (S : Setting W E pw) (D : InterData E) (hD : Shapes D) (hw : InterInputs W)
    (hd : "datesteps" ∈ W.dims) (henum : Traverses enum)
    (hb : buildConstraint W E enum balanceStorageIntra = .ok b)
    (hc : buildConstraint W E enum balanceStorageInter = .ok c) (hρ : Valid W ρ)
    (hsb : Satisfied b ρ) (hsc : Satisfied c ρ) (hin : InModel W ["nodes", "techs", "timesteps"] ρ)
    (hin' : InModel W ["nodes", "techs", "datesteps"] ρ) (hst : Stores W ρ)
    (hdate : ¬ FirstOf W "datesteps" ρ) (hstep : First W ρ) (hcy : ¬ Flag W "cyclic_storage" ρ)
    (hσ : DayBefore E ρ σ) {elapsed : Point → V} (h24 : elapsed σ = 24) (hel : elapsed ρ = D.hours σ) :
    D.stored pw elapsed ρ =
      pw (1 - D.loss ρ) (D.hours σ) * D.stored pw elapsed σ + D.net ρ + D.init ρ * D.cap ρ :=
  day_after S D hD hw hd henum hb hc hρ hsb hsc hin hin' hst (fun h => hdate h.1) hσ h24 hel
    (.inl ⟨hstep, hcy, rfl⟩)

/-- C77 fails for storage that is not cyclic: the first date starts with the initial level as a fraction, not as
energy; if the first representative day stands for it, the initial energy comes on top. -/
theorem C77_first_day (S : Setting W E pw) (D : InterData E) (hw : InterInputs W)
    (hd : "datesteps" ∈ W.dims) (henum : Traverses enum)
    (hb : buildConstraint W E enum balanceStorageIntra = .ok b)
    (hc : buildConstraint W E enum balanceStorageInter = .ok c) (hρ : Valid W ρ)
    (hsb : Satisfied b ρ) (hsc : Satisfied c ρ) (hin : InModel W ["nodes", "techs", "timesteps"] ρ)
    (hin' : InModel W ["nodes", "techs", "datesteps"] ρ) (hst : Stores W ρ)
    (hdate : FirstOf W "datesteps" ρ) (hstep : First W ρ) (hcy : ¬ Flag W "cyclic_storage" ρ) (elapsed : Point → V) :
    D.stored pw elapsed ρ =
      D.init ρ * pw (1 - D.loss ρ) (elapsed ρ) + D.init ρ * D.cap ρ + D.net ρ := by
  have h1 := satisfied_eq hsb (intra_rule S D.toStorageData hw.1 henum hb hρ hin hst (.inl ⟨hstep, hcy, rfl⟩))
  have h2 := satisfied_eq hsc (inter_first S hd hw.2 henum hc hρ hin' hst.has hdate hcy (D.isInter.at _)
    (D.isInit.at _))
  unfold InterData.stored
  rw [h1, h2]
  ring

/-- C77: with an initial level for cyclic storage, the first date does not start with this level: what the last day
stored by its end comes on top. -/
theorem C77_cyclic_initial (S : Setting W E pw) (D : InterData E) (hw : InterInputs W)
    (hwi : Within W ["nodes", "techs"] ["storage_initial", "cyclic_storage"])
    (hwr : ResultWithin W ["nodes", "techs"] "storage")
    (hd : "datesteps" ∈ W.dims) (hdn : (W.coords "datesteps").Nodup) (henum : Traverses enum)
    (hb : buildConstraint W E enum setStorageInitialInter = .ok b)
    (hc : buildConstraint W E enum balanceStorageInter = .ok c) (hρ : Valid W ρ)
    (hsb : Satisfied b ρ) (hsc : Satisfied c ρ) (hin : InModel W ["nodes", "techs"] ρ)
    (hin' : InModel W ["nodes", "techs", "datesteps"] ρ) (hst : HasStorage W ρ)
    (hex : Exists W "storage" ρ) (hgi : GivenAt W "storage_initial" ρ)
    (hdate : FirstOf W "datesteps" ρ) (hcy : Flag W "cyclic_storage" ρ)
    {g : Arr (Option Label)} {l : Label} (hg : E.lookup "lookup_datestep_last_cluster_timestep" = some g)
    (hgl : g.at (back E "datesteps" ρ) = some l) (hl : l ∈ E.coords "timesteps") :
    D.inter ρ = D.init ρ * D.cap ρ + D.level (set ρ "timesteps" l) := by
  obtain ⟨d, hlast⟩ : ∃ d, (E.coords "datesteps").getLast? = some d := by
    cases h : (E.coords "datesteps").getLast? with
    | some d => exact ⟨d, rfl⟩
    | none =>
      rw [List.getLast?_eq_none_iff] at h
      have := hρ "datesteps"
      rw [← S.coords, h] at this
      cases this
  have hback : back E "datesteps" ρ = set ρ "datesteps" d := by
    unfold back
    congr 1
    have hh : (E.coords "datesteps").head? = some (ρ "datesteps") := by
      rw [S.coords]
      exact hdate
    obtain ⟨B, hB⟩ : ∃ B, E.coords "datesteps" = ρ "datesteps" :: B := by
      cases hT : E.coords "datesteps" with
      | nil => rw [hT] at hh; cases hh
      | cons a B => rw [hT] at hh; cases hh; exact ⟨B, rfl⟩
    rw [rolled_head (S.coords ▸ hdn) hB]
    rw [hB, List.getLast?_eq_some_getLast (by simp)] at hlast
    exact Option.some.inj hlast
  have h1 := satisfied_eq hsb (initial_rule S hwi hwr henum hb hρ hin hex hgi hcy hlast (D.isInter.at _)
    (D.isLoss.at _) (D.isInit.at _) (D.isCap.at _))
  have h2 := satisfied_eq hsc (inter_next S hd hw.2 henum hc hρ hin' hst (fun h => h.2 hcy) hg hgl hl (D.isInter.at _)
    (D.isInter.at _) (D.isLevel.at _) (D.isLoss.at _))
  rw [h2, hback, mul_comm, h1]

/-- C77: in cyclic storage without losses, over all dates of the whole period, as much is charged as is discharged, if
every date is counted with the time steps of its representative day. -/
theorem C77_period (S : Setting W E pw) (D : InterData E) (hD : Shapes D) (hw : InterInputs W)
    (hd : "datesteps" ∈ W.dims) (hdn : (W.coords "datesteps").Nodup) (henum : Traverses enum)
    (hb : buildConstraint W E enum balanceStorageIntra = .ok b)
    (hc : buildConstraint W E enum balanceStorageInter = .ok c) (hρ : Valid W ρ)
    (hone : ∀ x, pw 1 x = 1) (hloss : ∀ τ, D.loss τ = 0)
    (hall : ∀ τ, Valid W τ → SameAlong ["nodes", "techs"] ρ τ → Satisfied b τ ∧ Satisfied c τ ∧
      InModel W ["nodes", "techs", "timesteps"] τ ∧ InModel W ["nodes", "techs", "datesteps"] τ ∧ Stores W τ ∧
      Flag W "cyclic_storage" τ)
    {g : Arr (Option Label)} (hg : E.lookup "lookup_datestep_last_cluster_timestep" = some g)
    (steps : Label → List Label)
    (hsteps : ∀ d ∈ W.coords "datesteps", ∃ x y B pre post, steps d = x :: B ∧ (x :: B).getLast? = some y ∧
      W.coords "timesteps" = pre ++ (x :: B) ++ post ∧ g.at (set ρ "datesteps" d) = some y ∧
      GivenAt W "lookup_cluster_last_timestep" (set ρ "timesteps" x) ∧
      ∀ t ∈ B, ¬ GivenAt W "lookup_cluster_last_timestep" (set ρ "timesteps" t)) :
    sumOver E "datesteps" (fun σ => sumSteps (steps (σ "datesteps")) D.net ρ) ρ = 0 := by
  have hdt : ("timesteps" : String) ≠ "datesteps" := by decide
  have hsame : ∀ e l, e ≠ "nodes" → e ≠ "techs" → SameAlong ["nodes", "techs"] ρ (set ρ e l) := by
    intro e l h1 h2 x hx
    simp only [List.mem_cons, List.not_mem_nil, or_false] at hx
    unfold Expr.set
    rcases hx with rfl | rfl
    · rw [if_neg (Ne.symm h1)]
    · rw [if_neg (Ne.symm h2)]
  -- within a representative day
  have hday : ∀ d ∈ W.coords "datesteps", ∃ y, g.at (set ρ "datesteps" d) = some y ∧ y ∈ W.coords "timesteps" ∧
      D.level (set ρ "timesteps" y) = sumSteps (steps d) D.net ρ := by
    intro d hdm
    obtain ⟨x, y, B, pre, post, hs, hy, hT, hgy, hx0, hB0⟩ := hsteps d hdm
    have hmem : ∀ t ∈ x :: B, t ∈ W.coords "timesteps" := by
      intro t ht
      rw [hT]
      simp only [List.mem_append]
      exact .inl (.inr ht)
    have hrule : ∀ t ∈ x :: B, ∀ v, BeforeIntra W pw D.toStorageData (set ρ "timesteps" t) v →
        D.level (set ρ "timesteps" t) = v + D.net (set ρ "timesteps" t) := by
      intro t ht v hv
      have hval := set_valid hρ (hmem t ht)
      obtain ⟨q1, _, q3, _, q5, _⟩ := hall _ hval (hsame "timesteps" t (by decide) (by decide))
      exact satisfied_eq q1 (intra_rule S D.toStorageData hw.1 henum hb hval q3 q5 hv)
    have hcyc : ∀ t ∈ x :: B, ¬ (First W (set ρ "timesteps" t) ∧ ¬ Flag W "cyclic_storage" (set ρ "timesteps" t)) :=
      fun t ht h => h.2 (hall _ (set_valid hρ (hmem t ht)) (hsame "timesteps" t (by decide) (by decide))).2.2.2.2.2
    have hfirst : D.level (set ρ "timesteps" x) = 0 + D.net (set ρ "timesteps" x) :=
      hrule x (List.mem_cons_self ..) 0 (.inr (.inr ⟨hcyc x (List.mem_cons_self ..), hx0, rfl⟩))
    have hchain : List.IsChain (fun s t => D.level (set ρ "timesteps" t) =
        D.level (set ρ "timesteps" s) + D.net (set ρ "timesteps" t)) (x :: B) := by
      have h := rolled_chain S.steps hT
      rw [List.isChain_iff_getElem] at h ⊢
      intro i hi
      have hr := h i hi
      have htB : (x :: B)[i + 1] ∈ B := by
        rw [List.getElem_cons_succ]
        exact List.getElem_mem _
      have := hrule _ (List.mem_cons_of_mem _ htB) _ (.inr (.inl ⟨hcyc _ (List.mem_cons_of_mem _ htB), hB0 _ htB, rfl⟩))
      rw [this, hloss, sub_zero, hone, one_mul]
      unfold previous
      rw [set_set, set_at, hr]
    have hsum := chain_sum (fun t => D.level (set ρ "timesteps" t)) (fun t => D.net (set ρ "timesteps" t))
      (fun t => D.level (set ρ "timesteps" t)) x B 0 hfirst hchain
    rw [List.getLast?_eq_some_getLast (by simp)] at hy
    have hy' := Option.some.inj hy
    rw [hy'] at hsum
    refine ⟨y, hgy, hmem y (hy' ▸ List.getLast_mem _), ?_⟩
    rw [hs]
    unfold sumSteps
    linear_combination hsum
  -- from day to day
  obtain ⟨x, B, hT⟩ : ∃ x B, W.coords "datesteps" = x :: B := by
    cases h : W.coords "datesteps" with
    | nil =>
      have := hρ "datesteps"
      rw [h] at this
      cases this
    | cons x B => exact ⟨x, B, rfl⟩
  have hnext : ∀ d ∈ x :: B, D.inter (set ρ "datesteps" d) =
      D.inter (set ρ "datesteps" (rolled (W.coords "datesteps") 1 d)) +
        sumSteps (steps (rolled (W.coords "datesteps") 1 d)) D.net ρ := by
    intro d hdm
    rw [← hT] at hdm
    have hval := set_valid hρ hdm
    obtain ⟨_, q2, _, q4, q5, q6⟩ := hall _ hval (hsame "datesteps" d (by decide) (by decide))
    have hback : back E "datesteps" (set ρ "datesteps" d) =
        set ρ "datesteps" (rolled (W.coords "datesteps") 1 d) := by
      unfold back
      rw [set_set, set_at, S.coords]
    have hrm : rolled (W.coords "datesteps") 1 d ∈ W.coords "datesteps" := by
      obtain ⟨i, hi, rfl⟩ := List.getElem_of_mem hdm
      rw [rolled_getElem _ hdn 1 i hi]
      exact List.getElem_mem _
    obtain ⟨y, hgy, hym, hlev⟩ := hday _ hrm
    have h := satisfied_eq q2 (inter_next S hd hw.2 henum hc hval q4 q5.has (fun h => h.2 q6) hg
      (by rw [hback]; exact hgy) (S.coords ▸ hym) (D.isInter.at _) (D.isInter.at _) (D.isLevel.at _) (D.isLoss.at _))
    rw [h, hloss, sub_zero, hone, one_mul, hback, ← hlev]
    congr 1
    have hcomm : set (set ρ "datesteps" d) "timesteps" y = set (set ρ "timesteps" y) "datesteps" d := by
      funext z
      unfold Expr.set
      by_cases h : z = "timesteps"
      · subst h
        simp
      · simp [h]
    rw [hcomm, hD.level]
  have hchain : List.IsChain (fun s t => D.inter (set ρ "datesteps" t) =
      (D.inter (set ρ "datesteps" s) + sumSteps (steps s) D.net ρ) + (fun _ => (0 : V)) t) (x :: B) := by
    have h := rolled_chain (T := W.coords "datesteps") (pre := []) (B := x :: B) (post := []) hdn (by simp [hT])
    rw [List.isChain_iff_getElem] at h ⊢
    intro i hi
    have hr := h i hi
    have := hnext (x :: B)[i + 1] (List.getElem_mem _)
    rw [hr] at this
    rw [this, add_zero]
  have hhead := hnext x (List.mem_cons_self ..)
  rw [rolled_head hdn hT] at hhead
  have hsum := chain_sum (fun d => D.inter (set ρ "datesteps" d)) (fun _ => (0 : V))
    (fun d => D.inter (set ρ "datesteps" d) + sumSteps (steps d) D.net ρ) x B _ (hhead.trans (add_zero _).symm) hchain
  have hadd : ∀ l : List Label, (l.map (fun d => D.inter (set ρ "datesteps" d) + sumSteps (steps d) D.net ρ)).sum =
      (l.map (fun d => D.inter (set ρ "datesteps" d))).sum + (l.map (fun d => sumSteps (steps d) D.net ρ)).sum := by
    intro l
    induction l with
    | nil => simp
    | cons a l ih =>
      simp only [List.map_cons, List.sum_cons, ih]
      ring
  have hzero : ∀ l : List Label, (l.map (fun _ => (0 : V))).sum = 0 := by
    intro l
    induction l with
    | nil => simp
    | cons a l ih => simp [ih]
  rw [hadd, hzero] at hsum
  unfold sumOver
  rw [S.coords, hT]
  simp only [set_at]
  linear_combination -hsum

end

end BaseMath
end Calliope
