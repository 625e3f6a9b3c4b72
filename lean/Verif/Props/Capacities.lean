import Verif.Spec.Capacities
import Verif.Props.Supply
import Verif.Props.BaseCost
import Verif.Props.Costs

/-!
# C89: rules on capacities
-/

namespace Calliope
namespace BaseMath

open Grid Infix Expr Expand Build Where

variable {V : Type}

section
variable [Field V] {W : Where.Env} {E : Expr.Env V} {enum : List String → List String}
  {b : Arr (Option (Cell V))} {ρ : Point} [LE V] {name : String} {sets : List String} {top : Cond} {l r : Ex V} {x y : V}

/-- A constraint of one equation holds exactly if its comparison does where it is built. -/
theorem single_iff_le (hE : WellFormed E) (henum : Traverses enum) (hn : sets.Nodup)
    (hb : buildConstraint W E enum (single name sets top (.cmp l "<=" r)) = .ok b) (hρ : Valid W ρ)
    (hu : findSubs (.cmp l "<=" r) = [] ∧ bodySlices (.cmp l "<=" r) = []) (hl : Ok l ∧ Apart sets l)
    (hr : Ok r ∧ Apart sets r) (hx : plain E l ρ = some x) (hy : plain E r ρ = some y) :
    Satisfied b ρ ↔ (Present W sets top ρ → x ≤ y) := by
  obtain ⟨h1, h2⟩ := single_cmp hE henum hn hb hρ hu hl hr
  by_cases hp : Present W sets top ρ
  · have := h2 hp
    rw [hx, hy] at this
    rw [satisfied_iff_le this]
    exact ⟨fun h _ => h, fun h => h hp⟩
  · have : b.at ρ = none := by
      by_contra hne
      exact hp (h1.1 hne)
    exact ⟨fun _ h => absurd h hp, fun _ => satisfied_none this⟩

theorem single_iff_ge (hE : WellFormed E) (henum : Traverses enum) (hn : sets.Nodup)
    (hb : buildConstraint W E enum (single name sets top (.cmp l ">=" r)) = .ok b) (hρ : Valid W ρ)
    (hu : findSubs (.cmp l ">=" r) = [] ∧ bodySlices (.cmp l ">=" r) = []) (hl : Ok l ∧ Apart sets l)
    (hr : Ok r ∧ Apart sets r) (hx : plain E l ρ = some x) (hy : plain E r ρ = some y) :
    Satisfied b ρ ↔ (Present W sets top ρ → y ≤ x) := by
  obtain ⟨h1, h2⟩ := single_cmp hE henum hn hb hρ hu hl hr
  by_cases hp : Present W sets top ρ
  · have := h2 hp
    rw [hx, hy] at this
    rw [satisfied_iff_ge this]
    exact ⟨fun h _ => h, fun h => h hp⟩
  · have : b.at ρ = none := by
      by_contra hne
      exact hp (h1.1 hne)
    exact ⟨fun _ h => absurd h hp, fun _ => satisfied_none this⟩

theorem single_iff_eq (hE : WellFormed E) (henum : Traverses enum) (hn : sets.Nodup)
    (hb : buildConstraint W E enum (single name sets top (.cmp l "==" r)) = .ok b) (hρ : Valid W ρ)
    (hu : findSubs (.cmp l "==" r) = [] ∧ bodySlices (.cmp l "==" r) = []) (hl : Ok l ∧ Apart sets l)
    (hr : Ok r ∧ Apart sets r) (hx : plain E l ρ = some x) (hy : plain E r ρ = some y) :
    Satisfied b ρ ↔ (Present W sets top ρ → x = y) := by
  obtain ⟨h1, h2⟩ := single_cmp hE henum hn hb hρ hu hl hr
  by_cases hp : Present W sets top ρ
  · have := h2 hp
    rw [hx, hy] at this
    rw [satisfied_iff_eq this]
    exact ⟨fun h _ => h, fun h => h hp⟩
  · have : b.at ρ = none := by
      by_contra hne
      exact hp (h1.1 hne)
    exact ⟨fun _ h => absurd h hp, fun _ => satisfied_none this⟩

end

section
variable [Field V] [LinearOrder V] [IsStrictOrderedRing V] {W : Where.Env} {E : Expr.Env V} {pw : V → V → V}
  {enum : List String → List String} {b : Arr (Option (Cell V))} {ρ : Point}

omit [IsStrictOrderedRing V] in
theorem Rules.decisionArea (R : Rules W E) : Decision W E "area_use" ["nodes", "techs"] R.area :=
  R.isArea.elim (fun h => h.decision) (fun h => h.decision)

section
variable (S : Setting W E pw) (henum : Traverses enum) (P : Plant W E) (R : Rules W E)
include S henum R

omit S henum R [IsStrictOrderedRing V] in
theorem valueCap (P : Plant W E) (ρ : Point) : plain E (.comp "flow_cap") ρ = some (P.cap ρ) := by
  rw [plain_val, val_comp]
  exact P.decisionCap.is.at ρ

omit S henum R [IsStrictOrderedRing V] in
theorem valueArea (R : Rules W E) (ρ : Point) : plain E (.comp "area_use") ρ = some (R.area ρ) := by
  rw [plain_val, val_comp]
  exact R.decisionArea.is.at ρ

omit S henum R [Field V] [LinearOrder V] [IsStrictOrderedRing V] in
theorem present_pair {sets : List String} {s t : Cond} (hs : Local W sets s) (ht : Local W sets t) :
    Present W sets (both s t) ρ ↔ InModel W sets ρ ∧ Truth W ρ s ∧ Truth W ρ t := by
  have : Local W sets (both s t) := ⟨hs, ht⟩
  rw [present_local this, truth_both]

/-- C89, storage: the flow capacity is at least the given share of the storage capacity. -/
theorem C89_share_least (hb : buildConstraint W E enum flowCapacityPerStorageCapacityMin = .ok b) (hρ : Valid W ρ) :
    Satisfied b ρ ↔ (InModel W ["nodes", "techs", "carriers"] ρ → Exists W "storage_cap" ρ →
      GivenAt W "flow_cap_per_storage_cap_min" ρ → P.storageCap ρ * R.shareMin ρ ≤ P.cap ρ) := by
  have hw : Local W ["nodes", "techs", "carriers"] (built "storage_cap") := fun a ha d hd =>
    (by decide : ∀ d ∈ ["nodes", "techs"], d ∈ ["nodes", "techs", "carriers"]) d
      (P.decisionStorageCap.within a ha d hd)
  rw [single_iff_ge S.wf henum (by simp) hb hρ (by plain_sides) (by plain_sides) (by plain_sides)
    (valueCap P ρ) (by rw [plain_val, val_bin, val_comp, val_comp, P.decisionStorageCap.is.at, R.isShareMin.at,
      S.numbers.times]), present_pair hw (t := given "flow_cap_per_storage_cap_min") (R.within _ (by simp)), truth_built', truth_given']
  exact ⟨fun h h1 h2 h3 => h ⟨h1, h2, h3⟩, fun h ⟨h1, h2, h3⟩ => h h1 h2 h3⟩

/-- C89, storage: the flow capacity is at most the given share of the storage capacity. -/
theorem C89_share_most (hb : buildConstraint W E enum flowCapacityPerStorageCapacityMax = .ok b) (hρ : Valid W ρ) :
    Satisfied b ρ ↔ (InModel W ["nodes", "techs", "carriers"] ρ → Exists W "storage_cap" ρ →
      GivenAt W "flow_cap_per_storage_cap_max" ρ → P.cap ρ ≤ P.storageCap ρ * R.shareMax ρ) := by
  have hw : Local W ["nodes", "techs", "carriers"] (built "storage_cap") := fun a ha d hd =>
    (by decide : ∀ d ∈ ["nodes", "techs"], d ∈ ["nodes", "techs", "carriers"]) d
      (P.decisionStorageCap.within a ha d hd)
  rw [single_iff_le S.wf henum (by simp) hb hρ (by plain_sides) (by plain_sides) (by plain_sides)
    (valueCap P ρ) (by rw [plain_val, val_bin, val_comp, val_comp, P.decisionStorageCap.is.at, R.isShareMax.at,
      S.numbers.times]), present_pair hw (t := given "flow_cap_per_storage_cap_max") (R.within _ (by simp)), truth_built', truth_given']
  exact ⟨fun h h1 h2 h3 => h ⟨h1, h2, h3⟩, fun h ⟨h1, h2, h3⟩ => h h1 h2 h3⟩

/-- C89, sources: where this is asked for, the capacity of the source is the flow capacity (of every carrier). -/
theorem C89_source (hb : buildConstraint W E enum sourceCapacityEqualsFlowCapacity = .ok b) (hρ : Valid W ρ) :
    Satisfied b ρ ↔ (InModel W ["nodes", "techs", "carriers"] ρ → Exists W "source_cap" ρ →
      Flag W "source_cap_equals_flow_cap" ρ → P.sourceCap ρ = P.cap ρ) := by
  have hw : Local W ["nodes", "techs", "carriers"] (built "source_cap") := fun a ha d hd =>
    (by decide : ∀ d ∈ ["nodes", "techs"], d ∈ ["nodes", "techs", "carriers"]) d
      (P.decisionSourceCap.within a ha d hd)
  rw [single_iff_eq S.wf henum (by simp) hb hρ (by plain_sides) (by plain_sides) (by plain_sides)
    (by rw [plain_val, val_comp]; exact P.decisionSourceCap.is.at ρ) (valueCap P ρ),
    present_pair hw (t := isTrue "source_cap_equals_flow_cap") (R.within _ (by simp)), truth_built', truth_isTrue]
  exact ⟨fun h h1 h2 h3 => h ⟨h1, h2, h3⟩, fun h ⟨h1, h2, h3⟩ => h h1 h2 h3⟩

/-- C89, area: the area is the flow capacity (of every carrier) times the area per capacity. -/
theorem C89_area (hb : buildConstraint W E enum areaUsePerFlowCapacity = .ok b) (hρ : Valid W ρ) :
    Satisfied b ρ ↔ (InModel W ["nodes", "techs", "carriers"] ρ → Exists W "area_use" ρ →
      GivenAt W "area_use_per_flow_cap" ρ → R.area ρ = P.cap ρ * R.perCap ρ) := by
  have hw : Local W ["nodes", "techs", "carriers"] (built "area_use") := fun a ha d hd =>
    (by decide : ∀ d ∈ ["nodes", "techs"], d ∈ ["nodes", "techs", "carriers"]) d
      (R.decisionArea.within a ha d hd)
  rw [single_iff_eq S.wf henum (by simp) hb hρ (by plain_sides) (by plain_sides) (by plain_sides)
    (valueArea R ρ) (by rw [plain_val, val_bin, val_comp, val_comp, P.decisionCap.is.at, R.isPerCap.at,
      S.numbers.times]), present_pair hw (t := given "area_use_per_flow_cap") (R.within _ (by simp)), truth_built', truth_given']
  exact ⟨fun h h1 h2 h3 => h ⟨h1, h2, h3⟩, fun h ⟨h1, h2, h3⟩ => h h1 h2 h3⟩

/-- C89, area: a technology whose largest flow capacity is zero, for some carrier, has no area. -/
theorem C89_no_area (hb : buildConstraint W E enum forceZeroAreaUse = .ok b) (hρ : Valid W ρ) :
    Satisfied b ρ ↔ (Exists W "area_use" ρ → CannotBuild W ρ → R.area ρ = 0) := by
  rw [single_iff_eq S.wf henum (by simp) hb hρ (by plain_sides) (by plain_sides) (by plain_sides)
    (valueArea R ρ) (by rw [plain_val, val_num])]
  have hex : ∀ σ, SameAlong ["nodes", "techs"] ρ σ → (Exists W "area_use" σ ↔ Exists W "area_use" ρ) := by
    intro σ hs
    constructor
    · rintro ⟨a, ha, hv⟩
      exact ⟨a, ha, by rw [← hv]; exact at_congr a fun d hd => (hs d (R.decisionArea.within a ha d hd)).symm⟩
    · rintro ⟨a, ha, hv⟩
      exact ⟨a, ha, by rw [← hv]; exact at_congr a fun d hd => hs d (R.decisionArea.within a ha d hd)⟩
  constructor
  · rintro h h1 ⟨g1, σ, g2, g3, g4, g5⟩
    exact h ⟨g1, σ, g2, g3, g4, (truth_both _ _ _).2 ⟨(truth_built' _ _).2 ((hex σ g3).2 h1),
      (truth_zero _ _).2 g5⟩⟩
  · rintro h ⟨g1, σ, g2, g3, g4, g5⟩
    rw [truth_both, truth_built', truth_zero] at g5
    exact h ((hex σ g3).1 g5.1) ⟨g1, σ, g2, g3, g4, g5.2⟩

/-- C89, area of a node: the technologies of a node together have at most the area that it has. -/
theorem C89_site (hb : buildConstraint W E enum areaUseCapacityPerLoc = .ok b) (hρ : Valid W ρ)
    (h0 : 0 ≤ R.available ρ) :
    Satisfied b ρ ↔ (GivenAt W "available_area" ρ → sumOver E "techs" R.area ρ ≤ R.available ρ) := by
  rw [single_iff_le S.wf henum (by simp) hb hρ (by plain_sides) (by plain_sides) (by plain_sides)
    (sum_comp S.coords hρ R.decisionArea.is (by simp)) (by rw [plain_val, val_comp]; exact R.isAvailable.at ρ)]
  have hg : ∀ σ, SameAlong ["nodes"] ρ σ → (GivenAt W "available_area" σ ↔ GivenAt W "available_area" ρ) := by
    intro σ hs
    unfold GivenAt
    rw [at_congr (W.input "available_area").arr fun d hd => hs d (R.areaWithin _ (by simp) d hd)]
  constructor
  · intro h h1
    by_cases hz : ∀ l ∈ E.coords "techs", R.area (set ρ "techs" l) = 0
    · rw [sumOver_zero hz]
      exact h0
    · push Not at hz
      obtain ⟨l, hl, hne⟩ := hz
      rw [S.coords] at hl
      have hv := set_valid hρ hl
      obtain ⟨⟨g1, σ, g2, g3, g4⟩, g5⟩ := R.decisionArea.only _ hv hne
      have hs : SameAlong ["nodes"] ρ σ := fun d hd => by
        rw [List.mem_singleton] at hd
        subst hd
        exact (g3 "nodes" (by simp)).trans (by simp [Expr.set])
      refine h ⟨fun d hd => g1 d (by simp only [List.mem_singleton] at hd; subst hd; simp), σ, g2, hs, g4,
        (truth_both _ _ _).2 ⟨(truth_built' _ _).2 ?_, (truth_given' _ _).2 ((hg σ hs).2 h1)⟩⟩
      obtain ⟨a, ha, hval⟩ := g5
      exact ⟨a, ha, by rw [← hval]; exact at_congr a fun d hd => g3 d (R.decisionArea.within a ha d hd)⟩
  · rintro h ⟨g1, σ, g2, g3, g4, g5⟩
    rw [truth_both, truth_built', truth_given'] at g5
    exact h ((hg σ g3).1 g5.2)

/-- C89, all nodes: the flow capacities of a technology at all nodes together are at most the largest one. -/
theorem C89_total_most (hb : buildConstraint W E enum flowCapacitySystemwideMax = .ok b) (hρ : Valid W ρ) :
    Satisfied b ρ ↔ (InModel W ["techs", "carriers"] ρ → GivenAt W "flow_cap_max_systemwide" ρ →
      sumOver E "nodes" P.cap ρ ≤ R.totalMax ρ) := by
  have hw : Local W ["techs", "carriers"] (given "flow_cap_max_systemwide") := R.totalWithin _ (by simp)
  rw [single_iff_le S.wf henum (by simp) hb hρ (by plain_sides) (by plain_sides) (by plain_sides)
    (sum_comp S.coords hρ P.decisionCap.is (by simp)) (by rw [plain_val, val_comp]; exact R.isTotalMax.at ρ),
    present_local hw, truth_given']
  exact ⟨fun h h1 h2 => h ⟨h1, h2⟩, fun h ⟨h1, h2⟩ => h h1 h2⟩

/-- C89, all nodes: they are at least the smallest one. -/
theorem C89_total_least (hb : buildConstraint W E enum flowCapacitySystemwideMin = .ok b) (hρ : Valid W ρ) :
    Satisfied b ρ ↔ (InModel W ["techs", "carriers"] ρ → GivenAt W "flow_cap_min_systemwide" ρ →
      R.totalMin ρ ≤ sumOver E "nodes" P.cap ρ) := by
  have hw : Local W ["techs", "carriers"] (given "flow_cap_min_systemwide") := R.totalWithin _ (by simp)
  rw [single_iff_ge S.wf henum (by simp) hb hρ (by plain_sides) (by plain_sides) (by plain_sides)
    (sum_comp S.coords hρ P.decisionCap.is (by simp)) (by rw [plain_val, val_comp]; exact R.isTotalMin.at ρ),
    present_local hw, truth_given']
  exact ⟨fun h h1 h2 => h ⟨h1, h2⟩, fun h ⟨h1, h2⟩ => h h1 h2⟩

/-- C89, links: the capacities of the carriers of a link together are the same at both ends. -/
theorem C89_link (hb : buildConstraint W E enum symmetricTransmission = .ok b) (hρ : Valid W ρ) {v : Label}
    (hv : v ∈ W.coords "nodes") (hk : Text W "base_tech" "transmission" ρ)
    (hk' : Text W "base_tech" "transmission" (set ρ "nodes" v)) (hin : InModel W ["nodes", "techs"] ρ)
    (hin' : InModel W ["nodes", "techs"] (set ρ "nodes" v)) (hone : R.link (set ρ "nodes" v) = R.link ρ)
    (hs : Satisfied b ρ) (hs' : Satisfied b (set ρ "nodes" v)) :
    sumOver E "carriers" P.cap ρ = sumOver E "carriers" P.cap (set ρ "nodes" v) := by
  have key : ∀ σ, Valid W σ → Text W "base_tech" "transmission" σ → InModel W ["nodes", "techs"] σ → Satisfied b σ →
      sumOver E "carriers" P.cap σ = R.link σ := by
    intro σ hσ h1 h2 h3
    have hw : Local W ["nodes", "techs"] (isText "base_tech" "transmission") := R.techWithin _ (by simp)
    exact (single_iff_eq S.wf henum (by simp) hb hσ (by plain_sides) (by plain_sides) (by plain_sides)
      (sum_comp S.coords hσ P.decisionCap.is (by simp))
      (by rw [plain_val, val_comp]; exact R.isLink.decision.is.at σ)).1 h3
      ((present_local hw).2 ⟨h2, (truth_isText _ _ _).2 h1⟩)
  rw [key ρ hρ hk hin hs, key _ (set_valid hρ hv) hk' hin' hs', hone]

/-- C89 is false of links in one part: a limit on the capacity at all nodes together counts a link at both of its ends,
so that a link of capacity `L` needs a limit of `2 L`. -/
theorem C89_link_twice (hb : buildConstraint W E enum flowCapacitySystemwideMax = .ok b) (hρ : Valid W ρ)
    (hs : Satisfied b ρ) (hin : InModel W ["techs", "carriers"] ρ) (hg : GivenAt W "flow_cap_max_systemwide" ρ)
    {u v : Label} (huv : u ≠ v) (hu : u ∈ W.coords "nodes") (hv : v ∈ W.coords "nodes")
    (hn : (W.coords "nodes").Nodup) {L : V} (h1 : P.cap (set ρ "nodes" u) = L) (h2 : P.cap (set ρ "nodes" v) = L)
    (hrest : ∀ l, l ≠ u → l ≠ v → P.cap (set ρ "nodes" l) = 0) : 2 * L ≤ R.totalMax ρ := by
  have h := (C89_total_most S henum P R hb hρ).1 hs hin hg
  rw [sumOver_pair huv (by rw [S.coords]; exact hu) (by rw [S.coords]; exact hv) (by rw [S.coords]; exact hn)
    (fun l _ h1 h2 => hrest l h1 h2), h1, h2] at h
  rwa [two_mul]

/-- C89, least outflow: the outflow of every carrier is at least the given part of what the capacity gives. -/
theorem C89_least (hb : buildConstraint W E enum flowOutMin = .ok b) (hρ : Valid W ρ) :
    Satisfied b ρ ↔ (InModel W ["nodes", "techs", "carriers", "timesteps"] ρ → GivenAt W "flow_out_min_relative" ρ →
      P.cap ρ * P.hours ρ * R.least ρ ≤ P.out ρ) := by
  have hw : Local W ["nodes", "techs", "carriers", "timesteps"] (given "flow_out_min_relative") :=
    R.leastWithin _ (by simp)
  rw [single_iff_ge S.wf henum (by simp) hb hρ (by plain_sides) (by plain_sides) (by plain_sides)
    (by rw [plain_val, val_comp]; exact P.isOut.decision.is.at ρ)
    (by rw [plain_val, val_bin3, val_comp, val_comp, val_comp, P.decisionCap.is.at, P.isHours.at, R.isLeast.at,
      S.numbers.times, S.numbers.times]), present_local hw, truth_given']
  exact ⟨fun h h1 h2 => h ⟨h1, h2⟩, fun h ⟨h1, h2⟩ => h h1 h2⟩

/-- C89 is false of carriers that a technology only takes in: if a least outflow is given for them too, as it is when it
is given for the technology as a whole, there is no capacity for them, and nothing can be taken in. -/
theorem C89_least_blocks (hb : buildConstraint W E enum flowOutMin = .ok b) {b' : Arr (Option (Cell V))}
    (hb' : buildConstraint W E enum flowInMax = .ok b') (hρ : Valid W ρ) (hs : Satisfied b ρ) (hs' : Satisfied b' ρ)
    (hin : InModel W ["nodes", "techs", "carriers", "timesteps"] ρ) (hg : GivenAt W "flow_out_min_relative" ρ)
    (hpos : 0 < R.least ρ) (hh : 0 < P.hours ρ) (hno : ¬ ItemOf W (flowOutVar (V := V)) ρ) :
    P.cap ρ = 0 ∧ P.inn ρ = 0 := by
  have h1 := (C89_least S henum P R hb hρ).1 hs hin hg
  rw [(C79_values P.isOut hρ).2 hno] at h1
  have h2 : P.cap ρ = 0 := by
    refine le_antisymm ?_ (P.capNonneg ρ hρ)
    by_contra hlt
    push Not at hlt
    exact absurd h1 (not_le.2 (mul_pos (mul_pos hlt hh) hpos))
  obtain ⟨h3, h4⟩ := C78_inflow S henum P hb' hρ hs'
  rw [h2, zero_mul] at h4
  exact ⟨h2, le_antisymm h4 h3⟩

end
end
end BaseMath
end Calliope
