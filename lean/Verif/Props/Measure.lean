import Verif.Proofs.MeasureBuild
import Verif.Props.Linear

/-!
# C118: units
-/

namespace Calliope
namespace Units

open Grid Expr Build BaseMath Assemble Infix MathText
open Linear (Plain Feasible Satisfied Within IsObjective SamePlace mem_index index_of_length)

section General

variable {V : Type} [Field V] [LinearOrder V] [IsStrictOrderedRing V] {k : Change V} {U : System} {s s' : State V}
  {g g' : Given V} {M : Math V} {P P' : Problem V}

omit [IsStrictOrderedRing V] in
theorem Change.Positive.nonzero (hk : k.Positive) : Nonzero k := ⟨hk.energy.ne', hk.cost.ne', hk.area.ne'⟩

theorem factor_pos (hk : k.Positive) (m : Measure) : 0 < k.factor m :=
  mul_pos (mul_pos (zpow_pos hk.energy _) (zpow_pos hk.cost _)) (zpow_pos hk.area _)

omit [IsStrictOrderedRing V] in
/-- C118: if the units of math are consistent, then the problem can also be built from the same inputs in other units.  It
has the same items, both sides of each are in the other units, and so are objectives. -/
theorem C118_rescaled (hk : k.Positive) (hM : Consistent U M) (hU : Applies U g s) (hE : Plain s.E)
    (hs : Rescaled k U s s') (hg : Regiven k U g g') (h : assemble g M s = .ok P) : ∃ P', assemble g' M s' = .ok P' ∧
      P'.constraints.length = P.constraints.length ∧ P'.objectives.length = P.objectives.length ∧
      (∀ (i : Nat) a b, P.constraints[i]? = some a → P'.constraints[i]? = some b →
        b.dims = a.dims ∧ ∀ x, ScaledCell k (a.val x) (b.val x)) ∧
      (∀ (i : Nat) c a b, M.objectives[i]? = some c → P.objectives[i]? = some a → P'.objectives[i]? = some b →
        b.dims = a.dims ∧ ∀ x, Scaled (k.factor (objectiveUnit U c)) (a.val x) (b.val x)) := by
  rcases (assemble_rel hk.nonzero hM hU hE hs hg).cases with ⟨e, e1, _⟩ | ⟨a, b, e1, e2, h1, h2⟩
  · rw [e1] at h
    cases h
  · rw [e1] at h
    cases h
    refine ⟨b, e2, h1.2.1.trans h1.1.symm, h2.2.1.trans h2.1.symm, ?_, h2.2.2⟩
    intro i x y hx hy
    obtain ⟨c, hc⟩ := index_of_length h1.1.symm hx
    exact h1.2.2 i c x y hc hx hy

omit [IsStrictOrderedRing V] in
/-- C118: a problem that cannot be built cannot be built in other units, for the same reason. -/
theorem C118_fails (hk : k.Positive) (hM : Consistent U M) (hU : Applies U g s) (hE : Plain s.E)
    (hs : Rescaled k U s s') (hg : Regiven k U g g') (e : Err) :
    assemble g M s = .error e ↔ assemble g' M s' = .error e := by
  rcases (assemble_rel hk.nonzero hM hU hE hs hg).cases with ⟨e', e1, e2⟩ | ⟨a, b, e1, e2, _⟩
  · rw [e1, e2]
  · rw [e1, e2]
    constructor <;> intro h <;> cases h

theorem satisfied_scaled (hk : k.Positive) {a b : Option (Cell V)} (h : ScaledCell k a b) {x y : Cell V} (ha : a = some x)
    (hb : b = some y) : Satisfied x ↔ Satisfied y := by
  cases h with
  | missing => cases ha
  | present o m l r =>
    cases ha
    cases hb
    have hf := factor_pos hk m
    cases l with
    | missing => simp [Linear.Satisfied]
    | present p => cases r with
      | missing => simp [Linear.Satisfied]
      | present q =>
        simp [Linear.Satisfied, mul_le_mul_iff_right₀ hf, mul_right_inj' hf.ne']

theorem within_scaled {f : V} (hf : 0 < f) {a b : Option (Limits V)} (h : ScaledLimits f a b) {l l' : Limits V}
    (ha : a = some l) (hb : b = some l') (x : V) : Within x l ↔ Within (f * x) l' := by
  cases h with
  | missing => cases ha
  | present p q =>
    cases ha
    cases hb
    cases p with
    | missing => cases q with
      | missing => simp [Linear.Within]
      | present b => simp [Linear.Within, mul_le_mul_iff_right₀ hf]
    | present a => cases q with
      | missing => simp [Linear.Within, mul_le_mul_iff_right₀ hf]
      | present b => simp [Linear.Within, mul_le_mul_iff_right₀ hf]

/-- Bounds hold in both units, or in none. -/
theorem bounds_iff (hk : k.Positive) (hM : Consistent U M) (hU : Applies U g s) (hE : Plain s.E) (hs : Rescaled k U s s')
    (hg : Regiven k U g g') :
    (∀ before v after r, M.vars = before ++ v :: after → addAll (addVariable g) s before = .ok r →
      ∀ b, buildVariable r.W r.E v = .ok b → ∀ c ∈ cells s.W.coords b.dims, ∀ l, b.val c = some l →
        Within (g.x v.name c) l ∧ (v.integer = true → ∃ z : Int, g.x v.name c = z)) ↔
    (∀ before v after r, M.vars = before ++ v :: after → addAll (addVariable g') s' before = .ok r →
      ∀ b, buildVariable r.W r.E v = .ok b → ∀ c ∈ cells s'.W.coords b.dims, ∀ l, b.val c = some l →
        Within (g'.x v.name c) l ∧ (v.integer = true → ∃ z : Int, g'.x v.name c = z)) := by
  have hz : ∀ n ∈ U.zero, g.default n = none ∨ g.default n = some 0 := fun n hn => (hU.zero n hn).2
  have main : ∀ before v after, M.vars = before ++ v :: after →
      (∃ e, addAll (addVariable g) s before = .error e ∧ addAll (addVariable g') s' before = .error e) ∨
      ∃ r r', addAll (addVariable g) s before = .ok r ∧ addAll (addVariable g') s' before = .ok r' ∧
        ((∃ e, buildVariable r.W r.E v = .error e ∧ buildVariable r'.W r'.E v = .error e) ∨
        ∃ b b', buildVariable r.W r.E v = .ok b ∧ buildVariable r'.W r'.E v = .ok b' ∧
          Items (ScaledLimits (k.factor (U.of v.name))) b b' ∧
          ((∀ c, b.val c = none) ∨ (v.integer = true → U.of v.name = .one))) := by
    intro before v after hv
    have hmem : ∀ w ∈ before, w ∈ M.vars := fun w hw => hv ▸ List.mem_append_left _ hw
    have hvm : v ∈ M.vars := hv ▸ List.mem_append_right _ List.mem_cons_self
    rcases (addAll_rel (add := addVariable g) (add' := addVariable g') before (states_start hU hE hs)
      fun w hw _ _ h => addVariable_rel h hg hz (hM.vars w (hmem w hw))).cases with h | ⟨r, r', e1, e2, hr⟩
    · exact .inl h
    · refine .inr ⟨r, r', e1, e2, ?_⟩
      have hok := hM.vars v hvm
      simp only [variableOk, Bool.and_eq_true] at hok
      obtain ⟨hp, hok⟩ := hok
      split at hok
      · rcases buildVariable_zero hr hp hok with h | ⟨e1, e2⟩
        · exact .inl h
        · exact .inr ⟨_, _, e1, e2, ⟨rfl, fun _ => .missing⟩, .inl fun _ => rfl⟩
      · simp only [Bool.and_eq_true, Bool.or_eq_true, Bool.not_eq_true', decide_eq_true_eq] at hok
        rcases (buildVariable_rel hr hp hok.1.1 hok.1.2).cases with h | ⟨b, b', e1, e2, hb⟩
        · exact .inl h
        · exact .inr ⟨b, b', e1, e2, hb, .inr fun hi => hok.2.resolve_left (by simp [hi])⟩
  have item : ∀ {v : Variable V} {b b' : Arr (Option (Limits V))}, Items (ScaledLimits (k.factor (U.of v.name))) b b' →
      ((∀ c, b.val c = none) ∨ (v.integer = true → U.of v.name = .one)) → ∀ c l l', b.val c = some l →
      b'.val c = some l' → ((Within (g.x v.name c) l ∧ (v.integer = true → ∃ z : Int, g.x v.name c = z)) ↔
        (Within (g'.x v.name c) l' ∧ (v.integer = true → ∃ z : Int, g'.x v.name c = z))) := by
    intro v b b' hb hi c l l' hl hl'
    rw [hg.x, within_scaled (factor_pos hk (U.of v.name)) (hb.2 c) hl hl' (g.x v.name c)]
    rcases hi with hi | hi
    · rw [hi c] at hl
      cases hl
    · refine and_congr_right fun _ => imp_congr_right fun h => ?_
      rw [hi h, factor_one, one_mul]
  have some_iff : ∀ {f : V} {a b : Option (Limits V)}, ScaledLimits f a b → ((∃ l, a = some l) ↔ ∃ l, b = some l) := by
    intro f a b h
    cases h <;> simp
  constructor
  · intro H before v after r hv hr b hb c hc l hl
    rcases main before v after hv with ⟨e, _, e2⟩ | ⟨q, q', e1, e2, h⟩
    · rw [e2] at hr
      cases hr
    · rw [e2] at hr
      cases hr
      rcases h with ⟨e, _, e4⟩ | ⟨d, d', e3, e4, hi, hint⟩
      · rw [e4] at hb
        cases hb
      · rw [e4] at hb
        cases hb
        obtain ⟨l0, hl0⟩ := (some_iff (hi.2 c)).2 ⟨l, hl⟩
        exact (item hi hint c l0 l hl0 hl).1 (H before v after q hv e1 d e3 c (by rwa [← hi.1, ← hs.coords]) l0 hl0)
  · intro H before v after r hv hr b hb c hc l hl
    rcases main before v after hv with ⟨e, e1, _⟩ | ⟨q, q', e1, e2, h⟩
    · rw [e1] at hr
      cases hr
    · rw [e1] at hr
      cases hr
      rcases h with ⟨e, e3, _⟩ | ⟨d, d', e3, e4, hi, hint⟩
      · rw [e3] at hb
        cases hb
      · rw [e3] at hb
        cases hb
        obtain ⟨l0, hl0⟩ := (some_iff (hi.2 c)).1 ⟨l, hl⟩
        exact (item hi hint c l l0 hl hl0).2 (H before v after q' hv e2 d' e4 c (by rwa [hi.1, hs.coords]) l0 hl0)

/-- C118: decisions are a plan exactly if they are one in other units. -/
theorem C118_plans (hk : k.Positive) (hM : Consistent U M) (hU : Applies U g s) (hE : Plain s.E) (hs : Rescaled k U s s')
    (hg : Regiven k U g g') : (∃ P, Feasible g M s P) ↔ ∃ P', Feasible g' M s' P' := by
  rcases (assemble_rel hk.nonzero hM hU hE hs hg).cases with ⟨e, e1, e2⟩ | ⟨P, P', e1, e2, h1, _⟩
  · constructor
    · rintro ⟨P, h⟩
      have := h.builds
      rw [e1] at this
      cases this
    · rintro ⟨P, h⟩
      have := h.builds
      rw [e2] at this
      cases this
  · have hlen : P'.constraints.length = P.constraints.length := h1.2.1.trans h1.1.symm
    have hcons : (∀ a ∈ P.constraints, ∀ c ∈ cells s.W.coords a.dims, ∀ q, a.val c = some q → Satisfied q) ↔
        (∀ a ∈ P'.constraints, ∀ c ∈ cells s'.W.coords a.dims, ∀ q, a.val c = some q → Satisfied q) := by
      have some_iff : ∀ {a b : Option (Cell V)}, ScaledCell k a b → ((∃ l, a = some l) ↔ ∃ l, b = some l) := by
        intro a b h
        cases h <;> simp
      constructor
      · intro H b hb c hc q hq
        obtain ⟨i, hi⟩ := mem_index hb
        obtain ⟨a, ha⟩ := index_of_length hlen.symm hi
        obtain ⟨m, hm⟩ := index_of_length h1.1.symm ha
        have hr := h1.2.2 i m a b hm ha hi
        obtain ⟨p, hp⟩ := (some_iff (hr.2 c)).2 ⟨q, hq⟩
        exact (satisfied_scaled hk (hr.2 c) hp hq).1
          (H a (List.mem_of_getElem? ha) c (by rwa [← hr.1, ← hs.coords]) p hp)
      · intro H a hb c hc q hq
        obtain ⟨i, ha⟩ := mem_index hb
        obtain ⟨b, hi⟩ := index_of_length hlen ha
        obtain ⟨m, hm⟩ := index_of_length h1.1.symm ha
        have hr := h1.2.2 i m a b hm ha hi
        obtain ⟨p, hp⟩ := (some_iff (hr.2 c)).1 ⟨q, hq⟩
        exact (satisfied_scaled hk (hr.2 c) hq hp).2
          (H b (List.mem_of_getElem? hi) c (by rwa [hr.1, hs.coords]) p hp)
    have hb := bounds_iff hk hM hU hE hs hg
    constructor
    · rintro ⟨Q, h⟩
      have := h.builds
      rw [e1] at this
      cases this
      exact ⟨P', e2, hcons.1 h.constraints, hb.1 h.bounds⟩
    · rintro ⟨Q, h⟩
      have := h.builds
      rw [e2] at this
      cases this
      exact ⟨P, e1, hcons.2 h.constraints, hb.2 h.bounds⟩

omit [LinearOrder V] [IsStrictOrderedRing V] in
/-- Every choice of decisions in the other units is one in these. -/
theorem regiven_back (hk : Nonzero k) (hg : Regiven k U g g') {h' : Given V} (hh : SamePlace g' h') :
    ∃ h, Regiven k U h h' ∧ SamePlace g h := by
  refine ⟨⟨fun n c => h'.x n c / k.factor (U.of n), g.default, g.enum⟩, ⟨?_, ?_, ?_⟩, rfl, rfl⟩
  · intro n c
    exact (mul_div_cancel₀ _ (factor_ne hk _)).symm
  · intro n
    rw [hh.default, hg.default]
  · rw [hh.enum, hg.enum]

omit [LinearOrder V] [IsStrictOrderedRing V] in
theorem regiven_forth (hg : Regiven k U g g') {h : Given V} (hh : SamePlace g h) :
    ∃ h', Regiven k U h h' ∧ SamePlace g' h' := by
  refine ⟨⟨fun n c => k.factor (U.of n) * h.x n c, g'.default, g'.enum⟩, ⟨fun _ _ => rfl, ?_, ?_⟩, rfl, rfl⟩
  · intro n
    rw [hg.default, hh.default]
  · rw [hg.enum, hh.enum]

omit [LinearOrder V] [IsStrictOrderedRing V] in
theorem applies_same (hU : Applies U g s) {h : Given V} (hh : SamePlace g h) : Applies U h s :=
  ⟨fun n hn => by rw [hh.default]; exact hU.zero n hn, hU.absent, hU.off⟩

/-- C118: decisions are a plan that no other is cheaper than exactly if they are one in other units. -/
theorem C118_best (hk : k.Positive) (hM : Consistent U M) (hU : Applies U g s) (hE : Plain s.E) (hs : Rescaled k U s s')
    (hg : Regiven k U g g') (i : Nat) : Cheapest g M s i ↔ Cheapest g' M s' i := by
  /- objectives of a plan in both units -/
  have value : ∀ {h h' : Given V} {Q Q' : Problem V} {w : V}, Applies U h s → Regiven k U h h' → assemble h M s = .ok Q →
      assemble h' M s' = .ok Q' → ∃ f, 0 < f ∧ (∀ c, M.objectives[i]? = some c → f = k.factor (objectiveUnit U c)) ∧
        (IsObjective Q i w → IsObjective Q' i (f * w)) ∧
        (IsObjective Q' i w → ∃ v, w = f * v ∧ IsObjective Q i v) := by
    intro h h' Q Q' w hU' hg' e1 e2
    rcases (assemble_rel hk.nonzero hM hU' hE hs hg').cases with ⟨e, e3, _⟩ | ⟨a, b, e3, e4, _, h2⟩
    · rw [e1] at e3
      cases e3
    rw [e1] at e3
    rw [e2] at e4
    cases e3
    cases e4
    have hlen : Q'.objectives.length = Q.objectives.length := h2.2.1.trans h2.1.symm
    cases hc : M.objectives[i]? with
    | none =>
      refine ⟨1, one_pos, by simp, ?_, ?_⟩
      · rintro ⟨A, hA, _⟩
        obtain ⟨c, hc'⟩ := index_of_length h2.1.symm hA
        rw [hc] at hc'
        cases hc'
      · rintro ⟨A, hA, _⟩
        obtain ⟨c, hc'⟩ := index_of_length h2.2.1.symm hA
        rw [hc] at hc'
        cases hc'
    | some c =>
      refine ⟨k.factor (objectiveUnit U c), factor_pos hk _, by simp, ?_, ?_⟩
      · rintro ⟨A, hA, ha⟩
        obtain ⟨B, hB⟩ := index_of_length hlen hA
        have hr := (h2.2.2 i c A B hc hA hB).2 []
        rw [ha] at hr
        refine ⟨B, hB, ?_⟩
        generalize B.val [] = z at hr
        cases hr
        rfl
      · rintro ⟨B, hB, hb⟩
        obtain ⟨A, hA⟩ := index_of_length hlen.symm hB
        have hr := (h2.2.2 i c A B hc hA hB).2 []
        rw [hb] at hr
        have : ∃ v, A.val [] = some v ∧ w = k.factor (objectiveUnit U c) * v := by
          generalize A.val [] = z at hr
          cases hr
          exact ⟨_, rfl, rfl⟩
        obtain ⟨v, hv, e⟩ := this
        exact ⟨v, e, A, hA, hv⟩
  have factor_eq : ∀ {f f' : V}, (∀ c, M.objectives[i]? = some c → f = k.factor (objectiveUnit U c)) →
      (∀ c, M.objectives[i]? = some c → f' = k.factor (objectiveUnit U c)) → ∀ {h : Given V} {Q : Problem V} {w : V},
      Applies U h s → assemble h M s = .ok Q → IsObjective Q i w → f = f' := by
    intro f f' h1 h2 h Q w hU' e ⟨A, hA, _⟩
    obtain ⟨h', hh', _⟩ := regiven_forth (k := k) (U := U) (g := h) (g' := ⟨fun n c => k.factor (U.of n) * h.x n c,
      fun n => (h.default n).map (fun v => k.factor (U.of n) * v), h.enum⟩) ⟨fun _ _ => rfl, fun _ => rfl, rfl⟩
      (h := h) ⟨rfl, rfl⟩
    rcases (assemble_rel hk.nonzero hM hU' hE hs hh').cases with ⟨e', e3, _⟩ | ⟨a, b, e3, e4, _, h3⟩
    · rw [e] at e3
      cases e3
    · rw [e] at e3
      cases e3
      obtain ⟨c, hc⟩ := index_of_length h3.1.symm hA
      rw [h1 c hc, h2 c hc]
  constructor
  · rintro ⟨P, v, hP, hv, best⟩
    obtain ⟨P', hP'⟩ := (C118_plans hk hM hU hE hs hg).1 ⟨P, hP⟩
    obtain ⟨f, hf, hfe, h1, _⟩ := value (w := v) hU hg hP.builds hP'.builds
    refine ⟨P', f * v, hP', h1 hv, ?_⟩
    intro h' Q' w' hh' hQ' hw'
    obtain ⟨h, hg', hh⟩ := regiven_back hk.nonzero hg hh'
    have hU' := applies_same hU hh
    obtain ⟨Q, hQ⟩ := (C118_plans hk hM hU' hE hs hg').2 ⟨Q', hQ'⟩
    obtain ⟨f', hf', hfe', _, h2⟩ := value (w := w') hU' hg' hQ.builds hQ'.builds
    obtain ⟨w, rfl, hw⟩ := h2 hw'
    rw [factor_eq hfe hfe' hU hP.builds hv]
    exact mul_le_mul_of_nonneg_left (best h Q w hh hQ hw) hf'.le
  · rintro ⟨P', v', hP', hv', best⟩
    obtain ⟨P, hP⟩ := (C118_plans hk hM hU hE hs hg).2 ⟨P', hP'⟩
    obtain ⟨f, hf, hfe, _, h2⟩ := value (w := v') hU hg hP.builds hP'.builds
    obtain ⟨v, rfl, hv⟩ := h2 hv'
    refine ⟨P, v, hP, hv, ?_⟩
    intro h Q w hh hQ hw
    obtain ⟨h', hg', hh'⟩ := regiven_forth hg hh
    have hU' := applies_same hU hh
    obtain ⟨Q', hQ'⟩ := (C118_plans hk hM hU' hE hs hg').1 ⟨Q, hQ⟩
    obtain ⟨f', hf', hfe', h1, _⟩ := value (w := w) hU' hg' hQ.builds hQ'.builds
    have := best h' Q' _ hh' hQ' (h1 hw)
    rw [factor_eq hfe hfe' hU hP.builds hv] at this
    exact le_of_mul_le_mul_left this hf'

end General

/-! ### The shipped math -/

def isConsistent {V : Type} [DecidableEq V] [Zero V] (U : System) (M : Math V) : Bool :=
  M.vars.all (variableOk U) && M.globals.all (globalOk U) && M.constraints.all (componentOk U) &&
    M.objectives.all (objectiveOk U)

theorem isConsistent_iff {V : Type} [DecidableEq V] [Zero V] {U : System} {M : Math V} :
    isConsistent U M = true ↔ Consistent U M := by
  simp only [isConsistent, Bool.and_eq_true, List.all_eq_true]
  exact ⟨fun h => ⟨h.1.1.1, h.1.1.2, h.1.2, h.2⟩, fun h => ⟨⟨⟨h.vars, h.globals⟩, h.constraints⟩, h.objectives⟩⟩

/-- What `sink_unit` or `source_unit` says. -/
inductive Per where
  | absolute
  | area
  | cap
  deriving DecidableEq

/-- The words for this. -/
def Per.word : Per → String
  | .absolute => "absolute"
  | .area => "per_area"
  | .cap => "per_cap"

def energy : Measure := ⟨1, 0, 0⟩
def cost : Measure := ⟨0, 1, 0⟩
def area : Measure := ⟨0, 0, 1⟩

/-- The unit of what sinks and sources can use. -/
def Per.unit (energy area : Measure) : Per → Measure
  | .absolute => energy
  | .area => energy.over area
  | .cap => .one

/-- The units of decisions, expressions and inputs, from those of energy, cost and area; other arrays have none. -/
def unitTable (energy cost area sink source bigM : Measure) : List (String × Measure) :=
  (["flow_out", "flow_in", "flow_export", "source_use", "storage", "unmet_demand", "unused_supply", "flow_out_inc_eff",
    "flow_in_inc_eff", "flow_cap", "link_flow_cap", "source_cap", "storage_cap", "available_flow_cap",
    "storage_inter_cluster", "storage_intra_cluster_max", "storage_intra_cluster_min", "flow_cap_max", "flow_cap_min",
    "flow_cap_max_systemwide", "flow_cap_min_systemwide", "flow_cap_per_unit", "storage_cap_per_unit", "source_cap_max",
    "source_cap_min", "storage_cap_max", "storage_cap_min", "export_max", "export_min"].map (·, energy)) ++
  (["area_use", "area_use_max", "area_use_min", "available_area"].map (·, area)) ++
  (["sink_use_min", "sink_use_max", "sink_use_equals"].map (·, sink)) ++
  (["source_use_min", "source_use_max", "source_use_equals"].map (·, source)) ++
  (["cost_flow_cap", "cost_flow_cap_per_distance", "cost_export", "cost_om_annual", "cost_flow_in", "cost_flow_out",
    "cost_source_use", "cost_source_cap", "cost_storage_cap"].map (·, cost.over energy)) ++
  (["cost_purchase", "cost_purchase_per_distance", "cost_operation_variable", "cost_investment_flow_cap",
    "cost_investment_storage_cap", "cost_investment_source_cap", "cost_investment_area_use", "cost_investment",
    "cost_investment_annualised", "cost_operation_fixed", "cost_investment_purchase", "cost",
    "spores_baseline_cost"].map (·, cost)) ++
  [("area_use_per_flow_cap", area.over energy), ("cost_area_use", cost.over area), ("bigM", bigM)]

def look (t : List (String × Measure)) (n : String) : Measure := (t.lookup n).getD .one

/-- The other words for this. -/
def Per.others (name : String) (p : Per) : List (String × String) :=
  ([Per.absolute, .area, .cap].filter (· ≠ p)).map (fun q => (name, q.word))

/-- Units of models in which all sinks are given in one way, and all sources. -/
def units (sink source : Per) : System where
  of := look (unitTable energy cost area (sink.unit energy area) (source.unit energy area) (cost.over energy))
  zero := []
  absent := sink.others "sink_unit" ++ source.others "source_unit"
  off := []

/-- Units of models in which some sinks are given per area, and some sources: those of area are kept. -/
def unitsKeptArea : System where
  of := look (unitTable energy cost .one energy energy (cost.over energy))
  zero := []
  absent := [("sink_unit", "per_cap"), ("source_unit", "per_cap")]
  off := []

/-- Units of any models: those of energy and area are kept. -/
def unitsMoney : System where
  of := look (unitTable .one cost .one .one .one cost)
  zero := []
  absent := []
  off := []

/-- The same without `ensure_feasibility`: there is no unmet demand and no unused supply, and `bigM` is an amount of energy. -/
def firmUnits (sink source : Per) : System where
  of := look (unitTable energy cost area (sink.unit energy area) (source.unit energy area) energy)
  zero := ["unmet_demand", "unused_supply"]
  absent := sink.others "sink_unit" ++ source.others "source_unit"
  off := ["ensure_feasibility"]

/-- C118: the units of the base math are consistent: of energy, cost and area if sinks are given in one way and sources too,
of energy and cost if none are given per capacity, and of cost always. -/
theorem C118_base : ∃ M, (buildMath shipped (priority (chars! "base") [])).bind File.read = some M ∧
    (∀ sink source, Consistent (units sink source) (ofRead M)) ∧ Consistent unitsKeptArea (ofRead M) ∧
    Consistent unitsMoney (ofRead M) := by
  refine ⟨_, C103_base, ?_, ?_, ?_⟩
  · intro sink source
    rw [← isConsistent_iff]
    cases sink <;> cases source <;> decide +kernel
  · rw [← isConsistent_iff]
    decide +kernel
  · rw [← isConsistent_iff]
    decide +kernel

/-- C118: so they are in operate mode. -/
theorem C118_operate : ∃ M, (buildMath shipped (priority (chars! "operate") [])).bind File.read = some M ∧
    (∀ per, Consistent (units per per) (ofRead M)) ∧ Consistent unitsKeptArea (ofRead M) ∧
    Consistent unitsMoney (ofRead M) := by
  refine ⟨_, C103_operate, ?_, ?_, ?_⟩
  · intro per
    rw [← isConsistent_iff]
    cases per <;> decide +kernel
  · rw [← isConsistent_iff]
    decide +kernel
  · rw [← isConsistent_iff]
    decide +kernel

/-- C118: those of SPORES mode are, without `ensure_feasibility`. -/
theorem C118_spores : ∃ M, (buildMath shipped (priority (chars! "spores") [])).bind File.read = some M ∧
    ∀ per, Consistent (firmUnits per per) (ofRead M) := by
  refine ⟨_, C103_spores, ?_⟩
  intro per
  rw [← isConsistent_iff]
  cases per <;> decide +kernel

/-- C118: those of `milp` are, without `ensure_feasibility`. -/
theorem C118_milp : ∃ M, (buildMath shipped (priority (chars! "base") [chars! "milp"])).bind File.read = some M ∧
    ∀ per, Consistent (firmUnits per per) (ofRead M) := by
  refine ⟨_, C103_milp, ?_⟩
  intro per
  rw [← isConsistent_iff]
  cases per <;> decide +kernel

/-! ### Where units are not consistent -/

theorem kind_of {U : System} (h : U.zero = []) (n : String) : U.kind n = .of (U.of n) := by simp [System.kind, h]

@[local simp] theorem excluded_always (U : System) : U.excluded always = false := rfl
@[local simp] theorem excluded_both (U : System) (a b : Cond) : U.excluded (both a b) = false := rfl
@[local simp] theorem excluded_either (U : System) (a b : Cond) : U.excluded (either a b) = false := rfl
@[local simp] theorem excluded_no (U : System) (a : Cond) : U.excluded (no a) = false := rfl

@[local simp] theorem joinOf (m n : Measure) : (Kind.of m).join (.of n) = if m = n then some (.of m) else none := rfl
@[local simp] theorem joinRight (m : Kind) : m.join .zero = some m := by cases m <;> rfl
@[local simp] theorem times_one (m : Measure) : m.times .one = m ∧ Measure.one.times m = m := by
  cases m
  simp [Measure.times, Measure.one]

@[local simp] theorem plain_of (m : Measure) : (Kind.of m).plain = decide (m = .one) := rfl
@[local simp] theorem times_of (m n : Measure) : combine .times (.of m) (.of n) = some (.of (m.times n)) := rfl
@[local simp] theorem plus_of (m n : Kind) : combine .plus m n = m.join n := by cases m <;> rfl
@[local simp] theorem minus_of (m n : Kind) : combine .minus m n = m.join n := by cases m <;> rfl
@[local simp] theorem pow_of (m n : Kind) : combine .pow m n = if m.plain && n.plain then some (.of .one) else none := by cases m <;> rfl

/-- C118: with `milp` and `ensure_feasibility`, there is no system of units in which the units of energy and cost are
independent: `bigM` is what unmet demand costs, and also an amount of energy. -/
theorem C118_big_m : ∃ M, (buildMath shipped (priority (chars! "base") [chars! "milp"])).bind File.read = some M ∧
    ∀ U, U.zero = [] → U.of "async_flow_switch" = .one → U.of "timestep_weights" = .one → U.of "objective_cost_weights" = .one →
      U.of "unmet_demand" = U.of "flow_out" → Consistent U (ofRead M) →
      U.of "cost" = (U.of "flow_out").times (U.of "flow_out") := by
  refine ⟨_, C103_milp, ?_⟩
  intro U hU h1 h2 h3 h4 hM
  have ho := hM.objectives minCostOptimisation (by simp [ofRead, milpMath])
  have hc := hM.constraints asyncFlowOutMilp (by simp [ofRead, milpMath])
  simp only [objectiveOk, componentOk, Bool.and_eq_true] at ho hc
  have ho := ho.2
  have hc := hc.2
  simp [equationKinds, asyncFlowOutMilp, single, bodyKind, kind, kindRest, bin, kind_of hU, h1, joinAll] at hc
  by_cases h5 : U.of "flow_out" = U.of "unused_supply"
  · simp [equationKinds, minCostOptimisation, bodyKind, kind, kindRest, bin, kind_of hU, h2, h3, h4, h5.symm, hc.symm, joinAll, subKind] at ho
    exact ho
  · simp [equationKinds, minCostOptimisation, bodyKind, kind, kindRest, bin, kind_of hU, h2, h3, h4, h5, joinAll, subKind] at ho

theorem times_left {m n : Measure} (h : m = m.times n) : n = .one := by
  obtain ⟨a, b, c⟩ := m
  obtain ⟨a', b', c'⟩ := n
  simp only [Measure.times, Measure.mk.injEq, Measure.one] at *
  omega

/-- C118: with `storage_inter_cluster`, there is no system of units in which the storage capacity has a unit: the storage
before the first day is set to `storage_initial` in one constraint, and to that fraction of the capacity in another. -/
theorem C118_inter_cluster :
    ∃ M, (buildMath shipped (priority (chars! "base") [chars! "storage_inter_cluster"])).bind File.read = some M ∧
      ∀ U, U.zero = [] → Consistent U (ofRead M) → U.of "storage_cap" = .one := by
  refine ⟨_, C103_inter_cluster, ?_⟩
  intro U hU hM
  have ho := hM.constraints setStorageInitialInter (by simp [ofRead, interClusterMath])
  have hc := hM.constraints balanceStorageInter (by simp [ofRead, interClusterMath])
  simp only [componentOk, Bool.and_eq_true] at ho hc
  have ho := ho.2
  have hc := hc.2
  by_cases hl : U.of "storage_loss" = .one
  · simp [equationKinds, setStorageInitialInter, bodyKind, kind, kindRest, bin, kind_of hU, joinAll, hl,
      subKind] at ho
    by_cases hi : U.of "storage_initial" = U.of "storage_inter_cluster"
    · rw [hi] at ho
      exact times_left ho
    · simp [equationKinds, balanceStorageInter, bodyKind, kind, kindRest, bin, kind_of hU, joinAll, subKind,
        hl, hi] at hc
  · simp [equationKinds, balanceStorageInter, bodyKind, kind, kindRest, bin, kind_of hU, joinAll, subKind,
      Ne.symm hl] at hc

/-- C118: with `ensure_feasibility`, `bigM` has the unit of cost per energy.  Its documented unit is none. -/
theorem C118_penalty : ∃ M, (buildMath shipped (priority (chars! "base") [])).bind File.read = some M ∧
    ∀ U, U.zero = [] → U.of "timestep_weights" = .one → U.of "objective_cost_weights" = .one → Consistent U (ofRead M) →
      U.of "cost" = (U.of "unmet_demand").times (U.of "bigM") := by
  refine ⟨_, C103_base, ?_⟩
  intro U hU h2 h3 hM
  have ho := hM.objectives minCostOptimisation (by simp [ofRead, baseMath])
  simp only [objectiveOk, componentOk, Bool.and_eq_true] at ho
  have ho := ho.2
  by_cases h5 : U.of "unmet_demand" = U.of "unused_supply"
  · simp [equationKinds, minCostOptimisation, bodyKind, kind, kindRest, bin, kind_of hU, h2, h3, h5, joinAll, subKind] at ho
    rw [ho, h5]
  · simp [equationKinds, minCostOptimisation, bodyKind, kind, kindRest, bin, kind_of hU, h2, h3, h5, joinAll, subKind] at ho

/-- C118: in SPORES mode with `ensure_feasibility`, there is no system of units in which those of energy and cost differ:
unmet demand costs as much in the scores as in the costs. -/
theorem C118_spores_penalty : ∃ M, (buildMath shipped (priority (chars! "spores") [])).bind File.read = some M ∧
    ∀ U, U.zero = [] → U.of "timestep_weights" = .one → U.of "objective_cost_weights" = .one →
      U.of "spores_score" = .one → Consistent U (ofRead M) → U.of "cost" = U.of "flow_cap" := by
  refine ⟨_, C103_spores, ?_⟩
  intro U hU h2 h3 h4 hM
  have ho := hM.objectives minSpores (by simp [ofRead, sporesMath])
  have hc := hM.objectives minCostOptimisation (by simp [ofRead, sporesMath])
  simp only [objectiveOk, componentOk, Bool.and_eq_true] at ho hc
  have ho := ho.2
  have hc := hc.2
  by_cases h5 : U.of "unmet_demand" = U.of "unused_supply"
  · simp [equationKinds, minCostOptimisation, bodyKind, kind, kindRest, bin, kind_of hU, h2, h3, h5, joinAll, subKind] at hc
    simp [equationKinds, minSpores, bodyKind, kind, kindRest, bin, kind_of hU, h2, h4, h5, joinAll, subKind] at ho
    rw [hc, ho]
  · simp [equationKinds, minCostOptimisation, bodyKind, kind, kindRest, bin, kind_of hU, h2, h3, h5, joinAll, subKind] at hc

/-! ### A small problem -/

section Demo

open Linear (plan plan_holds plan_bounds plain_mini holdsB_sound)

/-- Everything is an amount of energy. -/
def demoUnits : System := ⟨fun _ => energy, [], [], []⟩

def demoChange : Change Rat := ⟨1000, 100, 1⟩

/-- The small problem of C111 in other units. -/
def smallMini : Mini where
  labels := [("techs", ["a", "b"])]
  data := [("limit", ["techs"], fun _ => 3000), ("demand", [], fun _ => 5000)]
  lookups := []
  inputs := [("limit", ⟨.number, ⟨["techs"], fun _ => .num 3000⟩, .nan⟩), ("demand", ⟨.number, scalar (.num 5000), .nan⟩)]
  results := []
  along := ["techs"]
  items := [["a"], ["b"]]

def smallState : State Rat := ⟨smallMini.W, smallMini.E⟩

theorem demo_consistent : Consistent demoUnits demoMath := isConsistent_iff.1 (by decide +kernel)

theorem demo_applies (g : Given Rat) : Applies demoUnits g (demoState 5) :=
  ⟨by simp [demoUnits], by simp [demoUnits], by simp [demoUnits]⟩

theorem demo_change : demoChange.Positive := ⟨by norm_num [demoChange], by norm_num [demoChange], by norm_num [demoChange]⟩

theorem demo_factor : demoChange.factor energy = 1000 := by norm_num [demoChange, Change.factor, energy]

theorem demo_rescaled : Rescaled demoChange demoUnits (demoState 5) smallState where
  dims := rfl
  coords := rfl
  config := rfl
  matrix := rfl
  arith := rfl
  result := rfl
  number := by
    funext n
    show smallMini.number n = (demoMini 5).number n
    simp [smallMini, demoMini, Mini.number, List.lookup]
  sums := rfl
  signs n := by
    by_cases h : n = "limit"
    · subst h
      exact ⟨rfl, rfl, fun _ => .number (by norm_num) (by norm_num), .same _⟩
    · by_cases h' : n = "demand"
      · subst h'
        exact ⟨rfl, rfl, fun _ => .number (by norm_num) (by norm_num), .same _⟩
      · have : smallState.W.input n = (demoState 5).W.input n := by
          simp [smallState, smallMini, demoState, demoMini, Mini.W, List.lookup, beq_false_of_ne h, beq_false_of_ne h']
        rw [this]
        exact ⟨rfl, rfl, fun _ => .same _, .same _⟩
  plain n h := by simp [demoUnits, energy, Measure.one] at h
  ecoords := rfl
  isDim := rfl
  period := rfl
  op := rfl
  neg := rfl
  truthy := rfl
  lookup := rfl
  carrier := rfl
  comp n := by
    by_cases h : n = "limit"
    · subst h
      refine .inr ⟨_, _, rfl, rfl, rfl, fun _ => ?_⟩
      show Scaled (demoChange.factor energy) (some 3) (some 3000)
      rw [demo_factor]
      exact scaled' (by norm_num)
    · by_cases h' : n = "demand"
      · subst h'
        refine .inr ⟨_, _, rfl, rfl, rfl, fun _ => ?_⟩
        show Scaled (demoChange.factor energy) (some 5) (some 5000)
        rw [demo_factor]
        exact scaled' (by norm_num)
      · left
        constructor <;> simp [smallState, smallMini, demoState, demoMini, Mini.E, List.lookup, beq_false_of_ne h,
          beq_false_of_ne h']

/-- An outflow of 2 of both technologies is a plan, so one of 2000 is one in other units. -/
example : ∃ P, Feasible (plan 2000) demoMath smallState P := by
  obtain ⟨P, e1, c1⟩ := holdsB_sound plan_holds.1
  refine (C118_plans (g' := plan 2000) demo_change demo_consistent (demo_applies (plan 2)) (plain_mini _) demo_rescaled
    ⟨?_, fun _ => rfl, rfl⟩).1 ⟨P, e1, c1, plan_bounds 2 (by norm_num)⟩
  intro n c
  show (2000 : Rat) = demoChange.factor energy * 2
  rw [demo_factor]
  norm_num

end Demo

end Units
end Calliope
