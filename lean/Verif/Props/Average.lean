import Lean.Elab.Tactic.Basic
import Verif.Spec.Average
import Verif.Proofs.AverageBuild
import Verif.Props.Typical

/-!
# C122: typical time steps and the best plan
-/

namespace Calliope
namespace Average

open Grid Expr Build BaseMath Assemble MathText
open Linear (Feasible IsObjective SamePlace LinearMath LinearIn Satisfied Within)
open Rename (Limited Distinct Same Good forall₂_mem forall₂_get find_name)
open Typical (Choice Single Stands NoOther Labels)

section General

variable {V : Type} [Field V] [LinearOrder V] [IsStrictOrderedRing V] {T : Choice} {w w' : Label → V} {s s' : State V}
  {g g' : Given V} {M : Math V} {P P' : Problem V} {depends : String → Bool}

omit [LinearOrder V] [IsStrictOrderedRing V] in
theorem means (hs : Stands T w w' s s') (h : Averaged T w w' s s' M g g') : Means T w w' s.W.coords s'.W.coords M g g' := by
  refine ⟨fun v hv ρ hρ ht => ?_, h.default, h.enum⟩
  by_cases hts : "timesteps" ∈ v.foreach
  · exact h.steps v hv hts ρ hρ
  · rw [h.others v hv hts ρ hρ]
    have e : ∀ l ∈ group T s.W.coords (ρ "timesteps"), w l * g.x v.name (v.foreach.map (Expr.set ρ "timesteps" l)) =
        g.x v.name (v.foreach.map ρ) * w l := by
      intro l _
      have : v.foreach.map (Expr.set ρ "timesteps" l) = v.foreach.map ρ :=
        List.map_congr_left fun d hd => set_other _ _ fun e => hts (e ▸ hd)
      rw [this, mul_comm]
    rw [List.map_congr_left e, List.sum_map_mul_left, group_weight (Typical.states_start hs).E.labels ht, mul_comm]

theorem sum_le {l : List Label} {f h : Label → V} (hle : ∀ x ∈ l, f x ≤ h x) : (l.map f).sum ≤ (l.map h).sum := by
  induction l with
  | nil => exact le_rfl
  | cons x l ih =>
    simp only [List.map_cons, List.sum_cons]
    exact add_le_add (hle x List.mem_cons_self) (ih fun y hy => hle y (List.mem_cons_of_mem _ hy))

theorem sum_pos {l : List Label} {f : Label → V} (hp : ∀ x ∈ l, 0 < f x) (hn : l ≠ []) : 0 < (l.map f).sum := by
  induction l with
  | nil => exact absurd rfl hn
  | cons x l ih =>
    simp only [List.map_cons, List.sum_cons]
    have h1 := hp x List.mem_cons_self
    by_cases hl : l = []
    · subst hl
      simpa using h1
    · exact add_pos h1 (ih (fun y hy => hp y (List.mem_cons_of_mem _ hy)) hl)

theorem group_pos (hl : Labels T w w' s.W.coords s'.W.coords) (hw : Weighty w s) {l' : Label} (h : l' ∈ s'.W.coords "timesteps") :
    group T s.W.coords l' ≠ [] ∧ (∀ l ∈ group T s.W.coords l', 0 < w l) ∧ 0 < w' l' := by
  obtain ⟨l, hm, he⟩ := (hl.steps l').1 h
  have hn : group T s.W.coords l' ≠ [] := List.ne_nil_of_mem (a := l) (by simp [group, hm, he])
  have hp : ∀ l ∈ group T s.W.coords l', 0 < w l := fun l hl => hw.positive l (mem_group hl).1
  refine ⟨hn, hp, ?_⟩
  rw [← group_weight hl h]
  exact sum_pos hp hn

/-- An item of typical steps, and a typical step. -/
theorem point (ht : t ∈ s'.W.coords "timesteps") {ds : List String} (hn : ds.Nodup) {c : List Label}
    (hc : c ∈ cells s'.W.coords ds) : ∃ ρ : Point, Good s'.W.coords ds ρ ∧ ρ "timesteps" ∈ s'.W.coords "timesteps" ∧ ds.map ρ = c := by
  refine ⟨override (fun _ => t) ds c, fun d hd => mem_of_cells hc d hd, ?_, map_override _ _ _ hn (length_of_mem_cells hc)⟩
  by_cases hm : "timesteps" ∈ ds
  · exact mem_of_cells hc _ hm
  · rw [(along_override hc).1 _ hm]
    exact ht

theorem mem_group_cells (hl : Labels T w w' s.W.coords s'.W.coords) {ds : List String} {ρ : Point} (hρ : Good s'.W.coords ds ρ) {l : Label}
    (h : l ∈ group T s.W.coords (ρ "timesteps")) : ds.map (Expr.set ρ "timesteps" l) ∈ cells s.W.coords ds :=
  mem_cells fun d hd => good_set hl hρ h d hd

theorem satisfied_mean (hl : Labels T w w' s.W.coords s'.W.coords) (hw : Weighty w s) {a a' : Arr (Option (Cell V))}
    (h : Cells T w w' s.W.coords s'.W.coords a a') (hn : a.dims.Nodup)
    (ha : ∀ c ∈ cells s.W.coords a.dims, ∀ k, a.val c = some k → Satisfied k) {c : List Label}
    (hc : c ∈ cells s'.W.coords a'.dims) {k' : Cell V} (hk : a'.val c = some k') (ht : t ∈ s'.W.coords "timesteps") : Satisfied k' := by
  rw [h.dims] at hc
  obtain ⟨ρ, hρ, htρ, rfl⟩ := point ht hn hc
  have hk' : a'.at ρ = some k' := by
    rw [Arr.at, h.dims]
    exact hk
  obtain ⟨h1, h2, h3⟩ := h.cell ρ hρ htρ k' hk'
  obtain ⟨hne, hpos, hpos'⟩ := group_pos hl hw htρ
  have each : ∀ l ∈ group T s.W.coords (ρ "timesteps"), ∃ x y, side Cell.lhs a (Expr.set ρ "timesteps" l) = x ∧
      side Cell.rhs a (Expr.set ρ "timesteps" l) = y ∧ k'.lhs.isSome = true ∧ k'.rhs.isSome = true ∧
      ((k'.op = "<=" ∧ x ≤ y) ∨ (k'.op = ">=" ∧ y ≤ x) ∨ (k'.op = "==" ∧ x = y)) := by
    intro l hg
    obtain ⟨k, hk, ho, hls, hrs⟩ := h1 l hg
    obtain ⟨x, y, hx, hy, hsat⟩ := ha _ (mem_group_cells hl hρ hg) k hk
    refine ⟨x, y, ?_, ?_, ?_, ?_, ho ▸ hsat⟩
    · simp [side, hk, hx]
    · simp [side, hk, hy]
    · rw [← hls, hx]
      rfl
    · rw [← hrs, hy]
      rfl
  obtain ⟨l0, hl0⟩ := List.exists_mem_of_ne_nil _ hne
  obtain ⟨_, _, _, _, hls, hrs, hop⟩ := each l0 hl0
  obtain ⟨x', hx'⟩ := Option.isSome_iff_exists.1 hls
  obtain ⟨y', hy'⟩ := Option.isSome_iff_exists.1 hrs
  rw [hx', Option.getD_some] at h2
  rw [hy', Option.getD_some] at h3
  refine ⟨x', y', hx', hy', ?_⟩
  have ops : ("<=" : String) ≠ ">=" ∧ ("<=" : String) ≠ "==" ∧ (">=" : String) ≠ "==" := by decide
  rcases hop with ⟨ho, _⟩ | ⟨ho, _⟩ | ⟨ho, _⟩
  · refine .inl ⟨ho, le_of_mul_le_mul_left (a := w' (ρ "timesteps")) ?_ hpos'⟩
    rw [h2, h3]
    refine sum_le fun l hg => mul_le_mul_of_nonneg_left ?_ (hpos l hg).le
    obtain ⟨x, y, e1, e2, _, _, hs⟩ := each l hg
    rw [e1, e2]
    rcases hs with ⟨_, hs⟩ | ⟨hs, _⟩ | ⟨hs, _⟩
    · exact hs
    · exact absurd (ho.symm.trans hs) ops.1
    · exact absurd (ho.symm.trans hs) ops.2.1
  · refine .inr (.inl ⟨ho, le_of_mul_le_mul_left (a := w' (ρ "timesteps")) ?_ hpos'⟩)
    rw [h2, h3]
    refine sum_le fun l hg => mul_le_mul_of_nonneg_left ?_ (hpos l hg).le
    obtain ⟨x, y, e1, e2, _, _, hs⟩ := each l hg
    rw [e1, e2]
    rcases hs with ⟨hs, _⟩ | ⟨_, hs⟩ | ⟨hs, _⟩
    · exact absurd (hs.symm.trans ho) ops.1
    · exact hs
    · exact absurd (ho.symm.trans hs) ops.2.2
  · refine .inr (.inr ⟨ho, mul_left_cancel₀ hpos'.ne' ?_⟩)
    rw [h2, h3]
    refine congrArg List.sum (List.map_congr_left fun l hg => ?_)
    obtain ⟨x, y, e1, e2, _, _, hs⟩ := each l hg
    rw [e1, e2]
    rcases hs with ⟨hs, _⟩ | ⟨hs, _⟩ | ⟨_, hs⟩
    · exact absurd (hs.symm.trans ho) ops.2.1
    · exact absurd (hs.symm.trans ho) ops.2.2
    · rw [hs]

omit [LinearOrder V] [IsStrictOrderedRing V] in
/-- The bounds of variables, of all steps and of typical steps. -/
theorem bounds_mean (hM : Single T M) (hL : LinearIn depends M) (hs : Stands T w w' s s') (hl : Limited M s)
    (hg : Means T w w' s.W.coords s'.W.coords M g g') {before after : List (Variable V)} {v : Variable V}
    (hv : M.vars = before ++ v :: after) :
    Units.Both (fun b b' => Same T.names s.W.coords b b' ∧ (b.dims = v.foreach ∨ b = scalar none))
      (match addAll (addVariable g) s before with | .ok q => buildVariable q.W q.E v | .error e => .error e)
      (match addAll (addVariable g') s' before with | .ok q => buildVariable q.W q.E v | .error e => .error e) := by
  have hmem : ∀ w ∈ before, w ∈ M.vars := fun w hw => hv ▸ List.mem_append_left _ hw
  have hvm : v ∈ M.vars := hv ▸ List.mem_append_right _ List.mem_cons_self
  rcases (Rename.addAll_same (T := fun x x' => States T w w' s.W.coords s'.W.coords depends x x' ∧ Limited M x) (add := addVariable g)
    (add' := addVariable g') before ⟨states_start hs, hl⟩
    fun u hu x x' h => addVariable_rel h.1 hg h.2 (hmem u hu) (hM.vars u (hmem u hu)) (hL.vars u (hmem u hu))).cases
    with ⟨y, e1, e2⟩ | ⟨q, q', e1, e2, hq⟩
  · simp only [e1, e2]; exact rfl
  · simp only [e1, e2]
    exact (buildVariable_rel hq.1 (fun v hv n hn => (hq.2 v hv n hn).2) hvm (hM.vars v hvm) (hL.vars v hvm).2).mono
      fun _ _ h => ⟨h.1, h.2.1⟩

theorem plan_mean (hM : Single T M) (hL : LinearIn depends M) (hI : WholeOnce M) (hs : Stands T w w' s s') (hw : Weighty w s)
    (hl : Limited M s) (hg : Averaged T w w' s s' M g g') (hP : Problems T w w' s.W.coords s'.W.coords P P')
    (e2 : assemble g' M s' = .ok P') (h : Feasible g M s P) : Feasible g' M s' P' := by
  have hlab := (Typical.states_start hs).E.labels
  obtain ⟨t, ht⟩ : ∃ t, t ∈ s'.W.coords "timesteps" := by
    obtain ⟨l, hl⟩ := List.exists_mem_of_ne_nil _ hw.some
    exact ⟨_, (hlab.steps _).2 ⟨l, hl, rfl⟩⟩
  have hm := means hs hg
  refine ⟨e2, ?_, ?_⟩
  · intro a' ha' c hc k hk
    obtain ⟨a, ha, hr⟩ := (forall₂_mem hP.constraints).2 a' ha'
    exact satisfied_mean hlab hw hr.1 hr.2 (h.constraints a ha) hc hk ht
  · intro before v after q' hv hq' b' hb' c hc l' hl'
    have hvm : v ∈ M.vars := hv ▸ List.mem_append_right _ List.mem_cons_self
    have hB := bounds_mean hM hL hs hl hm hv
    rw [hq'] at hB
    simp only [hb'] at hB
    rcases hB.cases with ⟨y, _, e⟩ | ⟨b, d, e3, e4, hb⟩
    · cases e
    cases e4
    obtain ⟨q, hq, e3⟩ : ∃ q, addAll (addVariable g) s before = .ok q ∧ buildVariable q.W q.E v = .ok b := by
      cases hq : addAll (addVariable g) s before with
      | error e => rw [hq] at e3; cases e3
      | ok q => rw [hq] at e3; exact ⟨q, rfl, e3⟩
    have hnd : b.dims.Nodup := by
      rcases hb.2 with hd | hd
      · rw [hd]
        exact Typical.variable_nodup (hM.vars v hvm)
      · rw [hd]
        exact List.nodup_nil
    rw [hb.1.1] at hc
    obtain ⟨ρ, hρ, htρ, rfl⟩ := point ht hnd hc
    obtain ⟨hne, hpos, hpos'⟩ := group_pos hlab hw htρ
    have hat : b'.at ρ = some l' := by
      rw [Arr.at, hb.1.1]
      exact hl'
    have each : ∀ l ∈ group T s.W.coords (ρ "timesteps"), Within (g.x v.name (b.dims.map (Expr.set ρ "timesteps" l))) l' ∧
        (v.integer = true → ∃ z : Int, g.x v.name (b.dims.map (Expr.set ρ "timesteps" l)) = z) := by
      intro l hl
      refine h.bounds before v after q hv hq b e3 _ (mem_group_cells hlab hρ hl) l' ?_
      rw [← hat, ← at_group hlab hb.1 hρ hl]
      rfl
    obtain ⟨l0, hl0⟩ := List.exists_mem_of_ne_nil _ hne
    have hd : b.dims = v.foreach := by
      rcases hb.2 with hd | hd
      · exact hd
      · have := at_group hlab hb.1 hρ hl0
        rw [hat, hd] at this
        cases this
    have hmean := hm.x v hvm ρ (by rwa [hd] at hρ) htρ
    rw [hd] at each ⊢
    refine ⟨⟨fun a ha => ?_, fun a ha => ?_⟩, fun hi => ?_⟩
    · refine le_of_mul_le_mul_left (a := w' (ρ "timesteps")) ?_ hpos'
      rw [hmean, ← group_weight hlab htρ, mul_comm, ← List.sum_map_mul_left]
      refine sum_le fun l hg => ?_
      rw [mul_comm]
      exact mul_le_mul_of_nonneg_left ((each l hg).1.1 a ha) (hpos l hg).le
    · refine le_of_mul_le_mul_left (a := w' (ρ "timesteps")) ?_ hpos'
      rw [hmean, ← group_weight hlab htρ, mul_comm _ a, ← List.sum_map_mul_left]
      refine sum_le fun l hg => ?_
      rw [mul_comm a]
      exact mul_le_mul_of_nonneg_left ((each l hg).1.2 a ha) (hpos l hg).le
    · have hts := hI v hvm hi
      obtain ⟨z, hz⟩ := (each l0 hl0).2 hi
      refine ⟨z, ?_⟩
      rw [hg.others v hvm hts ρ (by rwa [hd] at hρ), ← hz]
      congr 1
      refine List.map_congr_left fun d hdd => (set_other _ _ ?_).symm
      rintro rfl
      exact hts hdd

theorem objective_mean (hlab : Labels T w w' s.W.coords s'.W.coords) (hw : Weighty w s)
    (h : Problems T w w' s.W.coords s'.W.coords P P') (i : Nat) (v : V) : IsObjective P i v ↔ IsObjective P' i v := by
  have hr := forall₂_get h.objectives i
  simp only [IsObjective]
  generalize P.objectives[i]? = a at hr
  generalize P'.objectives[i]? = b at hr
  cases hr with
  | none => simp
  | @some a b hr =>
    obtain ⟨hr, hd⟩ := hr
    obtain ⟨l, hl⟩ := List.exists_mem_of_ne_nil _ hw.some
    have ht : T.of l ∈ s'.W.coords "timesteps" := (hlab.steps _).2 ⟨l, hl, rfl⟩
    obtain ⟨_, hpos, hpos'⟩ := group_pos hlab hw ht
    have hm := hr.mean (fun _ => T.of l) (by rw [hd]; intro d hd; cases hd) ht
    have va : ∀ ρ, a.at ρ = a.val [] := fun ρ => by simp [Arr.at, hd]
    have vb : ∀ ρ, b.at ρ = b.val [] := fun ρ => by simp [Arr.at, hr.dims, hd]
    have hp := hr.present.2 (fun _ => "") (by simp [Grid.map, hd])
    rw [at_map, at_map, va, vb] at hp
    simp only [factor, val, va, vb] at hm
    have : ∀ x ∈ group T s.W.coords (T.of l), w x * (a.val []).getD 0 = (a.val []).getD 0 * w x := fun x _ => mul_comm _ _
    rw [List.map_congr_left this, List.sum_map_mul_left, group_weight hlab ht, mul_comm] at hm
    have hm := mul_right_cancel₀ hpos'.ne' hm
    have : b.val [] = a.val [] := by
      cases ha : a.val [] with
      | none => rw [ha] at hp; simpa using hp
      | some x =>
        rw [ha] at hp hm
        obtain ⟨y, hy⟩ := Option.isSome_iff_exists.1 (show (b.val []).isSome = true from hp)
        rw [hy] at hm ⊢
        simpa using hm
    simp [this]

/-- C122: if the math of a model is linear and that of single steps, then the averages of a plan are a plan for the model of
typical steps, with the same value of each objective. -/
theorem C122_averages (hM : Single T M) (hL : LinearMath M) (hI : WholeOnce M) (hs : Stands T w w' s s') (hw : Weighty w s)
    (hl : Limited M s) (h0 : NoOther T g) (hg : Averaged T w w' s s' M g g') (h : Feasible g M s P) :
    ∃ P', Feasible g' M s' P' ∧ ∀ i v, IsObjective P i v ↔ IsObjective P' i v := by
  obtain ⟨depends, hL⟩ := hL
  have hlab := (Typical.states_start hs).E.labels
  rcases (assemble_mean hM hL hs hl h0 (means hs hg)).cases with ⟨e, e1, e2⟩ | ⟨Q, Q', e1, e2, hQ⟩
  · have := h.builds
    rw [e1] at this
    cases this
  · have := h.builds
    rw [e1] at this
    cases this
    exact ⟨Q', plan_mean hM hL hI hs hw hl hg hQ e2 h, objective_mean hlab hw hQ⟩

omit [IsStrictOrderedRing V] in
/-- Decisions have averages. -/
theorem average (hD : Distinct M) (hM : Single T M)
    (hp : ∀ l' ∈ s'.W.coords "timesteps", w' l' ≠ 0) (g : Given V) :
    ∃ g', Averaged T w w' s s' M g g' := by
  refine ⟨⟨fun n c => match M.vars.find? (fun u => u.name = n) with
    | some v => if "timesteps" ∈ v.foreach then
        (((s.W.coords "timesteps").filter (fun l => T.of l = override (fun _ => "") v.foreach c "timesteps")).map
          (fun l => w l * g.x n (v.foreach.map (fun d => if d = "timesteps" then l else override (fun _ => "") v.foreach c d)))).sum /
          w' (override (fun _ => "") v.foreach c "timesteps")
      else g.x n c
    | none => 0, g.default, g.enum⟩, ⟨fun v hv hts ρ hρ => ?_, fun v hv hts ρ hρ => ?_, rfl, rfl⟩⟩
  · simp only [find_name hD hv, if_pos hts]
    have hov : ∀ d ∈ v.foreach, override (fun _ => "") v.foreach (v.foreach.map ρ) d = ρ d := by
      have := map_override (fun _ => "") v.foreach (v.foreach.map ρ) (Typical.variable_nodup (hM.vars v hv)) (by simp)
      exact List.map_inj_left.1 this
    rw [hov _ hts, mul_div_cancel₀ _ (hp _ (hρ _ hts))]
    refine congrArg List.sum (List.map_congr_left fun l _ => ?_)
    congr 2
    refine List.map_congr_left fun d hd => ?_
    rw [hov d hd]
  · simp only [find_name hD hv, if_neg hts]

/-- C122: so the plans for all steps and the plans for typical steps attain the same values of each objective. -/
theorem C122_exact (hM : Single T M) (hL : LinearMath M) (hI : WholeOnce M) (hD : Distinct M) (hs : Stands T w w' s s')
    (hw : Weighty w s) (hl : Limited M s) (h0 : NoOther T g) (i : Nat) : Attained g M s i = Attained g M s' i := by
  have hlab := (Typical.states_start hs).E.labels
  ext v
  constructor
  · rintro ⟨h, P, hg, hP, hv⟩
    obtain ⟨h', ha⟩ := average hD hM (fun l' hl' => (group_pos hlab hw hl').2.2.ne') h
    obtain ⟨P', hP', ho⟩ := C122_averages hM hL hI hs hw hl (fun n hn => by rw [hg.default]; exact h0 n hn) ha hP
    exact ⟨h', P', ⟨ha.default.trans hg.default, ha.enum.trans hg.enum⟩, hP', (ho i v).1 hv⟩
  · rintro ⟨h', P', hg, hP', hv⟩
    obtain ⟨h, P, h1, _, hP, hv⟩ := Typical.C121_repeat hM hD hs hl (fun n hn => by rw [hg.default]; exact h0 n hn) hP' hv
    exact ⟨h, P, ⟨h1.default.trans hg.default, h1.enum.trans hg.enum⟩, hP, hv⟩

/-- C122: and the best plan for typical steps is as good as the best plan for all steps. -/
theorem C122_best (hM : Single T M) (hL : LinearMath M) (hI : WholeOnce M) (hD : Distinct M) (hs : Stands T w w' s s')
    (hw : Weighty w s) (hl : Limited M s) (h0 : NoOther T g) (i : Nat) (best : V) :
    (IsLeast (Attained g M s i) best ↔ IsLeast (Attained g M s' i) best) ∧
    (IsGreatest (Attained g M s i) best ↔ IsGreatest (Attained g M s' i) best) := by
  rw [C122_exact hM hL hI hD hs hw hl h0 i]
  exact ⟨Iff.rfl, Iff.rfl⟩

end General

/-! ### The shipped math -/

theorem shipped_exact {x : Option MathText.Math}
    (h1 : ∃ M, x = some M ∧ LinearMath (ofRead M) ∧ ∀ v ∈ M.vars, v.integer = false)
    (h2 : ∃ M, x = some M ∧ Distinct (ofRead M) ∧ ∀ of, Single (Typical.apart.standing of) (ofRead M)) :
    ∃ M, x = some M ∧ ∀ (of : Label → Label) (w w' : Label → Rat) (s s' : State Rat) (g : Given Rat),
      Stands (Typical.apart.standing of) w w' s s' → Weighty w s → Limited (ofRead M) s →
      NoOther (Typical.apart.standing of) g → ∀ i, Attained g (ofRead M) s i = Attained g (ofRead M) s' i := by
  obtain ⟨M, e1, hL, hI⟩ := h1
  obtain ⟨M', e2, hD, hS⟩ := h2
  rw [e1] at e2
  cases e2
  refine ⟨M, e1, fun of w w' s s' g hs hw hl h0 i => C122_exact (hS of) hL ?_ hD hs hw hl h0 i⟩
  intro v hv hi
  rw [hI v hv] at hi
  cases hi

/-- C122: with the base math, as long as nothing stores and ramping is not limited, a model of typical steps has the same
optimum. -/
theorem C122_base : ∃ M, (buildMath shipped (priority (chars! "base") [])).bind File.read = some M ∧
    ∀ (of : Label → Label) (w w' : Label → Rat) (s s' : State Rat) (g : Given Rat),
      Stands (Typical.apart.standing of) w w' s s' → Weighty w s → Limited (ofRead M) s →
      NoOther (Typical.apart.standing of) g → ∀ i, Attained g (ofRead M) s i = Attained g (ofRead M) s' i :=
  shipped_exact Linear.C117_base Typical.C121_base

theorem C122_operate : ∃ M, (buildMath shipped (priority (chars! "operate") [])).bind File.read = some M ∧
    ∀ (of : Label → Label) (w w' : Label → Rat) (s s' : State Rat) (g : Given Rat),
      Stands (Typical.apart.standing of) w w' s s' → Weighty w s → Limited (ofRead M) s →
      NoOther (Typical.apart.standing of) g → ∀ i, Attained g (ofRead M) s i = Attained g (ofRead M) s' i :=
  shipped_exact Linear.C117_operate Typical.C121_operate

theorem C122_spores : ∃ M, (buildMath shipped (priority (chars! "spores") [])).bind File.read = some M ∧
    ∀ (of : Label → Label) (w w' : Label → Rat) (s s' : State Rat) (g : Given Rat),
      Stands (Typical.apart.standing of) w w' s s' → Weighty w s → Limited (ofRead M) s →
      NoOther (Typical.apart.standing of) g → ∀ i, Attained g (ofRead M) s i = Attained g (ofRead M) s' i :=
  shipped_exact Linear.C117_spores Typical.C121_spores

/-- C122: the integer decisions for steps of the `milp` math are these; it is not math to which the above applies. -/
theorem C122_milp : ∃ M, (buildMath shipped (priority (chars! "base") [chars! "milp"])).bind File.read = some M ∧
    ((ofRead M).vars.filter (fun v => v.integer && v.foreach.contains "timesteps")).map (·.name) =
      ["operating_units", "async_flow_switch"] ∧ ¬WholeOnce (ofRead M) := by
  refine ⟨_, C103_milp, by decide +kernel, fun h => ?_⟩
  have : ¬∀ v ∈ (ofRead MathText.milpMath).vars, v.integer = true → "timesteps" ∉ v.foreach := by decide +kernel
  exact this h

/-! ### A small problem -/

section Demo

open Linear (holdsB holdsB_sound objectiveB objectiveB_sound)
open Typical (allSteps fewSteps dayMath dayPlan dayChoice day_single day_stands day_limited one two coupling_sound)

theorem day_weighty : Weighty one allSteps := ⟨by decide +kernel, fun _ _ => by norm_num [one]⟩

theorem day_once : WholeOnce dayMath := by
  intro v hv hi
  simp only [dayMath, List.mem_singleton] at hv
  subst hv
  cases hi

/-- Morning and evening, or a morning that counts twice: the same costs. -/
example (i : Nat) : Attained dayPlan dayMath allSteps i = Attained dayPlan dayMath fewSteps i :=
  C122_exact day_single (Linear.isLinear_sound (by decide +kernel)) day_once (by decide +kernel) day_stands day_weighty day_limited
    (fun _ _ => .inl rfl) i

/-- Units that are made by day, at least two for the two of them; `integer`: of whole units only. -/
def units (integer : Bool) : Math Rat where
  vars := [⟨"out", ["timesteps"], .atom (.bool true), integer, .num 0, .unbounded⟩]
  globals := [BaseMath.single "cost_operation_variable" ["timesteps"] (.atom (.bool true))
    (.arith (.chain (.comp "timestep_weights") (.more .times (.comp "out")
      (.one .times (.chain (.num 5) (.one .minus (.comp "demand")))))))]
  constraints := [BaseMath.single "least" [] (.atom (.bool true))
    (.cmp (.sum (.comp "cost_operation_variable") ["timesteps"]) ">=" (.num 2))]
  objectives := dayMath.objectives

/-- One unit in the evening. -/
def evening : Given Rat := ⟨fun _ c => if c = ["evening"] then 1 else 0, fun _ => none, List.dedup⟩

theorem units_holds : holdsB allSteps.W.coords (assemble evening (units true) allSteps) = true ∧
    objectiveB (assemble evening (units true) allSteps) 0 = some 2 ∧
    holdsB allSteps.W.coords (assemble evening (units false) allSteps) = true ∧
    objectiveB (assemble evening (units false) allSteps) 0 = some 2 := by decide +kernel

theorem units_vars {i : Bool} {before after : List (Variable Rat)} {v : Variable Rat} (hv : (units i).vars = before ++ v :: after) :
    before = [] ∧ v = ⟨"out", ["timesteps"], .atom (.bool true), i, .num 0, .unbounded⟩ := by
  cases before with
  | nil =>
    simp only [units, List.nil_append, List.cons.injEq] at hv
    exact ⟨rfl, hv.1.symm⟩
  | cons w before => simp [units] at hv

theorem units_bounds (i : Bool) : ∀ before v after s', (units i).vars = before ++ v :: after →
    addAll (addVariable evening) allSteps before = .ok s' →
    ∀ b, buildVariable s'.W s'.E v = .ok b → ∀ c ∈ cells allSteps.W.coords b.dims, ∀ l, b.val c = some l →
      Within (evening.x v.name c) l ∧ (v.integer = true → ∃ z : Int, evening.x v.name c = z) := by
  intro before v after s' hv hs b hb c hc l hl
  obtain ⟨rfl, rfl⟩ := units_vars hv
  simp only [addAll, Except.ok.injEq] at hs
  subst hs
  have hx : ∃ z : Int, evening.x "out" c = z ∧ 0 ≤ z := by
    simp only [evening]
    split
    · exact ⟨1, by norm_num, by norm_num⟩
    · exact ⟨0, by norm_num, by norm_num⟩
  obtain ⟨z, hz, hz0⟩ := hx
  refine ⟨?_, fun _ => ⟨z, hz⟩⟩
  simp only [buildVariable] at hb
  split at hb
  · cases hb
  · split at hb
    · simp only [boundArr, Except.ok.injEq] at hb
      subst hb
      simp only [zip, scalar] at hl
      rename_i m _ _
      rcases Bool.eq_false_or_eq_true (m.val (pick (joinDims m.dims (joinDims [] [])) c m.dims)) with hm | hm
      · simp only [hm, if_true, Option.some.injEq] at hl
        subst hl
        refine ⟨fun a ha => ?_, fun a ha => by cases ha⟩
        cases ha
        rw [hz]
        exact_mod_cast hz0
      · simp only [hm, Bool.false_eq_true, if_false] at hl
        cases hl
    · simp only [Except.ok.injEq] at hb
      subst hb
      cases hl

theorem units_all (i : Bool) : 2 ∈ Attained dayPlan (units i) allSteps 0 := by
  obtain ⟨h1, h2, h3, h4⟩ := units_holds
  cases i with
  | true =>
    obtain ⟨P, e1, c1⟩ := holdsB_sound h1
    rw [e1] at h2
    exact ⟨evening, P, ⟨rfl, rfl⟩, ⟨e1, c1, units_bounds true⟩, objectiveB_sound h2⟩
  | false =>
    obtain ⟨P, e1, c1⟩ := holdsB_sound h3
    rw [e1] at h4
    exact ⟨evening, P, ⟨rfl, rfl⟩, ⟨e1, c1, units_bounds false⟩, objectiveB_sound h4⟩

/-- One unit in the evening, or half a unit in a morning that counts twice. -/
example : 2 ∈ Attained dayPlan (units false) fewSteps 0 := by
  rw [← C122_exact (g := dayPlan) (T := dayChoice) (M := units false) (coupling_sound (by decide +kernel) _)
    (Linear.isLinear_sound (by decide +kernel)) (fun v hv hi => by
      simp only [units, List.mem_singleton] at hv
      subst hv
      cases hi) (by decide +kernel) day_stands day_weighty (fun v hv n hn => by
      simp only [units, List.mem_singleton] at hv
      subst hv
      simp [BoundNames] at hn) (fun _ _ => .inl rfl) 0]
  exact units_all false

/-- An equation that the kernel finds by computing. -/
elab "kernel_rfl" : tactic => do
  let g ← Lean.Elab.Tactic.getMainGoal
  let some (_, l, _) := (← Lean.instantiateMVars (← g.getType)).eq? | throwError "not an equation"
  g.assign (← Lean.Meta.mkEqRefl l)

theorem units_few (x : String → List Label → Rat) :
    objectiveB (assemble ⟨x, fun _ => none, List.dedup⟩ (units true) fewSteps) 0 =
      some (two "morning" * x "out" ["morning"] * (5 - 3) + (two "night" * x "out" ["night"] * (5 - 5) + 0)) := by
  kernel_rfl

theorem units_item : (match buildVariable fewSteps.W fewSteps.E
    ⟨"out", ["timesteps"], .atom (.bool true), true, .num 0, .unbounded⟩ with
    | .ok b => decide (b.dims = ["timesteps"]) && (b.val ["morning"]).isSome
    | .error _ => false) = true := by decide +kernel

/-- C122: whole units per step are another matter: one unit in the evening costs 2, but no whole number of units in a morning
that counts twice does. -/
theorem C122_integers : 2 ∈ Attained dayPlan (units true) allSteps 0 ∧ 2 ∉ Attained dayPlan (units true) fewSteps 0 ∧
    LinearMath (units true) ∧ Single dayChoice (units true) ∧ ¬WholeOnce (units true) := by
  refine ⟨units_all true, ?_, Linear.isLinear_sound (by decide +kernel), coupling_sound (by decide +kernel) _, fun h => ?_⟩
  · rintro ⟨⟨x, de, en⟩, P, ⟨hd, he⟩, hP, hv⟩
    simp only [dayPlan] at hd he
    subst hd he
    have hc := units_few x
    rw [hP.builds] at hc
    obtain ⟨a, ha, hav⟩ := hv
    simp only [objectiveB, ha, Option.bind_some] at hc
    rw [hav] at hc
    have hi := units_item
    cases hb : buildVariable fewSteps.W fewSteps.E ⟨"out", ["timesteps"], .atom (.bool true), true, .num 0, .unbounded⟩ with
    | error e => rw [hb] at hi; cases hi
    | ok b =>
      rw [hb] at hi
      simp only [Bool.and_eq_true, decide_eq_true_eq] at hi
      obtain ⟨l, hl⟩ := Option.isSome_iff_exists.1 hi.2
      obtain ⟨z, hz⟩ := (hP.bounds [] _ [] fewSteps rfl rfl b hb ["morning"]
        (by rw [hi.1]; decide +kernel) l hl).2 rfl
      simp only [Option.some.injEq] at hc
      simp only at hz
      rw [hz] at hc
      norm_num [two] at hc
      have : 2 * z = 1 := by exact_mod_cast hc
      omega
  · exact h _ (by simp [units]; rfl) rfl (by simp)

end Demo

end Average
end Calliope
