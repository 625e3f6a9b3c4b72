import Verif.Proofs.Typical

/-!
# Averages over the steps that a typical step stands for
-/

namespace Calliope
namespace Average

open Grid Expr Build BaseMath Assemble
open Rename (Same Good Covers cells_mem)
open Typical (Choice Kind Labels Like Scaled cells_kept good_override filter_not_mem sumKind)

variable {V β : Type} [Field V] {T : Choice} {w w' : Label → V} {coords coords' : String → List Label}

/-! ### Groups of steps -/

/-- The steps that a typical step stands for. -/
def group (T : Choice) (coords : String → List Label) (l' : Label) : List Label :=
  (coords "timesteps").filter (fun l => T.of l = l')

theorem mem_group {l l' : Label} (h : l ∈ group T coords l') : l ∈ coords "timesteps" ∧ T.of l = l' := by
  simpa [group] using h

theorem move_set {ρ : Point} {l : Label} (h : l ∈ group T coords (ρ "timesteps")) :
    T.names.move (Expr.set ρ "timesteps" l) = ρ := by
  funext d
  by_cases hd : d = "timesteps"
  · subst hd
    simp [Rename.Renaming.move, Choice.names, (mem_group h).2]
  · simp [Rename.Renaming.move, Choice.names, hd, set_other _ _ hd]

theorem good_set (hl : Labels T w w' coords coords') {ds : List String} {ρ : Point} (hρ : Good coords' ds ρ) {l : Label}
    (h : l ∈ group T coords (ρ "timesteps")) : Good coords ds (Expr.set ρ "timesteps" l) := by
  intro d hd
  by_cases he : d = "timesteps"
  · subst he
    rw [set_same]
    exact (mem_group h).1
  · rw [set_other _ _ he, ← hl.kept d he]
    exact hρ d hd

theorem at_group (hl : Labels T w w' coords coords') {α : Type} {b b' : Arr α} (hb : Same T.names coords b b') {ρ : Point}
    (hρ : Good coords' b.dims ρ) {l : Label} (h : l ∈ group T coords (ρ "timesteps")) :
    b.at (Expr.set ρ "timesteps" l) = b'.at ρ := by
  rw [← hb.2 _ (good_set hl hρ h), move_set h]

theorem set_comm (ρ : Point) {d e : String} (h : d ≠ e) (l m : Label) :
    Expr.set (Expr.set ρ d l) e m = Expr.set (Expr.set ρ e m) d l := by
  funext x
  unfold Expr.set
  by_cases h1 : x = d
  · subst h1
    simp [h]
  · simp [h1]

theorem group_weight (hl : Labels T w w' coords coords') {l' : Label} (h : l' ∈ coords' "timesteps") :
    ((group T coords l').map w).sum = w' l' := (hl.weight l' h).symm

/-! ### Sums -/

theorem sum_swap {α γ : Type} (F : α → γ → V) : ∀ (l : List α) (m : List γ),
    (l.map (fun a => (m.map (fun b => F a b)).sum)).sum = (m.map (fun b => (l.map (fun a => F a b)).sum)).sum
  | [], m => by simp
  | a :: l, m => by simp only [List.map_cons, List.sum_cons, sum_swap F l m, List.sum_map_add]

theorem flat (c : String → List Label) (d : String) (ds : List String) (F : List Label → V) :
    ((cells c (d :: ds)).map F).sum = ((c d).map (fun l => ((cells c ds).map (fun g => F (l :: g))).sum)).sum := by
  simp only [cells, List.map_flatMap, List.map_map, Function.comp_def]
  induction c d with
  | nil => rfl
  | cons x xs ih => simp only [List.flatMap_cons, List.sum_append, List.map_cons, List.sum_cons, ih]

/-- A sum over steps, step by typical step. -/
theorem sum_groups (hl : Labels T w w' coords coords') (F : Label → V) :
    ((coords "timesteps").map F).sum = ((coords' "timesteps").map (fun l' => ((group T coords l').map F).sum)).sum := by
  have := Typical.sum_steps (w := F) T.of (fun _ => 1) (coords "timesteps") (coords' "timesteps") hl.once
    fun l h => (hl.steps _).2 ⟨l, h, rfl⟩
  simpa [group] using this

/-- A sum over items, typical item by typical item. -/
theorem regroup (hl : Labels T w w' coords coords') : ∀ (ds : List String) (ρ : Point) (K : Point → V), ds.Nodup →
    "timesteps" ∈ ds →
    ((cells coords ds).map (fun g => K (override ρ ds g))).sum =
      ((cells coords' ds).map (fun g => ((group T coords (override ρ ds g "timesteps")).map
        (fun l => K (Expr.set (override ρ ds g) "timesteps" l))).sum)).sum
  | [], _, _, _, hd => by cases hd
  | d :: ds, ρ, K, hn, hd => by
    simp only [List.nodup_cons] at hn
    rw [flat, flat]
    by_cases he : d = "timesteps"
    · subst he
      simp only [override_cons, set_same, set_set]
      rw [sum_groups hl]
      refine congrArg List.sum (List.map_congr_left fun l' _ => ?_)
      rw [cells_kept hl hn.1]
      exact sum_swap (fun l g => K (Expr.set (override ρ ds g) "timesteps" l)) _ _
    · have hd : "timesteps" ∈ ds := by
        rcases List.mem_cons.1 hd with h | h
        · exact absurd h.symm he
        · exact h
      rw [hl.kept d he]
      refine congrArg List.sum (List.map_congr_left fun m _ => ?_)
      simp only [override_cons, set_other _ _ (Ne.symm he)]
      rw [regroup hl ds ρ (fun σ => K (Expr.set σ d m)) hn.2 hd]
      simp only [set_comm _ (Ne.symm he)]

/-! ### Arrays -/

/-- The number at an item, zero if there is none. -/
def val (a : Arr (Option V)) (ρ : Point) : V := (a.at ρ).getD 0

def factor (w : Label → V) : Kind → Label → V
  | .plain, l => w l
  | .scaled, _ => 1

/-- The second array holds averages of the first; or sums, of what is in proportion to weights. -/
structure Mean (T : Choice) (w w' : Label → V) (coords coords' : String → List Label) (k : Kind) (a a' : Arr (Option V)) :
    Prop where
  dims : a'.dims = a.dims
  nodup : a.dims.Nodup
  present : Same T.names coords (map Option.isSome a) (map Option.isSome a')
  mean : ∀ ρ : Point, Good coords' a.dims ρ → ρ "timesteps" ∈ coords' "timesteps" →
    factor w' k (ρ "timesteps") * val a' ρ =
      ((group T coords (ρ "timesteps")).map (fun l => factor w k l * val a (Expr.set ρ "timesteps" l))).sum
  rest : k = .scaled → "timesteps" ∈ a.dims ∨
    ((∀ ρ, Good coords a.dims ρ → val a ρ = 0) ∧ ∀ ρ, Good coords' a.dims ρ → val a' ρ = 0)

variable {k j : Kind} {a a' b b' c c' : Arr (Option V)}

theorem like_mean (hl : Labels T w w' coords coords') (h : Like T w w' coords coords' k a a') : Mean T w w' coords coords' k a a' := by
  refine ⟨h.dims.1, h.dims.2, h.present hl, fun ρ hρ ht => ?_, fun hk => ?_⟩
  · cases k with
    | plain =>
      have : ∀ l ∈ group T coords (ρ "timesteps"), factor w .plain l * val a (Expr.set ρ "timesteps" l) = val a' ρ * w l := by
        intro l hg
        rw [val, at_group hl h.1 hρ hg]
        simp only [factor, val]
        ring
      rw [List.map_congr_left this, List.sum_map_mul_left, group_weight hl ht]
      simp only [factor]
      ring
    | scaled =>
      obtain ⟨h1, h2, v, h3, h4, h5⟩ := h
      have hget : ∀ (x : Option V) (c : V), (x.map (c * ·)).getD 0 = c * x.getD 0 := by
        intro x c
        cases x <;> simp
      have : ∀ l ∈ group T coords (ρ "timesteps"), factor w .scaled l * val a (Expr.set ρ "timesteps" l) =
          (v ρ).getD 0 * w l := by
        intro l hg
        rw [val, h3 _ (good_set hl hρ hg), move_set hg, hget, set_same]
        simp only [factor]
        ring
      rw [List.map_congr_left this, List.sum_map_mul_left, group_weight hl ht, val, h4 _ hρ, hget]
      simp only [factor]
      ring
  · subst hk
    obtain ⟨h1, h2, v, h3, h4, h5⟩ := h
    refine h5.imp id fun h5 => ⟨fun ρ hρ => ?_, fun ρ hρ => ?_⟩
    · rw [val, h3 ρ hρ]
      rcases h5 (T.names.move ρ) with h | h <;> simp [h]
    · rw [val, h4 ρ hρ]
      rcases h5 ρ with h | h <;> simp [h]

theorem Mean.some_group (hl : Labels T w w' coords coords') (h : Mean T w w' coords coords' k a a') {ρ : Point}
    (hρ : Good coords' a.dims ρ) {l : Label} (hg : l ∈ group T coords (ρ "timesteps")) :
    (a.at (Expr.set ρ "timesteps" l)).isSome = (a'.at ρ).isSome := at_group hl h.present hρ hg

theorem Mean.some_move (h : Mean T w w' coords coords' k a a') {ρ : Point} (hρ : Good coords a.dims ρ) :
    (a'.at (T.names.move ρ)).isSome = (a.at ρ).isSome := h.present.2 ρ hρ

/-- Averages, multiplied. -/
theorem Mean.scale (hl : Labels T w w' coords coords') (h : Mean T w w' coords coords' k a a') (hd : c'.dims = c.dims)
    (hn : c.dims.Nodup) (hsub : ∀ d ∈ a.dims, d ∈ c.dims) (y : Point → Option V) (q q' : Label → V)
    (hc : ∀ ρ, Good coords c.dims ρ →
      c.at ρ = (y (T.names.move ρ)).bind (fun m => (a.at ρ).map (fun x => m * q (ρ "timesteps") * x)))
    (hc' : ∀ ρ, Good coords' c.dims ρ → c'.at ρ = (y ρ).bind (fun m => (a'.at ρ).map (fun x => m * q' (ρ "timesteps") * x)))
    (hq : ∀ l, factor w j l * q l = factor w k l) (hq' : ∀ l, factor w' j l * q' l = factor w' k l)
    (hr : j = .scaled → "timesteps" ∈ c.dims ∨
      ((∀ ρ, Good coords c.dims ρ → val c ρ = 0) ∧ ∀ ρ, Good coords' c.dims ρ → val c' ρ = 0)) :
    Mean T w w' coords coords' j c c' := by
  have sub : ∀ {cs : String → List Label} {ρ}, Good cs c.dims ρ → Good cs a.dims ρ := fun hρ d hd => hρ d (hsub d hd)
  have hsome : ∀ (o : Option V) (x : Option V) (m : V), (o.bind (fun u => x.map (fun z => u * m * z))).isSome =
      (o.isSome && x.isSome) := by
    intro o x m
    cases o <;> cases x <;> rfl
  have hget : ∀ (o : Option V) (x : Option V) (m : V), (o.bind (fun u => x.map (fun z => u * m * z))).getD 0 =
      o.getD 0 * m * x.getD 0 := by
    intro o x m
    cases o <;> cases x <;> simp
  refine ⟨hd, hn, ⟨hd, fun ρ hρ => ?_⟩, fun ρ hρ ht => ?_, hr⟩
  · have hm : Good coords' c.dims (T.names.move ρ) := fun d hd => (hl.covers.mem d _).2 ⟨_, hρ d hd, rfl⟩
    rw [at_map, at_map, hc ρ hρ, hc' _ hm, hsome, hsome, h.some_move (sub hρ)]
  · have hm := h.mean ρ (sub hρ) ht
    have e : ∀ l ∈ group T coords (ρ "timesteps"), factor w j l * val c (Expr.set ρ "timesteps" l) =
        (y ρ).getD 0 * (factor w k l * val a (Expr.set ρ "timesteps" l)) := by
      intro l hg
      rw [val, hc _ (good_set hl hρ hg), move_set hg, hget, set_same, ← hq l]
      simp only [val]
      ring
    rw [List.map_congr_left e, List.sum_map_mul_left, ← hm, val, hc' ρ hρ, hget, ← hq' (ρ "timesteps")]
    simp only [val]
    ring

/-- A function that multiplies. -/
def Mult (f : Option V → β → Option V) (μ : β → Option V) : Prop :=
  ∀ x y, f x y = (μ y).bind (fun m => x.map (fun z => m * z))

theorem zero_scaled {c : Arr (Option V)} {ρ : Point} {y : Option V} (hc : c.at ρ = y.bind (fun m => (a.at ρ).map (fun x => m * x)))
    (h : val a ρ = 0) : val c ρ = 0 := by
  rw [val, hc]
  rw [val] at h
  cases y with
  | none => rfl
  | some m =>
    cases ha : a.at ρ with
    | none => rfl
    | some x =>
      rw [ha] at h
      simp only [Option.getD_some] at h
      simp [h]

theorem Mean.zipData (hl : Labels T w w' coords coords') (h : Mean T w w' coords coords' k a a') {b b' : Arr β}
    (hb : Same T.names coords b b') (hn : b.dims.Nodup) {f : Option V → β → Option V} {μ : β → Option V} (hf : Mult f μ) :
    Mean T w w' coords coords' k (zip f a b) (zip f a' b') := by
  have sa : ∀ d ∈ a.dims, d ∈ (zip f a b).dims := fun d hd => mem_joinDims.2 (.inl hd)
  have sb : ∀ d ∈ b.dims, d ∈ (zip f a b).dims := fun d hd => mem_joinDims.2 (.inr hd)
  have e1 : ∀ ρ, Good coords (zip f a b).dims ρ →
      (zip f a b).at ρ = (μ (b'.at (T.names.move ρ))).bind (fun m => (a.at ρ).map (fun x => m * x)) := by
    intro ρ hρ
    rw [at_zip, hf, hb.2 ρ fun d hd => hρ d (sb d hd)]
  have e2 : ∀ ρ, (zip f a' b').at ρ = (μ (b'.at ρ)).bind (fun m => (a'.at ρ).map (fun x => m * x)) := by
    intro ρ
    rw [at_zip, hf]
  refine h.scale hl (by simp only [Grid.zip, h.dims, hb.1]) (joinDims_nodup h.nodup hn) sa (fun ρ => μ (b'.at ρ)) (fun _ => 1)
    (fun _ => 1) (fun ρ hρ => ?_) (fun ρ _ => ?_) (fun _ => mul_one _) (fun _ => mul_one _) fun hk => ?_
  · simp only [mul_one]
    exact e1 ρ hρ
  · simp only [mul_one]
    exact e2 ρ
  · refine (h.rest hk).imp (sa _) fun h0 => ⟨fun ρ hρ => zero_scaled (e1 ρ hρ) (h0.1 ρ fun d hd => hρ d (sa d hd)),
      fun ρ hρ => zero_scaled (e2 ρ) (h0.2 ρ fun d hd => hρ d (sa d hd))⟩

theorem Mean.dataZip (hl : Labels T w w' coords coords') (h : Mean T w w' coords coords' k a a') {b b' : Arr β}
    (hb : Same T.names coords b b') (hn : b.dims.Nodup) {f : β → Option V → Option V} {μ : β → Option V}
    (hf : Mult (fun x y => f y x) μ) : Mean T w w' coords coords' k (zip f b a) (zip f b' a') := by
  have sa : ∀ d ∈ a.dims, d ∈ (zip f b a).dims := fun d hd => mem_joinDims.2 (.inr hd)
  have sb : ∀ d ∈ b.dims, d ∈ (zip f b a).dims := fun d hd => mem_joinDims.2 (.inl hd)
  have e1 : ∀ ρ, Good coords (zip f b a).dims ρ →
      (zip f b a).at ρ = (μ (b'.at (T.names.move ρ))).bind (fun m => (a.at ρ).map (fun x => m * x)) := by
    intro ρ hρ
    rw [at_zip, hb.2 ρ fun d hd => hρ d (sb d hd)]
    exact hf _ _
  have e2 : ∀ ρ, (zip f b' a').at ρ = (μ (b'.at ρ)).bind (fun m => (a'.at ρ).map (fun x => m * x)) := by
    intro ρ
    rw [at_zip]
    exact hf _ _
  refine h.scale hl (by simp only [Grid.zip, h.dims, hb.1]) (joinDims_nodup hn h.nodup) sa (fun ρ => μ (b'.at ρ)) (fun _ => 1)
    (fun _ => 1) (fun ρ hρ => ?_) (fun ρ _ => ?_) (fun _ => mul_one _) (fun _ => mul_one _) fun hk => ?_
  · simp only [mul_one]
    exact e1 ρ hρ
  · simp only [mul_one]
    exact e2 ρ
  · refine (h.rest hk).imp (sa _) fun h0 => ⟨fun ρ hρ => zero_scaled (e1 ρ hρ) (h0.1 ρ fun d hd => hρ d (sa d hd)),
      fun ρ hρ => zero_scaled (e2 ρ) (h0.2 ρ fun d hd => hρ d (sa d hd))⟩

/-- Averages, multiplied by what is in proportion to weights. -/
theorem Mean.weighted (hl : Labels T w w' coords coords') (h : Mean T w w' coords coords' .plain a a')
    (hb : Scaled T w w' coords coords' b b') (hd : c'.dims = c.dims) (hn : c.dims.Nodup) (sa : ∀ d ∈ a.dims, d ∈ c.dims)
    (sb : ∀ d ∈ b.dims, d ∈ c.dims)
    (hc : ∀ ρ, c.at ρ = (b.at ρ).bind (fun m => (a.at ρ).map (fun x => m * x)))
    (hc' : ∀ ρ, c'.at ρ = (b'.at ρ).bind (fun m => (a'.at ρ).map (fun x => m * x))) :
    Mean T w w' coords coords' .scaled c c' := by
  obtain ⟨h1, h2, v, h3, h4, h5⟩ := hb
  have e1 : ∀ ρ, Good coords c.dims ρ → c.at ρ =
      (v (T.names.move ρ)).bind (fun m => (a.at ρ).map (fun x => m * w (ρ "timesteps") * x)) := by
    intro ρ hρ
    rw [hc ρ, h3 ρ fun d hd => hρ d (sb d hd)]
    cases v (T.names.move ρ) with
    | none => rfl
    | some m => simp [mul_comm]
  have e2 : ∀ ρ, Good coords' c.dims ρ → c'.at ρ = (v ρ).bind (fun m => (a'.at ρ).map (fun x => m * w' (ρ "timesteps") * x)) := by
    intro ρ hρ
    rw [hc' ρ, h4 ρ fun d hd => hρ d (sb d hd)]
    cases v ρ with
    | none => rfl
    | some m => simp [mul_comm]
  have hz : ∀ {u m : V} {x : Option V} {y : Option V}, (y = none ∨ y = some 0) →
      (y.bind (fun m => x.map (fun z => m * u * z))).getD 0 = 0 := by
    rintro u m x y (rfl | rfl)
    · rfl
    · cases x <;> simp
  refine h.scale hl hd hn sa v w w' e1 e2 (fun _ => one_mul _) (fun _ => one_mul _) fun _ => ?_
  refine h5.imp (sb _) fun h5 => ⟨fun ρ hρ => ?_, fun ρ hρ => ?_⟩
  · rw [val, e1 ρ hρ]
    exact hz (m := 0) (h5 _)
  · rw [val, e2 ρ hρ]
    exact hz (m := 0) (h5 _)

/-- Averages, added. -/
theorem Mean.add (hl : Labels T w w' coords coords') (h : Mean T w w' coords coords' k a a')
    (hb : Mean T w w' coords coords' k b b') {f : Option V → Option V → Option V} {s : V}
    (hf : ∀ x y, f x y = x.bind (fun x => y.map (fun y => x + s * y))) :
    Mean T w w' coords coords' k (zip f a b) (zip f a' b') := by
  have sa : ∀ {cs : String → List Label} {ρ}, Good cs (zip f a b).dims ρ → Good cs a.dims ρ :=
    fun hρ d hd => hρ d (mem_joinDims.2 (.inl hd))
  have sb : ∀ {cs : String → List Label} {ρ}, Good cs (zip f a b).dims ρ → Good cs b.dims ρ :=
    fun hρ d hd => hρ d (mem_joinDims.2 (.inr hd))
  have hsome : ∀ x y, (f x y).isSome = (x.isSome && y.isSome) := by
    intro x y
    rw [hf]
    cases x <;> cases y <;> rfl
  have hget : ∀ x y, (f x y).getD 0 = if x.isSome && y.isSome then x.getD 0 + s * y.getD 0 else 0 := by
    intro x y
    rw [hf]
    cases x <;> cases y <;> simp
  refine ⟨by simp only [Grid.zip, h.dims, hb.dims], joinDims_nodup h.nodup hb.nodup,
    ⟨by simp only [Grid.map, Grid.zip, h.dims, hb.dims], fun ρ hρ => ?_⟩, fun ρ hρ ht => ?_, fun hk => ?_⟩
  · rw [at_map, at_map, at_zip, at_zip, hsome, hsome, h.some_move (sa hρ), hb.some_move (sb hρ)]
  · have e : ∀ l ∈ group T coords (ρ "timesteps"), factor w k l * val (zip f a b) (Expr.set ρ "timesteps" l) =
        if (a'.at ρ).isSome && (b'.at ρ).isSome then
          factor w k l * val a (Expr.set ρ "timesteps" l) + s * (factor w k l * val b (Expr.set ρ "timesteps" l)) else 0 := by
      intro l hg
      rw [val, at_zip, hget, h.some_group hl (sa hρ) hg, hb.some_group hl (sb hρ) hg]
      simp only [val]
      split
      · ring
      · ring
    rw [List.map_congr_left e, val, at_zip, hget]
    cases hs : (a'.at ρ).isSome && (b'.at ρ).isSome with
    | false => simp
    | true =>
      simp only [if_true]
      rw [List.sum_map_add, List.sum_map_mul_left, ← h.mean ρ (sa hρ) ht, ← hb.mean ρ (sb hρ) ht]
      simp only [val]
      ring
  · have hz : ∀ x y, x.getD 0 = 0 → y.getD 0 = 0 → (f x y).getD 0 = 0 := by
      intro x y hx hy
      rw [hget, hx, hy]
      simp
    rcases h.rest hk with h0 | h0
    · exact .inl (mem_joinDims.2 (.inl h0))
    · rcases hb.rest hk with b0 | b0
      · exact .inl (mem_joinDims.2 (.inr b0))
      · refine .inr ⟨fun ρ hρ => ?_, fun ρ hρ => ?_⟩
        · rw [val, at_zip]
          exact hz _ _ (h0.1 ρ (sa hρ)) (b0.1 ρ (sb hρ))
        · rw [val, at_zip]
          exact hz _ _ (h0.2 ρ (sa hρ)) (b0.2 ρ (sb hρ))

/-- Averages, item by item: what the item is replaced by may depend on whether it is there. -/
theorem Mean.map (hl : Labels T w w' coords coords') (h : Mean T w w' coords coords' k a a') {f : Option V → Option V} {m : V}
    {d : Option V} (hd : k = .scaled → d = none ∨ d = some 0) (hf : f none = d ∧ ∀ x, f (some x) = some (m * x)) :
    Mean T w w' coords coords' k (Grid.map f a) (Grid.map f a') := by
  have hsome : ∀ x, (f x).isSome = (x.isSome || d.isSome) := by
    intro x
    cases x <;> simp [hf.1, hf.2]
  have hget : ∀ x, (f x).getD 0 = if x.isSome then m * x.getD 0 else d.getD 0 := by
    intro x
    cases x <;> simp [hf.1, hf.2]
  refine ⟨h.dims, h.nodup, ⟨h.dims, fun ρ hρ => ?_⟩, fun ρ hρ ht => ?_, fun hk => (h.rest hk).imp id fun h0 => ?_⟩
  · simp only [at_map, hsome, h.some_move hρ]
  · have e : ∀ l ∈ group T coords (ρ "timesteps"), factor w k l * val (Grid.map f a) (Expr.set ρ "timesteps" l) =
        if (a'.at ρ).isSome then m * (factor w k l * val a (Expr.set ρ "timesteps" l)) else d.getD 0 * factor w k l := by
      intro l hg
      rw [val, at_map, hget, h.some_group hl hρ hg]
      simp only [val]
      split <;> ring
    rw [List.map_congr_left e, val, at_map, hget]
    cases (a'.at ρ).isSome with
    | true =>
      simp only [if_true]
      rw [List.sum_map_mul_left, ← h.mean ρ hρ ht]
      simp only [val]
      ring
    | false =>
      simp only [Bool.false_eq_true, if_false]
      rw [List.sum_map_mul_left]
      cases k with
      | plain =>
        have : factor w .plain = w := rfl
        rw [this, group_weight hl ht, mul_comm]
        rfl
      | scaled =>
        rcases hd rfl with rfl | rfl <;> simp
  · have hz : ∀ x : Option V, x.getD 0 = 0 → (f x).getD 0 = 0 := by
      intro x hx
      rw [hget, hx]
      rcases hd hk with rfl | rfl <;> simp
    exact ⟨fun ρ hρ => hz _ (h0.1 ρ hρ), fun ρ hρ => hz _ (h0.2 ρ hρ)⟩

theorem total_some (l : List (Option V)) : (total l).isSome = (l.map Option.isSome).any id := by
  rw [Bool.eq_iff_iff, ← not_iff_not]
  simp only [Bool.not_eq_true, Option.isSome_eq_false_iff, Option.isNone_iff_eq_none, total_eq_none, List.any_eq_false,
    List.mem_map, forall_exists_index, and_imp, forall_apply_eq_imp_iff₂, id]

theorem present_sum (hl : Labels T w w' coords coords') (h : Mean T w w' coords coords' k a a') (over : List String) :
    Same T.names coords (Grid.map Option.isSome (sumArr coords over a)) (Grid.map Option.isSome (sumArr coords' over a')) := by
  have hs := h.present.reduce_mem (f := fun l => l.any id) (cs := coords) (cs' := coords') (fun l l' hm => by
    rw [Bool.eq_iff_iff]
    simp [List.any_eq_true, hm]) hl.covers.mem (fun _ _ h => h) over
  refine ⟨by simp only [Grid.map, sumArr, Grid.reduce, h.dims], fun ρ hρ => ?_⟩
  have := hs.2 ρ hρ
  rw [at_reduce, at_reduce] at this
  simp only [at_map, sumArr]
  rw [at_reduce, at_reduce, sumPresent_eq, sumPresent_eq, total_some, total_some, List.map_map, List.map_map]
  exact this

theorem val_sum (cs : String → List Label) (over : List String) (a : Arr (Option V)) (ρ : Point) :
    val (sumArr cs over a) ρ = ((cells cs (a.dims.filter (fun d => over.contains d))).map (fun g =>
      val a (override ρ (a.dims.filter (fun d => over.contains d)) g))).sum := by
  rw [val, sumArr, at_reduce, sumPresent_eq, total_getD, List.map_map]
  rfl

theorem override_set (ρ : Point) {ds : List String} (hd : "timesteps" ∉ ds) (l : Label) {cs : String → List Label} {g : List Label}
    (hg : g ∈ cells cs ds) : override (Expr.set ρ "timesteps" l) ds g = Expr.set (override ρ ds g) "timesteps" l := by
  funext d
  by_cases h : d ∈ ds
  · have hne : d ≠ "timesteps" := fun e => hd (e ▸ h)
    rw [set_other _ _ hne]
    have := length_of_mem_cells hg
    unfold override
    cases hx : (ds.zip g).lookup d with
    | some y => rfl
    | none => simp [set_other _ _ hne]
  · rw [(along_override hg).1 d h]
    by_cases he : d = "timesteps"
    · subst he
      simp
    · rw [set_other _ _ he, set_other _ _ he, (along_override hg).1 d h]

theorem Mean.sum (hl : Labels T w w' coords coords') (h : Mean T w w' coords coords' j a a') {over : List String}
    (hk : sumKind over j = some k) : Mean T w w' coords coords' k (sumArr coords over a) (sumArr coords' over a') := by
  have hp := present_sum hl h over
  have hdim : (sumArr coords' over a').dims = (sumArr coords over a).dims := by simp only [sumArr, Grid.reduce, h.dims]
  have hnd : (sumArr coords over a).dims.Nodup := h.nodup.filter _
  cases ho : over.contains "timesteps" with
  | false =>
    have hkj : k = j := by
      cases j <;> simp only [sumKind, ho, Bool.false_eq_true, if_false, Option.some.injEq] at hk <;> exact hk.symm
    subst hkj
    have hts := filter_not_mem (ds := a.dims) ho
    refine ⟨hdim, hnd, hp, fun ρ hρ ht => ?_, fun hk => ?_⟩
    · rw [val_sum, h.dims, cells_kept hl hts, ← List.sum_map_mul_left]
      have e : ∀ g ∈ cells coords (a.dims.filter (fun d => over.contains d)),
          factor w' k (ρ "timesteps") * val a' (override ρ (a.dims.filter (fun d => over.contains d)) g) =
            ((group T coords (ρ "timesteps")).map (fun l => factor w k l *
              val a (override (Expr.set ρ "timesteps" l) (a.dims.filter (fun d => over.contains d)) g))).sum := by
        intro g hg
        have hg' := hg
        rw [← cells_kept hl hts] at hg'
        have := h.mean (override ρ (a.dims.filter (fun d => over.contains d)) g) (good_override hg' hρ)
          (by rwa [(along_override hg).1 _ hts])
        rw [(along_override hg).1 _ hts] at this
        rw [this]
        refine congrArg List.sum (List.map_congr_left fun l _ => ?_)
        rw [override_set ρ hts l hg]
      rw [List.map_congr_left e, sum_swap]
      refine congrArg List.sum (List.map_congr_left fun l _ => ?_)
      rw [val_sum, List.sum_map_mul_left]
    · refine (h.rest hk).imp (fun ht => List.mem_filter.2 ⟨ht, by simpa using ho⟩) fun h0 => ⟨fun ρ hρ => ?_, fun ρ hρ => ?_⟩
      · rw [val_sum]
        refine List.sum_eq_zero fun x hx => ?_
        obtain ⟨g, hg, rfl⟩ := List.mem_map.1 hx
        exact h0.1 _ (good_override hg hρ)
      · rw [val_sum, h.dims]
        refine List.sum_eq_zero fun x hx => ?_
        obtain ⟨g, hg, rfl⟩ := List.mem_map.1 hx
        exact h0.2 _ (good_override hg hρ)
  | true =>
    have hkj : j = .scaled ∧ k = .plain := by
      cases j
      · simp only [sumKind, ho, if_true] at hk
        cases hk
      · simp only [sumKind, ho, if_true, Option.some.injEq] at hk
        exact ⟨rfl, hk.symm⟩
    obtain ⟨rfl, rfl⟩ := hkj
    have hts : "timesteps" ∉ (sumArr coords over a).dims := by
      intro hm
      have := (List.mem_filter.1 hm).2
      rw [ho] at this
      cases this
    refine ⟨hdim, hnd, hp, fun ρ hρ ht => ?_, fun hk => by cases hk⟩
    have hρ' : Good coords (sumArr coords over a).dims ρ := fun d hd => by
      rw [← hl.kept d fun e => hts (e ▸ hd)]
      exact hρ d hd
    have key : val (sumArr coords' over a') ρ = val (sumArr coords over a) ρ := by
      rw [val_sum, val_sum, h.dims]
      rcases h.rest rfl with hin | h0
      · rw [regroup hl (a.dims.filter (fun d => over.contains d)) ρ (val a) (h.nodup.filter _) (List.mem_filter.2 ⟨hin, ho⟩)]
        refine congrArg List.sum (List.map_congr_left fun g hg => ?_)
        have := h.mean (override ρ (a.dims.filter (fun d => over.contains d)) g) (good_override hg hρ)
          (mem_of_cells hg _ (List.mem_filter.2 ⟨hin, ho⟩))
        simpa [factor] using this
      · rw [List.sum_eq_zero, List.sum_eq_zero]
        · intro x hx
          obtain ⟨g, hg, rfl⟩ := List.mem_map.1 hx
          exact h0.1 _ (good_override hg hρ')
        · intro x hx
          obtain ⟨g, hg, rfl⟩ := List.mem_map.1 hx
          exact h0.2 _ (good_override hg hρ)
    have e : ∀ l ∈ group T coords (ρ "timesteps"), factor w .plain l * val (sumArr coords over a) (Expr.set ρ "timesteps" l) =
        val (sumArr coords over a) ρ * w l := by
      intro l _
      rw [val, at_congr _ (σ := Expr.set ρ "timesteps" l) (ρ := ρ) fun d hd => set_other _ _ fun e => hts (e ▸ hd), mul_comm]
      rfl
    rw [List.map_congr_left e, List.sum_map_mul_left, group_weight hl ht, key, mul_comm]
    rfl

theorem Mean.fillna (hl : Labels T w w' coords coords') (h : Mean T w w' coords coords' k a a')
    (hb : Mean T w w' coords coords' k b b') : Mean T w w' coords coords' k (Build.fillna a b) (Build.fillna a' b') := by
  obtain ⟨f, hf⟩ : ∃ f : Option V → Option V → Option V, f = fun x y => if x.isSome then x else y := ⟨_, rfl⟩
  have hz : ∀ x y : Arr (Option V), Build.fillna x y = zip f x y := by
    intro x y
    simp only [Build.fillna]
    congr 1
    funext u v
    rw [hf]
    cases u <;> rfl
  rw [hz, hz]
  have sa : ∀ {cs : String → List Label} {ρ}, Good cs (zip f a b).dims ρ → Good cs a.dims ρ :=
    fun hρ d hd => hρ d (mem_joinDims.2 (.inl hd))
  have sb : ∀ {cs : String → List Label} {ρ}, Good cs (zip f a b).dims ρ → Good cs b.dims ρ :=
    fun hρ d hd => hρ d (mem_joinDims.2 (.inr hd))
  have hsome : ∀ x y, (f x y).isSome = (x.isSome || y.isSome) := by
    intro x y
    rw [hf]
    cases x <;> cases y <;> rfl
  have hget : ∀ x y, (f x y).getD 0 = if x.isSome then x.getD 0 else y.getD 0 := by
    intro x y
    rw [hf]
    cases x <;> cases y <;> rfl
  refine ⟨by simp only [Grid.zip, h.dims, hb.dims], joinDims_nodup h.nodup hb.nodup,
    ⟨by simp only [Grid.map, Grid.zip, h.dims, hb.dims], fun ρ hρ => ?_⟩, fun ρ hρ ht => ?_, fun hk => ?_⟩
  · rw [at_map, at_map, at_zip, at_zip, hsome, hsome, h.some_move (sa hρ), hb.some_move (sb hρ)]
  · have e : ∀ l ∈ group T coords (ρ "timesteps"), factor w k l * val (zip f a b) (Expr.set ρ "timesteps" l) =
        if (a'.at ρ).isSome then factor w k l * val a (Expr.set ρ "timesteps" l)
        else factor w k l * val b (Expr.set ρ "timesteps" l) := by
      intro l hg
      rw [val, at_zip, hget, h.some_group hl (sa hρ) hg]
      simp only [val]
      split <;> rfl
    rw [List.map_congr_left e, val, at_zip, hget]
    cases hs : (a'.at ρ).isSome with
    | false =>
      simp only [Bool.false_eq_true, if_false]
      exact hb.mean ρ (sb hρ) ht
    | true =>
      simp only [if_true]
      exact h.mean ρ (sa hρ) ht
  · have hz : ∀ x y, x.getD 0 = 0 → y.getD 0 = 0 → (f x y).getD 0 = 0 := by
      intro x y hx hy
      rw [hget, hx, hy]
      simp
    rcases h.rest hk with h0 | h0
    · exact .inl (mem_joinDims.2 (.inl h0))
    · rcases hb.rest hk with b0 | b0
      · exact .inl (mem_joinDims.2 (.inr b0))
      · refine .inr ⟨fun ρ hρ => ?_, fun ρ hρ => ?_⟩
        · rw [val, at_zip]
          exact hz _ _ (h0.1 ρ (sa hρ)) (b0.1 ρ (sb hρ))
        · rw [val, at_zip]
          exact hz _ _ (h0.2 ρ (sa hρ)) (b0.2 ρ (sb hρ))

end Average
end Calliope
