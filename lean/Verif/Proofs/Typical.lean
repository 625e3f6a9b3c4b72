import Mathlib.Algebra.BigOperators.Ring.List
import Verif.Spec.Typical
import Verif.Proofs.RenameProblem
import Verif.Proofs.ExprSum

/-!
# Arrays of typical steps
-/

namespace Calliope
namespace Typical

open Grid Expr Build BaseMath Assemble
open Rename (Renaming Same Good Covers move_override cells_mem same_scalar)
open Units (Both)

variable {α β V : Type} {T : Choice} {coords coords' : String → List Label}

section Sums

variable [Field V] {w w' : Label → V}

/-- Steps, typical steps, and their weights. -/
structure Labels (T : Choice) (w w' : Label → V) (coords coords' : String → List Label) : Prop where
  kept : ∀ d, d ≠ "timesteps" → coords' d = coords d
  steps : ∀ l', l' ∈ coords' "timesteps" ↔ ∃ l ∈ coords "timesteps", T.of l = l'
  once : (coords' "timesteps").Nodup
  weight : ∀ l' ∈ coords' "timesteps", w' l' = (((coords "timesteps").filter (fun l => T.of l = l')).map w).sum

theorem Labels.covers (h : Labels T w w' coords coords') : Covers T.names coords coords' := by
  refine ⟨fun d hd => ?_, fun d l' => ?_, fun d hd => by cases hd⟩
  · have hd : d ≠ "timesteps" := by simpa [Choice.names] using hd
    exact ⟨h.kept d hd, fun l => by simp [Choice.names, hd]⟩
  · by_cases hd : d = "timesteps"
    · subst hd
      simpa [Choice.names] using h.steps l'
    · rw [h.kept d hd]
      simp [Choice.names, hd]

theorem cells_kept (h : Labels T w w' coords coords') : ∀ {ds : List String}, "timesteps" ∉ ds →
    cells coords' ds = cells coords ds
  | [], _ => rfl
  | d :: ds, hd => by
    simp only [List.mem_cons, not_or] at hd
    simp only [cells, h.kept d (Ne.symm hd.1), cells_kept h hd.2]

theorem zip_kept : ∀ {ds : List String} (g : List Label), "timesteps" ∉ ds → g.length = ds.length →
    List.zipWith T.names.of ds g = g
  | [], g, _, hl => by
    simp only [List.length_nil, List.length_eq_zero_iff] at hl
    simp [hl]
  | d :: ds, [], _, hl => by simp at hl
  | d :: ds, l :: g, hd, hl => by
    simp only [List.mem_cons, not_or] at hd
    rw [List.zipWith_cons_cons, zip_kept g hd.2 (by simpa using hl)]
    simp [Choice.names, Ne.symm hd.1]

theorem good_override {ds : List String} {over : List String} {ρ : Point} {g : List Label}
    (hg : g ∈ cells coords (ds.filter (fun d => over.contains d)))
    (hρ : Good coords (ds.filter (fun d => !over.contains d)) ρ) :
    Good coords ds (override ρ (ds.filter (fun d => over.contains d)) g) := by
  intro d hd
  by_cases hm : d ∈ ds.filter (fun d => over.contains d)
  · exact mem_of_cells hg d hm
  · rw [(along_override hg).1 d hm]
    refine hρ d ?_
    simp only [List.mem_filter, not_and, Bool.not_eq_true] at hm
    exact List.mem_filter.2 ⟨hd, by rw [hm hd]; rfl⟩

theorem good_move (h : Labels T w w' coords coords') {ds : List String} {ρ : Point} (hρ : Good coords ds ρ) :
    Good coords' ds (T.names.move ρ) := fun d hd => (h.covers.mem d _).2 ⟨_, hρ d hd, rfl⟩

/-- A sum over steps, as a sum over typical steps. -/
theorem sum_steps (of : Label → Label) (G : Label → V) : ∀ (ls : List Label) (ls' : List Label), ls'.Nodup →
    (∀ l ∈ ls, of l ∈ ls') →
    (ls.map (fun l => w l * G (of l))).sum =
      (ls'.map (fun l' => ((ls.filter (fun l => of l = l')).map w).sum * G l')).sum
  | [], ls', _, _ => by simp
  | l :: ls, ls', hn, hin => by
    have ih := sum_steps of G ls ls' hn fun x hx => hin x (List.mem_cons_of_mem _ hx)
    have h1 : ∀ l', (((l :: ls).filter (fun l => of l = l')).map w).sum =
        (if of l = l' then w l else 0) + ((ls.filter (fun l => of l = l')).map w).sum := by
      intro l'
      by_cases h : of l = l' <;> simp [h]
    simp only [h1, add_mul, List.sum_map_add, List.map_cons, List.sum_cons, ih]
    congr 1
    have hl := hin l List.mem_cons_self
    clear ih h1 hin
    induction ls' with
    | nil => cases hl
    | cons x ls' ih =>
      simp only [List.nodup_cons] at hn
      simp only [List.map_cons, List.sum_cons]
      rcases List.mem_cons.1 hl with h | h
      · have : (ls'.map (fun l' => (if of l = l' then w l else 0) * G l')).sum = 0 := by
          refine List.sum_eq_zero fun y hy => ?_
          obtain ⟨l', hl', rfl⟩ := List.mem_map.1 hy
          have : of l ≠ l' := fun e => hn.1 (h ▸ e ▸ hl')
          simp [this]
        rw [this, if_pos h, h, add_zero]
      · have : of l ≠ x := fun e => hn.1 (e ▸ h)
        rw [if_neg this, zero_mul, zero_add]
        exact ih hn.2 h

/-- A sum over items, as a sum over items of typical steps. -/
theorem sum_cells (h : Labels T w w' coords coords') : ∀ (ds : List String) (σ σ' : Point) (K : List Label → V), ds.Nodup →
    "timesteps" ∈ ds →
    ((cells coords ds).map (fun g => w (override σ ds g "timesteps") * K (List.zipWith T.names.of ds g))).sum =
      ((cells coords' ds).map (fun g => w' (override σ' ds g "timesteps") * K g)).sum
  | [], _, _, _, _, hd => by cases hd
  | d :: ds, σ, σ', K, hn, hd => by
    simp only [List.nodup_cons] at hn
    have flat : ∀ (c : String → List Label) (F : List Label → V), ((cells c (d :: ds)).map F).sum =
        ((c d).map (fun l => ((cells c ds).map (fun g => F (l :: g))).sum)).sum := by
      intro c F
      simp only [cells, List.map_flatMap, List.map_map, Function.comp_def]
      induction c d with
      | nil => rfl
      | cons x xs ih => simp only [List.flatMap_cons, List.sum_append, List.map_cons, List.sum_cons, ih]
    rw [flat, flat]
    by_cases he : d = "timesteps"
    · subst he
      have e1 : ∀ (σ : Point) l g, override σ ("timesteps" :: ds) (l :: g) "timesteps" = l := by
        intro σ l g
        rw [override_cons, set_same]
      simp only [e1, List.zipWith_cons_cons, List.sum_map_mul_left]
      have e2 : ∀ l ∈ coords "timesteps", w l * ((cells coords ds).map (fun g => K (T.names.of "timesteps" l ::
          List.zipWith T.names.of ds g))).sum = w l * (fun l' => ((cells coords ds).map (fun g => K (l' :: g))).sum) (T.of l) := by
        intro l _
        congr 1
        refine congrArg List.sum (List.map_congr_left fun g hg => ?_)
        rw [zip_kept g hn.1 (length_of_mem_cells hg)]
        simp [Choice.names]
      rw [List.map_congr_left e2, sum_steps (w := w) T.of (fun l' => ((cells coords ds).map (fun g => K (l' :: g))).sum)
        (coords "timesteps") (coords' "timesteps") h.once fun l hl => (h.steps _).2 ⟨l, hl, rfl⟩]
      refine congrArg List.sum (List.map_congr_left fun l' hl' => ?_)
      rw [← h.weight l' hl', cells_kept h hn.1]
    · have hd : "timesteps" ∈ ds := by
        rcases List.mem_cons.1 hd with h | h
        · exact absurd h.symm he
        · exact h
      have e1 : ∀ (σ : Point) l g, override σ (d :: ds) (l :: g) "timesteps" = override σ ds g "timesteps" := by
        intro σ l g
        rw [override_cons, set_other _ _ (Ne.symm he)]
      rw [h.kept d he]
      refine congrArg List.sum (List.map_congr_left fun l hl => ?_)
      simp only [e1, List.zipWith_cons_cons]
      have e2 : T.names.of d l = l := by simp [Choice.names, he]
      simp only [e2]
      exact sum_cells h ds σ σ' (fun g => K (l :: g)) hn.2 hd

/-! ### Arrays -/

/-- Arrays in proportion to the weight of steps. -/
def Scaled (T : Choice) (w w' : Label → V) (coords coords' : String → List Label) (a a' : Arr (Option V)) : Prop :=
  a'.dims = a.dims ∧ a.dims.Nodup ∧ ∃ v : Point → Option V,
    (∀ ρ, Good coords a.dims ρ → a.at ρ = (v (T.names.move ρ)).map (w (ρ "timesteps") * ·)) ∧
    (∀ ρ, Good coords' a.dims ρ → a'.at ρ = (v ρ).map (w' (ρ "timesteps") * ·)) ∧
    ("timesteps" ∈ a.dims ∨ ∀ ρ, v ρ = none ∨ v ρ = some 0)

/-- Arrays of a kind. -/
def Like (T : Choice) (w w' : Label → V) (coords coords' : String → List Label) : Kind → Arr (Option V) → Arr (Option V) → Prop
  | .plain, a, a' => Same T.names coords a a' ∧ a.dims.Nodup
  | .scaled, a, a' => Scaled T w w' coords coords' a a'

theorem Like.dims {k : Kind} {a a' : Arr (Option V)} (h : Like T w w' coords coords' k a a') : a'.dims = a.dims ∧ a.dims.Nodup := by
  cases k with
  | plain => exact ⟨h.1.1, h.2⟩
  | scaled => exact ⟨h.1, h.2.1⟩

/-- Items are present for all steps as they are for typical steps. -/
theorem Like.present (hl : Labels T w w' coords coords') {k : Kind} {a a' : Arr (Option V)}
    (h : Like T w w' coords coords' k a a') : Same T.names coords (map Option.isSome a) (map Option.isSome a') := by
  cases k with
  | plain => exact h.1.map _
  | scaled =>
    obtain ⟨h1, h2, v, h3, h4, h5⟩ := h
    refine ⟨h1, fun ρ hρ => ?_⟩
    rw [at_map, at_map, h3 ρ hρ, h4 _ (good_move hl hρ), Option.isSome_map, Option.isSome_map]

theorem like_none (k : Kind) (ds : List String) (hn : ds.Nodup) :
    Like T w w' coords coords' k (⟨ds, fun _ => none⟩ : Arr (Option V)) ⟨ds, fun _ => none⟩ := by
  cases k with
  | plain => exact ⟨⟨rfl, fun _ _ => rfl⟩, hn⟩
  | scaled => exact ⟨rfl, hn, fun _ => none, fun _ _ => rfl, fun _ _ => rfl, .inr fun _ => .inl rfl⟩

theorem like_scalar_none (k : Kind) : Like T w w' coords coords' k (scalar (none : Option V)) (scalar none) := by
  cases k with
  | plain => exact ⟨same_scalar _, List.nodup_nil⟩
  | scaled => exact ⟨rfl, List.nodup_nil, fun _ => none, fun _ _ => rfl, fun _ _ => rfl, .inr fun _ => .inl rfl⟩

/-- Functions that multiples pass through. -/
def Through (f : Option V → Option V) : Prop :=
  (∀ c x, f (Option.map (c * ·) x) = (f x).map (c * ·)) ∧ ∀ x, (x = none ∨ x = some 0) → f x = none ∨ f x = some 0

theorem Scaled.map {a a' : Arr (Option V)} (h : Scaled T w w' coords coords' a a') {f : Option V → Option V} (hf : Through f) :
    Scaled T w w' coords coords' (Grid.map f a) (Grid.map f a') := by
  obtain ⟨h1, h2, v, h3, h4, h5⟩ := h
  refine ⟨h1, h2, fun ρ => f (v ρ), fun ρ hρ => ?_, fun ρ hρ => ?_, ?_⟩
  · rw [at_map, h3 ρ hρ, hf.1]
  · rw [at_map, h4 ρ hρ, hf.1]
  · rcases h5 with h5 | h5
    · exact .inl h5
    · exact .inr fun ρ => hf.2 _ (h5 ρ)

theorem Scaled.zipPlain (hl : Labels T w w' coords coords') {a a' : Arr (Option V)} (h : Scaled T w w' coords coords' a a')
    {b b' : Arr β} (hb : Same T.names coords b b') (hn : b.dims.Nodup) {f : Option V → β → Option V}
    (hf : ∀ y, Through (fun x => f x y)) : Scaled T w w' coords coords' (Grid.zip f a b) (Grid.zip f a' b') := by
  obtain ⟨h1, h2, v, h3, h4, h5⟩ := h
  refine ⟨by simp only [Grid.zip, h1, hb.1], joinDims_nodup h2 hn, fun ρ => f (v ρ) (b'.at ρ), fun ρ hρ => ?_, fun ρ hρ => ?_, ?_⟩
  · rw [at_zip, h3 ρ fun d hd => hρ d (mem_joinDims.2 (.inl hd)), ← hb.2 ρ fun d hd => hρ d (mem_joinDims.2 (.inr hd))]
    exact (hf _).1 _ _
  · rw [at_zip, h4 ρ fun d hd => hρ d (mem_joinDims.2 (.inl hd))]
    exact (hf _).1 _ _
  · rcases h5 with h5 | h5
    · exact .inl (mem_joinDims.2 (.inl h5))
    · exact .inr fun ρ => (hf _).2 _ (h5 ρ)

theorem Scaled.plainZip (hl : Labels T w w' coords coords') {a a' : Arr (Option V)} (h : Scaled T w w' coords coords' a a')
    {b b' : Arr β} (hb : Same T.names coords b b') (hn : b.dims.Nodup) {f : β → Option V → Option V}
    (hf : ∀ y, Through (f y)) : Scaled T w w' coords coords' (Grid.zip f b a) (Grid.zip f b' a') := by
  obtain ⟨h1, h2, v, h3, h4, h5⟩ := h
  refine ⟨by simp only [Grid.zip, h1, hb.1], joinDims_nodup hn h2, fun ρ => f (b'.at ρ) (v ρ), fun ρ hρ => ?_, fun ρ hρ => ?_, ?_⟩
  · rw [at_zip, h3 ρ fun d hd => hρ d (mem_joinDims.2 (.inr hd)), ← hb.2 ρ fun d hd => hρ d (mem_joinDims.2 (.inl hd))]
    exact (hf _).1 _ _
  · rw [at_zip, h4 ρ fun d hd => hρ d (mem_joinDims.2 (.inr hd))]
    exact (hf _).1 _ _
  · rcases h5 with h5 | h5
    · exact .inl (mem_joinDims.2 (.inr h5))
    · exact .inr fun ρ => (hf _).2 _ (h5 ρ)

theorem Scaled.zip {a a' b b' : Arr (Option V)} (h : Scaled T w w' coords coords' a a')
    (hb : Scaled T w w' coords coords' b b') {f : Option V → Option V → Option V}
    (hf : ∀ c x y, f (Option.map (c * ·) x) (Option.map (c * ·) y) = (f x y).map (c * ·))
    (h0 : ∀ x y, (x = none ∨ x = some 0) → (y = none ∨ y = some 0) → f x y = none ∨ f x y = some 0) :
    Scaled T w w' coords coords' (Grid.zip f a b) (Grid.zip f a' b') := by
  obtain ⟨h1, h2, v, h3, h4, h5⟩ := h
  obtain ⟨b1, b2, u, b3, b4, b5⟩ := hb
  refine ⟨by simp only [Grid.zip, h1, b1], joinDims_nodup h2 b2, fun ρ => f (v ρ) (u ρ), fun ρ hρ => ?_, fun ρ hρ => ?_, ?_⟩
  · rw [at_zip, h3 ρ fun d hd => hρ d (mem_joinDims.2 (.inl hd)), b3 ρ fun d hd => hρ d (mem_joinDims.2 (.inr hd)), hf]
  · rw [at_zip, h4 ρ fun d hd => hρ d (mem_joinDims.2 (.inl hd)), b4 ρ fun d hd => hρ d (mem_joinDims.2 (.inr hd)), hf]
  · rcases h5 with h5 | h5
    · exact .inl (mem_joinDims.2 (.inl h5))
    · rcases b5 with b5 | b5
      · exact .inl (mem_joinDims.2 (.inr b5))
      · exact .inr fun ρ => h0 _ _ (h5 ρ) (b5 ρ)

theorem like_mask (hl : Labels T w w' coords coords') {k : Kind} {a a' : Arr (Option V)} (h : Like T w w' coords coords' k a a')
    {m m' : Arr Bool} (hm : Same T.names coords m m') (hn : m.dims.Nodup) :
    Like T w w' coords coords' k (maskArr m a) (maskArr m' a') := by
  cases k with
  | plain => exact ⟨h.1.zip hm _, joinDims_nodup h.2 hn⟩
  | scaled =>
    refine Scaled.zipPlain hl h hm hn fun y => ?_
    cases y <;> simp [Through]

/-! ### Sums of arrays -/

theorem total_mul (c : V) (l : List (Option V)) : total (l.map (Option.map (c * ·))) = (total l).map (c * ·) := by
  by_cases h : ∀ v ∈ l, v = none
  · have h' : ∀ v ∈ l.map (Option.map (c * ·)), v = none := by
      intro v hv
      obtain ⟨x, hx, rfl⟩ := List.mem_map.1 hv
      rw [h x hx]
      rfl
    rw [total_eq_none.2 h, total_eq_none.2 h']
    rfl
  · have h' : ¬ ∀ v ∈ l.map (Option.map (c * ·)), v = none := fun hn => h fun v hv => by
      have := hn _ (List.mem_map_of_mem hv)
      simpa using this
    unfold total
    rw [if_neg h, if_neg h', Option.map_some, ← List.sum_map_mul_left, List.map_map]
    congr 3
    funext v
    cases v <;> simp

theorem total_zero {l : List (Option V)} (h : ∀ v ∈ l, v = none ∨ v = some 0) : total l = none ∨ total l = some 0 := by
  by_cases hn : ∀ v ∈ l, v = none
  · exact .inl (total_eq_none.2 hn)
  · right
    unfold total
    rw [if_neg hn]
    congr 1
    refine List.sum_eq_zero fun x hx => ?_
    obtain ⟨v, hv, rfl⟩ := List.mem_map.1 hx
    rcases h v hv with h | h <;> simp [h]

theorem filter_not_mem {ds over : List String} (h : over.contains "timesteps" = false) :
    "timesteps" ∉ ds.filter (fun d => over.contains d) := by
  intro hm
  have := (List.mem_filter.1 hm).2
  rw [h] at this
  cases this

theorem like_sum (hl : Labels T w w' coords coords') {j k : Kind} {a a' : Arr (Option V)} (h : Like T w w' coords coords' j a a')
    {over : List String} (hk : sumKind over j = some k) :
    Like T w w' coords coords' k (sumArr coords over a) (sumArr coords' over a') := by
  have hnd : ∀ {b : Arr (Option V)} {c : String → List Label}, b.dims.Nodup → (sumArr c over b).dims.Nodup :=
    fun hb => hb.filter _
  cases j with
  | plain =>
    simp only [sumKind] at hk
    split at hk
    · cases hk
    · rename_i ho
      cases hk
      have hts := filter_not_mem (ds := a.dims) (Bool.eq_false_iff.2 ho)
      refine ⟨⟨by simp only [sumArr, Grid.reduce, h.1.1], fun ρ hρ => ?_⟩, hnd h.2⟩
      simp only [sumArr]
      rw [at_reduce, at_reduce, h.1.1, cells_kept hl hts]
      congr 1
      refine List.map_congr_left fun g hg => ?_
      rw [← h.1.2 _ (good_override hg hρ), ← move_override, zip_kept g hts (length_of_mem_cells hg)]
  | scaled =>
    obtain ⟨h1, h2, v, h3, h4, h5⟩ := h
    simp only [sumKind] at hk
    split at hk
    · rename_i ho
      cases hk
      refine ⟨⟨by simp only [sumArr, Grid.reduce, h1], fun ρ hρ => ?_⟩, hnd h2⟩
      simp only [sumArr]
      rw [at_reduce, at_reduce, h1, sumPresent_eq, sumPresent_eq]
      have good' : ∀ g ∈ cells coords' (a.dims.filter (fun d => over.contains d)), Good coords' a.dims
          (override (T.names.move ρ) (a.dims.filter (fun d => over.contains d)) g) :=
        fun g hg => good_override hg (good_move hl hρ)
      have e1 : (cells coords (a.dims.filter (fun d => over.contains d))).map (fun g =>
          a.at (override ρ (a.dims.filter (fun d => over.contains d)) g)) =
          (cells coords (a.dims.filter (fun d => over.contains d))).map (fun g =>
            (v (override (T.names.move ρ) (a.dims.filter (fun d => over.contains d))
              (List.zipWith T.names.of (a.dims.filter (fun d => over.contains d)) g))).map
                (w (override ρ (a.dims.filter (fun d => over.contains d)) g "timesteps") * ·)) := by
        refine List.map_congr_left fun g hg => ?_
        rw [h3 _ (good_override hg hρ), move_override]
      have e2 : (cells coords' (a.dims.filter (fun d => over.contains d))).map (fun g =>
          a'.at (override (T.names.move ρ) (a.dims.filter (fun d => over.contains d)) g)) =
          (cells coords' (a.dims.filter (fun d => over.contains d))).map (fun g =>
            (v (override (T.names.move ρ) (a.dims.filter (fun d => over.contains d)) g)).map
                (w' (override (T.names.move ρ) (a.dims.filter (fun d => over.contains d)) g "timesteps") * ·)) :=
        List.map_congr_left fun g hg => h4 _ (good' g hg)
      rw [e1, e2]
      have hnone : ∀ {x : Option V} {c : V}, x.map (c * ·) = none ↔ x = none := Option.map_eq_none_iff
      refine total_ext ?_ ?_
      · rw [total_eq_none, total_eq_none]
        simp only [List.mem_map, forall_exists_index, and_imp, forall_apply_eq_imp_iff₂, hnone, cells_mem hl.covers.mem]
      · rw [List.map_map, List.map_map]
        have hget : ∀ (x : Option V) (c : V), (x.map (c * ·)).getD 0 = c * x.getD 0 := by
          intro x c
          cases x <;> simp
        simp only [Function.comp_def, hget]
        rcases h5 with h5 | h5
        · exact (sum_cells hl (a.dims.filter (fun d => over.contains d)) ρ (T.names.move ρ)
            (fun g => (v (override (T.names.move ρ) (a.dims.filter (fun d => over.contains d)) g)).getD 0)
            (h2.filter _) (List.mem_filter.2 ⟨h5, ho⟩)).symm
        · have hz : ∀ ρ, (v ρ).getD 0 = 0 := by
            intro ρ
            rcases h5 ρ with h | h <;> simp [h]
          simp only [hz, mul_zero]
          rw [List.sum_eq_zero (by simp), List.sum_eq_zero (by simp)]
    · rename_i ho
      cases hk
      have hts := filter_not_mem (ds := a.dims) (Bool.eq_false_iff.2 ho)
      refine ⟨by simp only [sumArr, Grid.reduce, h1], hnd h2, fun ρ => total ((cells coords (a.dims.filter (fun d =>
        over.contains d))).map (fun g => v (override ρ (a.dims.filter (fun d => over.contains d)) g))), fun ρ hρ => ?_,
        fun ρ hρ => ?_, ?_⟩
      · simp only [sumArr]
        rw [at_reduce, sumPresent_eq, ← total_mul, List.map_map]
        congr 1
        refine List.map_congr_left fun g hg => ?_
        rw [h3 _ (good_override hg hρ), ← move_override, zip_kept g hts (length_of_mem_cells hg),
          (along_override hg).1 _ hts]
        rfl
      · simp only [sumArr]
        rw [at_reduce, h1, sumPresent_eq, ← total_mul, List.map_map, cells_kept hl hts]
        congr 1
        refine List.map_congr_left fun g hg => ?_
        rw [← cells_kept hl hts] at hg
        rw [h4 _ (good_override hg hρ), (along_override hg).1 _ hts]
        rfl
      · rcases h5 with h5 | h5
        · exact .inl (List.mem_filter.2 ⟨h5, by simpa using ho⟩)
        · exact .inr fun ρ => total_zero fun x hx => by
            obtain ⟨g, _, rfl⟩ := List.mem_map.1 hx
            exact h5 _

end Sums

end Typical
end Calliope
