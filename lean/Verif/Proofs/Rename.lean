import Verif.Spec.Rename
import Verif.Proofs.Measure
import Verif.Proofs.Expr

/-!
# Arrays under new names
-/

namespace Calliope
namespace Rename

open Grid Expr Build BaseMath Assemble
open Units (Both)

variable {α β γ V : Type} {R : Renaming} {coords coords' : String → List Label}

/-- An item of an array. -/
def Good (coords : String → List Label) (ds : List String) (ρ : Point) : Prop := ∀ d ∈ ds, ρ d ∈ coords d

/-- The labels of dimensions under new names, of which several labels may get the same. -/
structure Covers (R : Renaming) (coords coords' : String → List Label) : Prop where
  kept : ∀ d, R.free d = false → coords' d = coords d ∧ ∀ l, R.of d l = l
  mem : ∀ d l', l' ∈ coords' d ↔ ∃ l ∈ coords d, R.of d l = l'
  dated : ∀ d, R.dated d = true → coords' d = (coords d).map (R.of d) ∧ ∀ l l', R.of d l = R.of d l' → l = l'

theorem Covers.move_kept (h : Covers R coords coords') {d : String} (hd : R.free d = false) (ρ : Point) :
    R.move ρ d = ρ d := (h.kept d hd).2 _

theorem covers (h : Relabelled R coords coords') : Covers R coords coords' :=
  ⟨h.kept, fun d l' => by rw [(h.moved d).mem_iff, List.mem_map], h.dated⟩

theorem move_kept (h : Relabelled R coords coords') {d : String} (hd : R.free d = false) (ρ : Point) :
    R.move ρ d = ρ d := (h.kept d hd).2 _

theorem move_set (h : Relabelled R coords coords') {d : String} (hd : R.free d = false) (ρ : Point) (l : Label) :
    R.move (set ρ d l) = set (R.move ρ) d l := by
  funext x
  simp only [Renaming.move, Expr.set]
  by_cases hx : x = d
  · subst hx
    simp only [if_true]
    exact (h.kept _ hd).2 _
  · simp only [hx, if_false]

/-- Dimensions that keep their order. -/
theorem Relabelled.steady (h : Relabelled R coords coords') {d : String} (hd : R.free d = false ∨ R.dated d = true) :
    coords' d = (coords d).map (R.of d) ∧ ∀ l l', R.of d l = R.of d l' → l = l' := by
  rcases hd with hd | hd
  · obtain ⟨h1, h2⟩ := h.kept d hd
    refine ⟨?_, fun l l' e => by rwa [h2, h2] at e⟩
    rw [h1, funext h2, List.map_id']
  · exact h.dated d hd

theorem moved_set (ρ : Point) (d : String) (l : Label) : R.move (set ρ d l) = set (R.move ρ) d (R.of d l) := by
  funext x
  simp only [Renaming.move, Expr.set]
  by_cases hx : x = d
  · subst hx
    simp
  · simp only [hx, if_false]

theorem mem_moved {f : Label → Label} (hf : ∀ l l', f l = f l' → l = l') {labels : List Label} {l : Label} :
    f l ∈ labels.map f ↔ l ∈ labels := by
  rw [List.mem_map]
  exact ⟨fun ⟨x, hx, e⟩ => hf _ _ e ▸ hx, fun h => ⟨l, h, rfl⟩⟩

theorem idxOf_moved {f : Label → Label} (hf : ∀ l l', f l = f l' → l = l') (l : Label) : ∀ (labels : List Label),
    (labels.map f).idxOf (f l) = labels.idxOf l
  | [] => rfl
  | x :: xs => by
    rw [List.map_cons, List.idxOf_cons, List.idxOf_cons, idxOf_moved hf l xs]
    by_cases hx : x = l
    · subst hx; simp
    · have : f x ≠ f l := fun e => hx (hf _ _ e)
      rw [beq_false_of_ne this, beq_false_of_ne hx]

theorem pyIndex_moved (f : Label → Label) (labels : List Label) (i : Int) :
    Expr.pyIndex (labels.map f) i = (Expr.pyIndex labels i).map f := by
  unfold Expr.pyIndex
  rw [List.length_map]
  split
  · rw [List.getElem?_map]
  · split
    · rw [List.getElem?_map]
    · rfl

/-! ### Pointwise -/

theorem same_scalar (v : α) : Same R coords (scalar v) (scalar v) := ⟨rfl, fun _ _ => rfl⟩

theorem Same.map {a a' : Arr α} (h : Same R coords a a') (f : α → β) : Same R coords (map f a) (map f a') :=
  ⟨h.1, fun ρ hρ => by rw [at_map, at_map, h.2 ρ hρ]⟩

theorem Same.zip {a a' : Arr α} {b b' : Arr β} (h : Same R coords a a') (h' : Same R coords b b') (f : α → β → γ) :
    Same R coords (zip f a b) (zip f a' b') := by
  refine ⟨by simp only [Grid.zip, h.1, h'.1], fun ρ hρ => ?_⟩
  rw [at_zip, at_zip, h.2 ρ fun d hd => hρ d (mem_joinDims.2 (.inl hd)),
    h'.2 ρ fun d hd => hρ d (mem_joinDims.2 (.inr hd))]

/-! ### Along dimensions -/

/-- All combinations of labels, renamed. -/
theorem cells_perm (h : ∀ d, (coords' d).Perm ((coords d).map (R.of d))) : ∀ (ds : List String),
    (cells coords' ds).Perm ((cells coords ds).map (fun c => List.zipWith R.of ds c))
  | [] => by simp [cells]
  | d :: ds => by
    simp only [cells, List.map_flatMap, List.map_map]
    have hr := cells_perm h ds
    refine ((h d).flatMap_right _).trans ?_
    rw [List.flatMap_map]
    refine List.Perm.flatMap_left _ fun l _ => ?_
    refine (hr.map _).trans ?_
    rw [List.map_map]
    exact List.Perm.of_eq (List.map_congr_left fun c _ => by simp)

theorem move_override (ρ : Point) : ∀ (ds : List String) (g : List Label),
    override (R.move ρ) ds (List.zipWith R.of ds g) = R.move (override ρ ds g)
  | [], g => by
    funext d
    simp [override, Renaming.move]
  | e :: ds, [] => by
    funext d
    simp [override, Renaming.move]
  | e :: ds, l :: g => by
    rw [List.zipWith_cons_cons, override_cons, override_cons, move_override ρ ds g]
    funext x
    simp only [Renaming.move, Expr.set]
    by_cases hx : x = e
    · subst hx
      simp
    · simp [hx]

theorem Same.reduce {a a' : Arr α} (h : Same R coords a a') {f : List α → β} (hf : ∀ l l', l.Perm l' → f l = f l')
    {cs cs' : String → List Label} (hc : ∀ d, (cs' d).Perm ((cs d).map (R.of d)))
    (hin : ∀ d, ∀ l ∈ cs d, l ∈ coords d) (over : List String) :
    Same R coords (Grid.reduce cs f over a) (Grid.reduce cs' f over a') := by
  refine ⟨by simp only [Grid.reduce, h.1], fun ρ hρ => ?_⟩
  rw [at_reduce, at_reduce]
  refine hf _ _ ?_
  rw [h.1]
  refine ((cells_perm hc _).map _).trans ?_
  rw [List.map_map]
  refine List.Perm.of_eq (List.map_congr_left fun g hg => ?_)
  simp only [Function.comp, move_override]
  refine h.2 _ fun d hd => ?_
  by_cases hm : d ∈ a.dims.filter (fun d => over.contains d)
  · exact hin d _ (mem_of_cells hg d hm)
  · rw [(along_override hg).1 d hm]
    refine hρ d ?_
    simp only [List.mem_filter, not_and, Bool.not_eq_true] at hm
    exact List.mem_filter.2 ⟨hd, by rw [hm hd]; rfl⟩

theorem cells_mem (h : ∀ d l', l' ∈ coords' d ↔ ∃ l ∈ coords d, R.of d l = l') : ∀ (ds : List String) (c' : List Label),
    c' ∈ cells coords' ds ↔ ∃ c ∈ cells coords ds, List.zipWith R.of ds c = c'
  | [], c' => by
    simp only [cells, List.mem_singleton, List.zipWith_nil_left]
    constructor
    · rintro rfl
      exact ⟨[], rfl, rfl⟩
    · rintro ⟨_, _, rfl⟩
      rfl
  | d :: ds, c' => by
    simp only [cells, List.mem_flatMap, List.mem_map, h d, cells_mem h ds]
    constructor
    · rintro ⟨_, ⟨l, hl, rfl⟩, _, ⟨c, hc, rfl⟩, rfl⟩
      exact ⟨l :: c, ⟨l, hl, c, hc, rfl⟩, rfl⟩
    · rintro ⟨_, ⟨l, hl, c, hc, rfl⟩, rfl⟩
      exact ⟨_, ⟨l, hl, rfl⟩, _, ⟨c, hc, rfl⟩, rfl⟩

/-- Of what depends only on which values there are. -/
theorem Same.reduce_mem {a a' : Arr α} (h : Same R coords a a') {f : List α → β}
    (hf : ∀ l l', (∀ x, x ∈ l ↔ x ∈ l') → f l = f l') {cs cs' : String → List Label}
    (hc : ∀ d l', l' ∈ cs' d ↔ ∃ l ∈ cs d, R.of d l = l') (hin : ∀ d, ∀ l ∈ cs d, l ∈ coords d) (over : List String) :
    Same R coords (Grid.reduce cs f over a) (Grid.reduce cs' f over a') := by
  refine ⟨by simp only [Grid.reduce, h.1], fun ρ hρ => ?_⟩
  rw [at_reduce, at_reduce]
  refine hf _ _ fun x => ?_
  rw [h.1]
  have key : ∀ g ∈ cells cs (a.dims.filter (fun d => over.contains d)),
      a'.at (override (R.move ρ) (a.dims.filter (fun d => over.contains d))
        (List.zipWith R.of (a.dims.filter (fun d => over.contains d)) g)) =
      a.at (override ρ (a.dims.filter (fun d => over.contains d)) g) := by
    intro g hg
    rw [move_override]
    refine h.2 _ fun d hd => ?_
    by_cases hm : d ∈ a.dims.filter (fun d => over.contains d)
    · exact hin d _ (mem_of_cells hg d hm)
    · rw [(along_override hg).1 d hm]
      refine hρ d ?_
      simp only [List.mem_filter, not_and, Bool.not_eq_true] at hm
      exact List.mem_filter.2 ⟨hd, by rw [hm hd]; rfl⟩
  simp only [List.mem_map, cells_mem hc]
  constructor
  · rintro ⟨_, ⟨g, hg, rfl⟩, rfl⟩
    exact ⟨g, hg, (key g hg).symm⟩
  · rintro ⟨g, hg, rfl⟩
    exact ⟨_, ⟨g, hg, rfl⟩, key g hg⟩

theorem Same.anyCell {a a' : Arr Bool} (h : Same R coords a a') (hc : Covers R coords coords') :
    Grid.anyCell coords' a' = Grid.anyCell coords a := by
  have hr := h.reduce_mem (f := fun l => l.any id) (fun l l' hl => by
    rw [Bool.eq_iff_iff]
    simp only [List.any_eq_true, hl]) hc.mem (fun _ _ hl => hl) a.dims
  have hd : (Grid.reduce coords (fun l => l.any id) a.dims a).dims = [] := by
    simp [Grid.reduce, List.filter_eq_nil_iff]
  have := hr.2 (fun _ => "") (by rw [hd]; simp)
  simp only [Arr.at, hr.1, hd, List.map_nil] at this
  simp only [Grid.anyCell, h.1]
  exact this

theorem Same.transpose {a a' : Arr α} (h : Same R coords a a') (sets : List String) :
    Option.Rel (Same R coords) (Grid.transpose sets a) (Grid.transpose sets a') := by
  cases he : Grid.transpose sets a with
  | none =>
    simp only [Grid.transpose, h.1] at he ⊢
    split at he
    · cases he
    · rename_i hn
      rw [if_neg hn]
      exact .none
  | some b =>
    cases he' : Grid.transpose sets a' with
    | none =>
      simp only [Grid.transpose, h.1] at he he'
      split at he'
      · cases he'
      · rename_i hn
        rw [if_neg hn] at he
        cases he
    | some b' =>
      refine .some ⟨?_, fun ρ hρ => ?_⟩
      · simp only [Grid.transpose] at he he'
        split at he
        · split at he'
          · cases he
            cases he'
            rfl
          · cases he'
        · cases he
      · rw [at_transpose he, at_transpose he']
        refine h.2 ρ fun d hd => hρ d ?_
        simp only [Grid.transpose] at he
        split at he
        · rename_i hcond
          simp only [Bool.and_eq_true, List.all_eq_true, List.contains_eq_mem, decide_eq_true_eq] at hcond
          cases he
          exact hcond.1 d hd
        · cases he

/-- Something about all items. -/
theorem cells_forall (hc : Relabelled R coords coords') {a a' : Arr α} (h : Same R coords a a') (hn : a.dims.Nodup)
    (p : α → Bool) : (cells coords' a'.dims).all (fun c => p (a'.val c)) = (cells coords a.dims).all (fun c => p (a.val c)) := by
  rw [h.1, Bool.eq_iff_iff]
  simp only [List.all_eq_true, (cells_perm hc.moved a.dims).mem_iff, List.mem_map, forall_exists_index, and_imp,
    forall_apply_eq_imp_iff₂]
  refine forall₂_congr fun c hm => ?_
  have hl := length_of_mem_cells hm
  have e1 : a.val c = a.at (override (fun _ => "") a.dims c) := by
    unfold Arr.at
    rw [map_override _ _ _ hn hl]
  have e2 : a'.val (List.zipWith R.of a.dims c) = a'.at (R.move (override (fun _ => "") a.dims c)) := by
    unfold Arr.at
    rw [← move_override, h.1, map_override _ _ _ hn (by simp [hl])]
  rw [e1, e2, h.2 _ fun d hd => mem_of_cells hm d hd]

/-! ### Sums -/

theorem sumPresent_perm [AddCommMonoid V] {l l' : List (Option V)} (h : l.Perm l') : sumPresent l = sumPresent l' := by
  rw [sumPresent_eq, sumPresent_eq, total_perm h]

theorem same_sum [AddCommMonoid V] (hc : Relabelled R coords coords') {a a' : Arr (Option V)} (h : Same R coords a a')
    (over : List String) : Same R coords (sumArr coords over a) (sumArr coords' over a') :=
  h.reduce (fun _ _ hl => sumPresent_perm hl) hc.moved (fun _ _ hl => hl) over

theorem same_mask {w w' : Arr Bool} {a a' : Arr (Option V)} (hw : Same R coords w w') (h : Same R coords a a') :
    Same R coords (maskArr w a) (maskArr w' a') := h.zip hw _

/-! ### Shifts -/

theorem shiftLabel_mem {labels : List Label} {l : Label} (n : Int) (h : l ∈ labels) : shiftLabel labels n l ∈ labels := by
  have hp : 0 < labels.length := List.length_pos_of_mem h
  have h1 := Int.emod_nonneg ((labels.idxOf l : Int) - n) (show (labels.length : Int) ≠ 0 by omega)
  have h2 := Int.emod_lt_of_pos ((labels.idxOf l : Int) - n) (show (0 : Int) < labels.length by omega)
  unfold shiftLabel
  rw [List.getD_eq_getElem?_getD, List.getElem?_eq_getElem (show _ < labels.length by omega)]
  exact List.getElem_mem _

theorem rollArr_at (d : String) (n : Int) (a : Arr (Option V)) (ρ : Point) :
    (rollArr coords d n a).at ρ = a.at (set ρ d (shiftLabel (coords d) n (ρ d))) := by
  show a.val (atDim _ d a.dims (a.dims.map ρ)) = _
  rw [atDim_map]
  rfl

theorem good_set {ds : List String} {ρ : Point} (hρ : Good coords ds ρ) {d : String} {l : Label} (hl : l ∈ coords d) :
    Good coords ds (set ρ d l) := by
  intro x hx
  by_cases he : x = d
  · subst he
    rwa [set_same]
  · rw [set_other _ _ he]
    exact hρ x hx

theorem shiftLabel_moved {f : Label → Label} (hf : ∀ l l', f l = f l' → l = l') {labels : List Label} {l : Label} (n : Int) :
    shiftLabel (labels.map f) n (f l) = f (shiftLabel labels n l) := by
  unfold shiftLabel
  rw [idxOf_moved hf, List.length_map, List.getD_eq_getElem?_getD, List.getD_eq_getElem?_getD, List.getElem?_map]
  cases labels[((labels.idxOf l - n) % (labels.length : Int)).toNat]? <;> rfl

theorem same_roll {α : Type} (hc : Relabelled R coords coords') : ∀ (shifts : List (String × Int)) {a a' : Arr (Option α)},
    (∀ p ∈ shifts, R.free p.1 = false ∨ R.dated p.1 = true) → Same R coords a a' →
    Both (Same R coords) (rollAll coords shifts a) (rollAll coords' shifts a')
  | [], _, _, _, h => h
  | (d, n) :: rest, a, a', hf, h => by
    simp only [rollAll, h.1]
    split
    · rename_i hm
      simp only [List.contains_eq_mem, decide_eq_true_eq] at hm
      have hd := hf _ List.mem_cons_self
      refine same_roll hc rest (fun p hp => hf p (List.mem_cons_of_mem _ hp)) ⟨h.1, fun ρ hρ => ?_⟩
      obtain ⟨k1, k2⟩ := hc.steady hd
      rw [rollArr_at, rollArr_at, k1, show R.move ρ d = R.of d (ρ d) from rfl, shiftLabel_moved k2, ← moved_set]
      exact h.2 _ (good_set hρ (shiftLabel_mem n (hρ d hm)))
    · exact rfl

theorem same_next [AddCommMonoid V] (hc : Relabelled R coords coords') {d : String} (hd : R.free d = false) (n : Int)
    {a a' : Arr (Option V)} (h : Same R coords a a') :
    Both (Same R coords) (nextArr coords d n a) (nextArr coords' d n a') := by
  simp only [nextArr, h.1]
  split
  · rename_i hm
    simp only [List.contains_eq_mem, decide_eq_true_eq] at hm
    refine ⟨rfl, fun ρ hρ => ?_⟩
    have hp : ∀ ρ : Point, (pick a.dims (a.dims.map ρ) [d]).headD "" = ρ d := by
      intro ρ
      rw [pick_map ρ _ _ (by simpa using hm)]
      rfl
    show sumPresent _ = sumPresent _
    simp only [hp, move_kept hc hd, (hc.kept d hd).1]
    congr 1
    refine List.map_congr_left fun l hl => ?_
    have hl' : l ∈ coords d := by
      unfold pySlice at hl
      exact List.mem_of_mem_take (List.mem_of_mem_drop hl)
    rw [atDim_map, atDim_map, ← move_set hc hd]
    have := h.2 _ (good_set hρ hl')
    unfold Arr.at at this
    rwa [h.1] at this
  · exact rfl

/-! ### Groups -/

theorem same_group [AddCommMonoid V] (hc : Relabelled R coords coords') {a a' : Arr (Option V)} (h : Same R coords a a')
    {g g' : Arr (Option Label)} (hg : Same R coords g g') (hn : g.dims.Nodup) {gd : String} (hd : R.free gd = false) :
    Both (Same R coords) (groupArr coords a g gd) (groupArr coords' a' g' gd) := by
  have hall := cells_forall hc hg hn Option.isNone
  simp only [groupArr, h.1, hg.1] at hall ⊢
  split
  · rename_i hsub
    simp only [List.all_eq_true, List.contains_eq_mem, decide_eq_true_eq] at hsub
    rw [hall]
    split
    · exact rfl
    · split
      · exact rfl
      · refine ⟨rfl, fun ρ hρ => ?_⟩
        show sumPresent _ = sumPresent _
        have hval : ∀ (ρ : Point) (a : Arr (Option V)) (k : List Label), k.length = g.dims.length →
            (∀ d ∈ a.dims, d ∈ g.dims ∨ d ∈ a.dims.filter (fun d => !g.dims.contains d)) →
            a.val (pick (a.dims.filter (fun d => !g.dims.contains d) ++ g.dims)
              ((a.dims.filter (fun d => !g.dims.contains d)).map ρ ++ k) a.dims) = a.at (override ρ g.dims k) := by
          intro ρ a k hk hw
          rw [pick_append ρ _ _ _ _ (fun d hd => List.mem_append.2 (hw d hd).symm) ?_ hk]
          · rfl
          · intro d hd
            simpa using (List.mem_filter.1 hd).2
        have hw : ∀ d ∈ a.dims, d ∈ g.dims ∨ d ∈ a.dims.filter (fun d => !g.dims.contains d) := by
          intro d hd
          by_cases hm : d ∈ g.dims
          · exact .inl hm
          · exact .inr (List.mem_filter.2 ⟨hd, by simp [hm]⟩)
        refine sumPresent_perm ?_
        refine (((cells_perm hc.moved g.dims).filter _).map _).trans ?_
        rw [List.filter_map, List.map_map]
        have hk : ∀ k ∈ cells coords g.dims, Good coords g.dims (override ρ g.dims k) := fun k hk d hd =>
          mem_of_cells hk d hd
        have hgv : ∀ k ∈ cells coords g.dims, g'.val (List.zipWith R.of g.dims k) = g.val k := by
          intro k hkm
          have hl := length_of_mem_cells hkm
          have e1 : g.val k = g.at (override ρ g.dims k) := by
            unfold Arr.at
            rw [map_override _ _ _ hn hl]
          have e2 : g'.val (List.zipWith R.of g.dims k) = g'.at (R.move (override ρ g.dims k)) := by
            unfold Arr.at
            rw [← move_override, hg.1, map_override _ _ _ hn (by simp [hl])]
          rw [e1, e2, hg.2 _ (hk k hkm)]
        have hfilter : (cells coords g.dims).filter ((fun k => decide (g'.val k = some (R.move ρ gd))) ∘
            fun c => List.zipWith R.of g.dims c) = (cells coords g.dims).filter (fun k => decide (g.val k = some (ρ gd))) := by
          refine List.filter_congr fun k hkm => ?_
          simp only [Function.comp, hgv k hkm, move_kept hc hd]
        refine List.Perm.of_eq ?_
        show List.map _ ((cells coords g.dims).filter ((fun k => decide (g'.val k = some (R.move ρ gd))) ∘
            fun c => List.zipWith R.of g.dims c)) = _
        rw [hfilter]
        refine List.map_congr_left fun k hkf => ?_
        have hkm := (List.mem_filter.1 hkf).1
        have hl := length_of_mem_cells hkm
        have e1 := hval ρ a k hl hw
        have e2 := hval (R.move ρ) a' (List.zipWith R.of g.dims k) (by simp [hl]) (by rw [h.1]; exact hw)
        rw [h.1] at e2
        simp only [Function.comp]
        refine e2.trans (Eq.trans ?_ e1.symm)
        rw [move_override]
        refine h.2 _ fun d hd' => ?_
        by_cases hm : d ∈ g.dims
        · exact hk k hkm d hm
        · rw [(along_override hkm).1 d hm]
          exact hρ d (List.mem_cons_of_mem _ ((hw d hd').resolve_left hm))
  · exact rfl

/-! ### Looking up -/

/-- Lookup arrays for the same dimensions. -/
def Looks (R : Renaming) (coords : String → List Label) (p p' : String × Arr (Option Label)) : Prop :=
  p'.1 = p.1 ∧ (R.free p.1 = false ∨ R.dated p.1 = true) ∧ p.2.dims.Nodup ∧
    Same R coords (map (Option.map (R.of p.1)) p.2) p'.2

theorem Looks.dims {p p' : String × Arr (Option Label)} (h : Looks R coords p p') : p'.2.dims = p.2.dims := h.2.2.2.1

theorem looked_move (hc : Relabelled R coords coords') {ρ0 : Point} : ∀ {gs gs' : List (String × Arr (Option Label))},
    List.Forall₂ (Looks R coords) gs gs' → (∀ p ∈ gs, Good coords p.2.dims ρ0) → ∀ ρ,
    looked coords' (R.move ρ0) gs' (R.move ρ) = (looked coords ρ0 gs ρ).map R.move ∧
      ∀ σ, looked coords ρ0 gs ρ = some σ → ∀ d, (d ∈ gs.map Prod.fst → σ d ∈ coords d) ∧
        (d ∉ gs.map Prod.fst → σ d = ρ d)
  | [], [], _, _, ρ => ⟨rfl, fun σ h d => by
      simp only [looked, Option.some.injEq] at h
      subst h
      simp⟩
  | (d, g) :: gs, (d', g') :: gs', .cons h hs, hg, ρ => by
    obtain ⟨e, hd, _, h⟩ := h
    simp only at e
    subst e
    obtain ⟨i1, i2⟩ := looked_move hc hs (fun p hp => hg p (List.mem_cons_of_mem _ hp)) ρ
    obtain ⟨k1, k2⟩ := hc.steady hd
    simp only [looked, h.2 _ (hg _ List.mem_cons_self), at_map, k1]
    cases hl : g.at ρ0 with
    | none => exact ⟨rfl, fun σ h => by cases h⟩
    | some l =>
      simp only [Option.map_some, mem_moved k2]
      split
      · rename_i hm
        rw [i1]
        refine ⟨?_, ?_⟩
        · cases looked coords ρ0 gs ρ with
          | none => rfl
          | some σ => simp only [Option.map_some, moved_set]
        · intro σ hσ x
          cases hr : looked coords ρ0 gs ρ with
          | none =>
            rw [hr] at hσ
            cases hσ
          | some τ =>
            rw [hr] at hσ
            simp only [Option.map_some, Option.some.injEq] at hσ
            subst hσ
            obtain ⟨j1, j2⟩ := i2 τ hr x
            simp only [List.map_cons, List.mem_cons, not_or]
            by_cases hx : x = d'
            · subst hx
              rw [set_same]
              exact ⟨fun _ => hm, fun h => absurd rfl h.1⟩
            · rw [set_other _ _ hx]
              exact ⟨fun h => j1 (h.resolve_left hx), fun h => j2 h.2⟩
      · exact ⟨rfl, fun σ h => by cases h⟩

theorem looks_fst : ∀ {gs gs' : List (String × Arr (Option Label))}, List.Forall₂ (Looks R coords) gs gs' →
    gs'.map Prod.fst = gs.map Prod.fst ∧ gs'.map (fun p => p.2.dims) = gs.map (fun p => p.2.dims)
  | _, _, .nil => ⟨rfl, rfl⟩
  | _, _, .cons h hs => by
    obtain ⟨i1, i2⟩ := looks_fst hs
    simp only [List.map_cons, i1, i2, h.1, h.dims, and_self]

theorem looks_all (hc : Relabelled R coords coords') {f : (String → List Label) → String × Arr (Option Label) → Bool}
    (hf : ∀ p p', Looks R coords p p' → f coords' p' = f coords p) : ∀ {gs gs' : List (String × Arr (Option Label))},
    List.Forall₂ (Looks R coords) gs gs' → gs'.all (f coords') = gs.all (f coords) ∧ gs'.any (f coords') = gs.any (f coords)
  | _, _, .nil => ⟨rfl, rfl⟩
  | _, _, .cons h hs => by
    obtain ⟨i1, i2⟩ := looks_all hc hf hs
    simp only [List.all_cons, List.any_cons, i1, i2, hf _ _ h, and_self]

theorem noMatch_same (hc : Relabelled R coords coords') (p p' : String × Arr (Option Label)) (h : Looks R coords p p') :
    noMatch coords' p' = noMatch coords p := by
  obtain ⟨h1, h2, h3, h4⟩ := h
  obtain ⟨k1, k2⟩ := hc.steady h2
  have := cells_forall hc h4 h3 (fun v => match v with
    | some l => !(coords' p.1).contains l
    | none => true)
  simp only [noMatch, h1]
  refine this.trans ?_
  show (cells coords p.2.dims).all _ = _
  congr 1
  funext c
  show (match (p.2.val c).map (R.of p.1) with
    | some l => !(coords' p.1).contains l
    | none => true) = _
  cases p.2.val c with
  | none => rfl
  | some l => simp only [Option.map_some, k1, List.contains_eq_mem, mem_moved k2]

theorem allMatch_same (hc : Relabelled R coords coords') (p p' : String × Arr (Option Label)) (h : Looks R coords p p') :
    allMatch coords' p' = allMatch coords p := by
  obtain ⟨h1, h2, h3, h4⟩ := h
  obtain ⟨k1, k2⟩ := hc.steady h2
  have := cells_forall hc h4 h3 (fun v => match v with
    | some l => (coords' p.1).contains l
    | none => false)
  simp only [allMatch, h1]
  refine this.trans ?_
  show (cells coords p.2.dims).all _ = _
  congr 1
  funext c
  show (match (p.2.val c).map (R.of p.1) with
    | some l => (coords' p.1).contains l
    | none => false) = _
  cases p.2.val c with
  | none => rfl
  | some l => simp only [Option.map_some, k1, List.contains_eq_mem, mem_moved k2]

theorem all_map {β : Type} (f : List String → β → Bool) (g : String × Arr (Option Label) → β) (gs : List (String × Arr (Option Label)))
    (ds : List String) : gs.all (fun p => f ds (g p)) = (gs.map g).all (f ds) := by
  rw [List.all_map]
  rfl

theorem same_select (hc : Relabelled R coords coords') {a a' : Arr (Option V)} (h : Same R coords a a')
    {gs gs' : List (String × Arr (Option Label))} (hg : List.Forall₂ (Looks R coords) gs gs') :
    Both (Same R coords) (selectArr coords a gs) (selectArr coords' a' gs') := by
  obtain ⟨f1, f2⟩ := looks_fst hg
  have e1 := all_map (fun ds (k : List String) => ds.all (k.contains ·)) (fun p => p.2.dims) gs
  have e1' := all_map (fun ds (k : List String) => ds.all (k.contains ·)) (fun p => p.2.dims) gs'
  have e2 := all_map (fun ds (k : List String) => k.all (ds.contains ·)) (fun p => p.2.dims) gs
  have e2' := all_map (fun ds (k : List String) => k.all (ds.contains ·)) (fun p => p.2.dims) gs'
  simp only [selectArr, h.1, f1, e1, e1', e2, e2', f2, (looks_all hc (f := noMatch) (noMatch_same hc) hg).2]
  split
  · split
    · split
      · rename_i h3
        split
        · exact rfl
        · refine ⟨rfl, fun ρ hρ => ?_⟩
          rw [← e2] at h3
          simp only [List.all_eq_true, List.contains_eq_mem, decide_eq_true_eq] at h3
          have h3' : ∀ p ∈ gs', ∀ d ∈ p.2.dims, d ∈ gs.map Prod.fst := by
            intro p hp
            obtain ⟨q, hq, hl⟩ := forall₂_right hg p hp
            rw [hl.dims]
            exact h3 q hq
          have hl := lookLabels_looked coords
            (a.dims.filter (fun d => !(gs.map Prod.fst).contains d) ++ gs.map Prod.fst) ρ gs
            (fun p hp d hd => List.mem_append.2 (.inr (h3 p hp d hd)))
          have hl' := lookLabels_looked coords'
            (a.dims.filter (fun d => !(gs.map Prod.fst).contains d) ++ gs.map Prod.fst) (R.move ρ) gs'
            (fun p hp d hd => List.mem_append.2 (.inr (h3' p hp d hd)))
          obtain ⟨m1, m2⟩ := looked_move hc hg (ρ0 := ρ) (fun p hp d hd => hρ d (List.mem_append.2 (.inr (h3 p hp d hd)))) ρ
          have hmem : ∀ d, d ∈ a.dims → d ∈ a.dims.filter (fun d => !(gs.map Prod.fst).contains d) ++
              gs.map Prod.fst := by
            intro d hd
            rw [List.mem_append, List.mem_filter]
            by_cases hg : d ∈ gs.map Prod.fst
            · exact .inr hg
            · exact .inl ⟨hd, by simp only [List.contains_eq_mem, hg, decide_false, Bool.not_false]⟩
          have hdis : ∀ d ∈ a.dims.filter (fun d => !(gs.map Prod.fst).contains d),
              d ∉ gs.map Prod.fst := by
            intro d hd
            have := (List.mem_filter.1 hd).2
            simpa only [List.contains_eq_mem, Bool.not_eq_true', decide_eq_false_iff_not] using this
          show (match lookLabels coords' _ (List.map (R.move ρ) _) gs' with
            | some ls => a'.val (pick _ (List.take _ (List.map (R.move ρ) _) ++ ls) a.dims)
            | none => none) = (match lookLabels coords _ (List.map ρ _) gs with
            | some ls => a.val (pick _ (List.take _ (List.map ρ _) ++ ls) a.dims)
            | none => none)
          rw [hl.2] at m1 m2
          rw [hl'.2] at m1
          cases hlk : lookLabels coords (a.dims.filter (fun d => !(gs.map Prod.fst).contains d) ++ gs.map Prod.fst)
              (List.map ρ (a.dims.filter (fun d => !(gs.map Prod.fst).contains d) ++ gs.map Prod.fst)) gs with
          | none =>
            rw [hlk] at m1
            simp only [Option.map_none, Option.map_eq_none_iff] at m1
            rw [m1]
          | some ls =>
            rw [hlk] at m1 m2
            simp only [Option.map_some, Option.map_eq_some_iff] at m1
            obtain ⟨ls', e3, e4⟩ := m1
            rw [e3]
            simp only
            rw [List.map_append, List.take_left' (by rw [List.length_map]),
              pick_append (R.move ρ) _ _ _ _ hmem hdis (by rw [hl'.1 ls' e3, List.length_map, hg.length_eq]),
              List.map_append, List.take_left' (by rw [List.length_map]),
              pick_append ρ _ _ _ _ hmem hdis (by rw [hl.1 ls hlk, List.length_map]), ← f1, e4, f1]
            have := h.2 (override ρ (gs.map Prod.fst) ls) fun d hd => by
              obtain ⟨j1, j2⟩ := m2 _ rfl d
              by_cases hx : d ∈ gs.map Prod.fst
              · exact j1 hx
              · have := j2 hx
                simp only at this
                rw [this]
                exact hρ d (hmem d hd)
            unfold Arr.at at this
            rwa [h.1] at this
      · exact rfl
    · exact rfl
  · exact rfl

theorem foldl_dims {gs gs' : List (String × Arr (Option Label))} (h : List.Forall₂ (Looks R coords) gs gs') :
    ∀ k, gs'.foldl (fun k p => joinDims k p.2.dims) k = gs.foldl (fun k p => joinDims k p.2.dims) k := by
  induction h with
  | nil => exact fun _ => rfl
  | cons h _ ih =>
    intro k
    simp only [List.foldl_cons, h.dims, ih]

/-! ### Expressions -/

/-- Expressions see the same model under new names. -/
structure Envs (R : Renaming) (E E' : Expr.Env V) : Prop where
  labels : Relabelled R E.coords E'.coords
  isDim : E'.isDim = E.isDim
  period : E'.period = E.period
  op : E'.op = E.op
  neg : E'.neg = E.neg
  truthy : E'.truthy = E.truthy
  lookup : ∀ n, n ∉ R.held →
    Option.Rel (fun a a' => a.dims.Nodup ∧ Same R E.coords a a') (E.lookup n) (E'.lookup n)
  dates : ∀ n d, R.dates n = some d → Option.Rel (fun a a' => a.dims.Nodup ∧
    Same R E.coords (map (Option.map (R.of d)) a) a') (E.lookup n) (E'.lookup n)
  carrier : ∀ n, Option.Rel (Same R E.coords) (E.carrier n) (E'.carrier n)
  comp : ∀ n, Option.Rel (fun c c' => c'.default = c.default ∧ Same R E.coords c.arr c'.arr) (E.comp n) (E'.comp n)

variable {E E' : Expr.Env V}

theorem Envs.within (h : Envs R E E') (c : Component V) : Envs (R.within c) E E' :=
  ⟨⟨h.labels.kept, h.labels.moved, h.labels.dated⟩, h.isDim, h.period, h.op, h.neg, h.truthy, h.lookup, h.dates, h.carrier,
    h.comp⟩

theorem same_comp (h : Envs R E E') (n : String) : Both (Same R E.coords) (compArr E n) (compArr E' n) := by
  have hc := h.comp n
  simp only [compArr, h.isDim]
  generalize E.comp n = x at hc ⊢
  generalize E'.comp n = y at hc ⊢
  cases hc with
  | none =>
    simp only
    split
    · exact same_scalar _
    · exact rfl
  | some hr =>
    simp only [hr.1]
    exact hr.2.map _

theorem rollAll_dims {α : Type} : ∀ (shifts : List (String × Int)) {a b : Arr (Option α)},
    rollAll coords shifts a = .ok b → b.dims = a.dims
  | [], _, _, h => by
    simp only [rollAll, Except.ok.injEq] at h
    rw [h]
  | (d, n) :: rest, a, b, h => by
    simp only [rollAll] at h
    split at h
    · exact (rollAll_dims rest h).trans rfl
    · cases h

theorem map_kept (h : Relabelled R coords coords') {d : String} (hd : R.free d = false) (a : Arr (Option Label)) :
    map (Option.map (R.of d)) a = a := by
  have : Option.map (R.of d) = id := by
    rw [funext (h.kept d hd).2]
    exact Option.map_id
  rw [this]
  rfl

theorem rollAll_map {α β : Type} (f : α → β) : ∀ (shifts : List (String × Int)) (a : Arr (Option α)),
    rollAll coords shifts (map (Option.map f) a) = (rollAll coords shifts a).map (map (Option.map f))
  | [], _ => rfl
  | (d, n) :: rest, a => by
    simp only [rollAll]
    show (if a.dims.contains d = true then _ else _) = _
    split
    · exact rollAll_map f rest (rollArr coords d n a)
    · rfl

/-- What a slice stands for. -/
theorem same_slice (h : Envs R E E') {slices : String → Option SliceDef}
    (hs : ∀ n d, slices n = some d → sliceFits R n d = true) (e : String) (t : Slicer) (ht : slicerOk R (e, t) = true) :
    Both (fun a a' => Looks R E.coords (e, a) (e, a')) (sliceArr E slices t) (sliceArr E' slices t) := by
  suffices hk : (R.free e = false ∧ Both (fun a a' => a.dims.Nodup ∧ Same R E.coords a a') (sliceArr E slices t)
      (sliceArr E' slices t)) ∨ (R.dated e = true ∧ Both (fun a a' => a.dims.Nodup ∧
        Same R E.coords (map (Option.map (R.of e)) a) a') (sliceArr E slices t) (sliceArr E' slices t)) by
    rcases hk with ⟨hf, hk⟩ | ⟨hf, hk⟩
    · rcases hk.cases with ⟨e, e1, e2⟩ | ⟨a, a', e1, e2, hr⟩
      · rw [e1, e2]; exact rfl
      · rw [e1, e2]
        exact ⟨rfl, .inl hf, hr.1, by simp only [map_kept h.labels hf]; exact hr.2⟩
    · rcases hk.cases with ⟨e, e1, e2⟩ | ⟨a, a', e1, e2, hr⟩
      · rw [e1, e2]; exact rfl
      · rw [e1, e2]
        exact ⟨rfl, .inr hf, hr.1, hr.2⟩
  cases t with
  | label l =>
    simp only [slicerOk, Bool.not_eq_true'] at ht
    exact .inl ⟨ht, List.nodup_nil, same_scalar _⟩
  | ref n =>
    simp only [slicerOk] at ht
    cases hm : R.marks n with
    | some x =>
      rw [hm] at ht
      simp only [Bool.and_eq_true, decide_eq_true_eq] at ht
      obtain ⟨rfl, hd⟩ := ht
      refine .inr ⟨hd, ?_⟩
      simp only [sliceArr]
      cases hn : slices n with
      | none => exact rfl
      | some d =>
        have hk := hs n d hn
        simp only [sliceFits, hm, hd, Bool.true_and] at hk
        cases d with
        | label _ => cases hk
        | valAt d i =>
          simp only [decide_eq_true_eq] at hk
          subst hk
          simp only [(h.labels.dated d hd).1, pyIndex_moved]
          cases Expr.pyIndex (E.coords d) i with
          | none => exact rfl
          | some l => exact ⟨List.nodup_nil, same_scalar _⟩
        | lookup m shifts =>
          simp only [Bool.and_eq_true, beq_iff_eq, List.all_eq_true, Bool.or_eq_true, Bool.not_eq_true'] at hk
          have hl := h.dates m e hk.1
          simp only
          generalize E.lookup m = x at hl ⊢
          generalize E'.lookup m = y at hl ⊢
          cases hl with
          | none => exact rfl
          | @some a a' hr =>
            simp only
            have hb := same_roll h.labels shifts hk.2 hr.2
            rw [rollAll_map] at hb
            rcases e1 : rollAll E.coords shifts a with x | b
            · rw [e1] at hb
              rcases e2 : rollAll E'.coords shifts a' with y | b'
              · rw [e2] at hb
                exact hb
              · rw [e2] at hb
                cases hb
            · rw [e1] at hb
              rcases e2 : rollAll E'.coords shifts a' with y | b'
              · rw [e2] at hb
                cases hb
              · rw [e2] at hb
                exact ⟨by rw [rollAll_dims shifts e1]; exact hr.1, hb⟩
    | none =>
    rw [hm] at ht
    simp only [Bool.not_eq_true'] at ht
    refine .inl ⟨ht, ?_⟩
    simp only [sliceArr]
    cases hn : slices n with
    | none => exact rfl
    | some d =>
      have hd := hs n d hn
      simp only [sliceFits, hm] at hd
      cases d with
      | label l => exact ⟨List.nodup_nil, same_scalar _⟩
      | valAt d i =>
        simp only [sliceOk, Bool.not_eq_true'] at hd
        simp only [(h.labels.kept d hd).1]
        cases Expr.pyIndex (E.coords d) i with
        | none => exact rfl
        | some l => exact ⟨List.nodup_nil, same_scalar _⟩
      | lookup m shifts =>
        simp only [sliceOk, Bool.and_eq_true, Bool.not_eq_true', List.contains_eq_mem, decide_eq_false_iff_not,
          List.all_eq_true] at hd
        have hl := h.lookup m hd.1
        simp only
        generalize E.lookup m = x at hl ⊢
        generalize E'.lookup m = y at hl ⊢
        cases hl with
        | none => exact rfl
        | @some a a' hr =>
          simp only
          have hb := same_roll h.labels shifts (fun p hp => .inl (hd.2 p hp)) hr.2
          rcases hb.cases with ⟨e, e1, e2⟩ | ⟨b, b', e1, e2, hb⟩
          · rw [e1, e2]; exact rfl
          · rw [e1, e2]
            exact ⟨by rw [rollAll_dims shifts e1]; exact hr.1, hb⟩

theorem same_slices (h : Envs R E E') {slices : String → Option SliceDef}
    (hs : ∀ n d, slices n = some d → sliceFits R n d = true) : ∀ (ss : List (String × Slicer)),
    (∀ p ∈ ss, slicerOk R p = true) →
    Both (List.Forall₂ (Looks R E.coords)) (sliceArrs E slices ss) (sliceArrs E' slices ss)
  | [], _ => List.Forall₂.nil
  | (d, t) :: ss, hf => by
    simp only [sliceArrs]
    rcases (same_slice h hs d t (hf _ List.mem_cons_self)).cases with ⟨e, e1, e2⟩ | ⟨a, a', e1, e2, hr⟩
    · simp only [e1, e2]; exact rfl
    · simp only [e1, e2]
      rcases (same_slices h hs ss fun p hp => hf p (List.mem_cons_of_mem _ hp)).cases with ⟨e, e1, e2⟩ | ⟨b, b', e1, e2, hb⟩
      · simp only [e1, e2]; exact rfl
      · simp only [e1, e2]
        exact .cons hr hb

theorem same_selAll (h : Envs R E E') {slices : String → Option SliceDef}
    (hs : ∀ n d, slices n = some d → sliceFits R n d = true) {ss : List (String × Slicer)}
    (hf : ∀ p ∈ ss, slicerOk R p = true) {a a' : Arr (Option V)} (ha : Same R E.coords a a') :
    Both (Same R E.coords) (selAll E slices a ss) (selAll E' slices a' ss) := by
  simp only [selAll]
  rcases (same_slices h hs ss hf).cases with ⟨e, e1, e2⟩ | ⟨gs, gs', e1, e2, hg⟩
  · simp only [e1, e2]; exact rfl
  simp only [e1, e2]
  have hc := h.labels
  obtain ⟨f1, f2⟩ := looks_fst hg
  simp only [ha.1, f1, (looks_all hc (f := allMatch) (allMatch_same hc) hg).1, foldl_dims hg]
  split
  · refine ⟨rfl, fun ρ hρ => ?_⟩
    have hd : ∀ p ∈ gs, ∀ d ∈ p.2.dims, d ∈ gs.foldl (fun k p => joinDims k p.2.dims)
        (a.dims.filter (fun d => !(gs.map Prod.fst).contains d)) :=
      fun p hp d hd => (mem_foldl_join gs _ d).2 (.inr ⟨p, hp, hd⟩)
    have hd' : ∀ p ∈ gs', ∀ d ∈ p.2.dims, d ∈ gs.foldl (fun k p => joinDims k p.2.dims)
        (a.dims.filter (fun d => !(gs.map Prod.fst).contains d)) := by
      intro p hp
      obtain ⟨q, hq, hl⟩ := forall₂_right hg p hp
      rw [hl.dims]
      exact hd q hq
    have hmem : ∀ d ∈ a.dims, d ∈ gs.map Prod.fst ∨ d ∈ gs.foldl (fun k p => joinDims k p.2.dims)
        (a.dims.filter (fun d => !(gs.map Prod.fst).contains d)) := by
      intro d hd
      by_cases hm : d ∈ gs.map Prod.fst
      · exact .inl hm
      · refine .inr ((mem_foldl_join gs _ d).2 (.inl ?_))
        rw [List.mem_filter]
        exact ⟨hd, by simp only [List.contains_eq_mem, hm, decide_false, Bool.not_false]⟩
    generalize gs.foldl (fun k p => joinDims k p.2.dims) (a.dims.filter (fun d => !(gs.map Prod.fst).contains d)) = K
      at hρ hd hd' hmem
    have hl := lookLabels_looked E.coords K ρ gs hd
    have hl' := lookLabels_looked E'.coords K (R.move ρ) gs' hd'
    obtain ⟨m1, m2⟩ := looked_move hc hg (ρ0 := ρ) (fun p hp d hd1 => hρ d (hd p hp d hd1)) ρ
    show (match lookLabels E'.coords K (K.map (R.move ρ)) gs' with
        | some ls => a'.val (pick (gs.map Prod.fst ++ K) (ls ++ K.map (R.move ρ)) a.dims)
        | none => none) = (match lookLabels E.coords K (K.map ρ) gs with
        | some ls => a.val (pick (gs.map Prod.fst ++ K) (ls ++ K.map ρ) a.dims)
        | none => none)
    rw [hl.2] at m1 m2
    rw [hl'.2] at m1
    cases hlk : lookLabels E.coords K (K.map ρ) gs with
    | none =>
      rw [hlk] at m1
      simp only [Option.map_none, Option.map_eq_none_iff] at m1
      rw [m1]
    | some ls =>
      rw [hlk] at m1 m2
      simp only [Option.map_some, Option.map_eq_some_iff] at m1
      obtain ⟨ls', e3, e4⟩ := m1
      rw [e3]
      simp only
      rw [pick_front (R.move ρ) _ _ _ _ hmem (by rw [hl'.1 ls' e3, List.length_map, hg.length_eq]),
        pick_front ρ _ _ _ _ hmem (by rw [hl.1 ls hlk, List.length_map]), ← f1, e4, f1]
      have := ha.2 (override ρ (gs.map Prod.fst) ls) fun d hd1 => by
        obtain ⟨j1, j2⟩ := m2 _ rfl d
        by_cases hx : d ∈ gs.map Prod.fst
        · exact j1 hx
        · have := j2 hx
          simp only at this
          rw [this]
          exact hρ d ((hmem d hd1).resolve_left hx)
      unfold Arr.at at this
      rwa [ha.1] at this
  · exact rfl

theorem same_lookups (h : Envs R E E') : ∀ (ls : List (String × String)),
    (∀ p ∈ ls, (R.free p.1 = false ∧ p.2 ∉ R.held) ∨ (R.dated p.1 = true ∧ R.dates p.2 = some p.1)) →
    Both (List.Forall₂ (Looks R E.coords)) (lookups E ls) (lookups E' ls)
  | [], _ => List.Forall₂.nil
  | (d, n) :: ls, hf => by
    have hl : Option.Rel (fun a a' => Looks R E.coords (d, a) (d, a')) (E.lookup n) (E'.lookup n) := by
      rcases hf _ List.mem_cons_self with ⟨h1, h2⟩ | ⟨h1, h2⟩
      · have := h.lookup n h2
        generalize E.lookup n = x at this ⊢
        generalize E'.lookup n = y at this ⊢
        cases this with
        | none => exact .none
        | some hr => exact .some ⟨rfl, .inl h1, hr.1, by simp only [map_kept h.labels h1]; exact hr.2⟩
      · have := h.dates n _ h2
        generalize E.lookup n = x at this ⊢
        generalize E'.lookup n = y at this ⊢
        cases this with
        | none => exact .none
        | some hr => exact .some ⟨rfl, .inr h1, hr.1, hr.2⟩
    simp only [lookups]
    generalize E.lookup n = x at hl ⊢
    generalize E'.lookup n = y at hl ⊢
    cases hl with
    | none => exact rfl
    | some hr =>
      simp only
      rcases (same_lookups h ls fun p hp => hf p (List.mem_cons_of_mem _ hp)).cases with ⟨e, e1, e2⟩ | ⟨b, b', e1, e2, hb⟩
      · simp only [e1, e2]; exact rfl
      · simp only [e1, e2]
        exact .cons hr hb

variable [AddCommMonoid V]

mutual
theorem evalEx_same (h : Envs R E E') {slices : String → Option SliceDef}
    (hs : ∀ n d, slices n = some d → sliceFits R n d = true) {sub sub' : Arr Bool → String → Res V}
    (hsub : ∀ w w' n, Same R E.coords w w' → Both (Same R E.coords) (sub w n) (sub' w' n)) :
    ∀ (t : Ex V) {w w' : Arr Bool}, Same R E.coords w w' → exOk R t = true →
      Both (Same R E.coords) (evalEx E slices sub w t) (evalEx E' slices sub' w' t)
  | .num v, _, _, _, _ => by
    simp only [evalEx]
    exact same_scalar _
  | .comp n, _, _, _, _ => by
    simp only [evalEx]
    exact same_comp h n
  | .sliced n ss, _, _, _, hn => by
    simp only [exOk, List.all_eq_true] at hn
    simp only [evalEx]
    rcases (same_comp h n).cases with ⟨e, e1, e2⟩ | ⟨a, a', e1, e2, ha⟩
    · simp only [e1, e2]; exact rfl
    · simp only [e1, e2]
      exact same_selAll h hs hn ha
  | .sub n, _, _, hw, _ => by
    simp only [evalEx]
    exact hsub _ _ n hw
  | .sign o t, _, _, hw, hn => by
    simp only [exOk] at hn
    simp only [evalEx]
    rcases (evalEx_same h hs hsub t hw hn).cases with ⟨e, e1, e2⟩ | ⟨a, a', e1, e2, ha⟩
    · simp only [e1, e2]; exact rfl
    · simp only [e1, e2, h.neg]
      split
      · exact ha.map _
      · exact ha
  | .chain t r, _, _, hw, hn => by
    simp only [exOk, Bool.and_eq_true] at hn
    simp only [evalEx]
    rcases (evalEx_same h hs hsub t hw hn.1).cases with ⟨e, e1, e2⟩ | ⟨a, a', e1, e2, ha⟩
    · simp only [e1, e2]; exact rfl
    · simp only [e1, e2]
      exact evalRest_same h hs hsub r hw (same_mask hw ha) hn.2
  | .sum t over, _, _, hw, hn => by
    simp only [exOk] at hn
    simp only [evalEx]
    rcases (evalEx_same h hs hsub t hw hn).cases with ⟨e, e1, e2⟩ | ⟨a, a', e1, e2, ha⟩
    · simp only [e1, e2]; exact rfl
    · simp only [e1, e2]
      exact same_sum h.labels ha over
  | .reduceCarrier t flow, _, _, hw, hn => by
    simp only [exOk] at hn
    simp only [evalEx]
    rcases (evalEx_same h hs hsub t hw hn).cases with ⟨e, e1, e2⟩ | ⟨a, a', e1, e2, ha⟩
    · simp only [e1, e2]; exact rfl
    · simp only [e1, e2]
      have hm := h.carrier flow
      generalize E.carrier flow = x at hm ⊢
      generalize E'.carrier flow = y at hm ⊢
      cases hm with
      | none => exact rfl
      | some hm => exact same_sum h.labels (same_mask hm ha) _
  | .cond t c, _, _, hw, hn => by
    simp only [exOk, Bool.and_eq_true] at hn
    simp only [evalEx]
    rcases (evalEx_same h hs hsub t hw hn.1).cases with ⟨e, e1, e2⟩ | ⟨a, a', e1, e2, ha⟩
    · simp only [e1, e2]; exact rfl
    · simp only [e1, e2]
      rcases (evalEx_same h hs hsub c hw hn.2).cases with ⟨e, e1, e2⟩ | ⟨b, b', e1, e2, hb⟩
      · simp only [e1, e2]; exact rfl
      · simp only [e1, e2]
        have hh : holds E' = holds E := by
          funext x
          cases x with
          | none => rfl
          | some v => simp only [holds, h.truthy]
        simp only [Both, condArr, hh]
        exact ha.zip hb _
  | .roll t shifts, _, _, _, hn => by
    simp only [exOk, Bool.and_eq_true, List.all_eq_true, Bool.not_eq_true', Bool.or_eq_true] at hn
    simp only [evalEx]
    rcases (evalEx_same h hs hsub t (same_scalar true) hn.1).cases with ⟨e, e1, e2⟩ | ⟨a, a', e1, e2, ha⟩
    · simp only [trueArr, e1, e2]; exact rfl
    · simp only [trueArr, e1, e2]
      exact same_roll h.labels shifts hn.2 ha
  | .groupSum t n d, _, _, _, hn => by
    simp only [exOk, Bool.and_eq_true, Bool.not_eq_true', List.contains_eq_mem, decide_eq_false_iff_not] at hn
    simp only [evalEx]
    rcases (evalEx_same h hs hsub t (same_scalar true) hn.1.1).cases with ⟨e, e1, e2⟩ | ⟨a, a', e1, e2, ha⟩
    · simp only [trueArr, e1, e2]; exact rfl
    · simp only [trueArr, e1, e2]
      have hl := h.lookup n hn.1.2
      generalize E.lookup n = x at hl ⊢
      generalize E'.lookup n = y at hl ⊢
      cases hl with
      | none => exact rfl
      | some hl => exact same_group h.labels ha hl.2 hl.1 hn.2
  | .groupDatetime t d group, _, _, _, hn => by
    simp only [exOk, Bool.and_eq_true, Bool.not_eq_true'] at hn
    simp only [evalEx]
    rcases (evalEx_same h hs hsub t (same_scalar true) hn.1.1).cases with ⟨e, e1, e2⟩ | ⟨a, a', e1, e2, ha⟩
    · simp only [trueArr, e1, e2]; exact rfl
    · simp only [trueArr, e1, e2]
      refine same_group (g := ⟨[d], fun c => some (E.period group (c.headD ""))⟩)
        (g' := ⟨[d], fun c => some (E'.period group (c.headD ""))⟩) h.labels ha ⟨rfl, fun ρ _ => ?_⟩
        (List.nodup_singleton d) hn.2
      show some (E'.period group (R.move ρ d)) = some (E.period group (ρ d))
      rw [h.period, move_kept h.labels hn.1.2]
  | .sumNextN t d n, _, _, hw, hn => by
    simp only [exOk, Bool.and_eq_true, Bool.not_eq_true'] at hn
    simp only [evalEx]
    rcases (evalEx_same h hs hsub t hw hn.1).cases with ⟨e, e1, e2⟩ | ⟨a, a', e1, e2, ha⟩
    · simp only [e1, e2]; exact rfl
    · simp only [e1, e2]
      exact same_next h.labels hn.2 n ha
  | .select t ls, _, _, hw, hn => by
    simp only [exOk, Bool.and_eq_true, List.all_eq_true, Bool.not_eq_true', List.contains_eq_mem,
      decide_eq_false_iff_not, Bool.or_eq_true, beq_iff_eq] at hn
    simp only [evalEx]
    rcases (evalEx_same h hs hsub t hw hn.1).cases with ⟨e, e1, e2⟩ | ⟨a, a', e1, e2, ha⟩
    · simp only [e1, e2]; exact rfl
    · simp only [e1, e2]
      rcases (same_lookups h ls hn.2).cases with ⟨e, e1, e2⟩ | ⟨b, b', e1, e2, hb⟩
      · simp only [e1, e2]; exact rfl
      · simp only [e1, e2]
        exact same_select h.labels ha hb
theorem evalRest_same (h : Envs R E E') {slices : String → Option SliceDef}
    (hs : ∀ n d, slices n = some d → sliceFits R n d = true) {sub sub' : Arr Bool → String → Res V}
    (hsub : ∀ w w' n, Same R E.coords w w' → Both (Same R E.coords) (sub w n) (sub' w' n)) :
    ∀ (r : ExRest V) {w w' : Arr Bool} {a a' : Arr (Option V)}, Same R E.coords w w' → Same R E.coords a a' →
      restOk R r = true → Both (Same R E.coords) (evalRest E slices sub w a r) (evalRest E' slices sub' w' a' r)
  | .one o t, _, _, _, _, hw, ha, hn => by
    simp only [restOk] at hn
    simp only [evalRest]
    rcases (evalEx_same h hs hsub t hw hn).cases with ⟨e, e1, e2⟩ | ⟨b, b', e1, e2, hb⟩
    · simp only [e1, e2]; exact rfl
    · simp only [e1, e2, h.op]
      exact ha.zip (same_mask hw hb) _
  | .more o t r, _, _, _, _, hw, ha, hn => by
    simp only [restOk, Bool.and_eq_true] at hn
    simp only [evalRest]
    rcases (evalEx_same h hs hsub t hw hn.1).cases with ⟨e, e1, e2⟩ | ⟨b, b', e1, e2, hb⟩
    · simp only [e1, e2]; exact rfl
    · simp only [e1, e2, h.op]
      exact evalRest_same h hs hsub r hw (ha.zip (same_mask hw hb) _) hn.2
end

theorem evalSide_same (h : Envs R E E') {slices : String → Option SliceDef}
    (hs : ∀ n d, slices n = some d → sliceFits R n d = true) {subs : String → Option (Ex V)}
    (hn : ∀ n t, subs n = some t → exOk R t = true) {w w' : Arr Bool} (hw : Same R E.coords w w') {t : Ex V}
    (ht : exOk R t = true) : Both (Same R E.coords) (evalSide E slices subs w t) (evalSide E' slices subs w' t) := by
  refine evalEx_same h hs (fun w w' n hw => ?_) t hw ht
  simp only [evalSub]
  cases hx : subs n with
  | none => exact rfl
  | some u =>
    exact evalEx_same h hs (sub := fun _ _ => .error .keyError) (sub' := fun _ _ => .error .keyError)
        (fun _ _ _ _ => rfl) u hw (hn n u hx)

omit [AddCommMonoid V] in
theorem checkWhere_same (h : Envs R E E') {w w' : Arr Bool} (hw : Same R E.coords w w') {a a' : Arr (Option V)}
    (ha : Same R E.coords a a') : checkWhere E' w' a' = checkWhere E w a := by
  simp only [checkWhere, ha.1, hw.1, (ha.zip hw _).anyCell (covers h.labels)]

theorem evalExpression_same (h : Envs R E E') {slices : String → Option SliceDef}
    (hs : ∀ n d, slices n = some d → sliceFits R n d = true) {subs : String → Option (Ex V)}
    (hn : ∀ n t, subs n = some t → exOk R t = true) {w w' : Arr Bool} (hw : Same R E.coords w w') {t : Ex V}
    (ht : exOk R t = true) :
    Both (Same R E.coords) (evalExpression E slices subs w t) (evalExpression E' slices subs w' t) := by
  simp only [evalExpression]
  rcases (evalSide_same h hs hn hw ht).cases with ⟨e, e1, e2⟩ | ⟨a, a', e1, e2, ha⟩
  · simp only [e1, e2]; exact rfl
  · simp only [e1, e2, checkWhere_same h hw ha]
    cases checkWhere E w a with
    | error e => exact rfl
    | ok _ => exact ha

theorem evalComparison_same (h : Envs R E E') {slices : String → Option SliceDef}
    (hs : ∀ n d, slices n = some d → sliceFits R n d = true) {subs : String → Option (Ex V)}
    (hn : ∀ n t, subs n = some t → exOk R t = true) {w w' : Arr Bool} (hw : Same R E.coords w w') {l r : Ex V}
    (hl : exOk R l = true) (hr : exOk R r = true) :
    Both (Same R E.coords) (evalComparison E slices subs w l r) (evalComparison E' slices subs w' l r) := by
  simp only [evalComparison]
  rcases (evalSide_same h hs hn hw hl).cases with ⟨e, e1, e2⟩ | ⟨a, a', e1, e2, ha⟩
  · simp only [e1, e2]; exact rfl
  simp only [e1, e2]
  rcases (evalSide_same h hs hn hw hr).cases with ⟨e, e1, e2⟩ | ⟨b, b', e1, e2, hb⟩
  · simp only [e1, e2]; exact rfl
  simp only [e1, e2, ha.1, hb.1, hw.1]
  split
  · rename_i h1
    split
    · rename_i h2
      simp only [List.all_eq_true, List.contains_eq_mem, decide_eq_true_eq] at h1 h2
      refine ⟨rfl, fun ρ hρ => ?_⟩
      simp only [Arr.at, pick_map _ _ _ h1, pick_map _ _ _ h2]
      have e0 := hw.2 ρ hρ
      have e1 := ha.2 ρ fun d hd => hρ d (h1 d hd)
      have e2 := hb.2 ρ fun d hd => hρ d (h2 d hd)
      simp only [Arr.at, hw.1, ha.1, hb.1] at e0 e1 e2
      rw [e0, e1, e2]
    · exact rfl
  · exact rfl

end Rename
end Calliope
