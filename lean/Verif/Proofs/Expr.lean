import Verif.Proofs.Points

/-!
# Evaluation yields the meaning
-/

namespace Calliope
namespace Expr

open Grid

variable {V : Type}

/-- An array that represents a quantity. -/
def Agrees (a : Arr (Option V)) (x : Fn V) : Prop :=
  a.dims.Nodup ∧ (∀ d, d ∈ a.dims ↔ d ∈ x.dims) ∧ ∀ ρ, a.at ρ = x.val ρ

theorem joinDims_nodup {a b : List String} (ha : a.Nodup) (hb : b.Nodup) : (joinDims a b).Nodup := by
  unfold joinDims
  rw [List.nodup_append]
  refine ⟨ha, hb.filter _, ?_⟩
  intro x hx y hy he
  subst he
  simp only [List.mem_filter, Bool.not_eq_true', List.contains_eq_mem, decide_eq_false_iff_not] at hy
  exact hy.2 hx

theorem agrees_map {a : Arr (Option V)} {x : Fn V} (f : Option V → Option V) (h : Agrees a x) :
    Agrees (map f a) ⟨x.dims, fun ρ => f (x.val ρ)⟩ :=
  ⟨h.1, h.2.1, fun ρ => by rw [at_map, h.2.2]⟩

theorem agrees_zip {a b : Arr (Option V)} {x y : Fn V} (f : Option V → Option V → Option V)
    (ha : Agrees a x) (hb : Agrees b y) :
    Agrees (zip f a b) ⟨x.dims ++ y.dims, fun ρ => f (x.val ρ) (y.val ρ)⟩ := by
  refine ⟨joinDims_nodup ha.1 hb.1, ?_, ?_⟩
  · intro d
    show d ∈ joinDims a.dims b.dims ↔ d ∈ x.dims ++ y.dims
    rw [mem_joinDims, List.mem_append, ha.2.1, hb.2.1]
  · intro ρ
    rw [at_zip, ha.2.2, hb.2.2]

theorem agrees_mask {a : Arr (Option V)} {x : Fn V} {w : Arr Bool} (hw : w.dims.Nodup)
    (h : Agrees a x) : Agrees (maskArr w a) (x.mask w.at w.dims) := by
  refine ⟨joinDims_nodup h.1 hw, ?_, ?_⟩
  · intro d
    show d ∈ joinDims a.dims w.dims ↔ d ∈ x.dims ++ w.dims
    rw [mem_joinDims, List.mem_append, h.2.1]
  · intro ρ
    show (zip _ a w).at ρ = _
    rw [at_zip, h.2.2]
    rfl

theorem reduce_dims {W : Type} (coords : String → List Label) (f : List V → W) (over : List String)
    (a : Arr V) : (reduce coords f over a).dims = a.dims.filter (fun d => !over.contains d) := rfl

theorem agrees_sum [AddCommMonoid V] {coords : String → List Label} {a : Arr (Option V)} {x : Fn V}
    (over : List String) (h : Agrees a x) :
    Agrees (sumArr coords over a) (x.sumOver coords over) := by
  refine ⟨h.1.filter _, ?_, ?_⟩
  · intro d
    show d ∈ a.dims.filter _ ↔ d ∈ x.dims.filter _
    simp only [List.mem_filter, h.2.1, Bool.not_eq_true', List.contains_eq_mem,
      decide_eq_false_iff_not, decide_not]
  · intro ρ
    show (reduce coords sumPresent over a).at ρ = _
    rw [at_reduce, sumPresent_eq]
    show _ = total _
    have hn : (a.dims.filter (fun d => over.contains d)).Nodup := h.1.filter _
    have hp : (a.dims.filter (fun d => over.contains d)).Perm
        ((x.dims.filter (fun d => decide (d ∈ over))).dedup) := by
      rw [List.perm_ext_iff_of_nodup hn (List.nodup_dedup _)]
      intro d
      rw [List.mem_dedup, List.mem_filter, List.mem_filter, h.2.1]
      simp only [List.contains_eq_mem]
    rw [← total_perm ((points_perm coords hp hn ρ).map x.val), points_eq coords _ ρ hn, List.map_map]
    congr 1
    apply List.map_congr_left
    intro g _
    exact h.2.2 _

theorem atDim_map (f : Label → Label) (d : String) (ρ : Point) : ∀ (ds : List String),
    atDim f d ds (ds.map ρ) = ds.map (set ρ d (f (ρ d)))
  | [] => rfl
  | x :: xs => by
      simp only [List.map_cons, atDim]
      rw [atDim_map f d ρ xs]
      congr 1
      unfold set
      by_cases h : x = d
      · subst h; simp
      · simp [h]

theorem agrees_rollAll {coords : String → List Label} : ∀ (shifts : List (String × Int))
    {a b : Arr (Option V)} {x : Fn V}, Agrees a x → rollAll coords shifts a = .ok b →
    Agrees b (x.rolled coords shifts)
  | [], a, b, x, h, hb => by
      simp only [rollAll, Except.ok.injEq] at hb
      subst hb
      exact h
  | (d, n) :: rest, a, b, x, h, hb => by
      simp only [rollAll] at hb
      split at hb
      · refine agrees_rollAll rest ?_ hb
        refine ⟨h.1, h.2.1, ?_⟩
        intro ρ
        show a.val (atDim _ d a.dims (a.dims.map ρ)) = _
        rw [atDim_map]
        exact h.2.2 _
      · cases hb

theorem rolled_dims (coords : String → List Label) : ∀ (shifts : List (String × Int)) (x : Fn V),
    (x.rolled coords shifts).dims = x.dims
  | [], _ => rfl
  | (_, _) :: rest, _ => by
      simp only [Fn.rolled]
      rw [rolled_dims coords rest]

theorem forall₂_right {α β : Type} {R : α → β → Prop} {l : List α} {m : List β} (h : List.Forall₂ R l m) :
    ∀ b ∈ m, ∃ a ∈ l, R a b := by
  induction h with
  | nil => intro b hb; cases hb
  | cons h1 _ ih =>
    intro b hb
    rcases List.mem_cons.1 hb with rfl | hb
    · exact ⟨_, List.mem_cons_self .., h1⟩
    · obtain ⟨a, ha, hr⟩ := ih b hb
      exact ⟨a, List.mem_cons_of_mem _ ha, hr⟩

theorem forall₂_left {α β : Type} {R : α → β → Prop} {l : List α} {m : List β} (h : List.Forall₂ R l m) :
    ∀ a ∈ l, ∃ b ∈ m, R a b := by
  induction h with
  | nil => intro b hb; cases hb
  | cons h1 _ ih =>
    intro b hb
    rcases List.mem_cons.1 hb with rfl | hb
    · exact ⟨_, List.mem_cons_self .., h1⟩
    · obtain ⟨a, ha, hr⟩ := ih b hb
      exact ⟨a, List.mem_cons_of_mem _ ha, hr⟩

theorem pick_append (ρ : Point) (kept gone : List String) (g : List Label) (want : List String)
    (hw : ∀ d ∈ want, d ∈ kept ++ gone) (hd : ∀ d ∈ kept, d ∉ gone) (hg : g.length = gone.length) :
    pick (kept ++ gone) (kept.map ρ ++ g) want = want.map (override ρ gone g) := by
  unfold pick
  apply List.map_congr_left
  intro d hd'
  exact lookup_append_zip ρ d g gone kept (hd d) (hw d hd') hg

theorem agrees_group [AddCommMonoid V] {coords : String → List Label} {a b : Arr (Option V)} {x : Fn V}
    {g : Arr (Option Label)} {gd : String} (hg : g.dims.Nodup) (h : Agrees a x)
    (hb : groupArr coords a g gd = .ok b) : Agrees b (x.group coords g gd) := by
  unfold groupArr at hb
  split at hb
  · rename_i hsub
    simp only [List.all_eq_true, List.contains_eq_mem, decide_eq_true_eq] at hsub
    split at hb
    · cases hb
    · simp only [] at hb
      split at hb
      · cases hb
      · rename_i hk
        simp only [Except.ok.injEq] at hb
        subst hb
        refine ⟨?_, ?_, ?_⟩
        · show (gd :: _).Nodup
          rw [List.nodup_cons]
          refine ⟨by simpa using hk, h.1.filter _⟩
        · intro d
          show d ∈ gd :: _ ↔ d ∈ gd :: _
          simp only [List.mem_cons, List.mem_filter, h.2.1, Bool.not_eq_true', List.contains_eq_mem,
            decide_eq_false_iff_not, decide_not]
        · intro ρ
          show sumPresent _ = total _
          rw [sumPresent_eq, points_eq coords _ ρ hg, List.filter_map, List.map_map]
          congr 1
          have hf : ∀ k ∈ cells coords g.dims, g.at (override ρ g.dims k) = g.val k := by
            intro k hk
            unfold Arr.at
            rw [map_override ρ _ _ hg (length_of_mem_cells hk)]
          have : (cells coords g.dims).filter (fun k => decide (g.val k = some (ρ gd))) =
              (cells coords g.dims).filter
                ((fun σ => decide (g.at σ = some (ρ gd))) ∘ override ρ g.dims) := by
            apply List.filter_congr
            intro k hk
            simp only [Function.comp, hf k hk]
          rw [this]
          apply List.map_congr_left
          intro k hk
          have hk := (List.mem_filter.1 hk).1
          show a.val (pick _ (List.map ρ _ ++ k) a.dims) = x.val (override ρ g.dims k)
          rw [pick_append ρ _ _ _ _ ?_ ?_ (length_of_mem_cells hk)]
          · exact h.2.2 _
          · intro d hd
            rw [List.mem_append, List.mem_filter]
            by_cases hdg : d ∈ g.dims
            · exact .inr hdg
            · exact .inl ⟨hd, by simp [hdg]⟩
          · intro d hd
            simpa using (List.mem_filter.1 hd).2
  · cases hb

theorem pySlice_window (labels : List Label) (l : Label) (n : Int) (hn : 0 ≤ n) :
    pySlice labels (labels.idxOf l) (labels.idxOf l + n) = window labels n.toNat l := by
  unfold pySlice window
  rw [if_pos (by omega)]
  obtain ⟨k, rfl⟩ := Int.eq_ofNat_of_zero_le hn
  rw [List.take_drop]
  congr 2

theorem agrees_next [AddCommMonoid V] {coords : String → List Label} {a b : Arr (Option V)} {x : Fn V}
    {d : String} {n : Int} (hn : 0 ≤ n) (h : Agrees a x) (hb : nextArr coords d n a = .ok b) :
    Agrees b (x.next coords d n.toNat) := by
  unfold nextArr at hb
  split at hb
  · rename_i hd
    simp only [List.contains_eq_mem, decide_eq_true_eq] at hd
    simp only [Except.ok.injEq] at hb
    subst hb
    refine ⟨h.1, h.2.1, ?_⟩
    intro ρ
    have hp : (pick a.dims (a.dims.map ρ) [d]).headD "" = ρ d := by
      rw [pick_map ρ _ _ (by simpa using hd)]
      rfl
    show sumPresent ((pySlice (coords d) ((coords d).idxOf ((pick a.dims (a.dims.map ρ) [d]).headD ""))
      _).map _) = total _
    rw [hp, sumPresent_eq, pySlice_window _ _ _ hn]
    congr 1
    apply List.map_congr_left
    intro l _
    rw [atDim_map]
    exact h.2.2 _
  · cases hb

theorem lookLabels_looked (coords : String → List Label) (dims : List String) (ρ : Point) :
    ∀ (gs : List (String × Arr (Option Label))), (∀ p ∈ gs, ∀ d ∈ p.2.dims, d ∈ dims) →
    (∀ ls, lookLabels coords dims (dims.map ρ) gs = some ls → ls.length = gs.length) ∧
    looked coords ρ gs ρ = (lookLabels coords dims (dims.map ρ) gs).map
      (fun ls => override ρ (gs.map Prod.fst) ls)
  | [], _ => ⟨fun ls h => by simp [lookLabels] at h; simp [← h], rfl⟩
  | (d, g) :: rest, h => by
      have ih := lookLabels_looked coords dims ρ rest (fun p hp => h p (List.mem_cons_of_mem _ hp))
      have hp : g.val (pick dims (dims.map ρ) g.dims) = g.at ρ := by
        rw [pick_map ρ _ _ (h (d, g) (List.mem_cons_self ..))]
        rfl
      simp only [lookLabels, looked, hp]
      cases hg : g.at ρ with
      | none => exact ⟨fun ls h => by simp at h, rfl⟩
      | some l =>
        simp only [List.contains_eq_mem, decide_eq_true_eq]
        cases hr : lookLabels coords dims (dims.map ρ) rest with
        | none =>
          rw [hr] at ih
          refine ⟨fun ls h => by simp at h, ?_⟩
          rw [ih.2]
          simp
        | some ls =>
          rw [hr] at ih
          by_cases hl : l ∈ coords d
          · simp only [if_pos hl]
            refine ⟨?_, ?_⟩
            · intro ms hm
              simp only [Option.some.injEq] at hm
              subst hm
              simp [ih.1 ls rfl]
            · rw [ih.2]
              simp only [Option.map_some, List.map_cons, override_cons]
          · simp [hl]

theorem pyIndex_eq (l : List Label) (i : Int) :
    pyIndex l i = if i < 0 then l.reverse[(-i - 1).toNat]? else l[i.toNat]? := by
  unfold pyIndex
  by_cases h0 : 0 ≤ i
  · rw [if_pos h0, if_neg (by omega)]
  · rw [if_neg h0, if_pos (show i < 0 by omega)]
    split
    · rw [List.getElem?_reverse (by omega)]
      congr 1
      omega
    · symm
      rw [List.getElem?_eq_none_iff, List.length_reverse]
      omega

/-- A slice is an array of the labels it stands for. -/
theorem sliceArr_labelOf {E : Env V} (hE : WellFormed E) {slices : String → Option SliceDef} {s : Slicer}
    {g : Arr (Option Label)} (h : sliceArr E slices s = .ok g) :
    g.dims.Nodup ∧ (∀ d, d ∈ g.dims ↔ d ∈ sliceDims E slices s) ∧ ∀ ρ, g.at ρ = labelOf E slices ρ s := by
  cases s with
  | label l =>
    simp only [sliceArr, Except.ok.injEq] at h
    subst h
    exact ⟨List.nodup_nil, fun _ => Iff.rfl, fun _ => rfl⟩
  | ref n =>
    simp only [sliceArr] at h
    simp only [labelOf, sliceDims]
    split at h
    · cases h
    · rename_i hs
      cases h
      rw [hs]
      exact ⟨List.nodup_nil, fun _ => Iff.rfl, fun _ => rfl⟩
    · rename_i d i hs
      rw [hs]
      split at h
      · rename_i hp
        cases h
        rw [pyIndex_eq] at hp
        exact ⟨List.nodup_nil, fun _ => Iff.rfl, fun _ => hp.symm⟩
      · cases h
    · rename_i m shifts hs
      rw [hs]
      split at h
      · rename_i g' hg
        have hag := agrees_rollAll shifts (x := ⟨g'.dims, g'.at⟩)
          ⟨hE.lookup m g' hg, fun _ => Iff.rfl, fun _ => rfl⟩ h
        simp only [hg]
        refine ⟨hag.1, ?_, hag.2.2⟩
        intro d
        rw [hag.2.1, rolled_dims]
      · cases h

theorem sliceArrs_fst {E : Env V} {slices : String → Option SliceDef} : ∀ {ss : List (String × Slicer)}
    {gs : List (String × Arr (Option Label))}, sliceArrs E slices ss = .ok gs → gs.map Prod.fst = ss.map Prod.fst
  | [], gs, h => by
      simp only [sliceArrs, Except.ok.injEq] at h
      subst h
      rfl
  | (d, s) :: rest, gs, h => by
      simp only [sliceArrs] at h
      split at h
      · cases h
      · split at h
        · cases h
        · rename_i gs' hgs
          cases h
          simp [sliceArrs_fst hgs]

theorem sliceArrs_forall {E : Env V} {slices : String → Option SliceDef} : ∀ {ss : List (String × Slicer)}
    {gs : List (String × Arr (Option Label))}, sliceArrs E slices ss = .ok gs →
    List.Forall₂ (fun p q => p.1 = q.1 ∧ sliceArr E slices p.2 = .ok q.2) ss gs
  | [], gs, h => by
      simp only [sliceArrs, Except.ok.injEq] at h
      subst h
      exact .nil
  | (d, s) :: rest, gs, h => by
      simp only [sliceArrs] at h
      split at h
      · cases h
      · rename_i g hg
        split at h
        · cases h
        · rename_i gs' hgs
          cases h
          exact .cons ⟨rfl, hg⟩ (sliceArrs_forall hgs)

theorem sliced_looked {E : Env V} (hE : WellFormed E) {slices : String → Option SliceDef} (ρ0 : Point) :
    ∀ {ss : List (String × Slicer)} {gs : List (String × Arr (Option Label))}, sliceArrs E slices ss = .ok gs →
    ∀ ρ, sliced E slices ρ0 ss ρ = looked E.coords ρ0 gs ρ
  | [], gs, h, ρ => by
      simp only [sliceArrs, Except.ok.injEq] at h
      subst h
      rfl
  | (d, s) :: rest, gs, h, ρ => by
      simp only [sliceArrs] at h
      split at h
      · cases h
      · rename_i g hg
        split at h
        · cases h
        · rename_i gs' hgs
          cases h
          simp only [sliced, looked, (sliceArr_labelOf hE hg).2.2 ρ0, sliced_looked hE ρ0 hgs ρ]

theorem mem_foldl_join (gs : List (String × Arr (Option Label))) : ∀ (k : List String) (d : String),
    d ∈ gs.foldl (fun k p => joinDims k p.2.dims) k ↔ d ∈ k ∨ ∃ p ∈ gs, d ∈ p.2.dims := by
  induction gs with
  | nil => simp
  | cons p gs ih =>
    intro k d
    rw [List.foldl_cons, ih, mem_joinDims]
    simp only [List.mem_cons, exists_eq_or_imp, or_assoc]

theorem foldl_join_nodup (gs : List (String × Arr (Option Label))) : ∀ (k : List String), k.Nodup →
    (∀ p ∈ gs, p.2.dims.Nodup) → (gs.foldl (fun k p => joinDims k p.2.dims) k).Nodup := by
  induction gs with
  | nil => intro k hk _; exact hk
  | cons p gs ih =>
    intro k hk hg
    rw [List.foldl_cons]
    exact ih _ (joinDims_nodup hk (hg p (List.mem_cons_self ..))) (fun q hq => hg q (List.mem_cons_of_mem _ hq))

theorem pick_front (ρ : Point) (ds dims : List String) (ls : List Label) (want : List String)
    (hw : ∀ d ∈ want, d ∈ ds ∨ d ∈ dims) (hl : ls.length = ds.length) :
    pick (ds ++ dims) (ls ++ dims.map ρ) want = want.map (override ρ ds ls) := by
  unfold pick
  apply List.map_congr_left
  intro d hd
  rw [List.zip_append hl.symm, List.lookup_append]
  unfold override
  cases hz : (ds.zip ls).lookup d with
  | some l => rfl
  | none =>
    have hnot : d ∉ ds := by
      intro hm
      rw [List.lookup_eq_none_iff] at hz
      obtain ⟨i, hi, rfl⟩ := List.getElem_of_mem hm
      have := hz (ds[i], ls[i]'(by omega)) (by
        rw [List.mem_iff_getElem]
        exact ⟨i, by simp [hl]; exact hi, by simp⟩)
      simp at this
    have hdim : d ∈ dims := (hw d hd).resolve_left hnot
    simp only [Option.none_or]
    rw [lookup_zip_map ρ d _ hdim]
    rfl

theorem agrees_selAll {E : Env V} (hE : WellFormed E) {slices : String → Option SliceDef}
    {ss : List (String × Slicer)} {a b : Arr (Option V)} {x : Fn V} (h : Agrees a x)
    (hb : selAll E slices a ss = .ok b) :
    Agrees b ⟨x.dims.filter (fun d => decide (d ∉ ss.map Prod.fst)) ++
        ss.flatMap (fun p => sliceDims E slices p.2), fun ρ =>
      match sliced E slices ρ ss ρ with
      | some σ => x.val σ
      | none => none⟩ := by
  unfold selAll at hb
  split at hb
  · cases hb
  · rename_i gs hgs
    simp only [] at hb
    split at hb
    · rename_i hcond
      simp only [Bool.and_eq_true, List.all_eq_true, List.contains_eq_mem, decide_eq_true_eq] at hcond
      obtain ⟨⟨h1, h2⟩, _⟩ := hcond
      simp only [Except.ok.injEq] at hb
      subst hb
      have hfst := sliceArrs_fst hgs
      have hall := sliceArrs_forall hgs
      have hdims : ∀ q ∈ gs, ∃ p ∈ ss, sliceArr E slices p.2 = .ok q.2 := by
        intro q hq
        obtain ⟨p, hp, hpq⟩ := forall₂_right hall q hq
        exact ⟨p, hp, hpq.2⟩
      have hdims' : ∀ p ∈ ss, ∃ q ∈ gs, sliceArr E slices p.2 = .ok q.2 := by
        intro p hp
        obtain ⟨q, hq, hpq⟩ := forall₂_left hall p hp
        exact ⟨q, hq, hpq.2⟩
      refine ⟨?_, ?_, ?_⟩
      · exact foldl_join_nodup gs _ (h.1.filter _) (fun q hq => by
          obtain ⟨p, _, hp⟩ := hdims q hq
          exact (sliceArr_labelOf hE hp).1)
      · intro d
        show d ∈ gs.foldl _ _ ↔ _
        rw [mem_foldl_join, List.mem_append, List.mem_filter, List.mem_filter, h.2.1, hfst, List.mem_flatMap]
        simp only [List.contains_eq_mem, Bool.not_eq_true', decide_eq_false_iff_not, decide_eq_true_eq]
        apply or_congr Iff.rfl
        constructor
        · rintro ⟨q, hq, hd⟩
          obtain ⟨p, hp, hpq⟩ := hdims q hq
          exact ⟨p, hp, ((sliceArr_labelOf hE hpq).2.1 d).1 hd⟩
        · rintro ⟨p, hp, hd⟩
          obtain ⟨q, hq, hpq⟩ := hdims' p hp
          exact ⟨q, hq, ((sliceArr_labelOf hE hpq).2.1 d).2 hd⟩
      · intro ρ
        have hl := lookLabels_looked E.coords
          (gs.foldl (fun k p => joinDims k p.2.dims) (a.dims.filter (fun d => !(gs.map Prod.fst).contains d))) ρ gs
          (fun p hp d hd => (mem_foldl_join gs _ d).2 (.inr ⟨p, hp, hd⟩))
        show (match lookLabels E.coords _ (List.map ρ _) gs with
          | some ls => a.val (pick _ (ls ++ List.map ρ _) a.dims)
          | none => none) = (match sliced E slices ρ ss ρ with
          | some σ => x.val σ
          | none => none)
        rw [sliced_looked hE ρ hgs ρ, hl.2]
        cases hlk : lookLabels E.coords
          (gs.foldl (fun k p => joinDims k p.2.dims) (a.dims.filter (fun d => !(gs.map Prod.fst).contains d)))
          (List.map ρ (gs.foldl (fun k p => joinDims k p.2.dims)
            (a.dims.filter (fun d => !(gs.map Prod.fst).contains d)))) gs with
        | none => rfl
        | some ls =>
          show a.val _ = x.val _
          rw [pick_front ρ _ _ _ _ ?_ (by rw [hl.1 ls hlk, List.length_map])]
          · exact h.2.2 _
          · intro d hd
            by_cases hm : d ∈ gs.map Prod.fst
            · exact .inl hm
            · refine .inr ((mem_foldl_join gs _ d).2 (.inl ?_))
              rw [List.mem_filter]
              exact ⟨hd, by simp only [List.contains_eq_mem, hm, decide_false, Bool.not_false]⟩
    · cases hb

theorem selAll_dims {E : Env V} {slices : String → Option SliceDef} {ss : List (String × Slicer)}
    {a b : Arr (Option V)} (hb : selAll E slices a ss = .ok b) : ∀ p ∈ ss, p.1 ∈ a.dims := by
  unfold selAll at hb
  split at hb
  · cases hb
  · rename_i gs hgs
    simp only [] at hb
    split at hb
    · rename_i hcond
      simp only [Bool.and_eq_true, List.all_eq_true, List.contains_eq_mem, decide_eq_true_eq] at hcond
      intro p hp
      refine hcond.1.1 p.1 ?_
      rw [sliceArrs_fst hgs]
      exact List.mem_map_of_mem hp
    · cases hb

theorem agrees_select {coords : String → List Label} {a b : Arr (Option V)} {x : Fn V}
    {gs : List (String × Arr (Option Label))} (hn : (gs.map Prod.fst).Nodup) (h : Agrees a x)
    (hb : selectArr coords a gs = .ok b) : Agrees b (x.select coords gs) := by
  unfold selectArr at hb
  simp only [] at hb
  split at hb
  · rename_i h1
    split at hb
    · split at hb
      · rename_i h3
        split at hb
        · cases hb
        · simp only [Except.ok.injEq] at hb
          subst hb
          simp only [List.all_eq_true, List.contains_eq_mem, decide_eq_true_eq] at h1 h3
          have hmem : ∀ d, d ∈ a.dims → d ∈ a.dims.filter (fun d => !(gs.map Prod.fst).contains d) ++
              gs.map Prod.fst := by
            intro d hd
            rw [List.mem_append, List.mem_filter]
            by_cases hg : d ∈ gs.map Prod.fst
            · exact .inr hg
            · exact .inl ⟨hd, by simp only [List.contains_eq_mem, hg, decide_false, Bool.not_false]⟩
          have hdis : ∀ d ∈ a.dims.filter (fun d => !(gs.map Prod.fst).contains d),
              d ∉ gs.map Prod.fst := by
            intro d hd
            have := (List.mem_filter.1 hd).2
            simpa only [List.contains_eq_mem, Bool.not_eq_true', decide_eq_false_iff_not] using this
          refine ⟨?_, ?_, ?_⟩
          · show List.Nodup (_ ++ _)
            rw [List.nodup_append]
            refine ⟨h.1.filter _, hn, ?_⟩
            intro d hd e he hde
            exact hdis d hd (hde ▸ he)
          · intro d
            show d ∈ _ ++ _ ↔ d ∈ x.dims
            rw [← h.2.1]
            refine ⟨?_, hmem d⟩
            intro hd
            rcases List.mem_append.1 hd with hd | hd
            · exact (List.mem_filter.1 hd).1
            · exact h1 d hd
          · intro ρ
            have hl := lookLabels_looked coords
              (a.dims.filter (fun d => !(gs.map Prod.fst).contains d) ++ gs.map Prod.fst) ρ gs
              (fun p hp d hd => List.mem_append.2 (.inr (h3 p hp d hd)))
            show (match lookLabels coords _ (List.map ρ _) gs with
              | some ls => a.val (pick _ (List.take _ (List.map ρ _) ++ ls) a.dims)
              | none => none) = (match looked coords ρ gs ρ with
              | some σ => x.val σ
              | none => none)
            rw [hl.2]
            cases hlk : lookLabels coords
              (a.dims.filter (fun d => !(gs.map Prod.fst).contains d) ++ gs.map Prod.fst)
              (List.map ρ (a.dims.filter (fun d => !(gs.map Prod.fst).contains d) ++
                gs.map Prod.fst)) gs with
            | none => rfl
            | some ls =>
              show a.val _ = x.val _
              rw [List.map_append, List.take_left' (by rw [List.length_map]),
                pick_append ρ _ _ _ _ hmem hdis (by rw [hl.1 ls hlk, List.length_map])]
              exact h.2.2 _
      · cases hb
    · cases hb
  · cases hb

end Expr
end Calliope
