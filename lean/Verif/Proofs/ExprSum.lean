import Verif.Proofs.ExprMask

namespace Calliope
namespace Expr

open Grid

variable {V : Type} [AddCommMonoid V]

theorem total_eq_none {l : List (Option V)} : total l = none ↔ ∀ v ∈ l, v = none := by
  unfold total
  split
  · rename_i h
    exact ⟨fun _ => h, fun _ => rfl⟩
  · rename_i h
    exact ⟨fun h1 => by simp at h1, fun h1 => absurd h1 h⟩

theorem total_getD (l : List (Option V)) : (total l).getD 0 = (l.map (fun v => v.getD 0)).sum := by
  unfold total
  split
  · rename_i h
    symm
    apply List.sum_eq_zero
    intro x hx
    obtain ⟨v, hv, rfl⟩ := List.mem_map.1 hx
    rw [h v hv]
    rfl
  · rfl

theorem total_ext {l m : List (Option V)} (h1 : total l = none ↔ total m = none)
    (h2 : (l.map (fun v => v.getD 0)).sum = (m.map (fun v => v.getD 0)).sum) : total l = total m := by
  rw [← total_getD, ← total_getD] at h2
  cases hl : total l with
  | none => exact (h1.1 hl).symm
  | some x =>
    cases hm : total m with
    | none => rw [h1.2 hm] at hl; cases hl
    | some y =>
      rw [hl, hm] at h2
      simp only [Option.getD_some] at h2
      rw [h2]

theorem total_singleton (v : Option V) : total [v] = v := by
  cases v with
  | none => exact total_eq_none.2 (by simp)
  | some x => simp [total]

/-- A total of totals is the total of everything. -/
theorem total_flatMap {α : Type} (f : α → List (Option V)) (l : List α) :
    total (l.flatMap f) = total (l.map (fun x => total (f x))) := by
  apply total_ext
  · rw [total_eq_none, total_eq_none]
    constructor
    · intro h v hv
      obtain ⟨x, hx, rfl⟩ := List.mem_map.1 hv
      exact total_eq_none.2 (fun u hu => h u (List.mem_flatMap.2 ⟨x, hx, hu⟩))
    · intro h v hv
      obtain ⟨x, hx, hv⟩ := List.mem_flatMap.1 hv
      exact total_eq_none.1 (h _ (List.mem_map.2 ⟨x, hx, rfl⟩)) v hv
  · induction l with
    | nil => rfl
    | cons x l ih =>
      simp only [List.flatMap_cons, List.map_append, List.sum_append, List.map_cons, List.sum_cons, ih,
        total_getD]

omit [AddCommMonoid V] in
theorem points_append (coords : String → List Label) : ∀ (ds es : List String) (ρ : Point),
    points coords (ds ++ es) ρ = (points coords ds ρ).flatMap (points coords es)
  | [], es, ρ => by simp [points]
  | d :: ds, es, ρ => by
      simp only [List.cons_append, points, List.flatMap_assoc]
      congr 1
      funext l
      exact points_append coords ds es _

/-- Summing is over the points along the dimensions summed over, in any order. -/
theorem sumArr_at (coords : String → List Label) (hc : ∀ d, (coords d).Nodup) (over : List String)
    (a : Arr (Option V)) (ha : a.dims.Nodup) (ρ : Point) (L : List Point) (hL : L.Nodup)
    (hm : ∀ σ, σ ∈ L ↔ Along coords (a.dims.filter (fun d => decide (d ∈ over))) ρ σ) :
    (sumArr coords over a).at ρ = total (L.map a.at) := by
  have h := (agrees_sum (coords := coords) over (a := a) (x := ⟨a.dims, a.at⟩)
    ⟨ha, fun _ => Iff.rfl, fun _ => rfl⟩).2.2 ρ
  rw [h]
  simp only [Fn.sumOver]
  have hn : (a.dims.filter (fun d => decide (d ∈ over))).Nodup := ha.filter _
  rw [hn.dedup]
  apply total_perm
  apply List.Perm.map
  rw [List.perm_ext_iff_of_nodup (points_nodup coords hc _ ρ hn) hL]
  intro σ
  rw [mem_points hn, hm]

theorem sumArr_points (coords : String → List Label) (over : List String)
    (a : Arr (Option V)) (ha : a.dims.Nodup) (ρ : Point) :
    (sumArr coords over a).at ρ =
      total ((points coords (a.dims.filter (fun d => decide (d ∈ over))) ρ).map a.at) := by
  have h := (agrees_sum (coords := coords) over (a := a) (x := ⟨a.dims, a.at⟩)
    ⟨ha, fun _ => Iff.rfl, fun _ => rfl⟩).2.2 ρ
  rw [h]
  simp only [Fn.sumOver]
  rw [(ha.filter _).dedup]

/-! ### Cyclic shifts -/

omit [AddCommMonoid V] in
theorem getD_getElem (labels : List Label) (j : Nat) (x : Label) (hj : j < labels.length) :
    labels.getD j x = labels[j] := by
  rw [List.getD_eq_getElem?_getD, List.getElem?_eq_getElem hj]
  rfl

omit [AddCommMonoid V] in
theorem rolled_getElem (labels : List Label) (hn : labels.Nodup) (n : Int) (i : Nat)
    (hi : i < labels.length) :
    rolled labels n labels[i] = labels[(((i : Int) - n) % (labels.length : Int)).toNat]'(by
      have h1 : (0 : Int) < labels.length := by omega
      have h2 := Int.emod_lt_of_pos ((i : Int) - n) h1
      have h3 := Int.emod_nonneg ((i : Int) - n) (by omega : (labels.length : Int) ≠ 0)
      omega) := by
  unfold rolled
  rw [hn.idxOf_getElem i hi]
  rw [getD_getElem]

omit [AddCommMonoid V] in
theorem rolled_rolled (labels : List Label) (hn : labels.Nodup) (n m : Int) (l : Label)
    (hl : l ∈ labels) : rolled labels n (rolled labels m l) = rolled labels (n + m) l := by
  obtain ⟨i, hi, rfl⟩ := List.mem_iff_getElem.1 hl
  rw [rolled_getElem labels hn m i hi, rolled_getElem labels hn n, rolled_getElem labels hn (n + m) i hi]
  congr 2
  have h3 := Int.emod_nonneg ((i : Int) - m) (by omega : (labels.length : Int) ≠ 0)
  rw [Int.toNat_of_nonneg h3, Int.emod_sub_emod]
  congr 1
  omega

omit [AddCommMonoid V] in
theorem rolled_zero (labels : List Label) (hn : labels.Nodup) (l : Label)
    (hl : l ∈ labels) : rolled labels 0 l = l := by
  obtain ⟨i, hi, rfl⟩ := List.mem_iff_getElem.1 hl
  rw [rolled_getElem labels hn 0 i hi]
  congr 1
  rw [Int.sub_zero, Int.emod_eq_of_lt (by omega) (by omega)]
  rfl

omit [AddCommMonoid V] in
theorem rolled_mem (labels : List Label) (hn : labels.Nodup) (n : Int) (l : Label)
    (hl : l ∈ labels) : rolled labels n l ∈ labels := by
  obtain ⟨i, hi, rfl⟩ := List.mem_iff_getElem.1 hl
  rw [rolled_getElem labels hn n i hi]
  exact List.getElem_mem _

omit [AddCommMonoid V] in
theorem rolled_perm (labels : List Label) (hn : labels.Nodup) (n : Int) :
    (labels.map (rolled labels n)).Perm labels := by
  have hnd : (labels.map (rolled labels n)).Nodup := by
    refine List.Nodup.map_on ?_ hn
    intro x hx y hy hxy
    have := congrArg (rolled labels (-n)) hxy
    rw [rolled_rolled labels hn _ _ _ hx, rolled_rolled labels hn _ _ _ hy] at this
    rw [Int.add_left_neg, rolled_zero labels hn _ hx, rolled_zero labels hn _ hy] at this
    exact this
  rw [List.perm_ext_iff_of_nodup hnd hn]
  intro x
  rw [List.mem_map]
  constructor
  · rintro ⟨l, hl, rfl⟩
    exact rolled_mem labels hn n l hl
  · intro hx
    refine ⟨rolled labels (-n) x, rolled_mem labels hn _ x hx, ?_⟩
    rw [rolled_rolled labels hn _ _ _ hx, Int.add_right_neg, rolled_zero labels hn _ hx]

omit [AddCommMonoid V] in
theorem rollArr_at (coords : String → List Label) (d : String) (n : Int) (a : Arr (Option V)) (ρ : Point) :
    (rollArr coords d n a).at ρ = a.at (set ρ d (rolled (coords d) n (ρ d))) := by
  show a.val (atDim _ _ _ (a.dims.map ρ)) = _
  rw [atDim_map]
  rfl

/-! ### Windows -/

omit [AddCommMonoid V] in
theorem filter_range (n i k : Nat) : (List.range n).filter (fun j => decide (i ≤ j ∧ j < i + k)) =
    List.range' i (min k (n - i)) := by
  apply List.Perm.eq_of_pairwise (le := (· < ·))
  · intro a b _ _ h1 h2
    omega
  · exact (List.pairwise_lt_range).filter _
  · exact List.pairwise_lt_range'
  · rw [List.perm_ext_iff_of_nodup (List.nodup_range.filter _) List.nodup_range']
    intro j
    simp only [List.mem_filter, List.mem_range, decide_eq_true_eq, List.mem_range'_1]
    omega

omit [AddCommMonoid V] in
theorem take_drop_getD (labels : List Label) (i k : Nat) :
    (labels.drop i).take k = ((List.range labels.length).filter
      (fun j => decide (i ≤ j ∧ j < i + k))).map (fun j => labels.getD j "") := by
  rw [filter_range]
  apply List.ext_getElem
  · simp
  · intro j h1 h2
    simp only [List.length_map, List.length_range'] at h2
    simp only [List.getElem_take, List.getElem_drop, List.getElem_map, List.getElem_range', Nat.one_mul]
    rw [getD_getElem]

/-! ### Groups -/

omit [AddCommMonoid V] in
theorem filter_or_perm {α : Type} (p q : α → Bool) : ∀ (l : List α), (∀ x ∈ l, p x = true → q x = false) →
    (l.filter p ++ l.filter q).Perm (l.filter (fun x => p x || q x))
  | [], _ => by simp
  | x :: l, h => by
      have ih := filter_or_perm p q l (fun y hy => h y (List.mem_cons_of_mem _ hy))
      cases hp : p x with
      | true =>
        have hq := h x (List.mem_cons_self ..) hp
        rw [List.filter_cons_of_pos hp, List.filter_cons_of_neg (by simp [hq]),
          List.filter_cons_of_pos (by simp [hp])]
        exact List.Perm.cons x ih
      | false =>
        rw [List.filter_cons_of_neg (by simp [hp])]
        cases hq : q x with
        | true =>
          rw [List.filter_cons_of_pos hq, List.filter_cons_of_pos (by simp [hq])]
          exact List.perm_middle.trans (List.Perm.cons x ih)
        | false =>
          rw [List.filter_cons_of_neg (by simp [hq]), List.filter_cons_of_neg (by simp [hp, hq])]
          exact ih

omit [AddCommMonoid V] in
theorem group_perm {α : Type} (g : α → Option Label) (pts : List α) : ∀ (L : List Label), L.Nodup →
    (L.flatMap (fun l => pts.filter (fun x => decide (g x = some l)))).Perm
      (pts.filter (fun x => decide (∃ l ∈ L, g x = some l)))
  | [], _ => by simp
  | l :: L, h => by
      rw [List.nodup_cons] at h
      rw [List.flatMap_cons]
      refine ((group_perm g pts L h.2).append_left _).trans ?_
      refine (filter_or_perm _ _ pts ?_).trans ?_
      · intro x _ hx
        simp only [decide_eq_true_eq] at hx
        simp only [decide_eq_false_iff_not]
        rintro ⟨m, hm, he⟩
        rw [hx] at he
        cases he
        exact h.1 hm
      · have : (fun x => decide (g x = some l) || decide (∃ l ∈ L, g x = some l)) =
            (fun x => decide (∃ m ∈ l :: L, g x = some m)) := by
          funext x
          simp only [List.mem_cons, exists_eq_or_imp, Bool.decide_or]
        rw [this]

omit [AddCommMonoid V] in
/-- Points from two starting points that agree outside `ds` on what `f` and `p` look at. -/
theorem points_filter_map {α : Type} (coords : String → List Label) (D : List String) (f : Point → α)
    (p : Point → Bool) (hf : ∀ ρ σ : Point, (∀ d ∈ D, ρ d = σ d) → f ρ = f σ)
    (hp : ∀ ρ σ : Point, (∀ d ∈ D, ρ d = σ d) → p ρ = p σ) :
    ∀ (ds : List String) (ρ σ : Point), (∀ d ∈ D, d ∉ ds → ρ d = σ d) →
      ((points coords ds ρ).filter p).map f = ((points coords ds σ).filter p).map f
  | [], ρ, σ, h => by
      simp only [points]
      have h' : ∀ d ∈ D, ρ d = σ d := fun d hd => h d hd (List.not_mem_nil)
      rw [List.filter_singleton, List.filter_singleton, hp ρ σ h']
      cases p σ with
      | true => simp only [cond_true, List.map_cons, List.map_nil, hf ρ σ h']
      | false => rfl
  | e :: ds, ρ, σ, h => by
      simp only [points, List.filter_flatMap, List.map_flatMap]
      congr 1
      funext l
      apply points_filter_map coords D f p hf hp ds
      intro d hd hn
      unfold set
      split
      · rfl
      · rename_i hde
        exact h d hd (by simp [hn, hde])

omit [AddCommMonoid V] in
theorem anyCell_of {coords : String → List Label} {a : Arr Bool} {ρ : Point}
    (hρ : ∀ d ∈ a.dims, ρ d ∈ coords d) (h : a.at ρ = true) : anyCell coords a = true := by
  have hk : a.dims.filter (fun d => !a.dims.contains d) = [] := by
    rw [List.filter_eq_nil_iff]
    intro d hd
    simp [hd]
  have hg : a.dims.filter (fun d => a.dims.contains d) = a.dims := by
    rw [List.filter_eq_self]
    intro d hd
    simp [hd]
  have hat : (reduce coords (fun l => l.any id) a.dims a).at ρ = anyCell coords a := by
    unfold anyCell Arr.at
    have : (reduce coords (fun (l : List Bool) => l.any id) a.dims a).dims = [] := hk
    rw [this]
    rfl
  rw [← hat, at_reduce, hg, List.any_eq_true]
  refine ⟨true, List.mem_map.2 ⟨a.dims.map ρ, mem_cells hρ, ?_⟩, rfl⟩
  rw [← h]
  apply at_congr
  intro d hd
  rw [override_map, if_pos hd]

end Expr
end Calliope
