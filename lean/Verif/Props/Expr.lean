import Verif.Proofs.ExprLegal

/-!
# Helper functions and the meaning of expressions (C46–C50, C68, C70)

Throughout, `a` is the value of the argument of a helper function and `b` the value of the call, `ρ` an item
(a label for every dimension) and `coords d` the labels of dimension `d`.
-/

namespace Calliope
namespace Expr

open Grid

variable {V : Type} [AddCommMonoid V] {E : Env V} {slices : String → Option SliceDef}
  {subs : String → Option (Ex V)} {w : Arr Bool} {t : Ex V} {a b : Arr (Option V)}

/-! ### C46 `sum` -/

/-- C46: the sum is over the items along the dimensions of the array that are named, each counted once in any
order, and it no longer has those dimensions. -/
theorem C46_value {over : List String} (hc : ∀ d, (E.coords d).Nodup)
    (h : evalSide E slices subs w (.sum t over) = .ok b) (ht : evalSide E slices subs w t = .ok a)
    (ha : a.dims.Nodup) (ρ : Point) (L : List Point) (hL : L.Nodup)
    (hm : ∀ σ, σ ∈ L ↔ Along E.coords (a.dims.filter (fun d => decide (d ∈ over))) ρ σ) :
    (∀ d, d ∈ b.dims ↔ d ∈ a.dims ∧ d ∉ over) ∧ b.at ρ = total (L.map a.at) := by
  unfold evalSide at h ht
  simp only [evalEx, ht, Except.ok.injEq] at h
  subst h
  refine ⟨?_, sumArr_at E.coords hc over a ha ρ L hL hm⟩
  intro d
  show d ∈ a.dims.filter _ ↔ _
  simp

/-- C46: the sum is missing exactly if every summand is. -/
theorem C46_missing {over : List String}
    (h : evalSide E slices subs w (.sum t over) = .ok b) (ht : evalSide E slices subs w t = .ok a)
    (ha : a.dims.Nodup) (ρ : Point) :
    b.at ρ = none ↔
      ∀ σ, Along E.coords (a.dims.filter (fun d => decide (d ∈ over))) ρ σ → a.at σ = none := by
  unfold evalSide at h ht
  simp only [evalEx, ht, Except.ok.injEq] at h
  subst h
  rw [sumArr_points E.coords over a ha, total_eq_none]
  constructor
  · intro H σ hσ
    exact H _ (List.mem_map.2 ⟨σ, (mem_points (ha.filter _)).2 hσ, rfl⟩)
  · intro H v hv
    obtain ⟨σ, hσ, rfl⟩ := List.mem_map.1 hv
    exact H σ ((mem_points (ha.filter _)).1 hσ)

/-- C46: only which dimensions of the array are named matters, not their order, repetition, or others. -/
theorem C46_names {over over' : List String} {b' : Arr (Option V)}
    (h : evalSide E slices subs w (.sum t over) = .ok b)
    (h' : evalSide E slices subs w (.sum t over') = .ok b')
    (ht : evalSide E slices subs w t = .ok a) (hs : ∀ d ∈ a.dims, d ∈ over ↔ d ∈ over') :
    b = b' := by
  unfold evalSide at h h' ht
  simp only [evalEx, ht, Except.ok.injEq] at h h'
  subst h
  subst h'
  have h1 : a.dims.filter (fun d => !over.contains d) = a.dims.filter (fun d => !over'.contains d) := by
    apply List.filter_congr
    intro d hd
    simp [hs d hd]
  have h2 : a.dims.filter (fun d => over.contains d) = a.dims.filter (fun d => over'.contains d) := by
    apply List.filter_congr
    intro d hd
    simp [hs d hd]
  unfold sumArr reduce
  rw [h1, h2]

/-- C46: dimensions the array does not have are ignored; with no other the array is unchanged. -/
theorem C46_absent {over : List String}
    (h : evalSide E slices subs w (.sum t over) = .ok b) (ht : evalSide E slices subs w t = .ok a)
    (ha : a.dims.Nodup) (ho : ∀ d ∈ over, d ∉ a.dims) (ρ : Point) :
    b.dims = a.dims ∧ b.at ρ = a.at ρ := by
  unfold evalSide at h ht
  simp only [evalEx, ht, Except.ok.injEq] at h
  subst h
  refine ⟨?_, ?_⟩
  · show a.dims.filter _ = _
    rw [List.filter_eq_self]
    intro d hd
    have : d ∉ over := fun hm => ho d hm hd
    simp [this]
  · rw [sumArr_points E.coords over a ha]
    have : a.dims.filter (fun d => decide (d ∈ over)) = [] := by
      rw [List.filter_eq_nil_iff]
      intro d hd hm
      simp only [decide_eq_true_eq] at hm
      exact ho d hm hd
    rw [this]
    exact total_singleton _

/-- C46: summing over some dimensions and then over others is summing over all of them. -/
theorem C46_nested {o1 o2 : List String} {b1 b2 : Arr (Option V)}
    (h1 : evalSide E slices subs w (.sum (.sum t o1) o2) = .ok b1)
    (h2 : evalSide E slices subs w (.sum t (o1 ++ o2)) = .ok b2)
    (ht : evalSide E slices subs w t = .ok a) (ha : a.dims.Nodup) (ρ : Point) :
    b1.at ρ = b2.at ρ := by
  unfold evalSide at h1 h2 ht
  simp only [evalEx, ht, Except.ok.injEq] at h1 h2
  subst h1
  subst h2
  have hk : (sumArr E.coords o1 a).dims = a.dims.filter (fun d => !o1.contains d) := rfl
  rw [sumArr_points E.coords o2 _ (by rw [hk]; exact ha.filter _), sumArr_points E.coords _ a ha]
  have he : (fun σ => (sumArr E.coords o1 a).at σ) = fun σ => total ((points E.coords
      (a.dims.filter (fun d => decide (d ∈ o1))) σ).map a.at) := by
    funext σ
    exact sumArr_points E.coords o1 a ha σ
  have he' : (sumArr E.coords o1 a).at = fun σ => total ((points E.coords
      (a.dims.filter (fun d => decide (d ∈ o1))) σ).map a.at) := he
  rw [he', ← total_flatMap, ← List.map_flatMap, ← points_append]
  apply total_perm
  apply List.Perm.map
  have hn : (a.dims.filter (fun d => decide (d ∈ o1 ++ o2))).Nodup := ha.filter _
  refine (points_perm E.coords ?_ hn ρ).symm
  rw [hk]
  rw [List.perm_ext_iff_of_nodup hn]
  · intro d
    simp only [List.mem_filter, List.mem_append, decide_eq_true_eq, List.contains_eq_mem,
      Bool.not_eq_true', decide_eq_false_iff_not]
    constructor
    · rintro ⟨h1, h2⟩
      by_cases ho : d ∈ o1
      · exact .inr ⟨h1, ho⟩
      · exact .inl ⟨⟨h1, ho⟩, h2.resolve_left ho⟩
    · rintro (⟨⟨h1, _⟩, h2⟩ | ⟨h1, h2⟩)
      · exact ⟨h1, .inr h2⟩
      · exact ⟨h1, .inl h2⟩
  · rw [List.nodup_append]
    refine ⟨(ha.filter _).filter _, ha.filter _, ?_⟩
    intro x hx y hy hxy
    subst hxy
    simp only [List.mem_filter, decide_eq_true_eq, List.contains_eq_mem, Bool.not_eq_true',
      decide_eq_false_iff_not] at hx hy
    exact hx.1.2 hy.2

/-! ### C47 `roll` -/

/-- C47: at position `i` the result holds the value at position `i - n` modulo the length. -/
theorem C47_position {d : String} {n : Int} (hn : (E.coords d).Nodup)
    (h : evalSide E slices subs w (.roll t [(d, n)]) = .ok b)
    (ht : evalSide E slices subs trueArr t = .ok a) (ρ : Point) (i j : Nat)
    (hi : (E.coords d)[i]? = some (ρ d)) (hj : (j : Int) = ((i : Int) - n) % (E.coords d).length) :
    b.dims = a.dims ∧ ∃ l, (E.coords d)[j]? = some l ∧ b.at ρ = a.at (set ρ d l) := by
  unfold evalSide at h ht
  simp only [evalEx, ht, rollAll] at h
  split at h
  · cases h
    obtain ⟨hi', he⟩ := List.getElem?_eq_some_iff.1 hi
    refine ⟨rfl, _, ?_, rollArr_at E.coords d n a ρ⟩
    rw [← he, rolled_getElem _ hn n i hi', List.getElem?_eq_some_iff]
    refine ⟨?_, ?_⟩
    · have h1 : (0 : Int) < (E.coords d).length := by omega
      have h2 := Int.emod_lt_of_pos ((i : Int) - n) h1
      omega
    · congr 1
      omega
  · cases h

/-- C47: rolling by `n` and then by `m` is rolling by `n + m`; rolling back restores the array. -/
theorem C47_compose {d : String} {n m : Int} {b1 b2 : Arr (Option V)} (hn : (E.coords d).Nodup)
    (h1 : evalSide E slices subs w (.roll (.roll t [(d, n)]) [(d, m)]) = .ok b1)
    (h2 : evalSide E slices subs w (.roll t [(d, n + m)]) = .ok b2)
    (ht : evalSide E slices subs trueArr t = .ok a) (ρ : Point) (hρ : ρ d ∈ E.coords d) :
    b1.at ρ = b2.at ρ ∧ (n + m = 0 → b1.at ρ = a.at ρ) := by
  unfold evalSide at h1 h2 ht
  simp only [evalEx, ht, rollAll] at h1 h2
  split at h2
  · rename_i hd
    rw [if_pos hd] at h1
    simp only [] at h1
    rw [if_pos (by exact hd)] at h1
    cases h1
    cases h2
    have hr : (rollArr E.coords d m (rollArr E.coords d n a)).at ρ =
        a.at (set ρ d (rolled (E.coords d) (n + m) (ρ d))) := by
      rw [rollArr_at, rollArr_at, set_same, set_set, rolled_rolled _ hn _ _ _ hρ]
    refine ⟨?_, ?_⟩
    · rw [hr, rollArr_at]
    · intro h0
      rw [hr, h0, rolled_zero _ hn _ hρ, set_self]
  · cases h2

/-- C47: rolling leaves the total along the dimension unchanged. -/
theorem C47_total {d : String} {n : Int} (hn : (E.coords d).Nodup)
    (h : evalSide E slices subs w (.roll t [(d, n)]) = .ok b)
    (ht : evalSide E slices subs trueArr t = .ok a) (ρ : Point) :
    total ((E.coords d).map (fun l => b.at (set ρ d l))) =
      total ((E.coords d).map (fun l => a.at (set ρ d l))) := by
  unfold evalSide at h ht
  simp only [evalEx, ht, rollAll] at h
  split at h
  · cases h
    have : (E.coords d).map (fun l => (rollArr E.coords d n a).at (set ρ d l)) =
        ((E.coords d).map (rolled (E.coords d) n)).map (fun l => a.at (set ρ d l)) := by
      rw [List.map_map]
      apply List.map_congr_left
      intro l _
      rw [rollArr_at, set_same, set_set]
      rfl
    rw [this]
    exact total_perm ((rolled_perm _ hn n).map _)
  · cases h

omit [AddCommMonoid V] in
/-- C47: rolling along a dimension the array does not have is an error. -/
theorem C47_missing_dim [Zero V] [Add V] {d : String} {n : Int}
    (ht : evalSide E slices subs trueArr t = .ok a) (hd : d ∉ a.dims) :
    evalSide E slices subs w (.roll t [(d, n)]) = .error .valueError := by
  unfold evalSide at ht ⊢
  simp [evalEx, ht, rollAll, hd]

/-! ### C48 `sum_next_n` -/

/-- C48 (partial): at position `i` the result is the sum over the positions `i` to `i + N - 1`, as far as they
exist.  The documentation prints the upper limit `i + N`: see `C48_printed`. -/
theorem C48_window_partial {d : String} {n : Nat} (hn : (E.coords d).Nodup)
    (h : evalSide E slices subs w (.sumNextN t d n) = .ok b) (ht : evalSide E slices subs w t = .ok a)
    (ha : a.dims.Nodup) (ρ : Point) (i : Nat) (hi : (E.coords d)[i]? = some (ρ d)) :
    b.dims = a.dims ∧ b.at ρ = total (((List.range (E.coords d).length).filter
      (fun j => decide (i ≤ j ∧ j < i + n))).map (fun j => a.at (set ρ d ((E.coords d).getD j "")))) := by
  unfold evalSide at h ht
  simp only [evalEx, ht] at h
  have hag := agrees_next (coords := E.coords) (a := a) (b := b) (x := ⟨a.dims, a.at⟩)
    (Int.natCast_nonneg n) ⟨ha, fun _ => Iff.rfl, fun _ => rfl⟩ h
  refine ⟨?_, ?_⟩
  · unfold nextArr at h
    split at h
    · cases h; rfl
    · cases h
  · rw [hag.2.2 ρ]
    simp only [Fn.next, window, Int.toNat_natCast]
    obtain ⟨hi', he⟩ := List.getElem?_eq_some_iff.1 hi
    rw [← he, hn.idxOf_getElem i hi', take_drop_getD, List.map_map]
    rfl

/-- C48 fails: the sum printed in the documentation, over the positions `i` to `i + N`, has the item at
`i + N` in addition to what is built, whenever there is one. -/
theorem C48_printed {d : String} {n : Nat} (hn : (E.coords d).Nodup)
    (h : evalSide E slices subs w (.sumNextN t d n) = .ok b) (ht : evalSide E slices subs w t = .ok a)
    (ha : a.dims.Nodup) (ρ : Point) (i : Nat) (hi : (E.coords d)[i]? = some (ρ d))
    (hin : i + n < (E.coords d).length) :
    total (((List.range (E.coords d).length).filter
      (fun j => decide (i ≤ j ∧ j ≤ i + n))).map (fun j => a.at (set ρ d ((E.coords d).getD j "")))) =
    total [b.at ρ, a.at (set ρ d ((E.coords d).getD (i + n) ""))] := by
  rw [(C48_window_partial hn h ht ha ρ i hi).2]
  have h1 : (List.range (E.coords d).length).filter (fun j => decide (i ≤ j ∧ j ≤ i + n)) =
      (List.range (E.coords d).length).filter (fun j => decide (i ≤ j ∧ j < i + n)) ++ [i + n] := by
    have hc : (List.range (E.coords d).length).filter (fun j => decide (i ≤ j ∧ j ≤ i + n)) =
        (List.range (E.coords d).length).filter (fun j => decide (i ≤ j ∧ j < i + (n + 1))) := by
      apply List.filter_congr
      intro j _
      apply decide_eq_decide.2
      omega
    rw [hc, filter_range, filter_range, Nat.min_eq_left (by omega), Nat.min_eq_left (by omega),
      List.range'_1_concat]
  rw [h1, List.map_append]
  have := total_flatMap (V := V) (fun x => x) [((List.range (E.coords d).length).filter
      (fun j => decide (i ≤ j ∧ j < i + n))).map (fun j => a.at (set ρ d ((E.coords d).getD j ""))),
      [a.at (set ρ d ((E.coords d).getD (i + n) ""))]]
  simp only [List.flatMap_cons, List.flatMap_nil, List.append_nil, List.map_cons, List.map_nil,
    total_singleton] at this
  exact this

/-- C48, negative `N`: near the start of the dimension the window reaches almost to its end, because the upper
limit counts from the end. -/
theorem C48_negative {d : String} {k : Nat} (hn : (E.coords d).Nodup)
    (h : evalSide E slices subs w (.sumNextN t d (-(k : Int))) = .ok b)
    (ht : evalSide E slices subs w t = .ok a) (ρ : Point) (i : Nat)
    (hi : (E.coords d)[i]? = some (ρ d)) (hik : i < k) :
    b.at ρ = total ((((E.coords d).take ((E.coords d).length + i - k)).drop i).map
      (fun l => a.at (set ρ d l))) := by
  unfold evalSide at h ht
  simp only [evalEx, ht] at h
  unfold nextArr at h
  split at h
  · rename_i hd
    cases h
    obtain ⟨hi', he⟩ := List.getElem?_eq_some_iff.1 hi
    show sumPresent _ = _
    rw [sumPresent_eq]
    have hp : (pick a.dims (a.dims.map ρ) [d]).headD "" = ρ d := by
      rw [pick_map ρ a.dims [d] (by
        intro x hx
        rw [List.mem_singleton] at hx
        subst hx
        simpa using hd)]
      rfl
    rw [hp, ← he, hn.idxOf_getElem i hi']
    unfold pySlice
    rw [if_neg (by omega)]
    have : (((E.coords d).length : Int) + ((i : Int) + -(k : Int))).toNat =
        (E.coords d).length + i - k := by omega
    rw [this]
    congr 1
    apply List.map_congr_left
    intro l _
    rw [atDim_map]
    rfl
  · cases h

/-! ### C49 `group_sum` -/

/-- C49: the value for a group is the sum over the items whose label is that group, each counted once in any
order. -/
theorem C49_value {groupby groupDim : String} {g : Arr (Option Label)} (hc : ∀ d, (E.coords d).Nodup)
    (h : evalSide E slices subs w (.groupSum t groupby groupDim) = .ok b)
    (ht : evalSide E slices subs trueArr t = .ok a) (hg : E.lookup groupby = some g)
    (ha : a.dims.Nodup) (hgn : g.dims.Nodup) (ρ : Point) (L : List Point) (hL : L.Nodup)
    (hm : ∀ σ, σ ∈ L ↔ Along E.coords g.dims ρ σ ∧ g.at σ = some (ρ groupDim)) :
    (∀ d, d ∈ b.dims ↔ d = groupDim ∨ (d ∈ a.dims ∧ d ∉ g.dims)) ∧ b.at ρ = total (L.map a.at) := by
  unfold evalSide at h ht
  simp only [evalEx, ht, hg] at h
  have hag := agrees_group (coords := E.coords) (a := a) (b := b) (x := ⟨a.dims, a.at⟩) hgn
    ⟨ha, fun _ => Iff.rfl, fun _ => rfl⟩ h
  refine ⟨?_, ?_⟩
  · intro d
    rw [hag.2.1 d]
    simp [Fn.group]
  · rw [hag.2.2 ρ]
    simp only [Fn.group]
    apply total_perm
    apply List.Perm.map
    rw [List.perm_ext_iff_of_nodup ((points_nodup E.coords hc _ ρ hgn).filter _) hL]
    intro σ
    rw [List.mem_filter, mem_points hgn, hm, decide_eq_true_eq]

/-- C49: the total over the groups is the total over the items that have a label. -/
theorem C49_total {groupby groupDim : String} {g : Arr (Option Label)}
    (h : evalSide E slices subs w (.groupSum t groupby groupDim) = .ok b)
    (ht : evalSide E slices subs trueArr t = .ok a) (hg : E.lookup groupby = some g)
    (ha : a.dims.Nodup) (hgn : g.dims.Nodup) (ρ : Point) (groups : List Label) (hgr : groups.Nodup)
    (hall : ∀ σ, Along E.coords g.dims ρ σ → ∀ l, g.at σ = some l → l ∈ groups) :
    total (groups.map (fun l => b.at (set ρ groupDim l))) =
      total (((points E.coords g.dims ρ).filter (fun σ => (g.at σ).isSome)).map a.at) := by
  unfold evalSide at h ht
  simp only [evalEx, ht, hg] at h
  have hag := agrees_group (coords := E.coords) (a := a) (b := b) (x := ⟨a.dims, a.at⟩) hgn
    ⟨ha, fun _ => Iff.rfl, fun _ => rfl⟩ h
  have hkept : groupDim ∈ a.dims → groupDim ∈ g.dims := by
    intro h1
    by_cases h2 : groupDim ∈ g.dims
    · exact h2
    · unfold groupArr at h
      split at h
      · split at h
        · cases h
        · simp only [] at h
          rw [if_pos (by simp [h1, h2])] at h
          cases h
      · cases h
  have hsub : ∀ d ∈ g.dims, d ∈ a.dims := by
    unfold groupArr at h
    split at h
    · rename_i hs
      intro d hd
      have := List.all_eq_true.1 hs d hd
      simpa using this
    · cases h
  have hb : ∀ l, b.at (set ρ groupDim l) = total (((points E.coords g.dims ρ).filter
      (fun σ => decide (g.at σ = some l))).map a.at) := by
    intro l
    rw [hag.2.2]
    simp only [Fn.group, set_same]
    congr 1
    apply points_filter_map E.coords a.dims
    · intro x y hxy
      exact at_congr a (fun d hd => hxy d hd)
    · intro x y hxy
      rw [at_congr g (fun d hd => hxy d (hsub d hd))]
    · intro d hd hn
      unfold set
      split
      · rename_i hdg
        subst hdg
        exact absurd (hkept hd) hn
      · rfl
  simp only [hb]
  rw [← total_flatMap, ← List.map_flatMap]
  apply total_perm
  apply List.Perm.map
  refine (group_perm g.at _ groups hgr).trans ?_
  apply List.Perm.of_eq
  apply List.filter_congr
  intro σ hσ
  rw [mem_points hgn] at hσ
  cases hgo : g.at σ with
  | none => simp
  | some l =>
    simp only [Option.some.injEq, Option.isSome_some, decide_eq_true_eq]
    exact ⟨l, hall σ hσ l hgo, rfl⟩

/-! ### C50 `select_from_lookup_arrays` -/

theorem looked_spec {coords : String → List Label} {ρ0 : Point} :
    ∀ {gs : List (String × Arr (Option Label))} {ρ σ : Point}, (gs.map Prod.fst).Nodup →
      (∀ p ∈ gs, p.2.at ρ0 = some (σ p.1) ∧ σ p.1 ∈ coords p.1) →
      (∀ d, d ∉ gs.map Prod.fst → σ d = ρ d) → looked coords ρ0 gs ρ = some σ
  | [], ρ, σ, _, _, h => by
      simp only [looked, Option.some.injEq]
      funext d
      exact (h d (by simp)).symm
  | (e, g) :: rest, ρ, σ, hn, hs, h => by
      simp only [List.map_cons, List.nodup_cons] at hn
      have h1 := hs (e, g) (List.mem_cons_self ..)
      simp only [] at h1
      simp only [looked, h1.1, if_pos h1.2]
      have ih := looked_spec (coords := coords) (ρ0 := ρ0) (gs := rest) (ρ := ρ)
        (σ := set σ e (ρ e)) hn.2 (by
          intro p hp
          have hpe : p.1 ≠ e := by
            intro he
            exact hn.1 (List.mem_map.2 ⟨p, hp, he⟩)
          rw [set_other _ _ hpe]
          exact hs p (List.mem_cons_of_mem _ hp)) (by
          intro d hd
          by_cases hde : d = e
          · subst hde
            exact set_same ..
          · rw [set_other _ _ hde]
            apply h
            simp only [List.map_cons, List.mem_cons, not_or]
            exact ⟨hde, hd⟩)
      rw [ih]
      simp only [Option.map_some, set_set, set_self]

theorem looked_none {coords : String → List Label} {ρ0 : Point} :
    ∀ {gs : List (String × Arr (Option Label))} {ρ : Point},
      (∃ p ∈ gs, ∀ l, p.2.at ρ0 = some l → l ∉ coords p.1) → looked coords ρ0 gs ρ = none
  | [], _, h => by
      obtain ⟨p, hp, _⟩ := h
      cases hp
  | (e, g) :: rest, ρ, h => by
      simp only [looked]
      split
      · rename_i l hl
        split
        · rename_i hin
          obtain ⟨p, hp, hno⟩ := h
          rcases List.mem_cons.1 hp with rfl | hp
          · exact absurd hin (hno l hl)
          · rw [looked_none ⟨p, hp, hno⟩]
            rfl
        · rfl
      · rfl

theorem select_ok {ls : List (String × String)} (h : evalSide E slices subs w (.select t ls) = .ok b)
    (ht : evalSide E slices subs w t = .ok a) :
    ∃ gs, lookups E ls = .ok gs ∧ selectArr E.coords a gs = .ok b := by
  unfold evalSide at h ht
  simp only [evalEx, ht] at h
  split at h
  · cases h
  · rename_i gs hgs
    exact ⟨gs, hgs, h⟩

/-- C50 (partial): where every lookup array holds a label of its dimension, the result is the value at the item
with these labels; where one is missing or holds something else, the result is missing.  What is missing of
C50: a label outside the dimension should be an error, see `C50_outside`. -/
theorem C50_value_partial {ls : List (String × String)} {gs : List (String × Arr (Option Label))}
    (h : evalSide E slices subs w (.select t ls) = .ok b) (ht : evalSide E slices subs w t = .ok a)
    (ha : a.dims.Nodup) (hls : (ls.map Prod.fst).Nodup) (hgs : List.Forall₂ (fun p q => q.1 = p.1 ∧ E.lookup p.2 = some q.2) ls gs) (ρ : Point) :
    (∀ σ : Point, (∀ p ∈ gs, p.2.at ρ = some (σ p.1) ∧ σ p.1 ∈ E.coords p.1) →
      (∀ d, d ∉ ls.map Prod.fst → σ d = ρ d) → b.at ρ = a.at σ) ∧
    ((∃ p ∈ gs, ∀ l, p.2.at ρ = some l → l ∉ E.coords p.1) → b.at ρ = none) := by
  rw [← lookups_iff] at hgs
  obtain ⟨gs', hgs', hb⟩ := select_ok h ht
  rw [hgs] at hgs'
  cases hgs'
  have hf := lookups_fst E ls gs hgs
  have hag := agrees_select (coords := E.coords) (a := a) (b := b) (x := ⟨a.dims, a.at⟩)
    (by rw [hf]; exact hls) ⟨ha, fun _ => Iff.rfl, fun _ => rfl⟩ hb
  refine ⟨?_, ?_⟩
  · intro σ h1 h2
    rw [hag.2.2 ρ]
    simp only [Fn.select]
    rw [looked_spec (by rw [hf]; exact hls) h1 (by rw [hf]; exact h2)]
  · intro h1
    rw [hag.2.2 ρ]
    simp only [Fn.select]
    rw [looked_none h1]

/-- C50: an error for labels outside the dimension is raised only if one of the lookup arrays holds no label of
its dimension at all. -/
theorem C50_raises {ls : List (String × String)} {gs : List (String × Arr (Option Label))}
    (ht : evalSide E slices subs w t = .ok a) (hgs : List.Forall₂ (fun p q => q.1 = p.1 ∧ E.lookup p.2 = some q.2) ls gs)
    (hdims : ∀ d ∈ ls.map Prod.fst, d ∈ a.dims)
    (hg : ∀ p ∈ gs, p.2.dims.Nodup ∧ ∀ d, d ∈ p.2.dims ↔ d ∈ ls.map Prod.fst) :
    evalSide E slices subs w (.select t ls) = .error .indexError ↔
      ∃ p ∈ gs, ∀ ρ : Point, (∀ d ∈ p.2.dims, ρ d ∈ E.coords d) → ∀ l, p.2.at ρ = some l →
        l ∉ E.coords p.1 := by
  rw [← lookups_iff] at hgs
  have hf := lookups_fst E ls gs hgs
  have hno : ∀ p ∈ gs, noMatch E.coords p = true ↔ ∀ ρ : Point,
      (∀ d ∈ p.2.dims, ρ d ∈ E.coords d) → ∀ l, p.2.at ρ = some l → l ∉ E.coords p.1 := by
    intro p hp
    unfold noMatch
    rw [List.all_eq_true]
    constructor
    · intro H ρ hρ l hl
      have := H (p.2.dims.map ρ) (mem_cells hρ)
      have hl' : p.2.val (p.2.dims.map ρ) = some l := hl
      rw [hl'] at this
      simpa using this
    · intro H c hc
      have hlen := length_of_mem_cells hc
      have hmap := map_override (fun _ => "") p.2.dims c (hg p hp).1 hlen
      have h2 := along_override (ρ := fun _ => "") hc
      have := H (override (fun _ => "") p.2.dims c) h2.2
      unfold Arr.at at this
      rw [hmap] at this
      split
      · rename_i l hl
        simpa using this l hl
      · rfl
  unfold evalSide at ht ⊢
  simp only [evalEx, ht, hgs]
  unfold selectArr
  simp only [hf]
  rw [if_pos (List.all_eq_true.2 (fun d hd => by simpa using hdims d (by simpa using hd))),
    if_pos (List.all_eq_true.2 (fun p hp => List.all_eq_true.2 (fun d hd => by
      simpa using ((hg p hp).2 d).2 (by simpa using hd)))),
    if_pos (List.all_eq_true.2 (fun p hp => List.all_eq_true.2 (fun d hd => by
      simpa using ((hg p hp).2 d).1 hd)))]
  constructor
  · intro H
    split at H
    · rename_i hany
      obtain ⟨p, hp, hn⟩ := List.any_eq_true.1 hany
      exact ⟨p, hp, (hno p hp).1 hn⟩
    · cases H
  · rintro ⟨p, hp, hn⟩
    rw [if_pos (List.any_eq_true.2 ⟨p, hp, (hno p hp).2 hn⟩)]

/-! ### C68 Expressions item by item -/

/-- C68, exact: evaluation with arrays gives at every item the meaning of the expression, in which the operands
of operators are missing where the condition of the equation is false. -/
theorem C68_meaning (hE : WellFormed E) (hw : w.dims.Nodup) (hok : Ok (inline subs t))
    (h : evalSide E slices subs w t = .ok a) :
    (∀ d, d ∈ a.dims ↔ d ∈ (mean E slices w.at w.dims (inline subs t)).dims) ∧
      ∀ ρ, a.at ρ = (mean E slices w.at w.dims (inline subs t)).val ρ := by
  unfold evalSide at h
  rw [eval_inline] at h
  exact (eval_mean hE hw hok h).2

/-- C68: evaluation raises exactly if something named does not exist or a helper function is given an array
without the dimensions it works along. -/
theorem C68_returns (hE : WellFormed E) (hw : w.dims.Nodup) (hok : Ok (inline subs t)) :
    (∃ a, evalSide E slices subs w t = .ok a) ↔ Legal E slices w.at w.dims (inline subs t) := by
  unfold evalSide
  rw [eval_inline]
  exact eval_ok_iff hE hw hok

/-- C68 (partial): the value at an item is the same whichever other items satisfy the condition, if whatever
combines several items does so along dimensions outside `foreach` or combines values without operators. -/
theorem C68_independent_partial (hE : WellFormed E) {w' : Arr Bool} {a' : Arr (Option V)}
    (hw : w.dims.Nodup) (hw' : w'.dims.Nodup) (hok : Ok (inline subs t))
    (hap : Apart w.dims (inline subs t)) (hap' : Apart w'.dims (inline subs t))
    (h : evalSide E slices subs w t = .ok a) (h' : evalSide E slices subs w' t = .ok a')
    (ρ : Point) (hρ : w.at ρ = true) (hρ' : w'.at ρ = true) : a.at ρ = a'.at ρ := by
  have dep : ∀ (u : Arr Bool), DependsOn u.at u.dims := fun u x y hxy =>
    at_congr u (fun d hd => hxy d hd)
  rw [(C68_meaning hE hw hok h).2 ρ, (C68_meaning hE hw' hok h').2 ρ,
    (apart_same (dep w) _ hap).2 ρ hρ, (apart_same (dep w') _ hap').2 ρ hρ']

/-! ### C70 Missing values -/

/-- C70, expressions: if a global expression or an objective is built, it has no dimension outside `foreach`, and
a value at every item for which the condition holds. -/
theorem C70_expression {wc : Arr Bool}
    (h : evalExpression E slices subs wc t = .ok a) :
    (∀ d ∈ a.dims, d ∈ wc.dims) ∧
      ∀ ρ : Point, (∀ d ∈ wc.dims, ρ d ∈ E.coords d) → wc.at ρ = true → a.at ρ ≠ none := by
  unfold evalExpression at h
  split at h
  · cases h
  · rename_i a' _
    split at h
    · cases h
    · rename_i hck
      cases h
      unfold checkWhere at hck
      split at hck
      · rename_i hd
        split at hck
        · cases hck
        · rename_i hany
          have hdims : ∀ d ∈ a.dims, d ∈ wc.dims := by
            intro d hd'
            simpa using List.all_eq_true.1 hd d hd'
          refine ⟨hdims, ?_⟩
          intro ρ hρ hm hno
          apply hany
          refine anyCell_of (ρ := ρ) ?_ ?_
          · intro d hd'
            rcases mem_joinDims.1 hd' with h1 | h1
            · exact hρ d (hdims d h1)
            · exact hρ d h1
          · rw [at_zip, hm, hno]
            rfl
      · cases hck

/-- C70, constraints: both sides are compared at exactly the items for which the condition holds, and have no
dimension outside `foreach`. -/
theorem C70_comparison {l r : Ex V} {al ar : Arr (Option V)} {c : Arr (Option (Option V × Option V))}
    (h : evalComparison E slices subs w l r = .ok c)
    (hl : evalSide E slices subs w l = .ok al) (hr : evalSide E slices subs w r = .ok ar) :
    (∀ d ∈ al.dims, d ∈ w.dims) ∧ (∀ d ∈ ar.dims, d ∈ w.dims) ∧ c.dims = w.dims ∧
      ∀ ρ : Point, c.at ρ = if w.at ρ then some (al.at ρ, ar.at ρ) else none := by
  unfold evalComparison at h
  rw [hl, hr] at h
  simp only [] at h
  split at h
  · rename_i h1
    split at h
    · rename_i h2
      cases h
      have h1' : ∀ d ∈ al.dims, d ∈ w.dims := fun d hd => by simpa using List.all_eq_true.1 h1 d hd
      have h2' : ∀ d ∈ ar.dims, d ∈ w.dims := fun d hd => by simpa using List.all_eq_true.1 h2 d hd
      refine ⟨h1', h2', rfl, ?_⟩
      intro ρ
      show (if w.val (w.dims.map ρ) then _ else _) = _
      simp only [pick_map ρ _ _ h1', pick_map ρ _ _ h2']
      rfl
    · cases h
  · cases h

/-- C70 fails for constraints: any component without a value at an item for which the condition holds is compared
there, without an error. -/
theorem C70_comparison_unchecked {name : String} {comp : Comp V} {v : V}
    (hcomp : E.comp name = some comp) (hd : ∀ d ∈ comp.arr.dims, d ∈ w.dims) (ρ : Point)
    (hdef : comp.default = none) (hmiss : comp.arr.at ρ = none) (hm : w.at ρ = true) :
    ∃ c, evalComparison E slices subs w (.comp name) (.num v) = .ok c ∧
      c.at ρ = some (none, some v) := by
  have hl : evalSide E slices subs w (.comp name) = .ok (map (fill comp.default) comp.arr) := by
    simp [evalSide, evalEx, compArr, hcomp]
  have hr : evalSide E slices subs w (.num v) = .ok (scalar (some v)) := by
    simp [evalSide, evalEx]
  have hok : ∃ c, evalComparison E slices subs w (.comp name) (.num v) = .ok c := by
    unfold evalComparison
    rw [hl, hr]
    simp only []
    rw [if_pos (List.all_eq_true.2 (fun d hd' => by simpa using hd d hd')),
      if_pos (by simp [scalar])]
    exact ⟨_, rfl⟩
  obtain ⟨c, hc⟩ := hok
  refine ⟨c, hc, ?_⟩
  rw [(C70_comparison hc hl hr).2.2.2 ρ, if_pos hm]
  simp [hmiss, hdef, fill]

/-! ### Examples -/

/-- Arithmetic of integers; an operation with a missing operand is missing. -/
def intOp : Arith.Op → Option Int → Option Int → Option Int
  | .plus, some x, some y => some (x + y)
  | .minus, some x, some y => some (x - y)
  | .times, some x, some y => some (x * y)
  | _, _, _ => none

/-- Two nodes, three techs, `cap` for each of them but one, a grouping of techs and a lookup. -/
def demo : Env Int where
  coords := fun d => if d = "techs" then ["a", "b", "c"] else if d = "nodes" then ["n", "m"] else []
  comp := fun n =>
    if n = "cap" then some ⟨⟨["techs"], fun c =>
      if c = ["a"] then some 1 else if c = ["b"] then some 2 else none⟩, none⟩
    else if n = "full" then some ⟨⟨["techs"], fun c =>
      if c = ["a"] then some 1 else if c = ["b"] then some 2 else some 4⟩, none⟩
    else none
  isDim := fun _ => false
  lookup := fun n =>
    if n = "kind" then some ⟨["techs"], fun c => if c = ["a"] then none else some "k"⟩
    else if n = "next" then some ⟨["techs"], fun c =>
      if c = ["a"] then some "b" else if c = ["b"] then some "z" else none⟩
    else none
  carrier := fun _ => none
  period := fun _ l => l
  op := intOp
  neg := fun v => v.map (fun x => -x)
  truthy := fun x => x != 0

/-- The condition true for one tech only, and for all. -/
def oneTech : Arr Bool := ⟨["techs"], fun c => c == ["a"]⟩
def allTechs : Arr Bool := ⟨["techs"], fun _ => true⟩

/-- What an evaluation gives at some labels. -/
def valueAt (r : Res Int) (c : List Label) : Option (Option Int) :=
  match r with
  | .ok a => some (a.val c)
  | .error _ => none

def demoSide (w : Arr Bool) (t : Ex Int) : Res Int :=
  evalSide demo (fun _ => none) (fun _ => none) w t

example : ∀ d, (demo.coords d).Nodup := by
  intro d
  simp only [demo]
  split
  · decide
  · split <;> decide

theorem demo_wellFormed : WellFormed demo := by
  refine ⟨?_, ?_, ?_⟩
  · intro n c h
    simp only [demo] at h
    split at h
    · cases h; decide
    · split at h
      · cases h; decide
      · cases h
  · intro n c h
    simp only [demo] at h
    split at h
    · cases h; decide
    · split at h
      · cases h; decide
      · cases h
  · intro n c h
    cases h

example : Legal demo (fun _ => none) allTechs.at allTechs.dims
    (.chain (.sum (.comp "full") ["techs"]) (.one .plus (.sliced "cap" [("techs", .label "a")]))) :=
  ⟨.inl ⟨_, rfl⟩, by decide, .inl ⟨_, rfl, by
    intro p hp
    rw [List.mem_singleton] at hp
    subst hp
    exact ⟨by decide, trivial, fun _ _ => ⟨"a", rfl, by decide⟩⟩⟩⟩

-- C46
example : valueAt (demoSide allTechs (.sum (.comp "cap") ["techs", "nodes"])) [] = some (some 3) := by
  decide +kernel
-- C47
example : valueAt (demoSide allTechs (.roll (.comp "full") [("techs", 1)])) ["a"] = some (some 4) := by
  decide +kernel
-- C48: two items are added where the documentation adds three
example : valueAt (demoSide allTechs (.sumNextN (.comp "full") "techs" 2)) ["a"] = some (some 3) := by
  decide +kernel
example : valueAt (demoSide allTechs (.sumNextN (.comp "full") "techs" (-1))) ["a"] = some (some 3) := by
  decide +kernel
-- C49
example : valueAt (demoSide allTechs (.groupSum (.comp "full") "kind" "kinds")) ["k"] = some (some 6) := by
  decide +kernel
-- C50
example : valueAt (demoSide allTechs (.select (.comp "full") [("techs", "next")])) ["a"] = some (some 2) := by
  decide +kernel
-- C70
example : ∃ a, evalExpression demo (fun _ => none) (fun _ => none) allTechs (.comp "full") = .ok a :=
  ⟨_, rfl⟩

/-- C50 fails: a lookup value outside the dimension is no error, if another is inside. -/
theorem C50_outside : ∃ (E : Env Int) (w : Arr Bool) (t : Ex Int) (g : Arr (Option Label)) (ρ : Point)
    (b : Arr (Option Int)), E.lookup "next" = some g ∧ g.at ρ = some "z" ∧ "z" ∉ E.coords "techs" ∧
      evalSide E (fun _ => none) (fun _ => none) w (.select t [("techs", "next")]) = .ok b ∧
      b.at ρ = none := by
  refine ⟨demo, allTechs, .comp "full", ⟨["techs"], fun c =>
      if c = ["a"] then some "b" else if c = ["b"] then some "z" else none⟩, fun _ => "b", _, ?_, ?_, ?_,
      rfl, ?_⟩
  · rfl
  · rfl
  · decide
  · decide +kernel

/-- C68 fails in general: `sum(full * 1, over=techs)` in an equation over techs adds only the techs for which the
condition holds, although `sum(full, over=techs)` adds all: the value at tech `a` depends on which other techs
satisfy the condition. -/
theorem C68_masked_sum :
    ∃ (E : Env Int) (w w' : Arr Bool) (t : Ex Int) (a a' : Arr (Option Int)) (ρ : Point),
      WellFormed E ∧ w.dims = ["techs"] ∧ w'.dims = ["techs"] ∧ Ok t ∧
      evalSide E (fun _ => none) (fun _ => none) w t = .ok a ∧
      evalSide E (fun _ => none) (fun _ => none) w' t = .ok a' ∧
      w.at ρ = true ∧ w'.at ρ = true ∧ a.at ρ ≠ a'.at ρ := by
  refine ⟨demo, oneTech, allTechs, .sum (.chain (.comp "full") (.one .times (.num 1))) ["techs"], _, _,
    fun _ => "a", demo_wellFormed, rfl, rfl, ⟨trivial, trivial⟩, rfl, rfl, ?_, ?_, ?_⟩
  · decide
  · decide
  · decide +kernel

end Expr
end Calliope
