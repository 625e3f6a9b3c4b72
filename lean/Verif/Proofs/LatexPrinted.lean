import Verif.Proofs.LatexClear

/-!
# Printed expressions that are ready for an update
-/

namespace Calliope
namespace LatexIndex

open Grid (Label Arr)
open Expr

variable {V : Type} {E : Env V} {it : String → String} {D ds : List String} {slices : String → Option SliceDef}

theorem shiftSuffix_no_look (shifts : List (String × Int)) (s n : String) (sub : Items) :
    shiftSuffix it shifts s ≠ some (.look n sub) := by
  unfold shiftSuffix
  cases keyed it shifts s <;> simp

theorem shift_avoids (shifts : List (String × Int)) : SuffixAvoids E it D ds (shiftSuffix it shifts) :=
  fun _ _ _ h => absurd h (shiftSuffix_no_look _ _ _ _)

theorem lookupItems_eq {m : String} {g : Arr (Option Label)} (h : E.lookup m = some g) :
    lookupItems E it m = plain it g.dims := by
  simp only [lookupItems, h]

theorem dimsFrom_eq (hI : Iterators E it D) : ∀ (dims : List String), (∀ d ∈ dims, d ∈ D) →
    dimsFromIterators it D dims = dims
  | [], _ => rfl
  | d :: dims, h => by
      have ih := dimsFrom_eq hI dims (fun e he => h e (List.mem_cons_of_mem _ he))
      unfold dimsFromIterators at ih ⊢
      rw [List.flatMap_cons, ih]
      have hd := h d List.mem_cons_self
      have : D.filter (fun x => it x == it d) = [d] := by
        have h1 : D.filter (fun x => it x == it d) = D.filter (fun x => x == d) := by
          apply List.filter_congr
          intro x hx
          rw [Bool.eq_iff_iff, beq_iff_eq, beq_iff_eq]
          exact ⟨fun he => hI.own x hx d hd he, fun he => by rw [he]⟩
        rw [h1, List.filter_beq, List.count_eq_one_of_mem hI.nodup hd]
        rfl
      rw [this]
      rfl

/-! ### No dimension of `ds` -/

theorem keyed_val {α : Type} {l : List (String × α)} {s : String} {v : α} (h : keyed it l s = some v) :
    ∃ p ∈ l, p.2 = v := by
  unfold keyed at h
  rw [Option.map_eq_some_iff] at h
  obtain ⟨p, hp, rfl⟩ := h
  exact ⟨p, List.mem_reverse.1 (List.mem_of_find?_eq_some hp), rfl⟩

theorem sliceItem_avoid (hI : Iterators E it D) {d : String} {v : Slicer}
    (hv : ∀ r m sh, v = .ref r → slices r = some (.lookup m sh) → ∀ e ∈ ds, ¬ LookupHas E m e) :
    (sliceItem E slices it (it d) v).Avoid E it D ds d := by
  unfold sliceItem
  cases v with
  | label l => simp only [Item.Avoid]
  | ref r =>
    simp only
    cases hs : slices r with
    | none => simp only [Item.Avoid]
    | some x =>
      cases x with
      | label l => simp only [Item.Avoid]
      | valAt e i => simp only [Item.Avoid]
      | lookup m sh =>
        simp only [Item.Avoid]
        intro g hg
        rw [lookupItems_eq hg]
        apply Items.avoid_update (shift_avoids sh)
        apply plain_avoid
        intro e he
        exact ⟨hI.lookup m g hg e he, fun hds => hv r m sh rfl hs e hds ⟨g, hg, he⟩⟩

theorem sliceItems_avoid (hI : Iterators E it D) {ss : List (String × Slicer)}
    (hv : ∀ p ∈ ss, ∀ r m sh, p.2 = .ref r → slices r = some (.lookup m sh) → ∀ e ∈ ds, ¬ LookupHas E m e) :
    ∀ (dims : List String), (∀ d ∈ dims, d ∈ D ∧ d ∉ ds) →
      (sliceItems E slices it ss (plain it dims)).Avoid E it D ds dims
  | [], _ => by simp only [plain, sliceItems, Items.Avoid]
  | d :: dims, h => by
      simp only [plain, sliceItems, Items.Avoid]
      refine ⟨h d List.mem_cons_self, ?_, sliceItems_avoid hI hv dims (fun e he => h e (List.mem_cons_of_mem _ he))⟩
      cases hk : keyed it ss (it d) with
      | none => simp only [Item.Avoid]
      | some v =>
        obtain ⟨p, hp, rfl⟩ := keyed_val hk
        exact sliceItem_avoid hI (hv p hp)

theorem look_avoids (hI : Iterators E it D) {ls : List (String × String)} (h : ∀ d ∈ ds, ∀ p ∈ ls, ¬ LookupHas E p.2 d) :
    SuffixAvoids E it D ds (lookSuffix E it ls) := by
  intro s n sub hs g hg
  unfold lookSuffix at hs
  rw [Option.map_eq_some_iff] at hs
  obtain ⟨v, hv, he⟩ := hs
  cases he
  obtain ⟨p, hp, rfl⟩ := keyed_val hv
  rw [lookupItems_eq hg]
  exact plain_avoid _ (fun e he => ⟨hI.lookup _ g hg e he, fun hds => h e hds p hp ⟨g, hg, he⟩⟩)

theorem Text.avoid_un (u : Un) (t : Text V) (hu : ∀ o g s d, u ≠ .group o g s d) (h : t.Avoid E it D ds) :
    (Text.un u t).Avoid E it D ds := by
  cases u with
  | group o g s d => exact absurd rfl (hu o g s d)
  | _ => exact h

mutual
theorem printed_avoid (hI : Iterators E it D) : ∀ (t : Ex V), (∀ d ∈ ds, ¬ Mentioned E slices d t) →
    (printed E slices it D t).Avoid E it D ds
  | .num _, _ => by simp only [printed, Text.Avoid]
  | .sub _, _ => by simp only [printed, Text.Avoid]
  | .comp n, h => by
      simp only [printed]
      cases hc : E.comp n with
      | none => simp only [Text.Avoid]
      | some c =>
        simp only [Text.Avoid]
        intro c' hc'
        rw [hc] at hc'; cases hc'
        exact plain_avoid _ (fun e he => ⟨hI.comp n c hc e he, fun hds => h e hds
          (by simp only [Mentioned]; exact ⟨c, hc, he⟩)⟩)
  | .sliced n ss, h => by
      simp only [printed]
      cases hc : E.comp n with
      | none => simp only [Text.Avoid]
      | some c =>
        simp only [Text.Avoid]
        intro c' hc'
        rw [hc] at hc'; cases hc'
        apply sliceItems_avoid hI
        · intro p hp r m sh h1 h2 e he hl
          exact h e he (by simp only [Mentioned]; exact .inr ⟨p, hp, r, m, sh, h1, h2, hl⟩)
        · exact fun e he => ⟨hI.comp n c hc e he, fun hds => h e hds
            (by simp only [Mentioned]; exact .inl ⟨c, hc, he⟩)⟩
  | .sign o t, h => by
      simp only [printed]
      exact Text.avoid_un _ _ (fun _ _ _ _ e => nomatch e) (printed_avoid hI t (fun d hd => by
        have := h d hd; simpa only [Mentioned] using this))
  | .chain t r, h => by
      simp only [printed]
      exact printedRest_avoid hI r _ (printed_avoid hI t (fun d hd hm => h d hd (by simp only [Mentioned]; exact .inl hm)))
        (fun d hd hm => h d hd (by simp only [Mentioned]; exact .inr hm))
  | .sum t over, h => by
      simp only [printed]
      exact Text.avoid_un _ _ (fun _ _ _ _ e => nomatch e) (printed_avoid hI t (fun d hd => by
        have := h d hd; simpa only [Mentioned] using this))
  | .reduceCarrier t flow, h => by
      simp only [printed]
      exact Text.avoid_un _ _ (fun _ _ _ _ e => nomatch e) (printed_avoid hI t (fun d hd => by
        have := h d hd; simpa only [Mentioned] using this))
  | .cond t c, h => by
      simp only [printed, Text.Avoid]
      exact ⟨printed_avoid hI t (fun d hd hm => h d hd (by simp only [Mentioned]; exact .inl hm)),
        printed_avoid hI c (fun d hd hm => h d hd (by simp only [Mentioned]; exact .inr hm))⟩
  | .roll t shifts, h => by
      simp only [printed]
      exact Text.avoid_update (shift_avoids shifts) _ (printed_avoid hI t (fun d hd => by
        have := h d hd; simpa only [Mentioned] using this))
  | .groupSum t g groupDim, h => by
      simp only [printed]
      cases hl : E.lookup g with
      | none => simp only [Text.Avoid]
      | some a =>
        simp only [Text.Avoid]
        refine ⟨?_, printed_avoid hI t (fun d hd hm => h d hd (by simp only [Mentioned]; exact .inl hm))⟩
        intro a' ha'
        rw [hl] at ha'; cases ha'
        exact plain_avoid _ (fun e he => ⟨hI.lookup g a hl e he, fun hds => h e hds
          (by simp only [Mentioned]; exact .inr ⟨a, hl, he⟩)⟩)
  | .groupDatetime t over g, h => by
      simp only [printed]
      exact Text.avoid_un _ _ (fun _ _ _ _ e => nomatch e) (printed_avoid hI t (fun d hd => by
        have := h d hd; simpa only [Mentioned] using this))
  | .sumNextN t over n, h => by simp only [printed, Text.Avoid]
  | .select t ls, h => by
      simp only [printed]
      apply Text.avoid_update (look_avoids hI ?_) _ (printed_avoid hI t (fun d hd hm => h d hd
        (by simp only [Mentioned]; exact .inl hm)))
      exact fun d hd p hp hl => h d hd (by simp only [Mentioned]; exact .inr ⟨p, hp, hl⟩)
theorem printedRest_avoid (hI : Iterators E it D) : ∀ (r : ExRest V) (acc : Text V), acc.Avoid E it D ds →
    (∀ d ∈ ds, ¬ MentionedRest E slices d r) → (printedRest E slices it D acc r).Avoid E it D ds
  | .one o t, acc, ha, h => by
      simp only [printedRest, Text.Avoid]
      exact ⟨ha, printed_avoid hI t (fun d hd hm => h d hd (by simp only [MentionedRest]; exact hm))⟩
  | .more o t r, acc, ha, h => by
      simp only [printedRest]
      refine printedRest_avoid hI r _ ?_ (fun d hd hm => h d hd (by simp only [MentionedRest]; exact .inr hm))
      simp only [Text.Avoid]
      exact ⟨ha, printed_avoid hI t (fun d hd hm => h d hd (by simp only [MentionedRest]; exact .inl hm))⟩
end

/-! ### Ready for `ds` -/

theorem sliceItems_braced {ss : List (String × Slicer)} : ∀ (dims : List String),
    (sliceItems E slices it ss (plain it dims)).braced = true → ByLookup slices ss
  | [], h => by simp [plain, sliceItems, Items.braced] at h
  | d :: dims, h => by
      simp only [plain, sliceItems, Items.braced, Bool.or_eq_true] at h
      rcases h with h | h
      · cases hk : keyed it ss (it d) with
        | none => rw [hk] at h; simp [Item.braced] at h
        | some v =>
          rw [hk] at h
          obtain ⟨p, hp, rfl⟩ := keyed_val hk
          simp only [sliceItem] at h
          cases hp2 : p.2 with
          | label l => rw [hp2] at h; simp [Item.braced] at h
          | ref r =>
            rw [hp2] at h
            simp only at h
            cases hs : slices r with
            | none => rw [hs] at h; simp [Item.braced] at h
            | some x =>
              rw [hs] at h
              cases x with
              | label l => simp [Item.braced] at h
              | valAt e i => simp [Item.braced] at h
              | lookup m sh => exact ⟨p, hp, r, m, sh, hp2, hs⟩
      · exact sliceItems_braced dims h

theorem sliceItem_clear (hI : Iterators E it D) {d : String} {v : Slicer} {b : Bool}
    (hdef : ∀ r, v = .ref r → slices r ≠ none)
    (hsh : ∀ r m sh, v = .ref r → slices r = some (.lookup m sh) → (∀ e ∈ ds, e ∉ sh.map Prod.fst) ∧
      ∃ g, E.lookup m = some g ∧ ∀ p ∈ sh, p.1 ∈ g.dims) :
    (sliceItem E slices it (it d) v).Clear E it D ds b d := by
  unfold sliceItem
  cases v with
  | label l => simp only [Item.Clear]
  | ref r =>
    simp only
    cases hs : slices r with
    | none => exact absurd hs (hdef r rfl)
    | some x =>
      cases x with
      | label l => simp only [Item.Clear]
      | valAt e i => simp only [Item.Clear]
      | lookup m sh =>
        simp only [Item.Clear]
        intro g hg
        rw [lookupItems_eq hg]
        obtain ⟨h1, g', hg', h2⟩ := hsh r m sh rfl hs
        rw [hg] at hg'; cases hg'
        apply Items.clear_update
        · intro e he hds
          unfold shiftSuffix
          rw [keyed_absent hI.own (fun p hp => hI.lookup m g hg _ (h2 p hp)) he (h1 e hds)]
          rfl
        · exact shiftSuffix_no_look sh
        · rw [plain_braced]
          exact plain_clear _ (hI.lookup m g hg)

theorem sliceItems_clear (hI : Iterators E it D) {ss : List (String × Slicer)} {b : Bool} {D0 : List String}
    (hdef : ∀ p ∈ ss, ∀ r, p.2 = .ref r → slices r ≠ none)
    (hsh : ∀ p ∈ ss, ∀ r m sh, p.2 = .ref r → slices r = some (.lookup m sh) → (∀ e ∈ ds, e ∉ sh.map Prod.fst) ∧
      ∃ g, E.lookup m = some g ∧ ∀ p ∈ sh, p.1 ∈ g.dims)
    (hb : b = true → ∀ d ∈ ds, d ∈ D0 → d ∈ ss.map Prod.fst) :
    ∀ (dims : List String), (∀ d ∈ dims, d ∈ D ∧ d ∈ D0) →
      (sliceItems E slices it ss (plain it dims)).Clear E it D ds b dims
  | [], _ => by simp only [plain, sliceItems, Items.Clear]
  | d :: dims, h => by
      simp only [plain, sliceItems, Items.Clear]
      have hd := h d List.mem_cons_self
      refine ⟨hd.1, ?_, sliceItems_clear hI hdef hsh hb dims (fun e he => h e (List.mem_cons_of_mem _ he))⟩
      cases hk : keyed it ss (it d) with
      | none =>
        simp only [Item.Clear]
        exact ⟨trivial, fun hbt hds => keyed_none hk (hb hbt d hds hd.2)⟩
      | some v =>
        obtain ⟨p, hp, rfl⟩ := keyed_val hk
        exact sliceItem_clear hI (hdef p hp) (hsh p hp)

mutual
theorem printed_clear [AddCommMonoid V] (hI : Iterators E it D) : ∀ (t : Ex V),
    Legal E slices (fun _ => true) [] t → Documented E slices D t → Ready E slices ds t →
    (printed E slices it D t).Clear E it D ds
  | .num _, _, _, _ => by simp only [printed, Text.Clear]
  | .sub _, _, _, _ => by simp only [printed, Text.Clear]
  | .comp n, _, _, _ => by
      simp only [printed]
      cases hc : E.comp n with
      | none => simp only [Text.Clear]
      | some c =>
        simp only [Text.Clear]
        intro c' hc'
        rw [hc] at hc'; cases hc'
        rw [plain_braced]
        exact plain_clear _ (hI.comp n c hc)
  | .sliced n ss, hl, _, hr => by
      simp only [printed]
      cases hc : E.comp n with
      | none => simp only [Text.Clear]
      | some c =>
        simp only [Text.Clear]
        intro c' hc'
        rw [hc] at hc'; cases hc'
        simp only [Legal] at hl
        simp only [Ready] at hr
        rcases hl.2 with ⟨c', hc', hss⟩ | ⟨hno, _⟩
        · rw [hc] at hc'; cases hc'
          apply sliceItems_clear (D0 := c.arr.dims) hI
          · intro p hp r hpr hno
            obtain ⟨_, _, h3⟩ := hss p hp
            rw [hpr] at h3
            obtain ⟨l, hl1, _⟩ := h3 (fun _ => "") (by intro d hd; simp [sliceDims, hno] at hd)
            simp [labelOf, hno] at hl1
          · intro p hp r m sh h1 h2
            refine ⟨hr.1 p hp r m sh h1 h2, ?_⟩
            obtain ⟨_, h3, _⟩ := hss p hp
            rw [h1] at h3
            simpa [Sliceable, h2] using h3
          · intro hb
            exact hr.2 (sliceItems_braced _ hb) c hc
          · exact fun d hd => ⟨hI.comp n c hc d hd, hd⟩
        · rw [hc] at hno; cases hno
  | .sign o t, hl, hd, hr => by
      simp only [Legal] at hl; simp only [Documented] at hd; simp only [Ready] at hr
      simp only [printed, Text.Clear, Un.Clear]
      exact ⟨trivial, printed_clear hI t hl hd hr⟩
  | .chain t r, hl, hd, hr => by
      simp only [Legal] at hl; simp only [Documented] at hd; simp only [Ready] at hr
      simp only [printed]
      exact printedRest_clear hI r _ (printed_clear hI t hl.1 hd.1 hr.1) hl.2 hd.2 hr.2
  | .sum t over, hl, hd, hr => by
      simp only [Legal] at hl; simp only [Documented] at hd; simp only [Ready] at hr
      simp only [printed, Text.Clear, Un.Clear]
      exact ⟨hr.2, printed_clear hI t hl hd.1 hr.1⟩
  | .reduceCarrier t flow, hl, hd, hr => by
      simp only [Legal] at hl; simp only [Documented] at hd; simp only [Ready] at hr
      simp only [printed, Text.Clear, Un.Clear]
      exact ⟨hr.2, printed_clear hI t hl.1 hd.1 hr.1⟩
  | .cond t c, hl, hd, hr => by
      simp only [Legal] at hl; simp only [Documented] at hd; simp only [Ready] at hr
      simp only [printed, Text.Clear]
      exact ⟨printed_clear hI t hl.1 hd.1 hr.1, printed_clear hI c hl.2 hd.2 hr.2⟩
  | .roll t shifts, hl, hd, hr => by
      simp only [Legal] at hl; simp only [Documented] at hd; simp only [Ready] at hr
      simp only [printed]
      refine Text.clear_update ?_ (shiftSuffix_no_look shifts) _ (printed_clear hI t hl.1 hd.1 hr.1)
      intro e he hds
      unfold shiftSuffix
      rw [keyed_absent hI.own (fun p hp => hd.2.2.1 _ (List.mem_map.2 ⟨p, hp, rfl⟩)) he (hr.2 e hds)]
      rfl
  | .groupSum t g groupDim, hl, hd, hr => by
      simp only [Legal] at hl; simp only [Documented] at hd; simp only [Ready] at hr
      simp only [printed]
      cases hg : E.lookup g with
      | none => simp only [Text.Clear]
      | some a =>
        simp only [Text.Clear, Un.Clear]
        rw [dimsFrom_eq hI a.dims (hI.lookup g a hg)]
        refine ⟨⟨fun e he => ⟨fun hm => (hr.2 e he).2 ⟨a, hg, hm⟩, (hr.2 e he).1⟩, ?_⟩,
          printed_clear hI t hl.1 hd.1 hr.1⟩
        intro a' ha'
        rw [hg] at ha'; cases ha'
        rw [plain_braced]
        exact plain_clear _ (hI.lookup g a hg)
  | .groupDatetime t over g, hl, hd, hr => by
      simp only [Legal] at hl; simp only [Documented] at hd; simp only [Ready] at hr
      simp only [printed, Text.Clear, Un.Clear]
      exact ⟨hr.2, printed_clear hI t hl.1 hd.1 hr.1⟩
  | .sumNextN t over n, _, _, hr => by
      simp only [Ready] at hr
  | .select t ls, hl, hd, hr => by
      simp only [Legal] at hl; simp only [Documented] at hd; simp only [Ready] at hr
      simp only [printed]
      exact Text.clear_update_avoid (look_avoids hI (fun d hds => (hr.2 d hds).2.2)) _
        (printed_clear hI t hl.1 hd.1 hr.1) (printed_avoid hI t (fun d hds => (hr.2 d hds).2.1))
theorem printedRest_clear [AddCommMonoid V] (hI : Iterators E it D) : ∀ (r : ExRest V) (acc : Text V),
    acc.Clear E it D ds → LegalRest E slices (fun _ => true) [] r → DocumentedRest E slices D r →
    ReadyRest E slices ds r → (printedRest E slices it D acc r).Clear E it D ds
  | .one o t, acc, ha, hl, hd, hr => by
      simp only [LegalRest] at hl; simp only [DocumentedRest] at hd; simp only [ReadyRest] at hr
      simp only [printedRest, Text.Clear]
      exact ⟨ha, printed_clear hI t hl hd hr⟩
  | .more o t r, acc, ha, hl, hd, hr => by
      simp only [LegalRest] at hl; simp only [DocumentedRest] at hd; simp only [ReadyRest] at hr
      simp only [printedRest]
      refine printedRest_clear hI r _ ?_ hl.2 hd.2 hr.2
      simp only [Text.Clear]
      exact ⟨ha, printed_clear hI t hl.1 hd.1 hr.1⟩
end

end LatexIndex
end Calliope
