import Verif.Proofs.LatexPrinted
import Verif.Props.Expr

/-!
# What printed expressions say
-/

namespace Calliope
namespace LatexIndex

open Grid (Label Arr)
open Expr

variable {V : Type} {E : Env V} {it : String → String} {D ds : List String} {slices : String → Option SliceDef}

/-! ### Points -/

/-- The point at which rolled values are. -/
def rollPt (coords : String → List Label) : List (String × Int) → Point → Point
  | [], ρ => ρ
  | (d, n) :: rest, ρ => set (rollPt coords rest ρ) d (rolled (coords d) n (rollPt coords rest ρ d))

theorem rolled_val (coords : String → List Label) : ∀ (sh : List (String × Int)) (x : Fn V) (ρ : Point),
    (x.rolled coords sh).val ρ = x.val (rollPt coords sh ρ)
  | [], _, _ => rfl
  | (d, n) :: rest, x, ρ => by
      simp only [Fn.rolled]
      rw [rolled_val coords rest]
      rfl

theorem rollPt_other (coords : String → List Label) : ∀ (sh : List (String × Int)) (ρ : Point) (d : String),
    d ∉ sh.map Prod.fst → rollPt coords sh ρ d = ρ d
  | [], _, _, _ => rfl
  | (e, n) :: rest, ρ, d, h => by
      simp only [List.map_cons, List.mem_cons, not_or] at h
      simp only [rollPt]
      rw [set_other _ _ h.1, rollPt_other coords rest ρ d h.2]

theorem rollPt_mem (coords : String → List Label) : ∀ (sh : List (String × Int)) (ρ : Point) (d : String) (n : Int),
    (sh.map Prod.fst).Nodup → (d, n) ∈ sh → rollPt coords sh ρ d = rolled (coords d) n (ρ d)
  | (e, m) :: rest, ρ, d, n, hn, h => by
      simp only [List.map_cons, List.nodup_cons] at hn
      simp only [rollPt]
      rcases List.mem_cons.1 h with he | h
      · cases he
        rw [set_same, rollPt_other coords rest ρ _ hn.1]
      · have hne : d ≠ e := fun he => hn.1 (List.mem_map.2 ⟨_, h, he⟩)
        rw [set_other _ _ hne, rollPt_mem coords rest ρ d n hn.2 h]

theorem rolled_in (labels : List Label) (n : Int) {l : Label} (h : l ∈ labels) : rolled labels n l ∈ labels := by
  unfold rolled
  have hpos : 0 < labels.length := List.length_pos_of_mem h
  have h0 : (0 : Int) < labels.length := by exact_mod_cast hpos
  have hlt : (((labels.idxOf l : Int) - n) % (labels.length : Int)).toNat < labels.length := by
    have h1 := Int.emod_nonneg ((labels.idxOf l : Int) - n) (b := labels.length) (by omega)
    have h2 := Int.emod_lt_of_pos ((labels.idxOf l : Int) - n) h0
    omega
  rw [List.getD_eq_getElem?_getD, List.getElem?_eq_getElem hlt, Option.getD_some]
  exact List.getElem_mem hlt

theorem rollPt_in (sh : List (String × Int)) (ρ : Point) (h : In E D ρ) : In E D (rollPt E.coords sh ρ) := by
  induction sh with
  | nil => exact h
  | cons p rest ih =>
    intro d hd
    obtain ⟨e, n⟩ := p
    simp only [rollPt, Expr.set]
    split
    · subst_vars
      exact rolled_in _ _ (ih _ hd)
    · exact ih d hd

theorem points_other (coords : String → List Label) : ∀ (over : List String) (ρ σ : Point), σ ∈ points coords over ρ →
    ∀ d, d ∉ over → σ d = ρ d
  | [], ρ, σ, h, d, _ => by
      simp only [points, List.mem_singleton] at h
      rw [h]
  | e :: over, ρ, σ, h, d, hd => by
      simp only [points, List.mem_flatMap] at h
      obtain ⟨l, _, hσ⟩ := h
      simp only [List.mem_cons, not_or] at hd
      rw [points_other coords over _ σ hσ d hd.2, set_other _ _ hd.1]

theorem points_in : ∀ (over : List String) (ρ σ : Point), σ ∈ points E.coords over ρ → In E D ρ → In E D σ
  | [], ρ, σ, h, hin => by
      simp only [points, List.mem_singleton] at h
      rw [h]; exact hin
  | e :: over, ρ, σ, h, hin => by
      simp only [points, List.mem_flatMap] at h
      obtain ⟨l, hl, hσ⟩ := h
      refine points_in over _ σ hσ ?_
      intro d hd
      simp only [Expr.set]
      split
      · subst_vars; exact hl
      · exact hin d hd

theorem looked_exists {coords : String → List Label} {ρ0 ρ : Point} : ∀ {gs : List (String × Arr (Option Label))},
    (gs.map Prod.fst).Nodup → (∀ p ∈ gs, ∃ l, p.2.at ρ0 = some l ∧ l ∈ coords p.1) →
    ∃ σ, looked coords ρ0 gs ρ = some σ ∧ (∀ p ∈ gs, p.2.at ρ0 = some (σ p.1) ∧ σ p.1 ∈ coords p.1) ∧
      ∀ d, d ∉ gs.map Prod.fst → σ d = ρ d
  | [], _, _ => ⟨ρ, rfl, by simp, fun _ _ => rfl⟩
  | (e, g) :: rest, hn, h => by
      simp only [List.map_cons, List.nodup_cons] at hn
      obtain ⟨σ, h1, h2, h3⟩ := looked_exists (ρ := ρ) hn.2 (fun p hp => h p (List.mem_cons_of_mem _ hp))
      obtain ⟨l, hl, hin⟩ := h (e, g) List.mem_cons_self
      refine ⟨set σ e l, ?_, ?_, ?_⟩
      · simp only [looked, hl, if_pos hin, h1, Option.map_some]
      · intro p hp
        rcases List.mem_cons.1 hp with rfl | hp
        · simp only [set_same]; exact ⟨hl, hin⟩
        · have hne : p.1 ≠ e := fun he => hn.1 (List.mem_map.2 ⟨p, hp, he⟩)
          rw [set_other _ _ hne]
          exact h2 p hp
      · intro d hd
        simp only [List.map_cons, List.mem_cons, not_or] at hd
        rw [set_other _ _ hd.1, h3 d hd.2]

theorem sliced_exists {ρ0 ρ : Point} : ∀ {ss : List (String × Slicer)},
    (ss.map Prod.fst).Nodup → (∀ p ∈ ss, ∃ l, labelOf E slices ρ0 p.2 = some l ∧ l ∈ E.coords p.1) →
    ∃ σ, sliced E slices ρ0 ss ρ = some σ ∧
      (∀ p ∈ ss, labelOf E slices ρ0 p.2 = some (σ p.1) ∧ σ p.1 ∈ E.coords p.1) ∧
      ∀ d, d ∉ ss.map Prod.fst → σ d = ρ d
  | [], _, _ => ⟨ρ, rfl, by simp, fun _ _ => rfl⟩
  | (e, s) :: rest, hn, h => by
      simp only [List.map_cons, List.nodup_cons] at hn
      obtain ⟨σ, h1, h2, h3⟩ := sliced_exists (ρ := ρ) hn.2 (fun p hp => h p (List.mem_cons_of_mem _ hp))
      obtain ⟨l, hl, hin⟩ := h (e, s) List.mem_cons_self
      refine ⟨set σ e l, ?_, ?_, ?_⟩
      · simp only [sliced, hl, if_pos hin, h1, Option.map_some]
      · intro p hp
        rcases List.mem_cons.1 hp with rfl | hp
        · simp only [set_same]; exact ⟨hl, hin⟩
        · have hne : p.1 ≠ e := fun he => hn.1 (List.mem_map.2 ⟨p, hp, he⟩)
          rw [set_other _ _ hne]
          exact h2 p hp
      · intro d hd
        simp only [List.map_cons, List.mem_cons, not_or] at hd
        rw [set_other _ _ hd.1, h3 d hd.2]

/-! ### Totals -/

theorem total_perm [AddCommMonoid V] {l m : List (Option V)} (h : l.Perm m) : total l = total m := by
  apply total_ext
  · rw [total_eq_none, total_eq_none]
    exact ⟨fun H v hv => H v (h.mem_iff.2 hv), fun H v hv => H v (h.mem_iff.1 hv)⟩
  · exact (h.map _).sum_eq

theorem total_filter [AddCommMonoid V] {α : Type} (p : α → Bool) (f : α → Option V) (l : List α) :
    total ((l.filter p).map f) = total (l.map (fun a => if p a then f a else none)) := by
  apply total_ext
  · rw [total_eq_none, total_eq_none]
    constructor
    · intro H v hv
      obtain ⟨a, ha, rfl⟩ := List.mem_map.1 hv
      split
      · rename_i hp
        exact H _ (List.mem_map.2 ⟨a, List.mem_filter.2 ⟨ha, hp⟩, rfl⟩)
      · rfl
    · intro H v hv
      obtain ⟨a, ha, rfl⟩ := List.mem_map.1 hv
      obtain ⟨ha, hp⟩ := List.mem_filter.1 ha
      have := H _ (List.mem_map.2 ⟨a, ha, rfl⟩)
      rwa [if_pos hp] at this
  · induction l with
    | nil => rfl
    | cons a l ih =>
      rw [List.filter_cons]
      split
      · rename_i hp
        simp only [List.map_cons, List.sum_cons, ih, if_pos hp]
      · rename_i hp
        simp only [List.map_cons, List.sum_cons, ih, if_neg hp, Option.getD_none, zero_add]

theorem total_over [AddCommMonoid V] (coords : String → List Label) {over dims : List String} (hn : over.Nodup)
    (h : ∀ d ∈ over, d ∈ dims) (f : Point → Option V) (ρ : Point) :
    total ((points coords ((dims.filter (fun d => decide (d ∈ over))).dedup) ρ).map f) =
      total ((points coords over ρ).map f) := by
  have hp : ((dims.filter (fun d => decide (d ∈ over))).dedup).Perm over := by
    rw [List.perm_ext_iff_of_nodup (List.nodup_dedup _) hn]
    intro d
    rw [List.mem_dedup, List.mem_filter, decide_eq_true_eq]
    exact ⟨fun h => h.2, fun hd => ⟨h d hd, hd⟩⟩
  exact total_perm ((points_perm coords hp (List.nodup_dedup _) ρ).map f)

/-! ### The points that updates lead to -/

theorem rel_shift (hI : Iterators E it D) {sh : List (String × Int)} (hD : ∀ p ∈ sh, p.1 ∈ D)
    (hn : (sh.map Prod.fst).Nodup) (ρ : Point) :
    Rel E it D (sh.map Prod.fst) (shiftSuffix it sh) ρ (rollPt E.coords sh ρ) := by
  have key : ∀ d ∈ sh.map Prod.fst, ∃ n, (d, n) ∈ sh ∧ shiftSuffix it sh (it d) = some (.shift (-n)) := by
    intro d hd
    obtain ⟨p, hp, rfl⟩ := List.mem_map.1 hd
    refine ⟨p.2, hp, ?_⟩
    unfold shiftSuffix
    rw [keyed_of_mem hI.own hD hn hp]
    rfl
  refine ⟨rollPt_other _ _ _, ?_, ?_, ?_⟩
  · intro d hd hds
    unfold shiftSuffix
    rw [keyed_absent hI.own hD hd hds]
    rfl
  · intro d _ hds
    obtain ⟨n, hp, hs⟩ := key d hds
    simp only [Item.add, hs, Item.label, neg_neg, rollPt_mem _ _ _ _ _ hn hp]
  · intro d _ hds ρ' hρ'
    obtain ⟨n, hp, hs⟩ := key d hds
    simp only [Item.add, hs, Item.label, hρ' d hds]

theorem plain_labels_congr {ρ ρ' : Point} : ∀ (dims : List String), (∀ d ∈ dims, ρ' d = ρ d) →
    (plain it dims).labels E ρ' dims = (plain it dims).labels E ρ dims
  | [], _ => by simp only [plain, Items.labels]
  | d :: dims, h => by
      simp only [plain, Items.labels, Item.label, h d List.mem_cons_self,
        plain_labels_congr dims (fun e he => h e (List.mem_cons_of_mem _ he))]

theorem rel_look (hI : Iterators E it D) {ls : List (String × String)} (hD : ∀ p ∈ ls, p.1 ∈ D)
    (hn : (ls.map Prod.fst).Nodup) {ρ σ : Point} (hρ : In E D ρ)
    (hg : ∀ p ∈ ls, ∃ g, E.lookup p.2 = some g ∧ (∀ d ∈ g.dims, d ∈ ls.map Prod.fst) ∧ g.at ρ = some (σ p.1))
    (hσ : ∀ d, d ∉ ls.map Prod.fst → σ d = ρ d) :
    Rel E it D (ls.map Prod.fst) (lookSuffix E it ls) ρ σ := by
  have key : ∀ d ∈ ls.map Prod.fst, ∃ n g, E.lookup n = some g ∧ (∀ d ∈ g.dims, d ∈ ls.map Prod.fst) ∧
      g.at ρ = some (σ d) ∧ lookSuffix E it ls (it d) = some (.look n (plain it g.dims)) := by
    intro d hd
    obtain ⟨p, hp, rfl⟩ := List.mem_map.1 hd
    obtain ⟨g, h1, h2, h3⟩ := hg p hp
    refine ⟨p.2, g, h1, h2, h3, ?_⟩
    unfold lookSuffix
    rw [keyed_of_mem hI.own hD hn hp, Option.map_some, lookupItems_eq h1]
  refine ⟨hσ, ?_, ?_, ?_⟩
  · intro d hd hds
    unfold lookSuffix
    rw [keyed_absent hI.own hD hd hds]
    rfl
  · intro d _ hds
    obtain ⟨n, g, h1, h2, h3, hs⟩ := key d hds
    simp only [Item.add, hs, Item.label, h1, plain_labels ρ g.dims (fun e he => hρ e (hI.lookup n g h1 e he))]
    exact h3
  · intro d _ hds ρ' hρ'
    obtain ⟨n, g, h1, h2, h3, hs⟩ := key d hds
    simp only [Item.add, hs, Item.label, h1]
    rw [plain_labels_congr g.dims (fun e he => hρ' e (h2 e he))]

/-! ### Slices -/

theorem sliceItem_label (hI : Iterators E it D) {ρ : Point} (hρ : In E D ρ) {d : String} {v : Slicer}
    (hv : Sliceable E slices v) (hdef : ∀ r, v = .ref r → slices r ≠ none)
    (hn : ∀ r m sh, v = .ref r → slices r = some (.lookup m sh) → (sh.map Prod.fst).Nodup) :
    (sliceItem E slices it (it d) v).label E ρ d = labelOf E slices ρ v := by
  cases v with
  | label l => simp only [sliceItem, Item.label, labelOf]
  | ref r =>
    cases hs : slices r with
    | none => exact absurd hs (hdef r rfl)
    | some x =>
      cases x with
      | label l => simp only [sliceItem, hs, Item.label, labelOf]
      | valAt e i => simp only [sliceItem, hs, Item.label, labelOf]
      | lookup m sh =>
        simp only [Sliceable, hs] at hv
        obtain ⟨g, hg, hsh⟩ := hv
        simp only [sliceItem, hs, Item.label, labelOf, hg]
        rw [rolled_val, lookupItems_eq hg,
          labels_update (rel_shift hI (fun p hp => hI.lookup m g hg _ (hsh p hp)) (hn r m sh rfl hs) ρ) _ _
            (by rw [plain_braced]; exact plain_clear _ (hI.lookup m g hg)),
          plain_labels _ _ (fun e he => rollPt_in sh ρ hρ e (hI.lookup m g hg e he))]
        rfl

theorem sliceItems_labels (hI : Iterators E it D) {ρ σ : Point} (hρ : In E D ρ) {ss : List (String × Slicer)}
    (hss : ∀ p ∈ ss, p.1 ∈ D)
    (hv : ∀ p ∈ ss, (sliceItem E slices it (it p.1) p.2).label E ρ p.1 = some (σ p.1) ∧ σ p.1 ∈ E.coords p.1)
    (ho : ∀ d, d ∉ ss.map Prod.fst → σ d = ρ d) :
    ∀ (dims : List String), (∀ d ∈ dims, d ∈ D) →
      (sliceItems E slices it ss (plain it dims)).labels E ρ dims = some (dims.map σ)
  | [], _ => by simp only [plain, sliceItems, Items.labels, List.map_nil]
  | d :: dims, h => by
      have hd := h d List.mem_cons_self
      simp only [plain, sliceItems, Items.labels,
        sliceItems_labels hI hρ hss hv ho dims (fun e he => h e (List.mem_cons_of_mem _ he)), List.map_cons]
      cases hk : keyed it ss (it d) with
      | none =>
        simp only [Item.label, if_pos (hρ d hd), ho d (keyed_none hk)]
      | some v =>
        have hm := keyed_mem hI.own hss hd hk
        simp only [(hv _ hm).1, if_pos (hv _ hm).2]

theorem filterMap_fst {ls : List (String × String)} (h : ∀ p ∈ ls, ∃ g, E.lookup p.2 = some g) :
    (ls.filterMap (fun p => (E.lookup p.2).map (fun g => (p.1, g)))).map Prod.fst = ls.map Prod.fst := by
  induction ls with
  | nil => rfl
  | cons p ls ih =>
    obtain ⟨g, hg⟩ := h p List.mem_cons_self
    rw [List.filterMap_cons_some (by rw [hg]; rfl)]
    simp only [List.map_cons, ih (fun q hq => h q (List.mem_cons_of_mem _ hq))]

theorem labels_missing {c : String → Option Suffix} {ρ : Point} {d : String}
    (h : ∀ l, ((Item.it (it d)).add c).label E ρ d = some l → l ∉ E.coords d) :
    ∀ (dims : List String), d ∈ dims → ((plain it dims).addAll c).labels E ρ dims = none
  | [], hd => by cases hd
  | e :: dims, hd => by
      simp only [plain, Items.addAll, Items.labels]
      rcases List.mem_cons.1 hd with rfl | hd
      · cases hl : ((Item.it (it d)).add c).label E ρ d with
        | none => rfl
        | some l =>
          cases ((plain it dims).addAll c).labels E ρ dims with
          | none => rfl
          | some ls => simp only [if_neg (h l hl)]
      · rw [labels_missing h dims hd]
        cases ((Item.it (it e)).add c).label E ρ e <;> rfl

/-! ### The meaning -/

theorem says_select [AddCommMonoid V] (hI : Iterators E it D) {t : Ex V} {ls : List (String × String)}
    (hn : (ls.map Prod.fst).Nodup) (hD : ∀ d ∈ ls.map Prod.fst, d ∈ D)
    (hls : ∀ d ∈ ls.map Prod.fst, d ∈ (mean E slices (fun _ => true) [] t).dims)
    (hg : ∀ p ∈ ls, ∃ g, E.lookup p.2 = some g ∧ (∀ d, d ∈ g.dims ↔ d ∈ ls.map Prod.fst) ∧
        ∃ ρ l, In E g.dims ρ ∧ g.at ρ = some l ∧ l ∈ E.coords p.1)
    (hcl : (printed E slices it D t).Clear E it D (ls.map Prod.fst))
    (hcomp : Complete E ls ∨ ∃ n, t = .comp n)
    (ih : ∀ ρ, In E D ρ → (printed E slices it D t).says E ρ = (mean E slices (fun _ => true) [] t).val ρ)
    (ρ : Point) (hρ : In E D ρ) :
    ((printed E slices it D t).update (lookSuffix E it ls)).says E ρ =
      ((mean E slices (fun _ => true) [] t).select E.coords
        (ls.filterMap (fun p => (E.lookup p.2).map (fun g => (p.1, g))))).val ρ := by
  have hex : ∀ p ∈ ls, ∃ g, E.lookup p.2 = some g := fun p hp => let ⟨g, h, _⟩ := hg p hp; ⟨g, h⟩
  have hfst := filterMap_fst hex
  have hmem : ∀ p, p ∈ ls.filterMap (fun p => (E.lookup p.2).map (fun g => (p.1, g))) ↔
      ∃ q ∈ ls, E.lookup q.2 = some p.2 ∧ q.1 = p.1 := by
    intro p
    rw [List.mem_filterMap]
    constructor
    · rintro ⟨q, hq, he⟩
      rw [Option.map_eq_some_iff] at he
      obtain ⟨g, hg, rfl⟩ := he
      exact ⟨q, hq, hg, rfl⟩
    · rintro ⟨q, hq, he, h1⟩
      exact ⟨q, hq, by rw [he, Option.map_some, h1]⟩
  simp only [Fn.select]
  by_cases hall : ∀ p ∈ ls, ∀ g, E.lookup p.2 = some g → ∃ l, g.at ρ = some l ∧ l ∈ E.coords p.1
  · obtain ⟨σ, h1, h2, h3⟩ := looked_exists (coords := E.coords) (ρ0 := ρ) (ρ := ρ)
      (gs := ls.filterMap (fun p => (E.lookup p.2).map (fun g => (p.1, g)))) (by rw [hfst]; exact hn) (by
        intro p hp
        obtain ⟨q, hq, hl, he⟩ := (hmem p).1 hp
        rw [← he]
        exact hall q hq _ hl)
    rw [h1]
    simp only
    rw [hfst] at h3
    have hσ : In E D σ := by
      intro d hd
      by_cases hm : d ∈ ls.map Prod.fst
      · obtain ⟨p, hp, rfl⟩ := List.mem_map.1 hm
        obtain ⟨g, hg'⟩ := hex p hp
        exact (h2 (p.1, g) ((hmem _).2 ⟨p, hp, hg', rfl⟩)).2
      · rw [h3 d hm]; exact hρ d hd
    rw [update_says _ hcl ρ σ (rel_look hI (fun p hp => hD _ (List.mem_map.2 ⟨p, hp, rfl⟩)) hn hρ ?_ h3), ih σ hσ]
    intro p hp
    obtain ⟨g, hg1, hg2, _⟩ := hg p hp
    exact ⟨g, hg1, fun d hd => (hg2 d).1 hd, (h2 (p.1, g) ((hmem _).2 ⟨p, hp, hg1, rfl⟩)).1⟩
  · have hno : ∃ p ∈ ls, ∃ g, E.lookup p.2 = some g ∧ ∀ l, g.at ρ = some l → l ∉ E.coords p.1 := by
      by_contra hc
      apply hall
      intro p hp g hg'
      by_contra hc'
      exact hc ⟨p, hp, g, hg', fun l hl hin => hc' ⟨l, hl, hin⟩⟩
    rw [looked_none]
    · simp only
      rcases hcomp with hcomp | ⟨n, rfl⟩
      · exfalso
        apply hall
        intro p hp g hg'
        exact hcomp p hp g hg' ρ (fun d hd => hρ d (hI.lookup _ g hg' d hd))
      · simp only [printed]
        cases hc : E.comp n with
        | none => rfl
        | some c =>
          simp only [Text.update, Text.says, readComp, hc]
          obtain ⟨p, hp, g, hg', hl⟩ := hno
          have hpd : p.1 ∈ ls.map Prod.fst := List.mem_map.2 ⟨p, hp, rfl⟩
          have hdim : p.1 ∈ c.arr.dims := by
            have := hls _ hpd
            simpa only [mean, hc] using this
          have hs : lookSuffix E it ls (it p.1) = some (.look p.2 (plain it g.dims)) := by
            unfold lookSuffix
            rw [keyed_of_mem hI.own (fun p hp => hD _ (List.mem_map.2 ⟨p, hp, rfl⟩)) hn hp, Option.map_some,
              lookupItems_eq hg']
          unfold Items.update
          rw [plain_braced, if_neg (by simp), labels_missing ?_ _ hdim]
          intro l hl'
          simp only [Item.add, hs, Item.label, hg',
            plain_labels ρ g.dims (fun e he => hρ e (hI.lookup p.2 g hg' e he))] at hl'
          exact hl l hl'
    · obtain ⟨p, hp, g, hg', hl⟩ := hno
      exact ⟨(p.1, g), (hmem _).2 ⟨p, hp, hg', rfl⟩, hl⟩

mutual
/-- The printed expression says at every point what the expression means. -/
theorem printed_says [AddCommMonoid V] (hE : WellFormed E) (hI : Iterators E it D) : ∀ (t : Ex V), Ok t →
    Legal E slices (fun _ => true) [] t → Documented E slices D t → ∀ ρ, In E D ρ →
    (printed E slices it D t).says E ρ = (mean E slices (fun _ => true) [] t).val ρ
  | .num v, _, _, _, ρ, _ => by simp only [printed, Text.says, mean]
  | .sub n, _, hl, _, ρ, _ => by simp only [Legal] at hl
  | .comp n, _, _, _, ρ, hρ => by
      simp only [printed, mean]
      cases hc : E.comp n with
      | none => rfl
      | some c =>
        simp only [Text.says, readComp, hc, plain_labels ρ c.arr.dims (fun d hd => hρ d (hI.comp n c hc d hd))]
        rfl
  | .sliced n ss, _, hl, hd, ρ, hρ => by
      simp only [printed, mean]
      cases hc : E.comp n with
      | none => rfl
      | some c =>
        simp only [Legal] at hl
        simp only [Documented] at hd
        rcases hl.2 with ⟨c', hc', hss⟩ | ⟨hno, _⟩
        · rw [hc] at hc'; cases hc'
          have hlab : ∀ p ∈ ss, ∃ l, labelOf E slices ρ p.2 = some l ∧ l ∈ E.coords p.1 := by
            intro p hp
            apply (hss p hp).2.2 ρ
            intro d hdm
            have : d ∈ D := by
              unfold sliceDims at hdm
              split at hdm
              · cases hdm
              · split at hdm
                · split at hdm
                  · rename_i g hg
                    exact hI.lookup _ g hg d hdm
                  · cases hdm
                · cases hdm
            exact hρ d this
          obtain ⟨σ, h1, h2, h3⟩ := sliced_exists (ρ := ρ) hl.1 hlab
          have hssD : ∀ p ∈ ss, p.1 ∈ D := fun p hp => hI.comp n c hc _ (hss p hp).1
          have hdef : ∀ p ∈ ss, ∀ r, p.2 = .ref r → slices r ≠ none := by
            intro p hp r hpr hno
            obtain ⟨l, hl1, _⟩ := hlab p hp
            rw [hpr] at hl1
            simp [labelOf, hno] at hl1
          simp only [Text.says, readComp, hc, h1]
          rw [sliceItems_labels hI hρ hssD (σ := σ) ?_ h3 c.arr.dims (hI.comp n c hc)]
          · rfl
          · intro p hp
            rw [sliceItem_label hI hρ (hss p hp).2.1 (hdef p hp) (hd p hp)]
            exact h2 p hp
        · rw [hc] at hno; cases hno
  | .sign o t, hk, hl, hd, ρ, hρ => by
      simp only [Ok] at hk; simp only [Legal] at hl; simp only [Documented] at hd
      simp only [printed, Text.says, Un.says, mean, printed_says hE hI t hk hl hd ρ hρ]
  | .chain t r, hk, hl, hd, ρ, hρ => by
      simp only [Ok] at hk; simp only [Legal] at hl; simp only [Documented] at hd
      simp only [printed, mean]
      refine printedRest_says hE hI r _ _ hk.2 hl.2 hd.2 ?_ ρ hρ
      intro ρ hρ
      rw [printed_says hE hI t hk.1 hl.1 hd.1 ρ hρ]
      rfl
  | .sum t over, hk, hl, hd, ρ, hρ => by
      simp only [Ok] at hk; simp only [Legal] at hl; simp only [Documented] at hd
      simp only [printed, Text.says, Un.says, mean, Fn.sumOver]
      rw [total_over E.coords hd.2.1 hd.2.2]
      congr 1
      apply List.map_congr_left
      intro σ hσ
      exact printed_says hE hI t hk hl hd.1 σ (points_in _ _ _ hσ hρ)
  | .reduceCarrier t flow, hk, hl, hd, ρ, hρ => by
      simp only [Ok] at hk; simp only [Legal] at hl; simp only [Documented] at hd
      obtain ⟨c, hc⟩ := hl.2
      simp only [printed, Text.says, Un.says, mean, hc, Fn.sumOver, Fn.mask]
      rw [total_over E.coords (List.nodup_singleton _), total_filter]
      · congr 1
        apply List.map_congr_left
        intro σ hσ
        rw [printed_says hE hI t hk hl.1 hd.1 σ (points_in _ _ _ hσ hρ)]
      · intro d hd'
        rw [List.mem_singleton] at hd'
        subst hd'
        rcases hd.2 with h | ⟨c', hc', h⟩
        · exact List.mem_append_left _ h
        · rw [hc] at hc'; cases hc'
          exact List.mem_append_right _ h
  | .cond t c, hk, hl, hd, ρ, hρ => by
      simp only [Ok] at hk; simp only [Legal] at hl; simp only [Documented] at hd
      simp only [printed, Text.says, Bin.says, mean, printed_says hE hI t hk.1 hl.1 hd.1 ρ hρ,
        printed_says hE hI c hk.2 hl.2 hd.2 ρ hρ]
      rfl
  | .roll t sh, hk, hl, hd, ρ, hρ => by
      simp only [Ok] at hk; simp only [Legal] at hl; simp only [Documented] at hd
      have hD : ∀ p ∈ sh, p.1 ∈ D := fun p hp => hd.2.2.1 _ (List.mem_map.2 ⟨p, hp, rfl⟩)
      simp only [printed, mean]
      rw [update_says _ (printed_clear hI t hl.1 hd.1 hd.2.2.2) ρ _ (rel_shift hI hD hd.2.1 ρ), rolled_val,
        printed_says hE hI t hk hl.1 hd.1 _ (rollPt_in sh ρ hρ)]
  | .groupSum t g groupDim, hk, hl, hd, ρ, hρ => by
      simp only [Ok] at hk; simp only [Legal] at hl; simp only [Documented] at hd
      obtain ⟨a, ha, _⟩ := hl.2
      simp only [printed, mean, ha, Text.says, Un.says, Fn.group, dimsFrom_eq hI a.dims (hI.lookup g a ha)]
      congr 1
      have hf : (points E.coords a.dims ρ).filter (fun σ => decide (readLookup E σ g (plain it a.dims) =
          some (σ groupDim))) = (points E.coords a.dims ρ).filter (fun σ => decide (a.at σ = some (ρ groupDim))) := by
        apply List.filter_congr
        intro σ hσ
        have hin := points_in (D := D) _ _ _ hσ hρ
        rw [points_other _ _ _ _ hσ groupDim (fun hm => hd.2 ⟨a, ha, hm⟩)]
        simp only [readLookup, ha, plain_labels σ a.dims (fun d hdm => hin d (hI.lookup g a ha d hdm))]
        rfl
      rw [hf]
      apply List.map_congr_left
      intro σ hσ
      exact printed_says hE hI t hk hl.1 hd.1 σ (points_in _ _ _ (List.mem_filter.1 hσ).1 hρ)
  | .groupDatetime t over g, hk, hl, hd, ρ, hρ => by
      simp only [Ok] at hk; simp only [Legal] at hl; simp only [Documented] at hd
      simp only [printed, mean, Text.says, Un.says, Fn.group]
      congr 1
      have hf : (points E.coords [over] ρ).filter (fun σ => decide (E.period g (σ over) = σ g)) =
          (points E.coords [over] ρ).filter (fun σ => decide ((Arr.at (⟨[over], fun c =>
            some (E.period g (c.headD ""))⟩ : Arr (Option Label)) σ) = some (ρ g))) := by
        apply List.filter_congr
        intro σ hσ
        rw [points_other _ _ _ _ hσ g (by simpa using hd.2)]
        simp [Arr.at]
      rw [hf]
      apply List.map_congr_left
      intro σ hσ
      exact printed_says hE hI t hk hl.1 hd.1 σ (points_in _ _ _ (List.mem_filter.1 hσ).1 hρ)
  | .sumNextN t over n, _, _, hd, _, _ => by simp only [Documented] at hd
  | .select t ls, hk, hl, hd, ρ, hρ => by
      simp only [Ok] at hk; simp only [Legal] at hl; simp only [Documented] at hd
      simp only [printed, mean]
      exact says_select hI hk.2 hd.2.1 hl.2.1 hl.2.2 (printed_clear hI t hl.1 hd.1 hd.2.2.1) hd.2.2.2
        (printed_says hE hI t hk.1 hl.1 hd.1) ρ hρ
/-- As `printed_says`. -/
theorem printedRest_says [AddCommMonoid V] (hE : WellFormed E) (hI : Iterators E it D) : ∀ (r : ExRest V)
    (acc : Text V) (x : Fn V), OkRest r → LegalRest E slices (fun _ => true) [] r → DocumentedRest E slices D r →
    (∀ ρ, In E D ρ → acc.says E ρ = x.val ρ) → ∀ ρ, In E D ρ →
    (printedRest E slices it D acc r).says E ρ = (meanRest E slices (fun _ => true) [] x r).val ρ
  | .one o t, acc, x, hk, hl, hd, ha, ρ, hρ => by
      simp only [OkRest] at hk; simp only [LegalRest] at hl; simp only [DocumentedRest] at hd
      simp only [printedRest, meanRest, Text.says, Bin.says, ha ρ hρ, printed_says hE hI t hk hl hd ρ hρ]
      rfl
  | .more o t r, acc, x, hk, hl, hd, ha, ρ, hρ => by
      simp only [OkRest] at hk; simp only [LegalRest] at hl; simp only [DocumentedRest] at hd
      simp only [printedRest, meanRest]
      refine printedRest_says hE hI r _ _ hk.2 hl.2 hd.2 ?_ ρ hρ
      intro ρ hρ
      simp only [Text.says, Bin.says, ha ρ hρ, printed_says hE hI t hk.1 hl.1 hd.1 ρ hρ]
      rfl
end

end LatexIndex
end Calliope
