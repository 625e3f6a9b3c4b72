import Verif.Proofs.LatexIndex

/-!
# When an update handles all subscripts of a printed expression
-/

namespace Calliope
namespace LatexIndex

open Grid (Label Arr)
open Expr

variable {V : Type}

/-! ### Dictionaries of iterators -/

section Keyed

variable {α : Type} {it : String → String} {D : List String} {l : List (String × α)}

theorem keyed_mem (own : ∀ d ∈ D, ∀ e ∈ D, it d = it e → d = e) (hl : ∀ p ∈ l, p.1 ∈ D) {d : String} (hd : d ∈ D)
    {v : α} (h : keyed it l (it d) = some v) : (d, v) ∈ l := by
  unfold keyed at h
  rw [Option.map_eq_some_iff] at h
  obtain ⟨p, hp, rfl⟩ := h
  have hm := List.mem_reverse.1 (List.mem_of_find?_eq_some hp)
  have he := List.find?_some hp
  rw [beq_iff_eq] at he
  have := own _ (hl p hm) d hd he
  subst this
  exact hm

theorem keyed_none {d : String} (h : keyed it l (it d) = none) : d ∉ l.map Prod.fst := by
  unfold keyed at h
  rw [Option.map_eq_none_iff, List.find?_eq_none] at h
  intro hm
  obtain ⟨p, hp, rfl⟩ := List.mem_map.1 hm
  exact h p (List.mem_reverse.2 hp) (by simp)

theorem keyed_of_mem (own : ∀ d ∈ D, ∀ e ∈ D, it d = it e → d = e) (hl : ∀ p ∈ l, p.1 ∈ D)
    (hn : (l.map Prod.fst).Nodup) {d : String} {v : α} (h : (d, v) ∈ l) : keyed it l (it d) = some v := by
  cases hk : keyed it l (it d) with
  | none => exact absurd (List.mem_map.2 ⟨_, h, rfl⟩) (keyed_none hk)
  | some w =>
    have hw := keyed_mem own hl (hl _ h) hk
    have := List.inj_on_of_nodup_map hn hw h rfl
    cases this
    rfl

theorem keyed_absent (own : ∀ d ∈ D, ∀ e ∈ D, it d = it e → d = e) (hl : ∀ p ∈ l, p.1 ∈ D) {d : String} (hd : d ∈ D)
    (h : d ∉ l.map Prod.fst) : keyed it l (it d) = none := by
  cases hk : keyed it l (it d) with
  | none => rfl
  | some w => exact absurd (List.mem_map.2 ⟨_, keyed_mem own hl hd hk, rfl⟩) h

end Keyed

section Clear

variable (E : Env V) (it : String → String) (D ds : List String)

mutual
/-- The item has none of the dimensions `ds`. -/
def Item.Avoid (d : String) : Item → Prop
  | .it s => s = it d
  | .moved _ _ | .fixed _ _ | .nth _ _ _ => True
  | .looked _ name sub _ => ∀ g, E.lookup name = some g → sub.Avoid g.dims
def Items.Avoid : Items → List String → Prop
  | .nil, _ => True
  | .cons _ _, [] => True
  | .cons x r, d :: dims => (d ∈ D ∧ d ∉ ds) ∧ x.Avoid d ∧ r.Avoid dims
end

variable {E it D ds} {c : String → Option Suffix}

mutual
theorem Item.clear_of_avoid : ∀ (x : Item) (b : Bool) (d : String), d ∉ ds → x.Avoid E it D ds d → x.Clear E it D ds b d
  | .it _, b, d, hd, h => by
      simp only [Item.Avoid] at h
      simp only [Item.Clear]
      exact ⟨h, fun _ => hd⟩
  | .moved _ _, b, d, hd, h => by simpa only [Item.Clear] using hd
  | .fixed _ _, b, d, hd, h => by simp only [Item.Clear]
  | .nth _ _ _, b, d, hd, h => by simp only [Item.Clear]
  | .looked _ n sub _, b, d, hd, h => by
      simp only [Item.Avoid] at h
      simp only [Item.Clear]
      exact fun g hg => Items.clear_of_avoid sub _ _ (h g hg)
theorem Items.clear_of_avoid : ∀ (a : Items) (b : Bool) (dims : List String), a.Avoid E it D ds dims →
    a.Clear E it D ds b dims
  | .nil, _, _, _ => by simp only [Items.Clear]
  | .cons _ _, _, [], _ => by simp only [Items.Clear]
  | .cons x r, b, d :: dims, h => by
      simp only [Items.Avoid] at h
      simp only [Items.Clear]
      exact ⟨h.1.1, x.clear_of_avoid b d h.1.2 h.2.1, r.clear_of_avoid b dims h.2.2⟩
end

/-! ### Plain subscripts -/

theorem plain_braced : ∀ (dims : List String), (plain it dims).braced = false
  | [] => rfl
  | _ :: dims => by simp [plain, Items.braced, Item.braced, plain_braced dims]

theorem plain_clear : ∀ (dims : List String), (∀ d ∈ dims, d ∈ D) → (plain it dims).Clear E it D ds false dims
  | [], _ => by simp only [plain, Items.Clear]
  | d :: dims, h => by
      simp only [plain, Items.Clear, Item.Clear]
      exact ⟨h d List.mem_cons_self, ⟨trivial, fun h => by cases h⟩,
        plain_clear dims (fun e he => h e (List.mem_cons_of_mem _ he))⟩

theorem plain_avoid : ∀ (dims : List String), (∀ d ∈ dims, d ∈ D ∧ d ∉ ds) → (plain it dims).Avoid E it D ds dims
  | [], _ => by simp only [plain, Items.Avoid]
  | d :: dims, h => by
      simp only [plain, Items.Avoid, Item.Avoid]
      exact ⟨h d List.mem_cons_self, trivial, plain_avoid dims (fun e he => h e (List.mem_cons_of_mem _ he))⟩

theorem plain_labels (ρ : Point) : ∀ (dims : List String), (∀ d ∈ dims, ρ d ∈ E.coords d) →
    (plain it dims).labels E ρ dims = some (dims.map ρ)
  | [], _ => by simp only [plain, Items.labels, List.map_nil]
  | d :: dims, h => by
      simp only [plain, Items.labels, Item.label, plain_labels ρ dims (fun e he => h e (List.mem_cons_of_mem _ he)),
        if_pos (h d List.mem_cons_self), List.map_cons]

/-! ### Updates that shift -/

theorem braced_addAll (hc : ∀ s n sub, c s ≠ some (.look n sub)) : ∀ (a : Items), (a.addAll c).braced = a.braced
  | .nil => rfl
  | .cons x r => by
      simp only [Items.addAll, Items.braced, braced_addAll hc r]
      congr 1
      cases x with
      | it s =>
        simp only [Item.add]
        cases hs : c s with
        | none => rfl
        | some u =>
          cases u with
          | shift n => rfl
          | look n sub => exact absurd hs (hc s n sub)
      | _ => rfl

theorem braced_inside : ∀ (a : Items), (a.inside c).braced = a.braced
  | .nil => by simp only [Items.inside]
  | .cons x r => by
      simp only [Items.inside, Items.braced, braced_inside r]
      congr 1
      cases x <;> simp only [Item.inside, Item.braced]

theorem clear_addAll (hc : ∀ d ∈ D, d ∈ ds → c (it d) = none) (hs : ∀ s n sub, c s ≠ some (.look n sub)) :
    ∀ (a : Items) (dims : List String), a.braced = false → a.Clear E it D ds false dims →
      (a.addAll c).Clear E it D ds false dims
  | .nil, _, _, _ => by simp only [Items.addAll, Items.Clear]
  | .cons _ _, [], _, _ => by simp only [Items.addAll, Items.Clear]
  | .cons x r, d :: dims, hb, h => by
      simp only [Items.braced, Bool.or_eq_false_iff] at hb
      simp only [Items.Clear] at h
      simp only [Items.addAll, Items.Clear]
      refine ⟨h.1, ?_, clear_addAll hc hs r dims hb.2 h.2.2⟩
      have hx := h.2.1
      cases x with
      | it s =>
        simp only [Item.Clear] at hx
        obtain ⟨rfl, _⟩ := hx
        simp only [Item.add]
        cases hcs : c (it d) with
        | none => simp [Item.Clear]
        | some u =>
          cases u with
          | shift n =>
            simp only [Item.Clear]
            intro hd
            rw [hc d h.1 hd] at hcs
            cases hcs
          | look n sub => exact absurd hcs (hs _ n sub)
      | looked s n sub a => simp [Item.braced] at hb
      | _ => simpa only [Item.add] using hx

mutual
theorem Item.clear_inside (hc : ∀ d ∈ D, d ∈ ds → c (it d) = none) (hs : ∀ s n sub, c s ≠ some (.look n sub)) :
    ∀ (x : Item) (b : Bool) (d : String), x.Clear E it D ds b d → (x.inside c).Clear E it D ds b d
  | .it _, b, d, h => by simpa only [Item.inside] using h
  | .moved _ _, b, d, h => by simpa only [Item.inside] using h
  | .fixed _ _, b, d, h => by simpa only [Item.inside] using h
  | .nth _ _ _, b, d, h => by simpa only [Item.inside] using h
  | .looked s n sub a, b, d, h => by
      simp only [Item.Clear] at h
      simp only [Item.inside, Item.Clear]
      intro g hg
      have h1 := h g hg
      by_cases hb : sub.braced = true
      · rw [if_pos hb, braced_inside]
        exact Items.clear_inside hc hs sub _ _ h1
      · rw [if_neg hb, braced_addAll hs]
        rw [Bool.not_eq_true] at hb
        rw [hb] at h1 ⊢
        exact clear_addAll hc hs sub _ hb h1
theorem Items.clear_inside (hc : ∀ d ∈ D, d ∈ ds → c (it d) = none) (hs : ∀ s n sub, c s ≠ some (.look n sub)) :
    ∀ (a : Items) (b : Bool) (dims : List String), a.Clear E it D ds b dims → (a.inside c).Clear E it D ds b dims
  | .nil, _, _, _ => by simp only [Items.inside, Items.Clear]
  | .cons _ _, _, [], _ => by simp only [Items.inside, Items.Clear]
  | .cons x r, b, d :: dims, h => by
      simp only [Items.Clear] at h
      simp only [Items.inside, Items.Clear]
      exact ⟨h.1, x.clear_inside hc hs b d h.2.1, r.clear_inside hc hs b dims h.2.2⟩
end

theorem Items.clear_update (hc : ∀ d ∈ D, d ∈ ds → c (it d) = none) (hs : ∀ s n sub, c s ≠ some (.look n sub))
    (a : Items) (dims : List String) (h : a.Clear E it D ds a.braced dims) :
    (a.update c).Clear E it D ds (a.update c).braced dims := by
  unfold Items.update
  by_cases hb : a.braced = true
  · simp only [if_pos hb, braced_inside]
    exact Items.clear_inside hc hs a _ _ h
  · simp only [if_neg hb, braced_addAll hs]
    rw [Bool.not_eq_true] at hb
    rw [hb] at h ⊢
    exact clear_addAll hc hs a _ hb h

theorem Text.clear_update (hc : ∀ d ∈ D, d ∈ ds → c (it d) = none) (hs : ∀ s n sub, c s ≠ some (.look n sub)) :
    ∀ (t : Text V), t.Clear E it D ds → (t.update c).Clear E it D ds
  | .num _, _ => trivial
  | .name _, _ => trivial
  | .comp n sub, h => fun comp hcomp => Items.clear_update hc hs sub _ (h comp hcomp)
  | .un u t, h => by
      refine ⟨?_, Text.clear_update hc hs t h.2⟩
      have hu := h.1
      cases u with
      | group over g sub groupDim => exact ⟨hu.1, fun a ha => Items.clear_update hc hs sub _ (hu.2 a ha)⟩
      | _ => exact hu
  | .bin b t u, h => ⟨Text.clear_update hc hs t h.1, Text.clear_update hc hs u h.2⟩

/-! ### Updates of subscripts without the dimensions -/

variable (E it D ds)

/-- What is looked up has none of the dimensions. -/
def SuffixAvoids (c : String → Option Suffix) : Prop :=
  ∀ s n sub, c s = some (.look n sub) → ∀ g, E.lookup n = some g → sub.Avoid E it D ds g.dims

def Text.Avoid : Text V → Prop
  | .num _ | .name _ => True
  | .comp n sub => ∀ c, E.comp n = some c → sub.Avoid E it D ds c.arr.dims
  | .un (.group _ g sub _) t => (∀ a, E.lookup g = some a → sub.Avoid E it D ds a.dims) ∧ t.Avoid
  | .un _ t => t.Avoid
  | .bin _ t u => t.Avoid ∧ u.Avoid

variable {E it D ds}

theorem avoid_addAll (hc : SuffixAvoids E it D ds c) : ∀ (a : Items) (dims : List String), a.Avoid E it D ds dims →
    (a.addAll c).Avoid E it D ds dims
  | .nil, _, _ => by simp only [Items.addAll, Items.Avoid]
  | .cons _ _, [], _ => by simp only [Items.addAll, Items.Avoid]
  | .cons x r, d :: dims, h => by
      simp only [Items.Avoid] at h
      simp only [Items.addAll, Items.Avoid]
      refine ⟨h.1, ?_, avoid_addAll hc r dims h.2.2⟩
      have hx := h.2.1
      cases x with
      | it s =>
        simp only [Item.Avoid] at hx
        simp only [Item.add]
        cases hcs : c s with
        | none => simpa only [Item.Avoid] using hx
        | some u =>
          cases u with
          | shift n => simp only [Item.Avoid]
          | look n sub =>
            simp only [Item.Avoid]
            exact hc s n sub hcs
      | _ => simpa only [Item.add] using hx

mutual
theorem Item.avoid_inside (hc : SuffixAvoids E it D ds c) : ∀ (x : Item) (d : String), x.Avoid E it D ds d →
    (x.inside c).Avoid E it D ds d
  | .it _, d, h => by simpa only [Item.inside] using h
  | .moved _ _, d, h => by simpa only [Item.inside] using h
  | .fixed _ _, d, h => by simpa only [Item.inside] using h
  | .nth _ _ _, d, h => by simpa only [Item.inside] using h
  | .looked s n sub a, d, h => by
      simp only [Item.Avoid] at h
      simp only [Item.inside, Item.Avoid]
      intro g hg
      split
      · exact Items.avoid_inside hc sub _ (h g hg)
      · exact avoid_addAll hc sub _ (h g hg)
theorem Items.avoid_inside (hc : SuffixAvoids E it D ds c) : ∀ (a : Items) (dims : List String),
    a.Avoid E it D ds dims → (a.inside c).Avoid E it D ds dims
  | .nil, _, _ => by simp only [Items.inside, Items.Avoid]
  | .cons _ _, [], _ => by simp only [Items.inside, Items.Avoid]
  | .cons x r, d :: dims, h => by
      simp only [Items.Avoid] at h
      simp only [Items.inside, Items.Avoid]
      exact ⟨h.1, x.avoid_inside hc d h.2.1, r.avoid_inside hc dims h.2.2⟩
end

theorem Items.avoid_update (hc : SuffixAvoids E it D ds c) (a : Items) (dims : List String)
    (h : a.Avoid E it D ds dims) : (a.update c).Avoid E it D ds dims := by
  unfold Items.update
  split
  · exact a.avoid_inside hc dims h
  · exact avoid_addAll hc a dims h

theorem Text.avoid_update (hc : SuffixAvoids E it D ds c) : ∀ (t : Text V), t.Avoid E it D ds →
    (t.update c).Avoid E it D ds
  | .num _, _ => trivial
  | .name _, _ => trivial
  | .comp n sub, h => fun comp hcomp => Items.avoid_update hc sub _ (h comp hcomp)
  | .un u t, h => by
      cases u with
      | group over g sub groupDim =>
        exact ⟨fun a ha => Items.avoid_update hc sub _ (h.1 a ha), Text.avoid_update hc t h.2⟩
      | _ => exact Text.avoid_update hc t h
  | .bin b t u, h => ⟨Text.avoid_update hc t h.1, Text.avoid_update hc u h.2⟩

theorem Text.clear_update_avoid (hc : SuffixAvoids E it D ds c) : ∀ (t : Text V), t.Clear E it D ds →
    t.Avoid E it D ds → (t.update c).Clear E it D ds
  | .num _, _, _ => trivial
  | .name _, _, _ => trivial
  | .comp n sub, _, h => fun comp hcomp =>
      Items.clear_of_avoid _ _ _ (Items.avoid_update hc sub _ (h comp hcomp))
  | .un u t, h, ha => by
      cases u with
      | group over g sub groupDim =>
        exact ⟨⟨h.1.1, fun a hl => Items.clear_of_avoid _ _ _ (Items.avoid_update hc sub _ (ha.1 a hl))⟩,
          Text.clear_update_avoid hc t h.2 ha.2⟩
      | _ => exact ⟨h.1, Text.clear_update_avoid hc t h.2 ha⟩
  | .bin b t u, h, ha => ⟨Text.clear_update_avoid hc t h.1 ha.1, Text.clear_update_avoid hc u h.2 ha.2⟩

end Clear

end LatexIndex
end Calliope
