import Verif.Spec.LatexIndex
import Verif.Proofs.ExprSum
import Verif.Proofs.Points

/-!
# Updating subscripts moves the point at which they are read
-/

namespace Calliope
namespace LatexIndex

open Grid (Label Arr)
open Expr

variable {V : Type}

section Update

variable (E : Env V) (it : String → String) (D ds : List String)

mutual
/-- An item at the place of dimension `d` that an update of `ds` handles rightly; `b` if there are braces next to it. -/
def Item.Clear (b : Bool) (d : String) : Item → Prop
  | .it s => s = it d ∧ (b = true → d ∉ ds)
  | .moved _ _ => d ∉ ds
  | .fixed _ _ | .nth _ _ _ => True
  | .looked _ name sub _ => ∀ g, E.lookup name = some g → sub.Clear sub.braced g.dims
def Items.Clear (b : Bool) : Items → List String → Prop
  | .nil, _ => True
  | .cons _ _, [] => True
  | .cons x r, d :: dims => d ∈ D ∧ x.Clear b d ∧ r.Clear b dims
end

/-- `σ` is the point that a text is read at, if the updated text is read at `ρ`. -/
structure Rel (c : String → Option Suffix) (ρ σ : Point) : Prop where
  same : ∀ d, d ∉ ds → σ d = ρ d
  keep : ∀ d ∈ D, d ∉ ds → c (it d) = none
  label : ∀ d ∈ D, d ∈ ds → ((Item.it (it d)).add c).label E ρ d = some (σ d)
  stable : ∀ d ∈ D, d ∈ ds → ∀ ρ', (∀ e ∈ ds, ρ' e = ρ e) →
    ((Item.it (it d)).add c).label E ρ' d = ((Item.it (it d)).add c).label E ρ d

variable {E it D ds} {c : String → Option Suffix} {ρ σ : Point}

theorem Rel.set (h : Rel E it D ds c ρ σ) {d : String} (hd : d ∉ ds) (l : Label) :
    Rel E it D ds c (set ρ d l) (set σ d l) := by
  have key : ∀ e ∈ ds, Expr.set ρ d l e = ρ e := by
    intro e he
    have : e ≠ d := fun h => hd (h ▸ he)
    simp [Expr.set, this]
  refine ⟨?_, h.keep, ?_, ?_⟩
  · intro e he
    simp only [Expr.set]
    split
    · rfl
    · exact h.same e he
  · intro e he hes
    rw [h.stable e he hes _ key, h.label e he hes]
    have : e ≠ d := fun h => hd (h ▸ hes)
    simp [Expr.set, this]
  · intro e he hes ρ' hρ'
    rw [h.stable e he hes _ key, h.stable e he hes ρ' (fun x hx => by rw [hρ' x hx, key x hx])]

theorem Rel.points (coords : String → List Label) : ∀ (over : List String), (∀ d ∈ ds, d ∉ over) →
    ∀ {ρ σ : Point}, Rel E it D ds c ρ σ → List.Forall₂ (Rel E it D ds c) (points coords over ρ) (points coords over σ)
  | [], _, _, _, h => .cons h .nil
  | d :: over, hd, ρ, σ, h => by
      simp only [Expr.points]
      generalize coords d = ls
      induction ls with
      | nil => exact .nil
      | cons l ls ih =>
        simp only [List.flatMap_cons]
        refine List.rel_append (Rel.points coords over (fun e he hm => hd e he (List.mem_cons_of_mem _ hm)) ?_) ih
        exact h.set (fun hm => hd d hm List.mem_cons_self) l

theorem map_forall₂ {α β γ : Type} {R : α → β → Prop} {f : α → γ} {g : β → γ} {l : List α} {m : List β}
    (h : List.Forall₂ R l m) (hf : ∀ a b, R a b → f a = g b) : l.map f = m.map g := by
  induction h with
  | nil => rfl
  | cons h _ ih => rw [List.map_cons, List.map_cons, hf _ _ h, ih]

theorem filter_forall₂ {α β : Type} {R : α → β → Prop} {p : α → Bool} {q : β → Bool} {l : List α} {m : List β}
    (h : List.Forall₂ R l m) (hp : ∀ a b, R a b → p a = q b) : List.Forall₂ R (l.filter p) (m.filter q) := by
  induction h with
  | nil => exact .nil
  | cons h _ ih =>
    rw [List.filter_cons, List.filter_cons, hp _ _ h]
    split
    · exact .cons h ih
    · exact ih

theorem labels_addAll (h : Rel E it D ds c ρ σ) : ∀ (a : Items) (dims : List String), a.braced = false →
    a.Clear E it D ds false dims → (a.addAll c).labels E ρ dims = a.labels E σ dims
  | .nil, dims, _, _ => by cases dims <;> rfl
  | .cons _ _, [], _, _ => rfl
  | .cons x r, d :: dims, hb, hc => by
      simp only [Items.braced, Bool.or_eq_false_iff] at hb
      simp only [Items.Clear] at hc
      obtain ⟨hd, hx, hr⟩ := hc
      simp only [Items.addAll, Items.labels]
      rw [labels_addAll h r dims hb.2 hr]
      have key : (x.add c).label E ρ d = x.label E σ d := by
        cases x with
        | it s =>
          simp only [Item.Clear] at hx
          obtain ⟨rfl, _⟩ := hx
          by_cases hds : d ∈ ds
          · rw [h.label d hd hds]; simp [Item.label]
          · simp only [Item.add, h.keep d hd hds, Item.label, h.same d hds]
        | moved s n =>
          simp only [Item.Clear] at hx
          simp only [Item.add, Item.label, h.same d hx]
        | fixed s l => simp only [Item.add, Item.label]
        | nth s e i => simp only [Item.add, Item.label]
        | looked s n sub a => simp [Item.braced] at hb
      rw [key]

mutual
theorem label_inside (h : Rel E it D ds c ρ σ) : ∀ (x : Item) (d : String), x.Clear E it D ds true d →
    (x.inside c).label E ρ d = x.label E σ d
  | .it s, d, hc => by
      simp only [Item.Clear] at hc
      simp only [Item.inside, Item.label, h.same d (hc.2 trivial)]
  | .moved s n, d, hc => by
      simp only [Item.Clear] at hc
      simp only [Item.inside, Item.label, h.same d hc]
  | .fixed _ _, _, _ => by simp only [Item.inside, Item.label]
  | .nth _ _ _, _, _ => by simp only [Item.inside, Item.label]
  | .looked s n sub a, d, hc => by
      simp only [Item.Clear] at hc
      simp only [Item.inside, Item.label]
      cases hl : E.lookup n with
      | none => rfl
      | some g =>
        have hs := hc g hl
        have key : (if sub.braced = true then sub.inside c else sub.addAll c).labels E ρ g.dims =
            sub.labels E σ g.dims := by
          by_cases hb : sub.braced = true
          · rw [if_pos hb]
            rw [hb] at hs
            exact labels_inside h sub g.dims hs
          · rw [if_neg hb]
            rw [Bool.not_eq_true] at hb
            rw [hb] at hs
            exact labels_addAll h sub g.dims hb hs
        simp only [key]
theorem labels_inside (h : Rel E it D ds c ρ σ) : ∀ (a : Items) (dims : List String), a.Clear E it D ds true dims →
    (a.inside c).labels E ρ dims = a.labels E σ dims
  | .nil, dims, _ => by cases dims <;> rfl
  | .cons _ _, [], _ => rfl
  | .cons x r, d :: dims, hc => by
      simp only [Items.Clear] at hc
      simp only [Items.inside, Items.labels]
      rw [label_inside h x d hc.2.1, labels_inside h r dims hc.2.2]
end

theorem labels_update (h : Rel E it D ds c ρ σ) (a : Items) (dims : List String)
    (hc : a.Clear E it D ds a.braced dims) : (a.update c).labels E ρ dims = a.labels E σ dims := by
  unfold Items.update
  by_cases hb : a.braced = true
  · rw [if_pos hb]
    rw [hb] at hc
    exact labels_inside h a dims hc
  · rw [if_neg hb]
    rw [Bool.not_eq_true] at hb
    rw [hb] at hc
    exact labels_addAll h a dims hb hc

variable (E it D ds)

def Un.Clear : Un → Prop
  | .sign _ => True
  | .sum over => ∀ d ∈ ds, d ∉ over
  | .carriers flow => ∀ d ∈ ds, d ≠ "carriers" ∧ ∀ c, E.carrier flow = some c → d ∉ c.dims
  | .group over g sub groupDim => (∀ d ∈ ds, d ∉ over ∧ d ≠ groupDim) ∧
      ∀ a, E.lookup g = some a → sub.Clear E it D ds sub.braced a.dims
  | .period over g => ∀ d ∈ ds, d ≠ over ∧ d ≠ g

def Text.Clear : Text V → Prop
  | .num _ | .name _ => True
  | .comp n sub => ∀ c, E.comp n = some c → sub.Clear E it D ds sub.braced c.arr.dims
  | .un u t => u.Clear E it D ds ∧ t.Clear
  | .bin _ t u => t.Clear ∧ u.Clear

variable {E it D ds}

theorem Un.update_says [AddCommMonoid V] (u : Un) (hu : u.Clear E it D ds) (h : Rel E it D ds c ρ σ)
    {x y : Point → Option V} (hxy : ∀ ρ σ, Rel E it D ds c ρ σ → x ρ = y σ) :
    (u.update c).says E ρ x = u.says E σ y := by
  cases u with
  | sign o => simp only [Un.update, Un.says, hxy ρ σ h]
  | sum over =>
    simp only [Un.update, Un.says]
    rw [map_forall₂ (Rel.points E.coords over hu h) hxy]
  | carriers flow =>
    simp only [Un.update, Un.says]
    cases hf : E.carrier flow with
    | none => rfl
    | some m =>
      simp only
      rw [map_forall₂ (filter_forall₂ (Rel.points E.coords ["carriers"]
        (fun d hd => by simpa using (hu d hd).1) h) ?_) hxy]
      intro a b hab
      show m.val _ = m.val _
      congr 1
      apply List.map_congr_left
      intro d hd
      exact (hab.same d (fun hds => (hu d hds).2 m hf hd)).symm
  | group over g sub groupDim =>
    simp only [Un.Clear] at hu
    simp only [Un.update, Un.says]
    rw [map_forall₂ (filter_forall₂ (Rel.points E.coords over (fun d hd => (hu.1 d hd).1) h) ?_) hxy]
    intro a b hab
    have h1 : a groupDim = b groupDim := (hab.same groupDim (fun hm => (hu.1 _ hm).2 rfl)).symm
    have h2 : readLookup E a g (sub.update c) = readLookup E b g sub := by
      unfold readLookup
      cases hl : E.lookup g with
      | none => rfl
      | some ga => simp only [labels_update hab sub ga.dims (hu.2 ga hl)]
    rw [h1, h2]
  | period over g =>
    simp only [Un.Clear] at hu
    simp only [Un.update, Un.says]
    rw [map_forall₂ (filter_forall₂ (Rel.points E.coords [over] (fun d hd => by simpa using (hu d hd).1) h) ?_) hxy]
    intro a b hab
    rw [hab.same over (fun hm => (hu _ hm).1 rfl), hab.same g (fun hm => (hu _ hm).2 rfl)]

/-- The updated text at `ρ` says what the text says at `σ`. -/
theorem update_says [AddCommMonoid V] : ∀ (t : Text V) (_ : t.Clear E it D ds) (ρ σ : Point),
    Rel E it D ds c ρ σ → (t.update c).says E ρ = t.says E σ
  | .num _, _, _, _, _ => rfl
  | .name _, _, _, _, _ => rfl
  | .comp n sub, hc, ρ, σ, h => by
      simp only [Text.update, Text.says, readComp]
      cases hn : E.comp n with
      | none => rfl
      | some comp => simp only [labels_update h sub comp.arr.dims (hc comp hn)]
  | .un u t, hc, ρ, σ, h => by
      simp only [Text.update, Text.says]
      exact u.update_says hc.1 h (fun a b hab => update_says t hc.2 a b hab)
  | .bin b t u, hc, ρ, σ, h => by
      simp only [Text.update, Text.says, update_says t hc.1 ρ σ h, update_says u hc.2 ρ σ h]

end Update

end LatexIndex
end Calliope
