import Verif.Proofs.Costs
import Verif.Spec.Variables

/-!
# C79: decision variables
-/

namespace Calliope
namespace BaseMath

open Grid Infix Expr Expand Build Where

variable {V : Type}

section
variable [Field V] {W : Where.Env} {E : Expr.Env V} {v : Variable V} {b : Arr (Option (Limits V))} {ρ : Point}

theorem boundArr_at {u : Bound V} {a : Arr (Option V)} (h : boundArr E u = .ok a) (ρ : Point) :
    a.at ρ = boundAt E u ρ := by
  cases u with
  | num v => cases h; rfl
  | unbounded => cases h; rfl
  | input n =>
    simp only [boundArr] at h
    simp only [boundAt, valueAt]
    cases hc : E.comp n with
    | none => rw [hc] at h; cases h
    | some c =>
      rw [hc] at h
      cases h
      simp only [at_map]
      cases c.arr.at ρ <;> rfl

/-- C79, items: a variable is built exactly for its items, each with the bounds that its definition says there. -/
theorem C79_items (hb : buildVariable W E v = .ok b) (hρ : Valid W ρ) :
    (ItemOf W v ρ → ∃ c, b.at ρ = some c ∧ c.lower = boundAt E v.lower ρ ∧ c.upper = boundAt E v.upper ρ) ∧
    (¬ ItemOf W v ρ → b.at ρ = none) := by
  unfold buildVariable at hb
  cases hm : variableMask W v.foreach v.top with
  | error x => rw [hm] at hb; cases hb
  | ok m =>
    rw [hm] at hb
    simp only [] at hb
    rcases topLevel_ok hm hρ with ⟨h1, h2⟩ | ⟨h1, hk, _, h2⟩
    · rw [if_neg (by simp [h1])] at hb
      cases hb
      refine ⟨?_, fun _ => rfl⟩
      rintro ⟨g1, σ, g2, _, g4, g5⟩
      exact absurd ⟨σ, g2, g1, g4, g5⟩ h2
    · rw [if_pos h1] at hb
      cases hl : boundArr E v.lower with
      | error x => rw [hl] at hb; cases hb
      | ok l =>
        cases hu : boundArr E v.upper with
        | error x => rw [hl, hu] at hb; cases hb
        | ok u =>
          rw [hl, hu] at hb
          cases hb
          refine ⟨?_, ?_⟩
          · rintro ⟨g1, σ, g2, g3, g4, g5⟩
            refine ⟨⟨l.at ρ, u.at ρ⟩, ?_, boundArr_at hl ρ, boundArr_at hu ρ⟩
            rw [at_zip, at_zip, if_pos ((h2 ρ hρ).2 ⟨σ, g2, g3, g4, g5⟩)]
          · intro hn
            rw [at_zip, if_neg]
            intro ht
            exact hn ⟨hk, (h2 ρ hρ).1 ht⟩

variable [LE V] {f : Point → V}

/-- C79, existence: conditions that ask for the variable see exactly its items. -/
theorem C79_exists (h : Solves W E v f) (hρ : Valid W ρ) : Exists W v.name ρ ↔ ItemOf W v ρ := by
  obtain ⟨b, h⟩ := h
  obtain ⟨h1, h2⟩ := C79_items h.built hρ
  rw [h.exist ρ hρ]
  refine ⟨fun hne => by_contra fun hn => hne (h2 hn), fun hi => ?_⟩
  obtain ⟨c, hc, _⟩ := h1 hi
  rw [hc]
  simp

/-- C79, values: in any solution a variable is within its bounds, and a whole number if it should be, for its items, and
zero elsewhere. -/
theorem C79_values (h : Solves W E v f) (hρ : Valid W ρ) :
    (ItemOf W v ρ → (∀ x, boundAt E v.lower ρ = some x → x ≤ f ρ) ∧ (∀ y, boundAt E v.upper ρ = some y → f ρ ≤ y) ∧
      (v.integer = true → ∃ k : Int, f ρ = k)) ∧
    (¬ ItemOf W v ρ → f ρ = 0) := by
  obtain ⟨b, h⟩ := h
  obtain ⟨h1, h2⟩ := C79_items h.built hρ
  refine ⟨?_, fun hn => h.absent ρ hρ (h2 hn)⟩
  intro hi
  obtain ⟨⟨l, u⟩, hc, h3, h4⟩ := h1 hi
  simp only at h3 h4
  refine ⟨?_, ?_, h.domain ρ hρ (by rw [hc]; simp)⟩
  · intro x hx
    rw [hx] at h3
    subst h3
    exact h.lower ρ x u hρ hc
  · intro y hy
    rw [hy] at h4
    subst h4
    exact h.upper ρ l y hρ hc

theorem Solves.decision (h : Solves W E v f) : Decision W E v.name v.foreach f := by
  obtain ⟨b, hc⟩ := h
  refine ⟨hc.is, ?_, hc.within⟩
  intro ρ hρ hne
  have hi : ItemOf W v ρ := by_contra fun hn => hne ((C79_values ⟨b, hc⟩ hρ).2 hn)
  refine ⟨?_, (C79_exists ⟨b, hc⟩ hρ).2 hi⟩
  obtain ⟨g1, σ, g2, g3, g4, _⟩ := hi
  exact ⟨g1, σ, g2, g3, g4⟩

theorem itemOf_present : ItemOf W v ρ ↔ Present W v.foreach v.top ρ := Iff.rfl

end

section
variable [Field V] [LinearOrder V] {W : Where.Env} {E : Expr.Env V} {v : Variable V} {f : Point → V} {ρ : Point}

/-- A variable whose lower bound is not negative is not negative. -/
theorem Solves.nonneg (h : Solves W E v f) (hl : ∀ ρ, ∃ x, boundAt E v.lower ρ = some x ∧ 0 ≤ x) (hρ : Valid W ρ) :
    0 ≤ f ρ := by
  by_cases hi : ItemOf W v ρ
  · obtain ⟨x, h1, h2⟩ := hl ρ
    exact le_trans h2 (((C79_values h hρ).1 hi).1 x h1)
  · rw [(C79_values h hρ).2 hi]

theorem Solves.nonneg' (h : Solves W E v f) (hl : v.lower = .num 0) (hρ : Valid W ρ) : 0 ≤ f ρ :=
  h.nonneg (fun _ => ⟨0, by rw [hl]; rfl, le_refl 0⟩) hρ

end

end BaseMath
end Calliope
