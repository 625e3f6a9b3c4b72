import Verif.Spec.Checks
import Verif.Proofs.Mask
import Verif.Proofs.Costs

/-!
Checks of the input data.
-/

namespace Calliope
namespace BaseMath

open Grid Infix Expr Expand Build Where

theorem fires_iff {W : Where.Env} {ρ₀ : Point} (hρ₀ : Valid W ρ₀) {c : Check} {b : Bool} (h : fires W c = .ok b) :
    b = true ↔ Reported W c := by
  unfold fires at h
  split at h
  · cases h
  · rename_i a ha
    cases h
    rw [Bool.and_eq_true, anyCell_iff hρ₀, anyCell_iff hρ₀]
    unfold Reported Item
    constructor
    · rintro ⟨_, σ, hσ, h⟩
      rw [at_zip, Bool.and_eq_true] at h
      exact ⟨σ, ⟨hσ, h.2⟩, (evalTree_ok σ ha).1 h.1⟩
    · rintro ⟨σ, ⟨hσ, hm⟩, ht⟩
      have h1 := (evalTree_ok σ ha).2 ht
      refine ⟨⟨σ, hσ, h1⟩, σ, hσ, ?_⟩
      rw [at_zip, h1, hm]; rfl

theorem fires_ok {W : Where.Env} {c : Check} (h : ∃ a, evalTree W c.cond = .ok a) : ∃ b, fires W c = .ok b := by
  obtain ⟨a, ha⟩ := h
  exact ⟨_, by unfold fires; rw [ha]⟩

theorem fires_error {W : Where.Env} {c : Check} {b : Bool} (h : fires W c = .ok b) :
    ∃ a, evalTree W c.cond = .ok a := by
  unfold fires at h
  split at h
  · cases h
  · rename_i a ha; exact ⟨a, ha⟩

theorem runChecks_ok {W : Where.Env} : ∀ {cs : List Check}, Evaluates W cs ↔ ∃ r, runChecks W cs = .ok r
  | [] => by simp [Evaluates, runChecks]
  | c :: cs => by
      have ih := runChecks_ok (W := W) (cs := cs)
      constructor
      · intro h
        obtain ⟨r, hr⟩ := ih.1 (fun x hx => h x (List.mem_cons_of_mem _ hx))
        unfold runChecks
        by_cases ha : c.active = true
        · obtain ⟨b, hb⟩ := fires_ok (h c List.mem_cons_self ha)
          rw [if_pos ha, hb, hr]
          exact ⟨_, rfl⟩
        · rw [if_neg ha]; exact ⟨r, hr⟩
      · rintro ⟨r, hr⟩
        unfold runChecks at hr
        by_cases ha : c.active = true
        · rw [if_pos ha] at hr
          cases hf : fires W c with
          | error x => rw [hf] at hr; cases hr
          | ok b =>
            rw [hf] at hr
            cases hs : runChecks W cs with
            | error x => rw [hs] at hr; cases hr
            | ok s =>
              intro x hx hxa
              rcases List.mem_cons.1 hx with rfl | hx
              · exact fires_error hf
              · exact ih.2 ⟨s, hs⟩ x hx hxa
        · rw [if_neg ha] at hr
          intro x hx hxa
          rcases List.mem_cons.1 hx with rfl | hx
          · exact absurd hxa ha
          · exact ih.2 ⟨r, hr⟩ x hx hxa

theorem message_cons {W : Where.Env} {c : Check} {cs : List Check} {r : Bool} {m : String} :
    Message W (c :: cs) r m ↔
      (c.active = true ∧ c.raises = r ∧ c.message = m ∧ Reported W c) ∨ Message W cs r m := by
  simp [Message]

theorem runChecks_mem {W : Where.Env} {ρ₀ : Point} (hρ₀ : Valid W ρ₀) :
    ∀ {cs : List Check} {ws es : List String}, runChecks W cs = .ok (ws, es) →
      ∀ m, (m ∈ ws ↔ Message W cs false m) ∧ (m ∈ es ↔ Message W cs true m)
  | [], ws, es, h, m => by
      simp only [runChecks, Except.ok.injEq, Prod.mk.injEq] at h
      simp [← h.1, ← h.2, Message]
  | c :: cs, ws, es, h, m => by
      unfold runChecks at h
      rw [message_cons, message_cons]
      by_cases ha : c.active = true
      · rw [if_pos ha] at h
        cases hf : fires W c with
        | error x => rw [hf] at h; cases h
        | ok b =>
          rw [hf] at h
          have hb := fires_iff hρ₀ hf
          cases hs : runChecks W cs with
          | error x => rw [hs] at h; cases h
          | ok s =>
            obtain ⟨ws', es'⟩ := s
            rw [hs] at h
            have ih := runChecks_mem hρ₀ hs m
            simp only [Except.ok.injEq] at h
            cases b with
            | false =>
              have hn : ¬ Reported W c := fun hr => by simpa using hb.2 hr
              simp only [Bool.false_eq_true, if_false, Prod.mk.injEq] at h
              simp only [← h.1, ← h.2, ih.1, ih.2, hn, and_false, false_or, and_self]
            | true =>
              have hr : Reported W c := hb.1 rfl
              simp only [if_true] at h
              cases hc : c.raises with
              | true =>
                simp only [hc, if_true, Prod.mk.injEq] at h
                simp only [← h.1, ← h.2, ih.1, List.mem_cons, ih.2, ha, hr, true_and, and_true, Bool.false_eq_true,
                  false_and, false_or, eq_comm]
              | false =>
                simp only [hc, Bool.false_eq_true, if_false, Prod.mk.injEq] at h
                simp only [← h.1, ← h.2, ih.2, List.mem_cons, ih.1, ha, hr, true_and, and_true, Bool.false_eq_true,
                  false_and, false_or, eq_comm]
      · rw [if_neg ha] at h
        have ih := runChecks_mem hρ₀ h m
        simp [ih, ha]

theorem sortStrings_mem (l : List String) (m : String) : m ∈ sortStrings l ↔ m ∈ l := by
  unfold sortStrings
  rw [List.mem_mergeSort, List.mem_dedup]

theorem sortStrings_nodup (l : List String) : (sortStrings l).Nodup := by
  unfold sortStrings
  exact (List.mergeSort_perm _ _).nodup_iff.2 (List.nodup_dedup l)

theorem sortStrings_sorted (l : List String) : (sortStrings l).Pairwise (· ≤ ·) := by
  unfold sortStrings
  have := List.pairwise_mergeSort (le := fun a b : String => decide (a ≤ b))
    (by intro a b c hab hbc; simp only [decide_eq_true_eq] at *; exact String.le_trans hab hbc)
    (by intro a b; simp only [Bool.or_eq_true, decide_eq_true_eq]; exact String.le_total a b) l.dedup
  exact this.imp (by simp)

end BaseMath
end Calliope
