import Verif.Spec.WhereText
import Verif.Proofs.Where
import Verif.Proofs.Infix

namespace Calliope
namespace Where

open Infix Grid

theorem convLevels_disjoint : convLevels.Disjoint := by
  unfold Levels.Disjoint convLevels
  simp

theorem convReads_unique {t u : Tree Op Leaf} {ts : Text} (h : ConvReads t ts) (h' : ConvReads u ts) :
    t = u := by
  have h1 := (parse_iff convLevels convLevels_disjoint ts t).2 h
  have h2 := (parse_iff convLevels convLevels_disjoint ts u).2 h'
  rw [h1] at h2
  exact Option.some.inj h2

/-- Truth of a formula. -/
def truthF (e : Env) (ρ : String → Label) : Formula Op Leaf → Prop
  | .leaf a => LeafTruth e ρ a
  | .pre _ φ => ¬ truthF e ρ φ
  | .bin o φ ψ => connect o (truthF e ρ φ) (truthF e ρ ψ)

mutual
theorem truth_formula (e : Env) (ρ : String → Label) : ∀ t : Tree Op Leaf,
    Truth e ρ t ↔ truthF e ρ t.formula
  | .atom a => by simp only [Truth, Tree.formula, truthF]
  | .pre o t => by simp only [Truth, Tree.formula, truthF, truth_formula e ρ t]
  | .chain t r => by
      simp only [Truth, Tree.formula]
      exact restTruth_formula e ρ r (truth_formula e ρ t)
theorem restTruth_formula (e : Env) (ρ : String → Label) : ∀ (r : Rest Op Leaf) {p : Prop}
    {φ : Formula Op Leaf}, (p ↔ truthF e ρ φ) → (RestTruth e ρ p r ↔ truthF e ρ (r.formula φ))
  | .one o t, p, φ, h => by
      simp only [RestTruth, Rest.formula, truthF, propext h, propext (truth_formula e ρ t)]
  | .more o t r, p, φ, h => by
      simp only [RestTruth, Rest.formula]
      refine restTruth_formula e ρ r ?_
      simp only [truthF, propext h, propext (truth_formula e ρ t)]
end

/-- Binary levels that a kind may use. -/
def Kd.levels : Kd → List (Op → Bool)
  | .atom => []
  | .conj => [fun o => decide (o = .and)]
  | .disj => [fun o => decide (o = .or), fun o => decide (o = .and)]

/-- The text is of the kind and reads as a condition that is true if and only if `P`. -/
def ReadsAs (e : Env) (ρ : String → Label) (c : Kd) (P : Prop) (ts : Text) : Prop :=
  ∃ t, Derives convLevels c.levels t ts ∧ (Truth e ρ t ↔ P)

variable {e : Env} {ρ : String → Label}

theorem readsAs_disj {c : Kd} {P : Prop} {ts : Text} (h : ReadsAs e ρ c P ts) :
    ReadsAs e ρ .disj P ts := by
  obtain ⟨t, h1, h2⟩ := h
  cases c with
  | atom => exact ⟨t, .lift (.lift h1), h2⟩
  | conj => exact ⟨t, .lift h1, h2⟩
  | disj => exact ⟨t, h1, h2⟩

theorem readsAs_conj {c : Kd} {P : Prop} {ts : Text} (h : ReadsAs e ρ c P ts) (hc : c ≠ .disj) :
    ReadsAs e ρ .conj P ts := by
  obtain ⟨t, h1, h2⟩ := h
  cases c with
  | atom => exact ⟨t, .lift h1, h2⟩
  | conj => exact ⟨t, h1, h2⟩
  | disj => exact absurd rfl hc

theorem readsAs_paren {c : Kd} {P : Prop} {ts : Text} (b : Bool) (h : ReadsAs e ρ c P ts) :
    ReadsAs e ρ (parenKd b c) P (paren b ts) := by
  cases b with
  | false => exact h
  | true =>
    obtain ⟨t, h1, h2⟩ := readsAs_disj h
    exact ⟨t, .paren h1, h2⟩

theorem readsAs_true {c : Kd} {P : Prop} (h : ReadsAs e ρ c P trueText) : P := by
  obtain ⟨t, h1, h2⟩ := readsAs_disj h
  have : t = .atom (.bool true) := convReads_unique h1 (.lift (.lift (.atom _)))
  subst this
  exact h2.1 rfl

theorem readsAs_bin {o : Op} {c : Kd} {P Q : Prop} {v w : Text} (ho : o = .and ∧ c ≠ .disj ∨ o = .or)
    (hv : ReadsAs e ρ c P v) (hw : ReadsAs e ρ .atom Q w) :
    ReadsAs e ρ (if o = .and then .conj else .disj) (connect o P Q) (v ++ (.op o :: w)) := by
  obtain ⟨u, hu1, hu2⟩ := hw
  rcases ho with ⟨rfl, hc⟩ | rfl
  · obtain ⟨t, ht1, ht2⟩ := readsAs_conj hv hc
    obtain ⟨t', h1, h2⟩ := derives_snoc (o := Op.and) rfl ht1 hu1
    refine ⟨t', h1, ?_⟩
    rw [truth_formula, h2]
    simp only [truthF, ← truth_formula, connect, ht2, hu2]
  · obtain ⟨t, ht1, ht2⟩ := readsAs_disj hv
    obtain ⟨t', h1, h2⟩ := derives_snoc (o := Op.or) rfl ht1 (.lift hu1)
    refine ⟨t', h1, ?_⟩
    rw [truth_formula, h2]
    simp only [truthF, ← truth_formula, connect, ht2, hu2]

theorem readsAs_step {o : Op} {c k e' : Kd} {P Q : Prop} {v w : Text} {first nested : Bool}
    (hv : ReadsAs e ρ c P v) (hw : ReadsAs e ρ e' Q w) (hnest : parenKd nested e' = .atom)
    (hk : stepKd first o v w c = some k) :
    ReadsAs e ρ k (connect o P Q) (printStep first nested v o w) := by
  have hpv := readsAs_paren first hv
  have hpw := readsAs_paren nested hw
  rw [hnest] at hpw
  unfold printStep
  cases o with
  | not => cases hk
  | and =>
    simp only [stepKd] at hk
    by_cases ht : w = trueText
    · rw [if_pos ht] at hk
      cases hk
      rw [if_pos (by simp [skip, ht])]
      have hq : Q := readsAs_true (ht ▸ hw)
      have : connect .and P Q = P := by simp [connect, hq]
      rw [this]
      exact hv
    · rw [if_neg ht] at hk
      split at hk
      · cases hk
      · rename_i hc
        cases hk
        rw [if_neg (by simp [skip, ht])]
        by_cases h2 : skip (paren first v) .and = true
        · rw [if_pos h2]
          simp only [skip, Bool.and_eq_true, decide_eq_true_eq] at h2
          have hp : P := readsAs_true (h2.1 ▸ hpv)
          have : connect .and P Q = Q := by simp [connect, hp]
          rw [this]
          exact readsAs_conj hpw (by simp)
        · rw [if_neg h2]
          exact readsAs_bin (o := .and) (.inl ⟨rfl, hc⟩) hpv hpw
  | or =>
    simp only [stepKd] at hk
    split at hk
    · cases hk
    · rename_i hn
      cases hk
      rw [not_or] at hn
      rw [if_neg (by simp [skip, hn.2]), if_neg (by simp [skip, hn.1])]
      exact readsAs_bin (o := .or) (.inr rfl) hpv hpw

theorem kd_atom : ∀ {t : Tree Op Leaf} {c : Kd}, kd t = some c → parenKd (isChain t) c = .atom
  | .atom _, c, h => by simp only [kd] at h; cases h; rfl
  | .pre o t, c, h => by
      simp only [kd] at h
      split at h
      · obtain ⟨d, _, hd⟩ := Option.map_eq_some_iff.1 h
        rw [← hd]; rfl
      · cases h
  | .chain _ _, c, _ => rfl

mutual
theorem print_ok : ∀ (t : Tree Op Leaf) {c : Kd}, kd t = some c →
    ReadsAs e ρ c (Truth e ρ t) (printTree t)
  | .atom a, c, h => by
      simp only [kd] at h
      cases h
      simp only [printTree]
      exact ⟨.atom a, .atom a, Iff.rfl⟩
  | .pre o t, c, h => by
      simp only [kd] at h
      split at h
      · rename_i ho
        obtain ⟨d, hk, hd⟩ := Option.map_eq_some_iff.1 h
        subst hd
        obtain ⟨u, h1, h2⟩ := readsAs_paren true (print_ok t hk)
        simp only [printTree]
        refine ⟨.pre o u, .pre (by simp [convLevels, ho]) h1, ?_⟩
        simp only [Truth, h2]
      · cases h
  | .chain t r, c, h => by
      simp only [kd] at h
      cases hk : kd t with
      | none => rw [hk] at h; cases h
      | some d =>
        rw [hk] at h
        simp only [Truth, printTree]
        exact printRest_ok r (print_ok t hk) h
theorem printRest_ok : ∀ (r : Rest Op Leaf) {first : Bool} {v : Text} {c k : Kd} {P : Prop},
    ReadsAs e ρ c P v → kdRest first v c r = some k →
    ReadsAs e ρ k (RestTruth e ρ P r) (printRest first v r)
  | .one o t, first, v, c, k, P, hv, h => by
      simp only [kdRest] at h
      cases hk : kd t with
      | none => rw [hk] at h; cases h
      | some d =>
        rw [hk] at h
        simp only [RestTruth, printRest]
        exact readsAs_step hv (print_ok t hk) (kd_atom hk) h
  | .more o t r, first, v, c, k, P, hv, h => by
      simp only [kdRest] at h
      cases hk : kd t with
      | none => rw [hk] at h; cases h
      | some d =>
        rw [hk] at h
        simp only at h
        cases hs : stepKd first o v (printTree t) c with
        | none => rw [hs] at h; cases h
        | some c' =>
          rw [hs] at h
          simp only [RestTruth, printRest]
          exact printRest_ok r (readsAs_step hv (print_ok t hk) (kd_atom hk) hs) h
end

theorem cond_ok {t : Tree Op Leaf} (h : PrintableCond t) :
    ReadsAs e ρ .disj (Truth e ρ t) (printTree t) := by
  obtain ⟨c, hc⟩ := Option.isSome_iff_exists.1 h
  exact readsAs_disj (print_ok t hc)

theorem joinAnd_ok : ∀ (l : List (Prop × Text)), l ≠ [] →
    (∀ x ∈ l, ReadsAs e ρ .disj x.1 x.2) →
    ∃ t r, Derives convLevels [] t (paren true ((l.map Prod.snd).headD [])) ∧
      ((l.length = 1 ∧ joinAnd (l.map Prod.snd) = paren true ((l.map Prod.snd).headD []) ∧ r = none ∧
        (Truth e ρ t ↔ ∀ x ∈ l, x.1)) ∨
       ∃ r' rs, r = some r' ∧ DerivesRest convLevels (fun o => decide (o = .and)) [] r' rs ∧
        joinAnd (l.map Prod.snd) = paren true ((l.map Prod.snd).headD []) ++ rs ∧
        ∀ P, (RestTruth e ρ P r' ↔ P ∧ ∀ x ∈ l.tail, x.1) ∧ (Truth e ρ t ↔ (l.headD (True, [])).1))
  | [], h, _ => absurd rfl h
  | [x], _, h => by
      obtain ⟨t, h1, h2⟩ := readsAs_paren true (h x (by simp))
      exact ⟨t, none, h1, .inl ⟨rfl, rfl, rfl, by simpa using h2⟩⟩
  | x :: y :: l, _, h => by
      obtain ⟨t, h1, h2⟩ := readsAs_paren true (h x (by simp))
      obtain ⟨u, r, g1, g2⟩ := joinAnd_ok (y :: l) (by simp) (fun z hz => h z (List.mem_cons_of_mem _ hz))
      rcases g2 with ⟨hl, hj, hr, ht⟩ | ⟨r', rs, hr, hd, hj, ht⟩
      · refine ⟨t, some (.one .and u), h1, .inr ⟨.one .and u, _, rfl, .one rfl g1, ?_, ?_⟩⟩
        · simp only [List.map_cons] at hj ⊢
          rw [joinAnd, hj]
          · rfl
          · simp
        · intro P
          refine ⟨?_, h2⟩
          simp only [RestTruth, connect, ht, List.tail_cons]
      · refine ⟨t, some (.more .and u r'), h1,
          .inr ⟨.more .and u r', _, rfl, .more rfl g1 hd, ?_, ?_⟩⟩
        · simp only [List.map_cons] at hj ⊢
          rw [joinAnd, hj]
          · rfl
          · simp
        · intro P
          refine ⟨?_, h2⟩
          simp only [RestTruth]
          rw [(ht _).1]
          simp only [connect, (ht True).2, List.tail_cons, List.headD_cons, List.mem_cons,
            forall_eq_or_imp, and_assoc]

theorem whereText_ok {ws : List (Tree Op Leaf)} (h : ∀ w ∈ ws, PrintableCond w) :
    (whereText ws = [] ∧ ∀ w ∈ ws, Truth e ρ w) ∨
    ∃ t, ConvReads t (whereText ws) ∧ (Truth e ρ t ↔ ∀ w ∈ ws, Truth e ρ w) := by
  let l : List (Prop × Text) :=
    (ws.filter (fun w => decide (printTree w ≠ trueText))).map (fun w => (Truth e ρ w, printTree w))
  have hl2 : l.map Prod.snd = (ws.map printTree).filter (fun t => decide (t ≠ trueText)) := by
    simp only [l, List.map_map, List.filter_map]
    rfl
  have hall : (∀ x ∈ l, x.1) ↔ ∀ w ∈ ws, Truth e ρ w := by
    simp only [l, List.mem_map, List.mem_filter]
    constructor
    · intro H w hw
      by_cases ht : printTree w = trueText
      · have := cond_ok (e := e) (ρ := ρ) (h w hw)
        rw [ht] at this
        exact readsAs_true this
      · exact H _ ⟨w, ⟨hw, by simpa using ht⟩, rfl⟩
    · rintro H x ⟨w, ⟨hw, _⟩, rfl⟩
      exact H w hw
  have hreads : ∀ x ∈ l, ReadsAs e ρ .disj x.1 x.2 := by
    simp only [l, List.mem_map, List.mem_filter]
    rintro x ⟨w, ⟨hw, _⟩, rfl⟩
    exact cond_ok (h w hw)
  unfold whereText
  rw [← hl2]
  clear_value l
  by_cases hn : l = []
  · left
    rw [← hall, hn]
    exact ⟨rfl, by simp⟩
  · right
    obtain ⟨t, r, g1, g2⟩ := joinAnd_ok l hn hreads
    rcases g2 with ⟨_, hj, _, ht⟩ | ⟨r', rs, _, hd, hj, ht⟩
    · exact ⟨t, by rw [hj]; exact .lift (.lift g1), ht.trans hall⟩
    · refine ⟨.chain t r', by rw [hj]; exact .lift (.chain g1 hd), ?_⟩
      rw [← hall]
      simp only [Truth]
      rw [(ht _).1, (ht True).2]
      cases l with
      | nil => exact absurd rfl hn
      | cons x xs => simp

end Where
end Calliope
