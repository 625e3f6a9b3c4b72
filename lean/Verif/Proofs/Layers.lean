import Verif.Proofs.Template
import Verif.Model.Imports

/-! Layering dictionaries: a list of layers, nearest first, merged by unions in either
association. -/

namespace Calliope
namespace Dict
variable {α : Type}

/-- Every leaf of a (clash-free) union is a leaf of one of the operands. -/
theorem union_leaf_origin (self other d' : Dict α) (ho : other.WF)
    (h2 : ∀ p v, other.LeafAt p v → d'.lookup p = some (merged (self.lookup p) v))
    (h3 : ∀ q, (∀ p v, other.LeafAt p v → ¬ Related p q) → d'.lookup q = self.lookup q)
    (p : Path) (v : Val α) (h : d'.LeafAt p v) : self.LeafAt p v ∨ other.LeafAt p v := by
  cases v with
  | leaf a =>
    rcases union_origin self other d' ho h2 h3 p a h.2.1 with h' | h'
    · left; exact leafAt_scalar h'
    · right; exact h'
  | dict e =>
    have he := h.2.2 e rfl
    subst he
    by_cases hs : ∃ q w, other.LeafAt q w ∧ Related q p
    case neg =>
      left
      exact ⟨h.1, by rw [← h3 p (fun q w hq hr => hs ⟨q, w, hq, hr⟩)]; exact h.2.1, h.2.2⟩
    case pos =>
      obtain ⟨q, w, hq, hr⟩ := hs
      have hl := h2 q w hq
      rcases hr with ⟨t, rfl⟩ | ⟨t, rfl⟩
      · have hlk := h.2.1
        rw [lookup_append, hl] at hlk
        have keep : self.lookup (q ++ t) = some (.dict .nil) → self.LeafAt (q ++ t) (.dict .nil) :=
          fun hx => ⟨h.1, hx, h.2.2⟩
        match w, hq with
        | .leaf (some x), _ =>
          cases t <;> simp [merged, Val.lookup] at hlk
        | .leaf none, _ =>
          rcases hsq : self.lookup q with _ | (x | e)
          · cases t <;> simp [merged, hsq, Val.lookup] at hlk
          · cases t <;> simp [merged, hsq, Val.lookup] at hlk
          · left; apply keep
            rw [lookup_append, hsq]; simpa [merged, hsq] using hlk
        | .dict e, hq =>
          have he := hq.2.2 e rfl
          subst he
          rcases hsq : self.lookup q with _ | w
          · cases t with
            | nil => right; simpa using hq
            | cons =>
              simp [merged, hsq, Val.lookup] at hlk
              rw [lookup_emptyDict _ (by simp)] at hlk; cases hlk
          · left; apply keep
            rw [lookup_append, hsq]; simpa [merged, hsq] using hlk
      · have ht := leaf_below h hl
        subst ht
        rw [List.append_nil] at hl hq
        rw [h.2.1] at hl
        match w, hq with
        | .leaf (some x), hq => simp [merged] at hl
        | .leaf none, hq =>
          rcases hsq : self.lookup p with _ | (x | e) <;> simp [merged, hsq] at hl
          left; subst hl; exact ⟨h.1, hsq, h.2.2⟩
        | .dict e, hq =>
          have he := hq.2.2 e rfl
          subst he
          rcases hsq : self.lookup p with _ | w <;> simp [merged, hsq] at hl
          · right; exact hq
          · left; subst hl; exact ⟨h.1, hsq, h.2.2⟩

/-- `r` is the merge of `layers`, nearest layer first. -/
structure Layered (layers : List (Dict α)) (r : Dict α) : Prop where
  wf : r.WF
  origin : ∀ p v, r.LeafAt p v → ∃ b ∈ layers, b.LeafAt p v
  nearest : ∀ pre b post p a, layers = pre ++ b :: post → (∀ c ∈ pre, c.Silent p) →
    b.LeafAt p (.leaf (some a)) → r.lookup p = some (.leaf (some a))
  silent : ∀ p, p ≠ [] → (∀ b ∈ layers, b.Silent p) → r.lookup p = none

theorem Layered.clear {layers : List (Dict α)} {r : Dict α} (h : Layered layers r) (p : Path)
    (hc : ∀ b ∈ layers, b.Clear p) : r.Clear p := by
  rintro q hq hne ⟨a, ha⟩
  obtain ⟨b, hb, hl⟩ := h.origin q _ (leafAt_scalar ha)
  exact hc b hb q hq hne ⟨a, hl.2.1⟩

theorem Layered.isSilent {layers : List (Dict α)} {r : Dict α} (h : Layered layers r) (p : Path)
    (hc : ∀ b ∈ layers, b.Silent p) : r.Silent p := by
  intro q v hq hr
  obtain ⟨b, hb, hl⟩ := h.origin q v hq
  exact hc b hb q v hl hr

theorem layered_one (d : Dict α) (hd : d.WF) : Layered [d] d := by
  refine ⟨hd, fun p v h => ⟨d, by simp, h⟩, ?_, ?_⟩
  · intro pre b post p a h _ hb
    cases pre with
    | nil => simp at h; obtain ⟨rfl, rfl⟩ := h; exact hb.2.1
    | cons => simp at h
  · intro p hp hs
    rcases hl : d.lookup p with _ | v
    · rfl
    · obtain ⟨t, w, ht⟩ := exists_leaf_below d p v hp hl
      exact absurd (Or.inr (by simp)) (hs d (by simp) (p ++ t) w ht)

theorem layered_nil : Layered ([] : List (Dict α)) .nil := by
  refine ⟨trivial, ?_, by simp, fun p hp _ => lookup_emptyDict p hp⟩
  intro p v h
  have := h.2.1
  rw [lookup_emptyDict p h.1] at this; cases this

/-- Adding a nearer layer: `r.union(b)`. -/
theorem layered_cons {layers : List (Dict α)} {r : Dict α} (h : Layered layers r) (b : Dict α)
    (hb : b.WF) (hfit : ∀ far ∈ layers, FitsOn b far) :
    ∃ r', r.union b true = .ok r' ∧ Layered (b :: layers) r' := by
  obtain ⟨r', h1, hw, hm, hf⟩ := union_ok true r b h.wf hb
    (fun p v hp => h.clear p (fun far hfar => hfit far hfar p v hp)) (by simp)
  refine ⟨r', h1, hw, ?_, ?_, ?_⟩
  · intro p v hp
    rcases union_leaf_origin r b r' hb hm hf p v hp with h' | h'
    · obtain ⟨c, hc, hl⟩ := h.origin p v h'; exact ⟨c, by simp [hc], hl⟩
    · exact ⟨b, by simp, h'⟩
  · intro pre c post p a heq hs hl
    cases pre with
    | nil =>
      simp at heq
      obtain ⟨rfl, rfl⟩ := heq
      rw [hm p _ hl]; rfl
    | cons c' pre =>
      simp at heq
      obtain ⟨rfl, rfl⟩ := heq
      rw [hf p (hs b (by simp))]
      exact h.nearest pre c post p a rfl (fun x hx => hs x (by simp [hx])) hl
  · intro p hp0 hs
    rw [hf p (hs b (by simp))]
    exact h.silent p hp0 (fun x hx => hs x (by simp [hx]))

/-- Adding a farther layer: `b.union(r)`. -/
theorem layered_snoc {layers : List (Dict α)} {r : Dict α} (h : Layered layers r) (b : Dict α)
    (hb : b.WF) (hfit : ∀ near ∈ layers, FitsOn near b) (ao : Bool)
    (hao : ao = false → ∀ p v w, r.LeafAt p v → ¬ b.LeafAt p w) :
    ∃ r', b.union r ao = .ok r' ∧ Layered (layers ++ [b]) r' := by
  obtain ⟨r', h1, hw, hm, hf⟩ := union_ok ao b r hb h.wf
    (fun p v hp => by
      obtain ⟨c, hc, hl⟩ := h.origin p v hp
      exact hfit c hc p v hl)
    (by intro ha p v hp ⟨w, hw⟩; exact hao ha p v w hp hw)
  refine ⟨r', h1, hw, ?_, ?_, ?_⟩
  · intro p v hp
    rcases union_leaf_origin b r r' h.wf hm hf p v hp with h' | h'
    · exact ⟨b, by simp, h'⟩
    · obtain ⟨c, hc, hl⟩ := h.origin p v h'; exact ⟨c, by simp [hc], hl⟩
  · intro pre c post p a heq hs hl
    rcases List.eq_nil_or_concat post with rfl | ⟨post', x, rfl⟩
    · rw [show layers ++ [b] = layers ++ b :: [] from rfl] at heq
      obtain ⟨rfl, h2⟩ := List.append_inj' heq rfl
      cases h2
      rw [hf p (fun q v hq => h.isSilent p hs q v hq)]
      exact hl.2.1
    · have heq' : layers ++ [b] = (pre ++ c :: post') ++ [x] := by simpa using heq
      obtain ⟨rfl, h2⟩ := List.append_inj' heq' rfl
      have hr := h.nearest pre c post' p a rfl hs hl
      rw [hm p _ (leafAt_scalar hr)]; rfl
  · intro p hp0 hs
    rw [hf p (fun q v hq => h.isSilent p (fun c hc => hs c (by simp [hc])) q v hq)]
    rcases hl : b.lookup p with _ | v
    · rfl
    · obtain ⟨t, w, ht⟩ := exists_leaf_below b p v hp0 hl
      exact absurd (Or.inr (by simp)) (hs b (by simp) (p ++ t) w ht)

end Dict
end Calliope
