import Verif.Proofs.AttrDict

namespace Calliope
namespace Dict
variable {α : Type}

/-- What ends up at the target of `set_key` for a leaf-like value `v`, given what was there. -/
def settled (old : Option (Val α)) : Val α → Val α
  | .leaf a => .leaf a
  | .dict _ => old.getD (.dict .nil)

def LeafLike (v : Val α) : Prop := ∀ e, v = .dict e → e = .nil

theorem clear_nilDict (p : Path) : (Dict.nil : Dict α).Clear p := by
  intro q _ _ hs
  obtain ⟨x, hx⟩ := hs
  cases q with
  | nil => simp at hx
  | cons => simp [lookup_cons, get1] at hx

/-- In a clear path `set_key` of a scalar or empty dictionary succeeds, settles the target
and leaves unrelated paths alone. -/
theorem setKey_clear (d : Dict α) (p : Path) (v : Val α) (hv : LeafLike v) (hp : p ≠ [])
    (hc : d.Clear p) :
    ∃ d', d.setKey p v = .ok d' ∧ d'.lookup p = some (settled (d.lookup p) v) ∧
      (∀ q, ¬ Related p q → d'.lookup q = d.lookup q) := by
  induction p generalizing d with
  | nil => exact absurd rfl hp
  | cons k ks ih =>
    cases ks with
    | nil =>
      have frame : ∀ w : Val α, ∀ q, ¬ Related [k] q → (d.put1 k w).lookup q = d.lookup q := by
        intro w q hq
        cases q with
        | nil => exact absurd (related_nil _).symm hq
        | cons k' q =>
          by_cases hk : k' = k
          · subst hk; exact absurd (Or.inl (by simp)) hq
          · exact lookup_put1_ne _ _ _ hk
      cases v with
      | leaf a =>
        exact ⟨d.put1 k (.leaf a), by simp [setKey, setKey1], by simp [lookup_single, settled],
          frame _⟩
      | dict e =>
        have he : e = .nil := hv e rfl
        subst he
        rcases hg : d.get1 k with _ | (x | u)
        · refine ⟨d.put1 k (.dict .nil), by simp [setKey, setKey1, hg], ?_, frame _⟩
          simp [lookup_single, settled, hg]
        · refine ⟨d, by simp [setKey, setKey1, hg], ?_, fun _ _ => rfl⟩
          simp [lookup_single, settled, hg]
        · refine ⟨d.put1 k (.dict u), by simp [setKey, setKey1, hg, mergeInto], ?_, frame _⟩
          simp [lookup_single, settled, hg]
    | cons k2 ks =>
      obtain ⟨f, hf, hfv, hff⟩ := ih .nil (by simp) (clear_nilDict _)
      rw [lookup_emptyDict _ (by simp)] at hfv
      -- branches that start from an empty dictionary
      have fresh : (∀ e, d.get1 k ≠ some (.dict e)) →
          (d.put1 k (.dict f)).lookup (k :: k2 :: ks)
              = some (settled (d.lookup (k :: k2 :: ks)) v) ∧
          ∀ q, ¬ Related (k :: k2 :: ks) q → (d.put1 k (.dict f)).lookup q = d.lookup q := by
        intro hnd
        have hnone : ∀ q, q ≠ [] → d.lookup (k :: q) = none := by
          intro q hq
          rw [lookup_cons]
          rcases hg : d.get1 k with _ | (x | e)
          · simp
          · cases q with
            | nil => exact absurd rfl hq
            | cons => simp [Val.lookup]
          · exact absurd hg (hnd e)
        constructor
        · rw [lookup_put1_same, hnone _ (by simp)]
          exact hfv
        · intro q hq
          cases q with
          | nil => exact absurd (related_nil _).symm hq
          | cons k' q =>
            by_cases hk : k' = k
            · subst hk
              have hq' := not_related_cons hq rfl
              rw [lookup_put1_same]
              simp only [Val.lookup]
              have hqne : q ≠ [] := by rintro rfl; exact hq' (related_nil _).symm
              rw [hff q hq', lookup_emptyDict q hqne, hnone q hqne]
            · exact lookup_put1_ne _ _ _ hk
      rcases hg : d.get1 k with _ | ((_ | x) | e)
      · exact ⟨d.put1 k (.dict f), by simp [setKey, hg, hf], fresh (by simp [hg])⟩
      · exact ⟨d.put1 k (.dict f), by simp [setKey, hg, hf], fresh (by simp [hg])⟩
      · exact absurd hg (Clear.head hc)
      · obtain ⟨e', he, hev, hee⟩ := ih e (by simp) (hc.tail hg)
        refine ⟨d.put1 k (.dict e'), by simp [setKey, hg, he], ?_, ?_⟩
        · rw [lookup_put1_same, lookup_cons, hg]
          simpa [Val.lookup] using hev
        · intro q hq
          cases q with
          | nil => exact absurd (related_nil _).symm hq
          | cons k' q =>
            by_cases hk : k' = k
            · subst hk
              rw [lookup_put1_same, lookup_cons, hg]
              simpa [Val.lookup] using hee q (not_related_cons hq rfl)
            · exact lookup_put1_ne _ _ _ hk

/-- A dictionary can always be started from scratch. -/
theorem setKey_nil_ok (p : Path) (v : Val α) (hp : p ≠ []) :
    ∃ f, (Dict.nil : Dict α).setKey p v = .ok f := by
  induction p with
  | nil => exact absurd rfl hp
  | cons k ks ih =>
    cases ks with
    | nil => cases v <;> simp [setKey, setKey1, get1]
    | cons k2 ks =>
      obtain ⟨f, hf⟩ := ih (by simp)
      simp [setKey, get1, hf]

/-! ### Well-formedness is preserved -/

theorem WF_mergeInto (t d t' : Dict α) (ht : t.WF) (hd : d.WF) (h : mergeInto t d = .ok t') :
    t'.WF := by
  induction d generalizing t t' with
  | nil => simp [mergeInto] at h; exact h ▸ ht
  | leaf k a rest ih =>
    simp only [mergeInto] at h
    exact ih _ _ (WF_put1 ht (v := .leaf a) trivial) hd.2 h
  | sub k e rest ihe ih =>
    simp only [mergeInto] at h
    rcases hg : t.get1 k with _ | (x | u)
    · simp only [hg] at h
      exact ih _ _ (WF_put1 ht (v := .dict e) hd.2.1) hd.2.2 h
    · simp only [hg] at h
      split at h
      · exact ih _ _ ht hd.2.2 h
      · cases h
    · simp only [hg] at h
      split at h
      · rename_i u' hu
        have hu' : u'.WF := ihe _ _ (WF_get1 (v := .dict u) ht hg) hd.2.1 hu
        exact ih _ _ (WF_put1 ht (v := .dict u') hu') hd.2.2 h
      · cases h

theorem WF_setKey1 (d d' : Dict α) (k : Key) (v : Val α) (hd : d.WF) (hv : v.WF)
    (h : d.setKey1 k v = .ok d') : d'.WF := by
  cases v with
  | leaf a => simp [setKey1] at h; exact h ▸ WF_put1 hd trivial
  | dict e =>
    simp only [setKey1] at h
    rcases hg : d.get1 k with _ | (x | u)
    · simp only [hg] at h; cases h; exact WF_put1 hd hv
    · simp only [hg] at h
      split at h
      · cases h; exact hd
      · cases h
    · simp only [hg] at h
      split at h
      · rename_i u' hu
        cases h
        exact WF_put1 hd (v := .dict u') (WF_mergeInto _ _ _ (WF_get1 (v := .dict u) hd hg) hv hu)
      · cases h

theorem WF_setKey (d d' : Dict α) (p : Path) (v : Val α) (hd : d.WF) (hv : v.WF)
    (h : d.setKey p v = .ok d') : d'.WF := by
  induction p generalizing d d' with
  | nil => simp [setKey] at h
  | cons k ks ih =>
    cases ks with
    | nil => exact WF_setKey1 _ _ _ _ hd hv (by simpa [setKey] using h)
    | cons k2 ks =>
      obtain ⟨f, hf⟩ := setKey_nil_ok (k2 :: ks) v (by simp)
      have hfw : f.WF := ih .nil f (by simp [WF]) hf
      simp only [setKey, hf] at h
      rcases hg : d.get1 k with _ | ((_ | x) | e)
      · simp only [hg] at h; cases h; exact WF_put1 hd (v := .dict f) hfw
      · simp only [hg] at h; cases h; exact WF_put1 hd (v := .dict f) hfw
      · simp [hg] at h
      · simp only [hg] at h
        split at h
        · rename_i e' he
          cases h
          exact WF_put1 hd (v := .dict e') (ih _ _ (WF_get1 (v := .dict e) hd hg) he)
        · cases h; exact WF_put1 hd (v := .dict f) hfw
        · cases h
        · cases h

theorem WF_lookup {d : Dict α} {p : Path} {v : Val α} (hd : d.WF) (h : d.lookup p = some v) :
    v.WF := by
  induction p generalizing d with
  | nil => simp at h; exact h ▸ hd
  | cons k ks ih =>
    rw [lookup_cons] at h
    rcases hg : d.get1 k with _ | (x | e)
    · simp [hg] at h
    · cases ks with
      | nil => simp [hg] at h; exact h ▸ trivial
      | cons => simp [hg, Val.lookup] at h
    · exact ih (WF_get1 (v := .dict e) hd hg) (by simpa [hg, Val.lookup] using h)

/-! ### keys_nested -/

theorem keysNested_ne_nil (d : Dict α) : ∀ p ∈ d.keysNested, p ≠ [] := by
  induction d with
  | nil => simp [keysNested]
  | leaf k a rest ih =>
    simp only [keysNested, List.mem_cons]
    rintro p (rfl | h)
    · simp
    · exact ih p h
  | sub k e rest _ ih =>
    simp only [keysNested, List.mem_append]
    rintro p (h | h)
    · cases e <;> simp at h
      · simp [h]
      all_goals (obtain ⟨q, _, rfl⟩ := h; simp)
    · exact ih p h

/-- The first segment of every nested key is a top-level key. -/
theorem keysNested_head (d : Dict α) : ∀ p ∈ d.keysNested, ∃ k ks, p = k :: ks ∧ k ∈ d.keys := by
  induction d with
  | nil => simp [keysNested]
  | leaf k a rest ih =>
    simp only [keysNested, List.mem_cons]
    rintro p (rfl | h)
    · exact ⟨k, [], rfl, by simp [keys]⟩
    · obtain ⟨k', ks, h1, h2⟩ := ih p h
      exact ⟨k', ks, h1, by simp [keys, h2]⟩
  | sub k e rest _ ih =>
    simp only [keysNested, List.mem_append]
    rintro p (h | h)
    · refine ⟨k, p.tail, ?_, by simp [keys]⟩
      cases e <;> simp at h
      · simp [h]
      all_goals (obtain ⟨q, _, rfl⟩ := h; simp)
    · obtain ⟨k', ks, h1, h2⟩ := ih p h
      exact ⟨k', ks, h1, by simp [keys, h2]⟩

theorem keys_of_get1 {d : Dict α} {k : Key} {v : Val α} (h : d.get1 k = some v) : k ∈ d.keys := by
  rcases Decidable.em (k ∈ d.keys) with h' | h'
  · exact h'
  · rw [(get1_eq_none d k).2 h'] at h; cases h

theorem mem_keysNested (d : Dict α) (hd : d.WF) (p : Path) :
    p ∈ d.keysNested ↔ ∃ v, d.LeafAt p v := by
  induction d generalizing p with
  | nil =>
    simp only [keysNested, List.not_mem_nil, false_iff]
    rintro ⟨v, hp, h, _⟩
    rw [lookup_emptyDict p hp] at h; cases h
  | leaf k a rest ih =>
    simp only [keysNested, List.mem_cons, ih hd.2]
    cases p with
    | nil => simp [LeafAt]
    | cons k' ks =>
      by_cases hk : k = k'
      · subst hk
        have hn : rest.get1 k = none := (get1_eq_none _ _).2 hd.1
        constructor
        · rintro (h | ⟨v, _, h, _⟩)
          · simp at h; subst h
            exact ⟨.leaf a, by simp, by simp [lookup_single, get1], by simp⟩
          · simp [lookup_cons, hn] at h
        · rintro ⟨v, _, h, _⟩
          left
          simp [lookup_cons, get1] at h
          cases ks with
          | nil => rfl
          | cons => simp [Val.lookup] at h
      · have : ∀ v, (Dict.leaf k a rest).LeafAt (k' :: ks) v ↔ rest.LeafAt (k' :: ks) v := by
          intro v; simp [LeafAt, lookup_cons, get1, hk]
        simp only [this]
        constructor
        · rintro (h | h)
          · simp at h; exact absurd h.1.symm hk
          · exact h
        · exact Or.inr
  | sub k e rest ihe ih =>
    simp only [keysNested, List.mem_append, ih hd.2.2]
    cases p with
    | nil =>
      constructor
      · rintro (h | ⟨v, h, _⟩)
        · cases e <;> simp at h
        · exact absurd rfl h
      · rintro ⟨v, h, _⟩
        exact absurd rfl h
    | cons k' ks =>
      by_cases hk : k = k'
      · subst hk
        have hn : rest.get1 k = none := (get1_eq_none _ _).2 hd.1
        have hlook : (Dict.sub k e rest).lookup (k :: ks) = e.lookup ks := by
          simp [lookup_cons, get1, Val.lookup]
        have hmem : (k :: ks) ∈ (match e with
            | .nil => [[k]]
            | _ => e.keysNested.map (k :: ·)) ↔
            (e = .nil ∧ ks = []) ∨ (e ≠ .nil ∧ ks ∈ e.keysNested) := by
          cases e <;> simp
        constructor
        · rintro (h | ⟨v, _, h, _⟩)
          · rcases hmem.1 h with ⟨rfl, rfl⟩ | ⟨he, h⟩
            · exact ⟨.dict .nil, by simp, by rw [hlook]; simp, by simp⟩
            · obtain ⟨v, h1, h2, h3⟩ := (ihe hd.2.1 ks).1 h
              exact ⟨v, by simp, by rw [hlook]; exact h2, h3⟩
          · simp [lookup_cons, hn] at h
        · rintro ⟨v, _, h, h3⟩
          left
          rw [hlook] at h
          apply hmem.2
          cases ks with
          | nil =>
            simp at h
            exact Or.inl ⟨h3 e h.symm, rfl⟩
          | cons k2 ks =>
            refine Or.inr ⟨?_, (ihe hd.2.1 _).2 ⟨v, by simp, h, h3⟩⟩
            rintro rfl
            rw [lookup_emptyDict _ (by simp)] at h; cases h
      · have : ∀ v, (Dict.sub k e rest).LeafAt (k' :: ks) v ↔ rest.LeafAt (k' :: ks) v := by
          intro v; simp [LeafAt, lookup_cons, get1, hk]
        simp only [this]
        constructor
        · rintro (h | h)
          · exfalso
            cases e <;> simp at h
            · exact hk h.1.symm
            all_goals exact hk h.2
          · exact h
        · exact Or.inr

theorem related_cons_iff {k k' : Key} {p q : Path} :
    Related (k :: p) (k' :: q) ↔ k = k' ∧ Related p q := by
  constructor
  · rintro (h | h)
    · rw [List.cons_prefix_cons] at h; exact ⟨h.1, Or.inl h.2⟩
    · rw [List.cons_prefix_cons] at h; exact ⟨h.1.symm, Or.inr h.2⟩
  · rintro ⟨rfl, h | h⟩
    · exact Or.inl (by simpa using h)
    · exact Or.inr (by simpa using h)

theorem keysNested_pairwise (d : Dict α) (hd : d.WF) :
    d.keysNested.Pairwise (fun p q => ¬ Related p q) := by
  induction d with
  | nil => simp [keysNested]
  | leaf k a rest ih =>
    simp only [keysNested, List.pairwise_cons]
    refine ⟨?_, ih hd.2⟩
    intro q hq hr
    obtain ⟨k', ks, rfl, hk'⟩ := keysNested_head rest q hq
    rw [related_cons_iff] at hr
    exact hd.1 (hr.1 ▸ hk')
  | sub k e rest ihe ih =>
    simp only [keysNested, List.pairwise_append]
    refine ⟨?_, ih hd.2.2, ?_⟩
    · cases e with
      | nil => simp
      | leaf => 
        simp only [List.pairwise_map]
        exact (ihe hd.2.1).imp fun h hr => h (related_cons_iff.1 hr).2
      | sub =>
        simp only [List.pairwise_map]
        exact (ihe hd.2.1).imp fun h hr => h (related_cons_iff.1 hr).2
    · intro p hp q hq hr
      obtain ⟨k', ks, rfl, hk'⟩ := keysNested_head rest q hq
      have : ∃ r, p = k :: r := by
        cases e <;> simp at hp
        · exact ⟨[], hp⟩
        all_goals (obtain ⟨r, _, rfl⟩ := hp; exact ⟨r, rfl⟩)
      obtain ⟨r, rfl⟩ := this
      rw [related_cons_iff] at hr
      exact hd.1 (hr.1 ▸ hk')

/-! ### The union loop with overriding allowed -/

/-- What a leaf `v` of the other dictionary turns the old content of its path into. -/
def merged (old : Option (Val α)) : Val α → Val α
  | .leaf (some a) => .leaf (some a)
  | .leaf none => match old with
      | some (.dict e) => .dict e
      | _ => .leaf none
  | .dict _ => old.getD (.dict .nil)

theorem LeafAt.leafLike {d : Dict α} {p : Path} {v : Val α} (h : d.LeafAt p v) : LeafLike v := h.2.2

theorem unionStep_ok (sk : List Path) (other self : Dict α) (k : Path) (v : Val α)
    (hl : other.LeafAt k v) (hc : self.Clear k) (ao : Bool) (hno : ao = false → k ∉ sk) :
    ∃ d', unionStep ao sk other self k = .ok d' ∧
      d'.lookup k = some (merged (self.lookup k) v) ∧
      (∀ q, ¬ Related k q → d'.lookup q = self.lookup q) := by
  have hg : other.getKey k = .ok v := (getKey_ok_iff _ _ _).2 ⟨hl.1, hl.2.1⟩
  have hD := getKeyD_eq self k (.leaf none) hl.1
  have hcond : (!ao && sk.contains k) = false := by
    cases ao with
    | true => simp
    | false => simpa using hno rfl
  simp only [unionStep, hcond, hg]
  obtain ⟨d', h1, h2, h3⟩ := setKey_clear self k v hl.leafLike hl.1 hc
  match v, h2 with
  | .leaf (some a), h2 => exact ⟨d', by simp [h1, Val.isNone], by simpa [settled, merged] using h2, h3⟩
  | .dict e, h2 => exact ⟨d', by simp [h1, Val.isNone], by simpa [settled, merged] using h2, h3⟩
  | .leaf none, h2 =>
    rcases hlk : self.lookup k with _ | (x | e)
    · exact ⟨d', by simp [hD, hlk, Val.isDict, Val.isNone, h1], by simpa [settled, merged] using h2, h3⟩
    · exact ⟨d', by simp [hD, hlk, Val.isDict, Val.isNone, h1], by simpa [settled, merged] using h2, h3⟩
    · exact ⟨self, by simp [hD, hlk, Val.isDict, Val.isNone], by simp [merged, hlk], fun _ _ => rfl⟩

/-- A clear path stays clear when something is settled at an unrelated path. -/
theorem Clear.preserved {d d' : Dict α} {p q : Path} {w : Val α} (hc : d.Clear q)
    (hr : ¬ Related p q) (hw : d'.lookup p = some w)
    (hf : ∀ r, ¬ Related p r → d'.lookup r = d.lookup r) : d'.Clear q := by
  intro r hrq hne hs
  by_cases hpr : Related p r
  · rcases hpr with h | h
    · exact hr (Or.inl (h.trans hrq))
    · -- r is a prefix of p, p is present, so r holds a dictionary (or r = p)
      obtain ⟨t, rfl⟩ := h
      obtain ⟨a, ha⟩ := hs
      rw [lookup_append, ha] at hw
      cases t with
      | nil => exact hr (Or.inl (by simpa using hrq))
      | cons => simp [Val.lookup] at hw
  · obtain ⟨a, ha⟩ := hs
    exact hc r hrq hne ⟨a, by rw [← hf r hpr]; exact ha⟩

theorem unionLoop_ok (ao : Bool) (sk : List Path) (other : Dict α) (ps : List Path)
    (self : Dict α)
    (hl : ∀ p ∈ ps, ∃ v, other.LeafAt p v)
    (hpw : ps.Pairwise (fun p q => ¬ Related p q))
    (hc : ∀ p ∈ ps, self.Clear p)
    (hno : ao = false → ∀ p ∈ ps, p ∉ sk) :
    ∃ d', unionLoop ao sk other self ps = .ok d' ∧
      (∀ p ∈ ps, ∀ v, other.LeafAt p v → d'.lookup p = some (merged (self.lookup p) v)) ∧
      (∀ q, (∀ p ∈ ps, ¬ Related p q) → d'.lookup q = self.lookup q) := by
  induction ps generalizing self with
  | nil => exact ⟨self, by simp [unionLoop], by simp, fun _ _ => rfl⟩
  | cons p ps ih =>
    obtain ⟨v, hv⟩ := hl p (by simp)
    obtain ⟨d1, h1, h2, h3⟩ := unionStep_ok sk other self p v hv (hc p (by simp)) ao
      (fun h => hno h p (by simp))
    rw [List.pairwise_cons] at hpw
    have hc1 : ∀ q ∈ ps, d1.Clear q := fun q hq =>
      (hc q (by simp [hq])).preserved (hpw.1 q hq) h2 h3
    obtain ⟨d', h4, h5, h6⟩ := ih d1 (fun q hq => hl q (by simp [hq])) hpw.2 hc1
      (fun h q hq => hno h q (by simp [hq]))
    refine ⟨d', by simp [unionLoop, h1, h4], ?_, ?_⟩
    · intro q hq w hw
      rcases List.mem_cons.1 hq with rfl | hq
      · have : v = w := by
          have := hv.2.1.symm.trans hw.2.1
          simpa using this
        subst this
        rw [h6 q (fun r hr hrel => hpw.1 r hr hrel.symm), h2]
      · rw [h5 q hq w hw, h3 q (hpw.1 q hq)]
    · intro q hq
      rw [h6 q (fun r hr => hq r (by simp [hr])), h3 q (hq p (by simp))]

theorem WF_unionLoop (ao : Bool) (sk : List Path) (other : Dict α) (ps : List Path)
    (self d' : Dict α) (hs : self.WF) (ho : other.WF)
    (h : unionLoop ao sk other self ps = .ok d') : d'.WF := by
  induction ps generalizing self with
  | nil => simp [unionLoop] at h; exact h ▸ hs
  | cons p ps ih =>
    simp only [unionLoop] at h
    split at h
    · cases h
    · rename_i d1 h1
      refine ih d1 ?_ h
      simp only [unionStep] at h1
      split at h1
      · cases h1
      · split at h1
        · cases h1
        · rename_i v hv
          split at h1
          · cases h1; exact hs
          · exact WF_setKey _ _ _ _ hs (WF_lookup ho ((getKey_ok_iff _ _ _).1 hv).2) h1

/-- The union as a whole, in a compatible situation. -/
theorem union_ok (ao : Bool) (self other : Dict α) (hs : self.WF) (ho : other.WF)
    (hc : ∀ p v, other.LeafAt p v → self.Clear p)
    (hno : ao = false → ∀ p v, other.LeafAt p v → ¬ ∃ w, self.LeafAt p w) :
    ∃ d', self.union other ao = .ok d' ∧ d'.WF ∧
      (∀ p v, other.LeafAt p v → d'.lookup p = some (merged (self.lookup p) v)) ∧
      (∀ q, (∀ p v, other.LeafAt p v → ¬ Related p q) → d'.lookup q = self.lookup q) := by
  obtain ⟨d', h1, h2, h3⟩ := unionLoop_ok ao self.keysNested other other.keysNested self
    (fun p hp => (mem_keysNested other ho p).1 hp)
    (keysNested_pairwise other ho)
    (fun p hp => by
      obtain ⟨v, hv⟩ := (mem_keysNested other ho p).1 hp
      exact hc p v hv)
    (fun h p hp hq => by
      obtain ⟨v, hv⟩ := (mem_keysNested other ho p).1 hp
      exact hno h p v hv ((mem_keysNested self hs p).1 hq))
  refine ⟨d', h1, WF_unionLoop _ _ _ _ _ _ hs ho h1, ?_, ?_⟩
  · intro p v hv
    exact h2 p ((mem_keysNested other ho p).2 ⟨v, hv⟩) v hv
  · intro q hq
    refine h3 q fun p hp => ?_
    obtain ⟨v, hv⟩ := (mem_keysNested other ho p).1 hp
    exact hq p v hv

/-- Without overriding, a leaf common to both always raises. -/
theorem unionLoop_twice (sk : List Path) (other : Dict α) (ps : List Path) (self : Dict α)
    (h : ∃ p ∈ ps, p ∈ sk) : ∃ e, unionLoop false sk other self ps = .error e := by
  induction ps generalizing self with
  | nil => simp at h
  | cons p ps ih =>
    simp only [unionLoop]
    rcases hstep : unionStep false sk other self p with e | d1
    · exact ⟨e, rfl⟩
    · apply ih
      obtain ⟨q, hq, hqs⟩ := h
      rcases List.mem_cons.1 hq with rfl | hq
      · simp [unionStep, hqs] at hstep
      · exact ⟨q, hq, hqs⟩

end Dict
end Calliope
