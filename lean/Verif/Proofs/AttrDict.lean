import Verif.Spec.AttrDict

namespace Calliope
namespace Dict
variable {α : Type}

@[simp] theorem get1_put1_self (d : Dict α) (k : Key) (v : Val α) :
    (d.put1 k v).get1 k = some v := by
  induction d with
  | nil => cases v <;> simp [put1, get1]
  | leaf k' a rest ih =>
    by_cases h : k' = k
    · cases v <;> simp [put1, get1, h]
    · simp [put1, get1, h, ih]
  | sub k' e rest _ ih =>
    by_cases h : k' = k
    · cases v <;> simp [put1, get1, h]
    · simp [put1, get1, h, ih]

theorem get1_put1_ne (d : Dict α) {k k' : Key} (v : Val α) (hne : k' ≠ k) :
    (d.put1 k v).get1 k' = d.get1 k' := by
  induction d with
  | nil => cases v <;> simp [put1, get1, Ne.symm hne]
  | leaf k2 a rest ih =>
    by_cases h : k2 = k
    · cases v <;> simp [put1, get1, h, Ne.symm hne]
    · simp [put1, get1, h, ih]
  | sub k2 e rest _ ih =>
    by_cases h : k2 = k
    · cases v <;> simp [put1, get1, h, Ne.symm hne]
    · simp [put1, get1, h, ih]

theorem get1_put1 (d : Dict α) (k k' : Key) (v : Val α) :
    (d.put1 k v).get1 k' = if k' = k then some v else d.get1 k' := by
  split
  · subst k'; simp
  · exact get1_put1_ne d v (by assumption)

theorem get1_eq_none (d : Dict α) (k : Key) : d.get1 k = none ↔ k ∉ d.keys := by
  induction d with
  | nil => simp [get1, keys]
  | leaf k2 a rest ih =>
    by_cases h : k2 = k
    · simp [get1, keys, h]
    · simp [get1, keys, h, ih, Ne.symm h]
  | sub k2 a rest _ ih =>
    by_cases h : k2 = k
    · simp [get1, keys, h]
    · simp [get1, keys, h, ih, Ne.symm h]

theorem get1_del1_ne (d : Dict α) {k k' : Key} (hne : k' ≠ k) :
    (d.del1 k).get1 k' = d.get1 k' := by
  induction d with
  | nil => simp [del1]
  | leaf k2 a rest ih =>
    by_cases h : k2 = k
    · simp [del1, get1, h, Ne.symm hne]
    · simp [del1, get1, h, ih]
  | sub k2 e rest _ ih =>
    by_cases h : k2 = k
    · simp [del1, get1, h, Ne.symm hne]
    · simp [del1, get1, h, ih]

theorem get1_del1_self (d : Dict α) {k : Key} (hw : d.WF) : (d.del1 k).get1 k = none := by
  induction d with
  | nil => simp [del1, get1]
  | leaf k2 a rest ih =>
    by_cases h : k2 = k
    · subst h; simp [del1, get1_eq_none]; exact hw.1
    · simp [del1, get1, h, ih hw.2]
  | sub k2 e rest _ ih =>
    by_cases h : k2 = k
    · subst h; simp [del1, get1_eq_none]; exact hw.1
    · simp [del1, get1, h, ih hw.2.2]

theorem keys_put1 (d : Dict α) (k : Key) (v : Val α) :
    (d.put1 k v).keys = if k ∈ d.keys then d.keys else d.keys ++ [k] := by
  induction d with
  | nil => cases v <;> simp [put1, keys]
  | leaf k2 a rest ih =>
    by_cases h : k2 = k
    · cases v <;> simp [put1, keys, h]
    · simp [put1, keys, h, ih, Ne.symm h]; split <;> simp_all
  | sub k2 e rest _ ih =>
    by_cases h : k2 = k
    · cases v <;> simp [put1, keys, h]
    · simp [put1, keys, h, ih, Ne.symm h]; split <;> simp_all

/-- Well-formedness of a value. -/
def _root_.Calliope.Val.WF : Val α → Prop
  | .leaf _ => True
  | .dict d => d.WF

theorem WF_put1 {d : Dict α} {k : Key} {v : Val α} (hd : d.WF) (hv : v.WF) : (d.put1 k v).WF := by
  induction d with
  | nil => cases v <;> simp_all [put1, WF, keys, Val.WF]
  | leaf k2 a rest ih =>
    by_cases h : k2 = k
    · subst h
      cases v <;> simp_all [put1, WF, Val.WF]
    · simp only [put1, h, if_false, WF]
      refine ⟨?_, ih hd.2⟩
      rw [keys_put1]
      split
      · exact hd.1
      · simp [hd.1, h]
  | sub k2 e rest _ ih =>
    by_cases h : k2 = k
    · subst h
      cases v <;> simp_all [put1, WF, Val.WF]
    · simp only [put1, h, if_false, WF]
      refine ⟨?_, hd.2.1, ih hd.2.2⟩
      rw [keys_put1]
      split
      · exact hd.1
      · simp [hd.1, h]

theorem WF_get1 {d : Dict α} {k : Key} {v : Val α} (hd : d.WF) (h : d.get1 k = some v) : v.WF := by
  induction d with
  | nil => simp [get1] at h
  | leaf k2 a rest ih =>
    simp only [get1] at h
    split at h
    · cases h; trivial
    · exact ih hd.2 h
  | sub k2 e rest _ ih =>
    simp only [get1] at h
    split at h
    · cases h; exact hd.2.1
    · exact ih hd.2.2 h

theorem keys_del1_sub (d : Dict α) (k k' : Key) (h : k' ∈ (d.del1 k).keys) : k' ∈ d.keys := by
  induction d with
  | nil => simpa [del1] using h
  | leaf k2 a rest ih =>
    by_cases hk : k2 = k
    · simp [del1, hk] at h; simp [keys, h]
    · simp [del1, hk, keys] at h ⊢
      exact h.imp id ih
  | sub k2 a rest _ ih =>
    by_cases hk : k2 = k
    · simp [del1, hk] at h; simp [keys, h]
    · simp [del1, hk, keys] at h ⊢
      exact h.imp id ih

theorem WF_del1 {d : Dict α} {k : Key} (hd : d.WF) : (d.del1 k).WF := by
  induction d with
  | nil => simpa [del1] using hd
  | leaf k2 a rest ih =>
    by_cases hk : k2 = k
    · simpa [del1, hk] using hd.2
    · simp only [del1, hk, if_false, WF]
      exact ⟨fun h => hd.1 (keys_del1_sub _ _ _ h), ih hd.2⟩
  | sub k2 e rest _ ih =>
    by_cases hk : k2 = k
    · simpa [del1, hk] using hd.2.2
    · simp only [del1, hk, if_false, WF]
      exact ⟨fun h => hd.1 (keys_del1_sub _ _ _ h), hd.2.1, ih hd.2.2⟩

/-! ### lookup -/

/-- Looking up a path inside a value. -/
def _root_.Calliope.Val.lookup : Val α → Path → Option (Val α)
  | .leaf a, [] => some (.leaf a)
  | .leaf _, _ :: _ => none
  | .dict d, p => d.lookup p

@[simp] theorem lookup_nil (d : Dict α) : d.lookup [] = some (.dict d) := by simp [lookup]

theorem lookup_cons (d : Dict α) (k : Key) (ks : Path) :
    d.lookup (k :: ks) = (d.get1 k).bind (·.lookup ks) := by
  simp only [lookup]
  rcases h : d.get1 k with _ | (a | e)
  · simp
  · cases ks <;> simp [Val.lookup]
  · simp [Val.lookup]

@[simp] theorem vlookup_nil (v : Val α) : v.lookup [] = some v := by
  cases v <;> simp [Val.lookup]

theorem lookup_single (d : Dict α) (k : Key) : d.lookup [k] = d.get1 k := by
  rw [lookup_cons]; cases d.get1 k <;> simp

theorem lookup_emptyDict (p : Path) (hp : p ≠ []) : (Dict.nil : Dict α).lookup p = none := by
  cases p with
  | nil => exact absurd rfl hp
  | cons k ks => simp [lookup, get1]

theorem lookup_put1_same (d : Dict α) (k : Key) (v : Val α) (ks : Path) :
    (d.put1 k v).lookup (k :: ks) = v.lookup ks := by
  simp [lookup_cons]

theorem lookup_put1_ne (d : Dict α) {k k' : Key} (v : Val α) (ks : Path) (h : k' ≠ k) :
    (d.put1 k v).lookup (k' :: ks) = d.lookup (k' :: ks) := by
  simp [lookup_cons, get1_put1_ne d v h]

theorem lookup_append (d : Dict α) (p q : Path) :
    d.lookup (p ++ q) = (d.lookup p).bind (·.lookup q) := by
  induction p generalizing d with
  | nil => simp [Val.lookup]
  | cons k ks ih =>
    simp only [List.cons_append, lookup_cons]
    rcases h : d.get1 k with _ | (a | e)
    · simp
    · simp [Val.lookup]
      cases ks with
      | nil => simp
      | cons => simp
    · simp [Val.lookup, ih]

/-! ### get_key -/

theorem getKey_ok_iff (d : Dict α) (p : Path) (v : Val α) :
    d.getKey p = .ok v ↔ p ≠ [] ∧ d.lookup p = some v := by
  induction p generalizing d with
  | nil => simp [getKey]
  | cons k ks ih =>
    cases ks with
    | nil =>
      simp only [getKey, lookup_single]
      cases d.get1 k <;> simp
    | cons k2 ks =>
      simp only [getKey]
      rw [lookup_cons]
      rcases h : d.get1 k with _ | (a | e)
      · simp
      · simp [Val.lookup]
      · simp [ih, Val.lookup]

theorem getKeyD_eq (d : Dict α) (p : Path) (dflt : Val α) (hp : p ≠ []) :
    d.getKeyD p dflt = (d.lookup p).getD dflt := by
  induction p generalizing d with
  | nil => exact absurd rfl hp
  | cons k ks ih =>
    cases ks with
    | nil =>
      simp only [getKeyD, lookup_single]
      cases d.get1 k <;> simp
    | cons k2 ks =>
      simp only [getKeyD]
      rw [lookup_cons]
      rcases h : d.get1 k with _ | (a | e)
      · simp
      · simp [Val.lookup]
      · simp [ih, Val.lookup]

/-! ### set_key with a non-dictionary value -/

/-- `set_key` of a scalar fails only when the first segment holds a scalar. -/
theorem setKey_leaf_cases (d : Dict α) (p : Path) (a : Option α) (hp : p ≠ []) :
    (∃ d', d.setKey p (.leaf a) = .ok d') ∨
    (d.setKey p (.leaf a) = .error .keyError ∧
      ∃ k k2 ks x, p = k :: k2 :: ks ∧ d.get1 k = some (.leaf (some x))) := by
  induction p generalizing d with
  | nil => exact absurd rfl hp
  | cons k ks ih =>
    cases ks with
    | nil => left; simp [setKey, setKey1]
    | cons k2 ks =>
      have hf : ∃ f, (Dict.nil : Dict α).setKey (k2 :: ks) (.leaf a) = .ok f := by
        rcases ih .nil (by simp) with h | ⟨_, _, _, _, _, _, h⟩
        · exact h
        · simp [get1] at h
      obtain ⟨f, hf⟩ := hf
      rcases h : d.get1 k with _ | ((_ | x) | e)
      · left; simp [setKey, h, hf]
      · left; simp [setKey, h, hf]
      · right
        refine ⟨by simp [setKey, h], k, k2, ks, x, rfl, h⟩
      · left
        rcases ih e (by simp) with ⟨e', he⟩ | ⟨he, _⟩
        · simp [setKey, h, he]
        · simp [setKey, h, he, hf]

/-- Reading back after `set_key`. -/
theorem setKey_leaf_get (d d' : Dict α) (p : Path) (a : Option α)
    (h : d.setKey p (.leaf a) = .ok d') : d'.lookup p = some (.leaf a) := by
  induction p generalizing d d' with
  | nil => simp [setKey] at h
  | cons k ks ih =>
    cases ks with
    | nil =>
      simp [setKey, setKey1] at h
      subst h
      simp [lookup_single]
    | cons k2 ks =>
      have fresh : ∀ r : Dict α,
          (match (Dict.nil : Dict α).setKey (k2 :: ks) (.leaf a) with
            | .ok d' => Except.ok (d.put1 k (.dict d'))
            | .error e => .error e) = .ok r → r.lookup (k :: k2 :: ks) = some (.leaf a) := by
        intro r hr
        split at hr
        · rename_i f hf
          cases hr
          rw [lookup_put1_same]
          exact ih _ _ hf
        · cases hr
      simp only [setKey] at h
      rcases hg : d.get1 k with _ | ((_ | x) | e)
      · simp only [hg] at h; exact fresh _ h
      · simp only [hg] at h; exact fresh _ h
      · simp [hg] at h
      · simp only [hg] at h
        split at h
        · rename_i e' he
          cases h
          rw [lookup_put1_same]
          exact ih _ _ he
        · exact fresh _ h
        · cases h
        · cases h

theorem not_related_cons {k k' : Key} {p q : Path} (h : ¬ Related (k :: p) (k' :: q)) :
    k = k' → ¬ Related p q := by
  intro hk hr
  subst hk
  apply h
  rcases hr with hr | hr
  · exact Or.inl (by simpa using hr)
  · exact Or.inr (by simpa using hr)

theorem Related.symm {p q : Path} (h : Related p q) : Related q p := Or.symm h

theorem related_nil (p : Path) : Related [] p := Or.inl (by simp)

theorem Clear.tail {d e : Dict α} {k : Key} {ks : Path} (hc : d.Clear (k :: ks))
    (h : d.get1 k = some (.dict e)) : e.Clear ks := by
  intro q hq hne hs
  apply hc (k :: q) (by simpa using hq) (by simpa using hne)
  obtain ⟨a, ha⟩ := hs
  exact ⟨a, by rw [lookup_cons, h]; simpa [Val.lookup] using ha⟩

theorem Clear.head {d : Dict α} {k k2 : Key} {ks : Path} {x : α} (hc : d.Clear (k :: k2 :: ks)) :
    d.get1 k ≠ some (.leaf (some x)) := by
  intro h
  exact hc [k] (by simp) (by simp) ⟨x, by rw [lookup_single, h]⟩

/-- In a clear path `set_key` of a scalar succeeds and leaves unrelated paths alone. -/
theorem setKey_leaf_clear (d : Dict α) (p : Path) (a : Option α) (hp : p ≠ []) (hc : d.Clear p) :
    ∃ d', d.setKey p (.leaf a) = .ok d' ∧ d'.lookup p = some (.leaf a) ∧
      (∀ q, ¬ Related p q → d'.lookup q = d.lookup q) := by
  suffices h : ∃ d', d.setKey p (.leaf a) = .ok d' ∧
      (∀ q, ¬ Related p q → d'.lookup q = d.lookup q) by
    obtain ⟨d', h1, h2⟩ := h
    exact ⟨d', h1, setKey_leaf_get _ _ _ _ h1, h2⟩
  induction p generalizing d with
  | nil => exact absurd rfl hp
  | cons k ks ih =>
    cases ks with
    | nil =>
      refine ⟨d.put1 k (.leaf a), by simp [setKey, setKey1], ?_⟩
      intro q hq
      cases q with
      | nil => exact absurd (related_nil _).symm hq
      | cons k' q =>
        by_cases hk : k' = k
        · subst hk; exact absurd (Or.inl (by simp)) hq
        · exact lookup_put1_ne _ _ _ hk
    | cons k2 ks =>
      have hnil : (Dict.nil : Dict α).Clear (k2 :: ks) := by
        intro q _ _ hs
        obtain ⟨x, hx⟩ := hs
        cases q with
        | nil => simp at hx
        | cons => simp [lookup_cons, get1] at hx
      obtain ⟨f, hf, hff⟩ := ih .nil (by simp) hnil
      -- the frame for the branches that start from an empty dictionary
      have frame_fresh : (∀ e, d.get1 k ≠ some (.dict e)) →
          ∀ q, ¬ Related (k :: k2 :: ks) q → (d.put1 k (.dict f)).lookup q = d.lookup q := by
        intro hnd q hq
        cases q with
        | nil => exact absurd (related_nil _).symm hq
        | cons k' q =>
          by_cases hk : k' = k
          · subst hk
            have hq' := not_related_cons hq rfl
            rw [lookup_put1_same]
            simp only [Val.lookup]
            have hqne : q ≠ [] := by rintro rfl; exact hq' (related_nil _).symm
            rw [hff q hq', lookup_emptyDict q hqne, lookup_cons]
            rcases hg : d.get1 k' with _ | (x | e)
            · simp
            · cases q with
              | nil => exact absurd rfl hqne
              | cons => simp [Val.lookup]
            · exact absurd hg (hnd e)
          · exact lookup_put1_ne _ _ _ hk
      rcases hg : d.get1 k with _ | ((_ | x) | e)
      · exact ⟨d.put1 k (.dict f), by simp [setKey, hg, hf], frame_fresh (by simp [hg])⟩
      · exact ⟨d.put1 k (.dict f), by simp [setKey, hg, hf], frame_fresh (by simp [hg])⟩
      · exact absurd hg (Clear.head hc)
      · obtain ⟨e', he, hee⟩ := ih e (by simp) (hc.tail hg)
        refine ⟨d.put1 k (.dict e'), by simp [setKey, hg, he], ?_⟩
        intro q hq
        cases q with
        | nil => exact absurd (related_nil _).symm hq
        | cons k' q =>
          by_cases hk : k' = k
          · subst hk
            rw [lookup_put1_same, lookup_cons, hg]
            simpa [Val.lookup] using hee q (not_related_cons hq rfl)
          · exact lookup_put1_ne _ _ _ hk

end Dict
end Calliope
