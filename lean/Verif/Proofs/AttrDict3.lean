import Verif.Proofs.AttrDict2

namespace Calliope
namespace Dict
variable {α : Type}

/-! ### The precise damage of `set_key` through a scalar -/

theorem setKey_leaf_wipe (d : Dict α) (r : Path) (k k2 : Key) (ks : Path) (a : Option α)
    (hr : r ≠ []) (hs : d.ScalarAt (r ++ [k])) :
    ∃ d', d.setKey (r ++ k :: k2 :: ks) (.leaf a) = .ok d' ∧
      (∀ s, r <+: s → ¬ Related (r ++ k :: k2 :: ks) s → d'.lookup s = none) ∧
      (∀ s, ¬ r <+: s → ¬ Related (r ++ k :: k2 :: ks) s → d'.lookup s = d.lookup s) := by
  induction r generalizing d with
  | nil => exact absurd rfl hr
  | cons k0 r ih =>
    obtain ⟨x, hx⟩ := hs
    simp only [List.cons_append] at hx ⊢
    rw [lookup_cons] at hx
    rcases hg : d.get1 k0 with _ | (y | e)
    · simp [hg] at hx
    · exfalso
      simp [hg] at hx
      cases r <;> simp [Val.lookup] at hx
    simp [hg, Val.lookup] at hx
    have split_cons : ∀ (m : Dict α),
        (∀ s, r <+: s → ¬ Related (r ++ k :: k2 :: ks) s → m.lookup s = none) →
        (∀ s, ¬ r <+: s → ¬ Related (r ++ k :: k2 :: ks) s → m.lookup s = e.lookup s) →
        (∀ s, k0 :: r <+: s → ¬ Related (k0 :: (r ++ k :: k2 :: ks)) s →
            (d.put1 k0 (.dict m)).lookup s = none) ∧
        (∀ s, ¬ k0 :: r <+: s → ¬ Related (k0 :: (r ++ k :: k2 :: ks)) s →
            (d.put1 k0 (.dict m)).lookup s = d.lookup s) := by
      intro m h1 h2
      constructor
      · intro s hs hrel
        cases s with
        | nil => simp at hs
        | cons k' s =>
          rw [List.cons_prefix_cons] at hs
          obtain ⟨rfl, hs⟩ := hs
          rw [lookup_put1_same]
          exact h1 s hs (not_related_cons hrel rfl)
      · intro s hs hrel
        cases s with
        | nil => exact absurd (related_nil _).symm hrel
        | cons k' s =>
          by_cases hk : k' = k0
          · subst hk
            rw [lookup_put1_same, lookup_cons, hg]
            refine h2 s ?_ (not_related_cons hrel rfl)
            intro h; exact hs (by simpa using h)
          · exact lookup_put1_ne _ _ _ hk
    cases r with
    | nil =>
      -- the clash is one level down: the nested call raises KeyError, this level wipes
      simp only [List.nil_append] at hx split_cons ⊢
      have hxx : e.get1 k = some (.leaf (some x)) := by rw [← lookup_single]; exact hx
      obtain ⟨f, hf, hfv, hff⟩ := setKey_leaf_clear (Dict.nil : Dict α) (k :: k2 :: ks) a (by simp)
        (clear_nilDict _)
      have herr : e.setKey (k :: k2 :: ks) (.leaf a) = .error .keyError := by
        simp [setKey, hxx]
      have hset : d.setKey (k0 :: k :: k2 :: ks) (.leaf a) = .ok (d.put1 k0 (.dict f)) := by
        rw [setKey]; simp only [hg, herr, hf]
      refine ⟨_, hset, split_cons f ?_ ?_⟩
      · intro s _ hrel
        rw [hff s hrel]
        exact lookup_emptyDict s (by rintro rfl; exact hrel (related_nil _).symm)
      · intro s hs _
        exact absurd (by simp) hs
    | cons k1 r =>
      obtain ⟨e', he, h1, h2⟩ := ih e (by simp) ⟨x, hx⟩
      have hset : d.setKey (k0 :: (k1 :: r ++ k :: k2 :: ks)) (.leaf a)
          = .ok (d.put1 k0 (.dict e')) := by
        simp only [List.cons_append] at he ⊢
        rw [setKey]; simp only [hg, he]
      exact ⟨_, hset, split_cons e' h1 h2⟩

/-! ### del_key -/

theorem delKey_ok (d : Dict α) (p : Path) (v : Val α) (hd : d.WF) (hp : p ≠ [])
    (hl : d.lookup p = some v) :
    ∃ d', d.delKey p = .ok d' ∧ d'.WF ∧ d'.lookup p = none ∧
      (∀ q, q <+: p → q ≠ p → q ≠ [] →
        d'.lookup q = none ∨ ∃ e, e ≠ .nil ∧ d'.lookup q = some (.dict e)) ∧
      (∀ q, ¬ Related p q → d'.lookup q = d.lookup q) := by
  induction p generalizing d with
  | nil => exact absurd rfl hp
  | cons k ks ih =>
    have frame_del : ∀ q, q ≠ [] → q.head? ≠ some k → (d.del1 k).lookup q = d.lookup q := by
      intro q hq hk
      cases q with
      | nil => exact absurd rfl hq
      | cons k' q =>
        simp at hk
        simp [lookup_cons, get1_del1_ne d hk]
    cases ks with
    | nil =>
      rw [lookup_single] at hl
      refine ⟨d.del1 k, by simp [delKey, hl], WF_del1 hd, ?_, ?_, ?_⟩
      · rw [lookup_single]; exact get1_del1_self d hd
      · intro q hq hne hqn
        exfalso
        cases q with
        | nil => exact hqn rfl
        | cons k' q =>
          rw [List.cons_prefix_cons] at hq
          simp at hq
          exact hne (by simp [hq])
      · intro q hq
        cases q with
        | nil => exact absurd (related_nil _).symm hq
        | cons k' q =>
          refine frame_del _ (by simp) ?_
          simp
          rintro rfl
          exact hq (Or.inl (by simp))
    | cons k2 ks =>
      rw [lookup_cons] at hl
      rcases hg : d.get1 k with _ | (x | e)
      · simp [hg] at hl
      · simp [hg, Val.lookup] at hl
      simp [hg, Val.lookup] at hl
      have hew : e.WF := WF_get1 (v := .dict e) hd hg
      obtain ⟨e', he, hw, h1, h2, h3⟩ := ih e hew (by simp) hl
      by_cases hnil : e' = .nil
      · subst hnil
        have hn : (d.del1 k).get1 k = none := get1_del1_self d hd
        refine ⟨d.del1 k, by simp [delKey, hg, he], WF_del1 hd, ?_, ?_, ?_⟩
        · rw [lookup_cons, hn]; rfl
        · intro q hq hne hqn
          left
          cases q with
          | nil => exact absurd rfl hqn
          | cons k' q =>
            rw [List.cons_prefix_cons] at hq
            rw [lookup_cons, hq.1, hn]; rfl
        · intro q hq
          cases q with
          | nil => exact absurd (related_nil _).symm hq
          | cons k' q =>
            by_cases hk : k' = k
            · subst hk
              have hq' := not_related_cons hq rfl
              have hqn : q ≠ [] := by rintro rfl; exact hq' (related_nil _).symm
              have := h3 q hq'
              rw [lookup_emptyDict q hqn] at this
              rw [lookup_cons, hn, lookup_cons, hg]
              simpa [Val.lookup] using this
            · exact frame_del _ (by simp) (by simpa using hk)
      · have hdel : d.delKey (k :: k2 :: ks) = .ok (d.put1 k (.dict e')) := by
          simp only [delKey, hg, he]
        refine ⟨_, hdel, WF_put1 hd (v := .dict e') hw, ?_, ?_, ?_⟩
        · rw [lookup_put1_same]; exact h1
        · intro q hq hne hqn
          cases q with
          | nil => exact absurd rfl hqn
          | cons k' q =>
            rw [List.cons_prefix_cons] at hq
            obtain ⟨rfl, hq⟩ := hq
            rw [lookup_put1_same]
            by_cases hq0 : q = []
            · subst hq0
              exact Or.inr ⟨e', hnil, by simp⟩
            · exact h2 q hq (by simpa using hne) hq0
        · intro q hq
          cases q with
          | nil => exact absurd (related_nil _).symm hq
          | cons k' q =>
            by_cases hk : k' = k
            · subst hk
              rw [lookup_put1_same, lookup_cons, hg]
              simpa [Val.lookup] using h3 q (not_related_cons hq rfl)
            · exact lookup_put1_ne _ _ _ hk

theorem delKey_absent (d : Dict α) (p : Path) (h : d.lookup p = none) :
    ∃ e, d.delKey p = .error e := by
  induction p generalizing d with
  | nil => simp at h
  | cons k ks ih =>
    cases ks with
    | nil =>
      rw [lookup_single] at h
      simp [delKey, h]
    | cons k2 ks =>
      rw [lookup_cons] at h
      rcases hg : d.get1 k with _ | (x | e)
      · simp [delKey, hg]
      · simp [delKey, hg]
      · simp [hg, Val.lookup] at h
        obtain ⟨er, he⟩ := ih e h
        simp [delKey, hg, he]

/-! ### set_key at an absent path -/

theorem setKey_absent (d : Dict α) (p : Path) (v : Val α) (hp : p ≠ []) (hc : d.Clear p)
    (ha : d.lookup p = none) :
    ∃ d', d.setKey p v = .ok d' ∧ d'.lookup p = some v ∧
      (∀ q, ¬ Related p q → d'.lookup q = d.lookup q) := by
  induction p generalizing d with
  | nil => exact absurd rfl hp
  | cons k ks ih =>
    cases ks with
    | nil =>
      rw [lookup_single] at ha
      refine ⟨d.put1 k v, by cases v <;> simp [setKey, setKey1, ha], by simp [lookup_single], ?_⟩
      intro q hq
      cases q with
      | nil => exact absurd (related_nil _).symm hq
      | cons k' q =>
        by_cases hk : k' = k
        · subst hk; exact absurd (Or.inl (by simp)) hq
        · exact lookup_put1_ne _ _ _ hk
    | cons k2 ks =>
      obtain ⟨f, hf, hfv, hff⟩ := ih .nil (by simp) (clear_nilDict _)
        (lookup_emptyDict _ (by simp))
      have fresh : (∀ e, d.get1 k ≠ some (.dict e)) →
          (d.put1 k (.dict f)).lookup (k :: k2 :: ks) = some v ∧
          ∀ q, ¬ Related (k :: k2 :: ks) q → (d.put1 k (.dict f)).lookup q = d.lookup q := by
        intro hnd
        constructor
        · rw [lookup_put1_same]; exact hfv
        · intro q hq
          cases q with
          | nil => exact absurd (related_nil _).symm hq
          | cons k' q =>
            by_cases hk : k' = k
            · subst hk
              have hq' := not_related_cons hq rfl
              rw [lookup_put1_same]
              simp only [Val.lookup]
              have hqne : q ≠ [] := by rintro rfl; exact hq' (related_nil _).symm
              rw [hff q hq', lookup_emptyDict q hqne, lookup_cons]
              rcases hg : d.get1 k' with _ | (x | e)
              · simp
              · cases q with
                | nil => exact absurd rfl hqne
                | cons => simp [Val.lookup]
              · exact absurd hg (hnd e)
            · exact lookup_put1_ne _ _ _ hk
      rcases hg : d.get1 k with _ | ((_ | x) | e)
      · exact ⟨d.put1 k (.dict f), by simp [setKey, hg, hf], fresh (by simp [hg])⟩
      · exact ⟨d.put1 k (.dict f), by simp [setKey, hg, hf], fresh (by simp [hg])⟩
      · exact absurd hg (Clear.head hc)
      · rw [lookup_cons, hg] at ha
        obtain ⟨e', he, hev, hee⟩ := ih e (by simp) (hc.tail hg) (by simpa [Val.lookup] using ha)
        refine ⟨d.put1 k (.dict e'), by simp [setKey, hg, he], ?_, ?_⟩
        · rw [lookup_put1_same]; exact hev
        · intro q hq
          cases q with
          | nil => exact absurd (related_nil _).symm hq
          | cons k' q =>
            by_cases hk : k' = k
            · subst hk
              rw [lookup_put1_same, lookup_cons, hg]
              simpa [Val.lookup] using hee q (not_related_cons hq rfl)
            · exact lookup_put1_ne _ _ _ hk

/-! ### _REPLACE_ -/

/-- One replacement: delete then set. -/
theorem wipe_one (other self : Dict α) (k : Path) (v w : Val α) (hs : self.WF) (ho : other.WF)
    (hk : k ≠ [])
    (hp : self.lookup k = some w) (hv : other.lookup (k ++ [wipeKey]) = some v) :
    ∃ d', wipeLoop other self [k] = .ok d' ∧ d'.WF ∧ d'.lookup k = some v ∧
      (∀ q, ¬ Related k q → d'.lookup q = self.lookup q) := by
  obtain ⟨s1, h1, hw1, hn, hpre, hf1⟩ := delKey_ok self k w hs hk hp
  have hc : s1.Clear k := by
    intro q hq hne ⟨a, ha⟩
    by_cases hq0 : q = []
    · subst hq0; simp at ha
    · rcases hpre q hq hne hq0 with h | ⟨e, _, h⟩
      · rw [h] at ha; cases ha
      · rw [h] at ha; cases ha
  obtain ⟨s2, h2, hv2, hf2⟩ := setKey_absent s1 k v hk hc hn
  have hg : other.getKey (k ++ [wipeKey]) = .ok v := (getKey_ok_iff _ _ _).2 ⟨by simp, hv⟩
  exact ⟨s2, by simp [wipeLoop, h1, hg, h2], WF_setKey _ _ _ _ hw1 (WF_lookup ho hv) h2, hv2,
    fun q hq => by rw [hf2 q hq, hf1 q hq]⟩

theorem wipeLoop_cons (other self d1 : Dict α) (k : Path) (ks : List Path)
    (h : wipeLoop other self [k] = .ok d1) :
    wipeLoop other self (k :: ks) = wipeLoop other d1 ks := by
  simp only [wipeLoop] at h ⊢
  split at h
  · cases h
  · rename_i s1 h1
    split at h
    · cases h
    · rename_i v hv
      split at h
      · cases h
      · rename_i s2 h2
        cases h
        rfl

theorem wipeLoop_ok (other : Dict α) (ks : List Path) (self : Dict α) (hs : self.WF)
    (ho : other.WF)
    (hk : ∀ k ∈ ks, k ≠ [] ∧ (∃ w, self.lookup k = some w) ∧
      ∃ v, other.lookup (k ++ [wipeKey]) = some v)
    (hpw : ∀ k ∈ ks, ∀ k' ∈ ks, k = k' ∨ ¬ Related k k') :
    ∃ d', wipeLoop other self ks = .ok d' ∧ d'.WF ∧
      (∀ k ∈ ks, d'.lookup k = other.lookup (k ++ [wipeKey])) ∧
      (∀ q, (∀ k ∈ ks, ¬ Related k q) → d'.lookup q = self.lookup q) := by
  induction ks generalizing self with
  | nil => exact ⟨self, by simp [wipeLoop], hs, by simp, fun _ _ => rfl⟩
  | cons k ks ih =>
    obtain ⟨hk0, ⟨w, hw⟩, v, hv⟩ := hk k (by simp)
    obtain ⟨d1, h1, hw1, hl1, hf1⟩ := wipe_one other self k v w hs ho hk0 hw hv
    have hk' : ∀ k' ∈ ks, k' ≠ [] ∧ (∃ w, d1.lookup k' = some w) ∧
        ∃ v, other.lookup (k' ++ [wipeKey]) = some v := by
      intro k' hmem
      obtain ⟨ha, hb, hc⟩ := hk k' (by simp [hmem])
      refine ⟨ha, ?_, hc⟩
      rcases hpw k (by simp) k' (by simp [hmem]) with rfl | hr
      · exact ⟨v, hl1⟩
      · rw [hf1 k' hr]; exact hb
    obtain ⟨d', h2, hw2, hl2, hf2⟩ := ih d1 hw1 hk'
      (fun a ha b hb => hpw a (by simp [ha]) b (by simp [hb]))
    refine ⟨d', by rw [wipeLoop_cons _ _ _ _ _ h1]; exact h2, hw2, ?_, ?_⟩
    · intro a ha
      rcases List.mem_cons.1 ha with rfl | ha
      · by_cases hmem : a ∈ ks
        · exact hl2 a hmem
        · rw [hf2 a, hl1, hv]
          intro b hb hrel
          rcases hpw a (by simp) b (by simp [hb]) with rfl | hr
          · exact hmem hb
          · exact hr hrel.symm
      · exact hl2 a ha
    · intro q hq
      rw [hf2 q (fun b hb => hq b (by simp [hb])), hf1 q (hq k (by simp))]

/-- Below every value there is a leaf. -/
theorem exists_leaf_below_dict (e : Dict α) (hne : e ≠ .nil) : ∃ r v, e.LeafAt r v := by
  induction e with
  | nil => exact absurd rfl hne
  | leaf k a rest _ =>
    exact ⟨[k], .leaf a, by simp, by simp [lookup_single, get1], by simp⟩
  | sub k d rest ihd _ =>
    by_cases hd : d = .nil
    · subst hd
      exact ⟨[k], .dict .nil, by simp, by simp [lookup_single, get1], by simp⟩
    · obtain ⟨r, v, h1, h2, h3⟩ := ihd hd
      exact ⟨k :: r, v, by simp, by simp [lookup_cons, get1, Val.lookup, h2], h3⟩

theorem exists_leaf_below (d : Dict α) (p : Path) (v : Val α) (hp : p ≠ [])
    (h : d.lookup p = some v) : ∃ r w, d.LeafAt (p ++ r) w := by
  match v, h with
  | .leaf a, h => exact ⟨[], .leaf a, by simpa using hp, by simpa using h, by simp⟩
  | .dict e, h =>
    by_cases he : e = .nil
    · subst he
      exact ⟨[], .dict .nil, by simpa using hp, by simpa using h, by simp⟩
    · obtain ⟨r, w, h1, h2, h3⟩ := exists_leaf_below_dict e he
      exact ⟨r, w, by simp [h1], by rw [lookup_append, h]; simpa [Val.lookup] using h2, h3⟩

theorem takeWhile_split (ks : Path) (h : wipeKey ∈ ks) :
    ∃ rest, ks = ks.takeWhile (· ≠ wipeKey) ++ wipeKey :: rest := by
  induction ks with
  | nil => simp at h
  | cons k ks ih =>
    by_cases hk : k = wipeKey
    · subst hk; exact ⟨ks, by simp⟩
    · obtain ⟨rest, hr⟩ := ih (by simpa [Ne.symm hk] using h)
      exact ⟨rest, by simpa [hk] using hr⟩

theorem wipePrefix_spec (p : Path) (h : wipeKey ∈ p) (h0 : p.head? ≠ some wipeKey) :
    ∃ rest, p = wipePrefix p ++ wipeKey :: rest ∧ wipeKey ∉ wipePrefix p ∧ wipePrefix p ≠ [] := by
  cases p with
  | nil => simp at h
  | cons k ks =>
    simp at h0
    obtain ⟨rest, hr⟩ := takeWhile_split ks (by simpa [Ne.symm h0] using h)
    refine ⟨rest, by simpa [wipePrefix] using hr, ?_, by simp [wipePrefix]⟩
    simp only [wipePrefix, List.mem_cons, not_or]
    refine ⟨Ne.symm h0, ?_⟩
    intro hm
    have := List.all_takeWhile (p := fun x => decide (x ≠ wipeKey)) (l := ks)
    rw [List.all_eq_true] at this
    have := this _ hm
    simp at this

theorem wipePrefix_append (k rest : Path) (hk : k ≠ []) (hw : wipeKey ∉ k) :
    wipePrefix (k ++ wipeKey :: rest) = k := by
  cases k with
  | nil => exact absurd rfl hk
  | cons k0 k =>
    simp only [List.mem_cons, not_or] at hw
    simp only [List.cons_append, wipePrefix, List.cons.injEq, true_and]
    induction k with
    | nil => simp
    | cons k1 k ih =>
      simp only [List.mem_cons, not_or] at hw
      have h1 : k1 ≠ wipeKey := fun h => hw.2.1 h.symm
      simp [h1]
      simpa using ih (by simp) ⟨hw.1, hw.2.2⟩

/-! ### Flattening and rebuilding -/

/-- Concatenation of entries. -/
def append : Dict α → Dict α → Dict α
  | .nil, e => e
  | .leaf k a rest, e => .leaf k a (rest.append e)
  | .sub k d rest, e => .sub k d (rest.append e)

theorem append_nil (d : Dict α) : d.append .nil = d := by
  induction d <;> simp_all [append]

theorem append_assoc (a b c : Dict α) : (a.append b).append c = a.append (b.append c) := by
  induction a <;> simp_all [append]

theorem keys_append (a b : Dict α) : (a.append b).keys = a.keys ++ b.keys := by
  induction a <;> simp_all [append, keys]

theorem get1_append_right (a b : Dict α) (k : Key) (h : k ∉ a.keys) :
    (a.append b).get1 k = b.get1 k := by
  induction a with
  | nil => rfl
  | leaf k' x rest ih =>
    simp only [keys, List.mem_cons, not_or] at h
    simp [append, get1, Ne.symm h.1, ih h.2]
  | sub k' x rest _ ih =>
    simp only [keys, List.mem_cons, not_or] at h
    simp [append, get1, Ne.symm h.1, ih h.2]

theorem put1_append_right (a b : Dict α) (k : Key) (v : Val α) (h : k ∉ a.keys) :
    (a.append b).put1 k v = a.append (b.put1 k v) := by
  induction a with
  | nil => rfl
  | leaf k' x rest ih =>
    simp only [keys, List.mem_cons, not_or] at h
    simp [append, put1, Ne.symm h.1, ih h.2]
  | sub k' x rest _ ih =>
    simp only [keys, List.mem_cons, not_or] at h
    simp [append, put1, Ne.symm h.1, ih h.2]

/-- The flat view, by structural recursion. -/
def flat : Dict α → List (Path × Val α)
  | .nil => []
  | .leaf k a rest => ([k], .leaf a) :: rest.flat
  | .sub k d rest =>
      (match d with
       | .nil => [([k], .dict .nil)]
       | _ => d.flat.map (fun x => (k :: x.1, x.2))) ++ rest.flat

theorem flat_sub_nil (k : Key) (rest : Dict α) :
    (Dict.sub k .nil rest).flat = ([k], .dict .nil) :: rest.flat := rfl

theorem flat_sub_ne (k : Key) (e rest : Dict α) (h : e ≠ .nil) :
    (Dict.sub k e rest).flat = e.flat.map (fun x => (k :: x.1, x.2)) ++ rest.flat := by
  cases e
  · exact absurd rfl h
  · rfl
  · rfl

theorem flat_fst (d : Dict α) : d.flat.map Prod.fst = d.keysNested := by
  induction d with
  | nil => rfl
  | leaf k a rest ih => simp [flat, keysNested, ih]
  | sub k e rest ihe ih =>
    simp only [flat, keysNested, List.map_append, ih]
    congr 1
    cases e with
    | nil => rfl
    | leaf => simp only [List.map_map, ← ihe]; rfl
    | sub => simp only [List.map_map, ← ihe]; rfl

theorem flat_lookup (d : Dict α) (hd : d.WF) : ∀ x ∈ d.flat, x.1 ≠ [] ∧ d.lookup x.1 = some x.2 := by
  induction d with
  | nil => simp [flat]
  | leaf k a rest ih =>
    simp only [flat, List.mem_cons]
    rintro x (rfl | h)
    · simp [lookup_single, get1]
    · obtain ⟨h1, h2⟩ := ih hd.2 x h
      refine ⟨h1, ?_⟩
      have hm : x.1 ∈ rest.keysNested := by rw [← flat_fst]; exact List.mem_map_of_mem h
      obtain ⟨k', ks, he, hk'⟩ := keysNested_head rest _ hm
      have : k ≠ k' := by rintro rfl; exact hd.1 hk'
      rw [he] at h2 ⊢
      simpa [lookup_cons, get1, this] using h2
  | sub k e rest ihe ih =>
    simp only [flat, List.mem_append]
    rintro x (h | h)
    · by_cases he : e = .nil
      · subst he
        simp at h; subst h
        simp [lookup_single, get1]
      · have : x ∈ e.flat.map (fun x => (k :: x.1, x.2)) := by
          cases e <;> simp_all
        rw [List.mem_map] at this
        obtain ⟨y, hy, rfl⟩ := this
        obtain ⟨h1, h2⟩ := ihe hd.2.1 y hy
        exact ⟨by simp, by simp [lookup_cons, get1, Val.lookup, h2]⟩
    · obtain ⟨h1, h2⟩ := ih hd.2.2 x h
      refine ⟨h1, ?_⟩
      have hm : x.1 ∈ rest.keysNested := by rw [← flat_fst]; exact List.mem_map_of_mem h
      obtain ⟨k', ks, he, hk'⟩ := keysNested_head rest _ hm
      have : k ≠ k' := by rintro rfl; exact hd.1 hk'
      rw [he] at h2 ⊢
      simpa [lookup_cons, get1, this] using h2

theorem flatOf_map (d : Dict α) (l : List (Path × Val α))
    (h : ∀ x ∈ l, x.1 ≠ [] ∧ d.lookup x.1 = some x.2) : d.flatOf (l.map Prod.fst) = .ok l := by
  induction l with
  | nil => rfl
  | cons x l ih =>
    have hx := (getKey_ok_iff d x.1 x.2).2 (h x (by simp))
    simp only [List.map_cons, flatOf, hx, ih (fun y hy => h y (by simp [hy]))]

theorem asDictFlat_eq (d : Dict α) (hd : d.WF) : d.asDictFlat = .ok d.flat := by
  unfold asDictFlat
  rw [← flat_fst]
  exact flatOf_map d d.flat (flat_lookup d hd)

theorem initFrom_append (d : Dict α) (l1 l2 : List (Path × Val α)) (d1 : Dict α)
    (h : d.initFrom l1 = .ok d1) : d.initFrom (l1 ++ l2) = d1.initFrom l2 := by
  induction l1 generalizing d with
  | nil => simp [initFrom] at h; subst h; rfl
  | cons x l1 ih =>
    obtain ⟨p, v⟩ := x
    simp only [initFrom, List.cons_append] at h ⊢
    split at h
    · cases h
    · rename_i d2 h2
      exact ih d2 h

/-- Setting keys below a sub-dictionary that sits last. -/
theorem initFrom_below (acc s s' : Dict α) (k : Key) (hk : k ∉ acc.keys)
    (l : List (Path × Val α)) (hl : ∀ x ∈ l, x.1 ≠ []) (h : s.initFrom l = .ok s') :
    (acc.append (.sub k s .nil)).initFrom (l.map (fun x => (k :: x.1, x.2)))
      = .ok (acc.append (.sub k s' .nil)) := by
  induction l generalizing s with
  | nil => simp [initFrom] at h; subst h; rfl
  | cons x l ih =>
    obtain ⟨p, v⟩ := x
    simp only [initFrom] at h
    split at h
    · cases h
    · rename_i s1 h1
      have hp : p ≠ [] := hl _ (List.mem_cons_self ..)
      have hset : (acc.append (.sub k s .nil)).setKey (k :: p) v
          = .ok (acc.append (.sub k s1 .nil)) := by
        cases p with
        | nil => exact absurd rfl hp
        | cons k2 ks =>
          rw [setKey]
          have hg : (acc.append (.sub k s .nil)).get1 k = some (.dict s) := by
            rw [get1_append_right _ _ _ hk]; simp [get1]
          simp only [hg, h1]
          rw [put1_append_right _ _ _ _ hk]; simp [put1]
      simp only [List.map_cons, initFrom, hset]
      exact ih s1 (fun y hy => hl y (by simp [hy])) h

theorem initFrom_flat (d acc : Dict α) (hd : d.WF) (hdis : ∀ k ∈ d.keys, k ∉ acc.keys) :
    acc.initFrom d.flat = .ok (acc.append d) := by
  induction d generalizing acc with
  | nil => simp [flat, initFrom, append_nil]
  | leaf k a rest ih =>
    have hk : k ∉ acc.keys := hdis k (by simp [keys])
    have hset : acc.setKey [k] (.leaf a) = .ok (acc.append (.leaf k a .nil)) := by
      have := put1_append_right acc .nil k (.leaf a) hk
      rw [append_nil] at this
      simp [setKey, setKey1, this, put1]
    simp only [flat, initFrom, hset]
    rw [ih (acc.append (.leaf k a .nil)) hd.2, append_assoc]
    · simp [append]
    · intro k' hk'
      rw [keys_append]
      simp only [keys, List.mem_append, List.mem_singleton, not_or]
      refine ⟨hdis k' (by simp [keys, hk']), ?_⟩
      rintro rfl; exact hd.1 hk'
  | sub k e rest ihe ih =>
    have hk : k ∉ acc.keys := hdis k (by simp [keys])
    have hrest : (acc.append (.sub k e .nil)).initFrom rest.flat
        = .ok (acc.append (.sub k e rest)) := by
      rw [ih (acc.append (.sub k e .nil)) hd.2.2, append_assoc]
      · simp [append]
      · intro k' hk'
        rw [keys_append]
        simp only [keys, List.mem_append, List.mem_singleton, not_or]
        refine ⟨hdis k' (by simp [keys, hk']), ?_⟩
        rintro rfl; exact hd.1 hk'
    have hput := put1_append_right acc .nil k
    simp only [append_nil] at hput
    have hg : acc.get1 k = none := (get1_eq_none _ _).2 hk
    by_cases he : e = .nil
    · subst he
      have hset : acc.setKey [k] (.dict .nil) = .ok (acc.append (.sub k .nil .nil)) := by
        simp [setKey, setKey1, hg, hput _ hk, put1]
      rw [flat_sub_nil, initFrom, hset]
      exact hrest
    · have hflat := ihe .nil hd.2.1 (by simp [keys])
      simp only [append] at hflat
      rw [flat_sub_ne _ _ _ he]
      have hlne : ∀ x ∈ e.flat, x.1 ≠ [] := fun x hx => (flat_lookup e hd.2.1 x hx).1
      have hsub : acc.initFrom (e.flat.map (fun x => (k :: x.1, x.2)))
          = .ok (acc.append (.sub k e .nil)) := by
        match hl : e.flat with
        | [] =>
          rw [hl] at hflat; simp [initFrom] at hflat; exact absurd hflat.symm he
        | (p, v) :: l =>
          rw [hl] at hflat hlne
          simp only [initFrom] at hflat
          split at hflat
          · cases hflat
          · rename_i s1 h1
            have hp : p ≠ [] := hlne _ (List.mem_cons_self ..)
            have hset : acc.setKey (k :: p) v = .ok (acc.append (.sub k s1 .nil)) := by
              cases p with
              | nil => exact absurd rfl hp
              | cons k2 ks =>
                rw [setKey]
                simp only [hg, h1, hput _ hk]; simp [put1]
            simp only [List.map_cons, initFrom, hset]
            exact initFrom_below acc s1 e k hk l (fun y hy => hlne y (by simp [hy])) hflat
      rw [initFrom_append _ _ _ _ hsub, hrest]

/-! ### Decision procedures, used by the examples -/

instance decWF : (d : Dict α) → Decidable d.WF
  | .nil => isTrue trivial
  | .leaf k _ rest =>
      have := decWF rest
      inferInstanceAs (Decidable (k ∉ rest.keys ∧ rest.WF))
  | .sub k e rest =>
      have := decWF rest
      have := decWF e
      inferInstanceAs (Decidable (k ∉ rest.keys ∧ e.WF ∧ rest.WF))

def clearB (d : Dict α) : Path → Bool
  | [] => true
  | [_] => true
  | k :: k2 :: ks =>
      match d.get1 k with
      | some (.leaf (some _)) => false
      | some (.dict e) => clearB e (k2 :: ks)
      | _ => true

theorem clear_of_clearB (d : Dict α) (p : Path) (h : d.clearB p = true) : d.Clear p := by
  induction p generalizing d with
  | nil =>
    intro q hq hne
    exact absurd (by simpa using hq) hne
  | cons k ks ih =>
    intro q hq hne ⟨a, ha⟩
    cases q with
    | nil => simp at ha
    | cons k' q =>
      rw [List.cons_prefix_cons] at hq
      obtain ⟨rfl, hq⟩ := hq
      cases ks with
      | nil =>
        simp at hq; subst hq; exact hne rfl
      | cons k2 ks =>
        rw [lookup_cons] at ha
        simp only [clearB] at h
        rcases hg : d.get1 k' with _ | ((_ | x) | e)
        · simp [hg] at ha
        · rw [hg] at ha
          cases q <;> simp [Val.lookup] at ha
        · simp [hg] at h
        · simp only [hg] at h
          refine ih e h q hq (by rintro rfl; exact hne rfl) ⟨a, by simpa [hg, Val.lookup] using ha⟩

theorem clear_all {d other : Dict α} (ho : other.WF)
    (h : other.keysNested.all (d.clearB ·) = true) : ∀ p v, other.LeafAt p v → d.Clear p := by
  intro p v hp
  rw [List.all_eq_true] at h
  exact clear_of_clearB d p (h p ((mem_keysNested other ho p).2 ⟨v, hp⟩))

/-- Decides `Related`. -/
def relatedB (p q : Path) : Bool := p.isPrefixOf q || q.isPrefixOf p

theorem relatedB_iff (p q : Path) : relatedB p q = true ↔ Related p q := by
  simp [relatedB, Related]

instance (p q : Path) : Decidable (Related p q) := decidable_of_iff _ (relatedB_iff p q)

end Dict
end Calliope
