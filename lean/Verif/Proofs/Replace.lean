import Verif.Proofs.Union

/-! Union with replacement. -/

namespace Calliope
namespace Dict
variable {α : Type}

theorem unionReplace_ok (d other : Dict α) (hd : d.WF) (ho : other.WF)
    (htop : other.get1 wipeKey = none)
    (hclear : ∀ p v, other.LeafAt p v → wipeKey ∉ p → d.Clear p)
    (hpres : ∀ k v, wipeKey ∉ k → other.lookup (k ++ [wipeKey]) = some v → d.lookup k ≠ none)
    (hunrel : ∀ k v k' v', wipeKey ∉ k → wipeKey ∉ k' → other.lookup (k ++ [wipeKey]) = some v →
      other.lookup (k' ++ [wipeKey]) = some v' → k = k' ∨ ¬ Related k k') :
    ∃ d', d.unionReplace other true = .ok d' ∧ d'.WF ∧
      (∀ k v, k ≠ [] → wipeKey ∉ k → other.lookup (k ++ [wipeKey]) = some v →
        d'.lookup k = some v) ∧
      (∀ p a, other.LeafAt p (.leaf (some a)) → wipeKey ∉ p →
        (∀ k v, wipeKey ∉ k → other.lookup (k ++ [wipeKey]) = some v → ¬ Related k p) →
        d'.lookup p = some (.leaf (some a))) ∧
      (∀ p v, other.LeafAt p v → wipeKey ∉ p →
        (∀ k v, wipeKey ∉ k → other.lookup (k ++ [wipeKey]) = some v → ¬ Related k p) →
        ∃ w, d'.lookup p = some w) ∧
      (∀ q, (∀ p v, other.LeafAt p v → wipeKey ∉ p → ¬ Related p q) →
        (∀ k v, wipeKey ∉ k → other.lookup (k ++ [wipeKey]) = some v → ¬ Related k q) →
        d'.lookup q = d.lookup q) ∧
      (∀ q a, d'.lookup q = some (.leaf a) → d.lookup q = some (.leaf a) ∨
        (other.LeafAt q (.leaf a) ∧ wipeKey ∉ q) ∨
        ∃ k v, k ≠ [] ∧ wipeKey ∉ k ∧ other.lookup (k ++ [wipeKey]) = some v ∧ k <+: q) := by
  have hhead : ∀ p v, other.LeafAt p v → p.head? ≠ some wipeKey := by
    intro p v hp h
    cases p with
    | nil => simp at h
    | cons k ks =>
      simp at h; subst h
      have := hp.2.1
      simp [lookup_cons, htop] at this
  obtain ⟨d1, h1, h2, h3⟩ := unionLoop_ok true d.keysNested other
    (other.keysNested.filter (fun k => !hasWipe k)) d
    (fun p hp => (mem_keysNested other ho p).1 (List.mem_filter.1 hp).1)
    ((keysNested_pairwise other ho).sublist List.filter_sublist)
    (fun p hp => by
      obtain ⟨hm, hw⟩ := List.mem_filter.1 hp
      obtain ⟨v, hv⟩ := (mem_keysNested other ho p).1 hm
      exact hclear p v hv (by simpa [hasWipe] using hw))
    (by simp)
  have hw1 : d1.WF := WF_unionLoop _ _ _ _ _ _ hd ho h1
  -- the replaced keys
  have hks : ∀ k ∈ (other.keysNested.filter hasWipe).map wipePrefix,
      k ≠ [] ∧ wipeKey ∉ k ∧ ∃ v, other.lookup (k ++ [wipeKey]) = some v := by
    intro k hk
    obtain ⟨p, hp, rfl⟩ := List.mem_map.1 hk
    obtain ⟨hm, hw⟩ := List.mem_filter.1 hp
    obtain ⟨v, hv⟩ := (mem_keysNested other ho p).1 hm
    obtain ⟨rest, he, hn, hne⟩ := wipePrefix_spec p (by simpa [hasWipe] using hw) (hhead p v hv)
    refine ⟨hne, hn, ?_⟩
    have := hv.2.1
    rw [he, show wipePrefix p ++ wipeKey :: rest = (wipePrefix p ++ [wipeKey]) ++ rest by simp,
      lookup_append] at this
    rcases hl : other.lookup (wipePrefix p ++ [wipeKey]) with _ | w
    · rw [hl] at this; simp at this
    · exact ⟨w, rfl⟩
  have hks' : ∀ k v, k ≠ [] → wipeKey ∉ k → other.lookup (k ++ [wipeKey]) = some v →
      k ∈ (other.keysNested.filter hasWipe).map wipePrefix := by
    intro k v hk hn hv
    obtain ⟨r, w, hr⟩ := exists_leaf_below other (k ++ [wipeKey]) v (by simp) hv
    refine List.mem_map.2 ⟨k ++ [wipeKey] ++ r, List.mem_filter.2
      ⟨(mem_keysNested other ho _).2 ⟨w, hr⟩, by simp [hasWipe]⟩, ?_⟩
    rw [List.append_assoc]
    exact wipePrefix_append k r hk hn
  -- they are still present after the override loop
  have hpres1 : ∀ k v, k ≠ [] → wipeKey ∉ k → other.lookup (k ++ [wipeKey]) = some v →
      ∃ w, d1.lookup k = some w := by
    intro k v hk hn hv
    by_cases hex : ∃ p ∈ other.keysNested.filter (fun k => !hasWipe k), Related p k
    · obtain ⟨p, hp, hr⟩ := hex
      obtain ⟨hm, _⟩ := List.mem_filter.1 hp
      obtain ⟨w, hw⟩ := (mem_keysNested other ho p).1 hm
      have hlp := h2 p hp w hw
      rcases hr with ⟨t, rfl⟩ | ⟨t, rfl⟩
      · -- a leaf of `other` above a dictionary of `other`: impossible
        exfalso
        rw [List.append_assoc, lookup_append, hw.2.1] at hv
        match w, hw, hv with
        | .leaf a, _, hv => cases t <;> simp [Val.lookup] at hv
        | .dict e, hw, hv =>
          rw [hw.2.2 e rfl] at hv
          simp only [Val.lookup, Option.bind_some] at hv
          rw [lookup_emptyDict _ (by simp)] at hv; cases hv
      · rw [lookup_append] at hlp
        rcases hl : d1.lookup k with _ | w'
        · rw [hl] at hlp; simp at hlp
        · exact ⟨w', rfl⟩
    · have hfr := h3 k (fun p hp hr => hex ⟨p, hp, hr⟩)
      rcases hl : d.lookup k with _ | w
      · exact absurd hl (hpres k v hn hv)
      · exact ⟨w, by rw [hfr, hl]⟩
  obtain ⟨d', h4, hw', h5, h6⟩ := wipeLoop_ok other
    ((other.keysNested.filter hasWipe).map wipePrefix) d1 hw1 ho
    (fun k hk => by
      obtain ⟨a, b, v, hv⟩ := hks k hk
      exact ⟨a, hpres1 k v a b hv, v, hv⟩)
    (fun k hk k' hk' => by
      obtain ⟨a, b, v, hv⟩ := hks k hk
      obtain ⟨a', b', v', hv'⟩ := hks k' hk'
      exact hunrel k v k' v' b b' hv hv')
  refine ⟨d', by simp [unionReplace, h1, h4], hw', ?_, ?_, ?_, ?_, ?_⟩
  · intro k v hk hn hv
    rw [h5 k (hks' k v hk hn hv), hv]
  · intro p a hp hn hq
    rw [h6 p (fun k hk => by
      obtain ⟨x, b, v, hv⟩ := hks k hk
      exact hq k v b hv)]
    rw [h2 p (List.mem_filter.2 ⟨(mem_keysNested other ho p).2 ⟨_, hp⟩, by simpa [hasWipe] using hn⟩)
      _ hp]
    rfl
  · intro p v hp hn hq
    rw [h6 p (fun k hk => by
      obtain ⟨x, b, v, hv⟩ := hks k hk
      exact hq k v b hv)]
    exact ⟨_, h2 p (List.mem_filter.2 ⟨(mem_keysNested other ho p).2 ⟨_, hp⟩, by simpa [hasWipe] using hn⟩)
      _ hp⟩
  · intro q hq hq'
    rw [h6 q (fun k hk => by
      obtain ⟨x, b, v, hv⟩ := hks k hk
      exact hq' k v b hv)]
    exact h3 q (fun p hp => by
      obtain ⟨hm, hw⟩ := List.mem_filter.1 hp
      obtain ⟨v, hv⟩ := (mem_keysNested other ho p).1 hm
      exact hq p v hv (by simpa [hasWipe] using hw))
  · intro q a hq
    by_cases hk : ∃ k ∈ (other.keysNested.filter hasWipe).map wipePrefix, Related k q
    · obtain ⟨k, hkm, hr⟩ := hk
      obtain ⟨x, b, v, hv⟩ := hks k hkm
      have hlk := h5 k hkm
      rw [hv] at hlk
      rcases hr with hr | ⟨t, rfl⟩
      · exact Or.inr (Or.inr ⟨k, v, x, b, hv, hr⟩)
      · have := scalar_below hq hlk
        subst this
        exact Or.inr (Or.inr ⟨q ++ [], v, x, b, hv, by simp⟩)
    · rw [h6 q (fun k hkm hr => hk ⟨k, hkm, hr⟩)] at hq
      rcases union_origin_on _ d other d1 h2 h3 (fun p hp =>
        (mem_keysNested other ho p).1 (List.mem_filter.1 hp).1) q a hq with h | ⟨hm, h⟩
      · exact Or.inl h
      · exact Or.inr (Or.inl ⟨h, by simpa [hasWipe] using (List.mem_filter.1 hm).2⟩)

end Dict
end Calliope
