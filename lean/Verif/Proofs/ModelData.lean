import Verif.Spec.ModelData
import Verif.Proofs.Union
import Verif.Proofs.Grid

namespace Calliope
namespace ModelData

open Grid Dict

variable {V : Type}

/-! ### Overriding unions of settings -/

theorem unionLoop_append (ao : Bool) (sk : List Path) (o : Dict (Datum V)) :
    ∀ (l1 l2 : List Path) (self u : Dict (Datum V)), unionLoop ao sk o self (l1 ++ l2) = .ok u →
      ∃ s, unionLoop ao sk o self l1 = .ok s ∧ unionLoop ao sk o s l2 = .ok u
  | [], l2, self, u, h => ⟨self, rfl, h⟩
  | p :: l1, l2, self, u, h => by
      simp only [List.cons_append, unionLoop] at h ⊢
      rcases hs : unionStep ao sk o self p with e | s
      · rw [hs] at h; cases h
      · rw [hs] at h
        exact unionLoop_append ao sk o l1 l2 s u h

theorem overKeys_put (e : Def V) (k : Key) (a : Option (Datum V)) (r : Def V) :
    overKeys e (.leaf k a r) = overKeys (e.put1 k (.leaf a)) r := rfl

/-- Leaves below `k`, when the entry of `k` is a dictionary of values. -/
theorem unionLoop_below (sk : List Path) (o : Dict (Datum V)) (k : Key) :
    ∀ (s : Def V), (∀ j w, s.get1 j = some w → ∃ a, w = .leaf a) → s.WF →
    (∀ j w, s.get1 j = some w → o.getKey [k, j] = .ok w) →
    ∀ (self u e : Def V), (∀ j w, e.get1 j = some w → ∃ a, w = .leaf a) → self.get1 k = some (.dict e) →
      unionLoop true sk o self (s.keys.map (fun j => [k, j])) = .ok u →
      u.get1 k = some (.dict (overKeys e s)) ∧ ∀ p, p ≠ k → u.get1 p = self.get1 p
  | .nil, _, _, _, self, u, e, _, hk, h => by
      simp only [keys, List.map_nil, unionLoop, Except.ok.injEq] at h
      subst h
      exact ⟨hk, fun _ _ => rfl⟩
  | .sub j d r, hf, _, _, self, u, e, _, _, _ => by
      obtain ⟨a, ha⟩ := hf j (.dict d) (by simp [get1])
      cases ha
  | .leaf j a r, hf, hw, ho, self, u, e, he, hk, h => by
      simp only [keys, List.map_cons, unionLoop, unionStep] at h
      rw [ho j (.leaf a) (by simp [get1])] at h
      have hd : ((self.getKeyD [k, j] (.leaf none)).isDict) = false := by
        simp only [getKeyD, hk]
        rcases hj : e.get1 j with _ | w
        · rfl
        · obtain ⟨b, rfl⟩ := he j w hj; rfl
      simp only [hd, Bool.not_true, Bool.false_and, Bool.false_eq_true, if_false, Bool.and_false, setKey, hk,
        setKey1] at h
      have := unionLoop_below sk o k r
        (fun i w hi => hf i w (by
          simp only [get1]
          by_cases hij : j = i
          · subst hij
            exact absurd (keys_of_get1 hi) hw.1
          · rw [if_neg hij]; exact hi)) hw.2
        (fun i w hi => ho i w (by
          simp only [get1]
          by_cases hij : j = i
          · subst hij
            exact absurd (keys_of_get1 hi) hw.1
          · rw [if_neg hij]; exact hi))
        (self.put1 k (.dict (e.put1 j (.leaf a)))) u (e.put1 j (.leaf a))
        (fun i w hi => by
          rw [get1_put1] at hi
          by_cases hij : i = j
          · simp only [hij, if_true, Option.some.injEq] at hi
            exact ⟨a, hi.symm⟩
          · rw [if_neg hij] at hi; exact he i w hi)
        (by rw [get1_put1]; simp) h
      refine ⟨this.1, fun p hp => ?_⟩
      rw [this.2 p hp, get1_put1, if_neg hp]

theorem keysNested_flat : ∀ (s : Def V), (∀ j w, s.get1 j = some w → ∃ a, w = .leaf a) → s.WF →
    s.keysNested = s.keys.map (fun j => [j])
  | .nil, _, _ => rfl
  | .leaf j a r, hf, hw => by
      simp only [keysNested, keys, List.map_cons]
      rw [keysNested_flat r (fun i w hi => hf i w (by
        simp only [get1]
        by_cases hij : j = i
        · subst hij
          exact absurd (keys_of_get1 hi) hw.1
        · rw [if_neg hij]; exact hi)) hw.2]
  | .sub j d r, hf, _ => by
      obtain ⟨a, ha⟩ := hf j (.dict d) (by simp [get1])
      cases ha

theorem keysNested_sub (k : Key) (d r : Def V) (hn : d ≠ .nil)
    (hf : ∀ j w, d.get1 j = some w → ∃ a, w = .leaf a) (hw : d.WF) :
    (Dict.sub k d r).keysNested = d.keys.map (fun j => [k, j]) ++ r.keysNested := by
  have := keysNested_flat d hf hw
  cases d with
  | nil => exact absurd rfl hn
  | leaf j a x => simp only [keysNested] at this ⊢; rw [this, List.map_map]; rfl
  | sub j a x => simp only [keysNested] at this ⊢; rw [this, List.map_map]; rfl

theorem union_get1_aux (sk : List Path) (o : Dict (Datum V)) :
    ∀ (d : Def V), d.WF → Flat d → (∀ p, p ∈ d.keysNested → o.getKey p = d.getKey p) →
    ∀ (self u : Def V), Flat self → unionLoop true sk o self d.keysNested = .ok u →
      ∀ p, u.get1 p = over (self.get1 p) (d.get1 p)
  | .nil, _, _, _, self, u, _, h, p => by
      simp only [keysNested, unionLoop, Except.ok.injEq] at h
      subst h; rfl
  | .leaf k a r, hw, hf, ho, self, u, hs, h, p => by
      have hr : ∀ i w, r.get1 i = some w → (Dict.leaf k a r).get1 i = some w := by
        intro i w hi
        simp only [get1]
        by_cases hij : k = i
        · subst hij
          exact absurd (keys_of_get1 hi) hw.1
        · rw [if_neg hij]; exact hi
      simp only [keysNested, unionLoop] at h
      have hk : o.getKey [k] = .ok (.leaf a) := by
        rw [ho [k] (by simp [keysNested])]; simp [getKey, get1]
      -- the step
      obtain ⟨s, hst, hsk, hsf⟩ : ∃ s, unionStep true sk o self [k] = .ok s ∧
          (∀ i, s.get1 i = if i = k then over (self.get1 k) (some (.leaf a)) else self.get1 i) ∧ Flat s := by
        simp only [unionStep, Bool.not_true, Bool.false_and, Bool.false_eq_true, if_false, hk]
        by_cases hd : ((Val.leaf a).isNone && (self.getKeyD [k] (.leaf none)).isDict) = true
        · rw [if_pos hd]
          refine ⟨self, rfl, fun i => ?_, hs⟩
          by_cases hi : i = k
          · subst hi
            rw [if_pos rfl]
            simp only [Bool.and_eq_true] at hd
            rcases a with _ | a
            · simp only [getKeyD] at hd
              rcases hg : self.get1 i with _ | (_ | e)
              · simp [hg, Val.isDict] at hd
              · simp [hg, Val.isDict] at hd
              · rfl
            · simp [Val.isNone] at hd
          · rw [if_neg hi]
        · rw [if_neg hd]
          refine ⟨_, rfl, fun i => ?_, ?_⟩
          · rw [get1_put1]
            by_cases hi : i = k
            · subst hi
              simp only [if_true]
              rcases a with _ | a
              · rcases hg : self.get1 i with _ | (_ | e)
                · rfl
                · rfl
                · simp [getKeyD, hg, Val.isDict, Val.isNone] at hd
              · rfl
            · rw [if_neg hi, if_neg hi]
          · intro i s' hi
            rw [get1_put1] at hi
            by_cases hik : i = k
            · simp [hik] at hi
            · rw [if_neg hik] at hi; exact hs i s' hi
      rw [hst] at h
      have hgr : ∀ q, q ∈ r.keysNested → o.getKey q = r.getKey q := by
        intro q hq
        rw [ho q (by simp [keysNested, hq])]
        obtain ⟨i, is, rfl, hi⟩ := keysNested_head r q hq
        have hne : k ≠ i := fun e => hw.1 (e ▸ hi)
        rcases is with _ | ⟨j, js⟩ <;> simp [getKey, get1, hne]
      have := union_get1_aux sk o r hw.2 (fun i s' hi => hf i s' (hr i _ hi)) hgr s u hsf h p
      rw [this, hsk p]
      simp only [get1]
      by_cases hp : p = k
      · subst hp
        rw [if_pos rfl, if_pos rfl, (get1_eq_none r p).2 hw.1]
        rfl
      · rw [if_neg hp, if_neg (fun e => hp e.symm)]
  | .sub k d r, hw, hf, ho, self, u, hs, h, p => by
      have hr : ∀ i w, r.get1 i = some w → (Dict.sub k d r).get1 i = some w := by
        intro i w hi
        simp only [get1]
        by_cases hij : k = i
        · subst hij
          exact absurd (keys_of_get1 hi) hw.1
        · rw [if_neg hij]; exact hi
      have hdf := hf k d (by simp [get1])
      have hgr : ∀ q, q ∈ r.keysNested → o.getKey q = r.getKey q := by
        intro q hq
        rw [ho q (by simp [keysNested, hq])]
        obtain ⟨i, is, rfl, hi⟩ := keysNested_head r q hq
        have hne : k ≠ i := fun e => hw.1 (e ▸ hi)
        rcases is with _ | ⟨j, js⟩ <;> simp [getKey, get1, hne]
      obtain ⟨s, hsk, hsf, hrest⟩ : ∃ s : Def V,
          (∀ i, s.get1 i = if i = k then over (self.get1 k) (some (.dict d)) else self.get1 i) ∧ Flat s ∧
          unionLoop true sk o s r.keysNested = .ok u := by
        cases hd : d with
        | nil =>
          subst hd
          simp only [keysNested, List.singleton_append, unionLoop] at h
          have hk : o.getKey [k] = .ok (.dict .nil) := by
            rw [ho [k] (by simp [keysNested])]; simp [getKey, get1]
          simp only [unionStep, Bool.not_true, Bool.false_and, Bool.false_eq_true, if_false, hk, Val.isNone,
            setKey, setKey1] at h
          rcases hg : self.get1 k with _ | (b | e)
          · simp only [hg] at h
            refine ⟨_, fun i => ?_, ?_, h⟩
            · rw [get1_put1]; rfl
            · intro i s' hi
              rw [get1_put1] at hi
              by_cases hik : i = k
              · simp only [hik, if_true, Option.some.injEq, Val.dict.injEq] at hi
                subst hi
                intro j w hj; simp [get1] at hj
              · rw [if_neg hik] at hi; exact hs i s' hi
          · simp only [hg] at h
            refine ⟨_, fun i => ?_, hs, h⟩
            by_cases hik : i = k
            · subst hik; rw [if_pos rfl, hg]; rfl
            · rw [if_neg hik]
          · simp only [hg, mergeInto] at h
            refine ⟨_, fun i => ?_, ?_, h⟩
            · rw [get1_put1]; rfl
            · intro i s' hi
              rw [get1_put1] at hi
              by_cases hik : i = k
              · simp only [hik, if_true, Option.some.injEq, Val.dict.injEq] at hi
                subst hi
                exact hs k e hg
              · rw [if_neg hik] at hi; exact hs i s' hi
        | sub j d' r' =>
          obtain ⟨a, ha⟩ := hdf j (.dict d') (by simp [hd, get1])
          cases ha
        | leaf j a r' =>
          have hdn := keysNested_sub k d r (by rw [hd]; simp) hdf hw.2.1
          rw [hdn] at h
          obtain ⟨s, h1, h2⟩ := unionLoop_append true sk o _ _ _ _ h
          have hod : ∀ i w, d.get1 i = some w → o.getKey [k, i] = .ok w := by
            intro i w hi
            have hmem : [k, i] ∈ (Dict.sub k d r).keysNested := by
              rw [hdn]
              exact List.mem_append_left _ (List.mem_map.2 ⟨i, keys_of_get1 hi, rfl⟩)
            rw [ho _ hmem]
            simp [getKey, get1, hi]
          have key : ∀ (e : Def V), (∀ j w, e.get1 j = some w → ∃ a, w = .leaf a) →
              (self.get1 k = some (.dict e) ∨ (e = .nil ∧ (self.get1 k = none ∨ self.get1 k = some (.leaf none)))) →
              s.get1 k = some (.dict (overKeys e d)) ∧ ∀ p, p ≠ k → s.get1 p = self.get1 p := by
            intro e he hc
            rcases hc with hc | ⟨rfl, hc⟩
            · exact unionLoop_below sk o k d hdf hw.2.1 hod self s e he hc h1
            · -- the first leaf makes the dictionary
              rw [hd] at h1
              simp only [keys, List.map_cons, unionLoop, unionStep] at h1
              rw [hod j (.leaf a) (by simp [hd, get1])] at h1
              have hdd : ((self.getKeyD [k, j] (.leaf none)).isDict) = false := by
                rcases hc with hc | hc <;> simp [getKeyD, hc, Val.isDict]
              have hset : self.setKey [k, j] (.leaf a) = .ok (self.put1 k (.dict (.leaf j a .nil))) := by
                rcases hc with hc | hc <;> simp [setKey, hc, setKey1, put1]
              simp only [hdd, Bool.not_true, Bool.false_and, Bool.false_eq_true, if_false, Bool.and_false,
                hset] at h1
              have hjr : ∀ i w, r'.get1 i = some w → d.get1 i = some w := by
                intro i w hi
                rw [hd]
                simp only [get1]
                by_cases hij : j = i
                · subst hij
                  have := hw.2.1
                  rw [hd] at this
                  exact absurd (keys_of_get1 hi) this.1
                · rw [if_neg hij]; exact hi
              have := unionLoop_below sk o k r' (fun i w hi => hdf i w (hjr i w hi))
                (by have := hw.2.1; rw [hd] at this; exact this.2) (fun i w hi => hod i w (hjr i w hi))
                (self.put1 k (.dict (.leaf j a .nil))) s (.leaf j a .nil)
                (fun i w hi => by
                  simp only [get1] at hi
                  by_cases hij : j = i
                  · rw [if_pos hij] at hi; exact ⟨a, by simpa using hi.symm⟩
                  · rw [if_neg hij] at hi; cases hi)
                (by rw [get1_put1]; simp) h1
              refine ⟨?_, fun p hp => ?_⟩
              · rw [this.1, hd]; rfl
              · rw [this.2 p hp, get1_put1, if_neg hp]
          have hover : ∀ x : Option (Val (Datum V)), over x (some (.dict (.leaf j a r'))) =
              some (.dict (overKeys (dictOf x) d)) := by
            intro x; rw [hd]; rfl
          have hflat : ∀ e : Def V, (∀ j w, e.get1 j = some w → ∃ a, w = .leaf a) → ∀ j w,
              (overKeys e d).get1 j = some w → ∃ a, w = .leaf a := by
            clear hdn h h1 h2 key hover hod ho hgr hr hf hd
            intro e he
            have hww := hw.2.1
            clear hw
            induction d generalizing e with
            | nil => exact he
            | sub i x y _ _ =>
              obtain ⟨a, ha⟩ := hdf i (.dict x) (by simp [get1])
              cases ha
            | leaf i b y ih =>
              rw [overKeys_put]
              refine ih (fun i' w hi => hdf i' w ?_) _ ?_ hww.2
              · simp only [get1]
                by_cases hii : i = i'
                · subst hii; exact absurd (keys_of_get1 hi) hww.1
                · rw [if_neg hii]; exact hi
              · intro i' w hi
                rw [get1_put1] at hi
                by_cases hii : i' = i
                · simp only [hii, if_true, Option.some.injEq] at hi
                  exact ⟨b, hi.symm⟩
                · rw [if_neg hii] at hi; exact he i' w hi
          have fin : ∀ e : Def V, (∀ j w, e.get1 j = some w → ∃ a, w = .leaf a) → dictOf (self.get1 k) = e →
              (self.get1 k = some (.dict e) ∨ (e = .nil ∧ (self.get1 k = none ∨ self.get1 k = some (.leaf none)))) →
              ∃ s : Def V, (∀ i, s.get1 i = if i = k then over (self.get1 k) (some (.dict (.leaf j a r')))
                else self.get1 i) ∧ Flat s ∧ unionLoop true sk o s r.keysNested = .ok u := by
            intro e he hde hc
            obtain ⟨k1, k2⟩ := key e he hc
            refine ⟨s, fun i => ?_, ?_, h2⟩
            · by_cases hik : i = k
              · subst hik; rw [if_pos rfl, k1, hover, hde]
              · rw [if_neg hik, k2 i hik]
            · intro i s' hi
              by_cases hik : i = k
              · subst hik
                rw [k1] at hi
                simp only [Option.some.injEq, Val.dict.injEq] at hi
                subst hi
                exact hflat e he
              · rw [k2 i hik] at hi; exact hs i s' hi
          rcases hg : self.get1 k with _ | ((_ | b) | e)
          · rw [hg] at fin; exact fin .nil (by intro j w hj; simp [get1] at hj) rfl (.inr ⟨rfl, .inl rfl⟩)
          · rw [hg] at fin; exact fin .nil (by intro j w hj; simp [get1] at hj) rfl (.inr ⟨rfl, .inr rfl⟩)
          · -- a value in the way
            rw [hd] at h1
            simp only [keys, List.map_cons, unionLoop, unionStep] at h1
            rw [hod j (.leaf a) (by simp [hd, get1])] at h1
            have hdd : ((self.getKeyD [k, j] (.leaf none)).isDict) = false := by
              simp [getKeyD, hg, Val.isDict]
            have hset : self.setKey [k, j] (.leaf a) = .error .keyError := by
              simp [setKey, hg]
            simp [hdd, hset] at h1
          · rw [hg] at fin; exact fin e (hs k e hg) rfl (.inl rfl)
      have := union_get1_aux sk o r hw.2.2 (fun i s' hi => hf i s' (hr i _ hi)) hgr s u hsf hrest p
      rw [this, hsk p]
      simp only [get1]
      by_cases hp : p = k
      · subst hp
        rw [if_pos rfl, if_pos rfl, (get1_eq_none r p).2 hw.1]
        rfl
      · rw [if_neg hp, if_neg (fun e => hp e.symm)]

theorem union_get1 {b d u : Def V} (hb : Flat b) (hd : d.WF) (hf : Flat d) (h : b.union d true = .ok u) (p : Key) :
    u.get1 p = over (b.get1 p) (d.get1 p) :=
  union_get1_aux _ d d hd hf (fun _ _ => rfl) b u hb h p

end ModelData
end Calliope
