import Verif.Proofs.AttrDict3
import Verif.Spec.ModelDefinition

/-! Further lemmas on unions: leaves form an antichain, where values of a union come from,
clash-freedom is kept by unions, union into the empty dictionary. -/

namespace Calliope
namespace Dict
variable {α : Type}

theorem leaf_below {d : Dict α} {p t : Path} {v w : Val α} (h : d.LeafAt p v)
    (hw : d.lookup (p ++ t) = some w) : t = [] := by
  rw [lookup_append, h.2.1] at hw
  cases t with
  | nil => rfl
  | cons k ks =>
    exfalso
    match v, h, hw with
    | .leaf a, _, hw => simp [Val.lookup] at hw
    | .dict e, h, hw =>
      rw [h.2.2 e rfl] at hw
      simp only [Option.bind_some, Val.lookup] at hw
      rw [lookup_emptyDict _ (by simp)] at hw; cases hw

theorem leafAt_antichain {d : Dict α} {p q : Path} {v w : Val α} (hp : d.LeafAt p v)
    (hq : d.LeafAt q w) (hr : Related p q) : p = q := by
  rcases hr with ⟨t, rfl⟩ | ⟨t, rfl⟩
  · have := leaf_below hp hq.2.1; simp [this]
  · have := leaf_below hq hp.2.1; simp [this]

theorem leafAt_scalar {d : Dict α} {p : Path} {a : Option α} (h : d.lookup p = some (.leaf a)) :
    d.LeafAt p (.leaf a) := by
  refine ⟨?_, h, by simp⟩
  rintro rfl; simp at h

theorem scalar_below {d : Dict α} {p t : Path} {a : Option α} {w : Val α}
    (h : d.lookup p = some (.leaf a)) (hw : d.lookup (p ++ t) = some w) : t = [] :=
  leaf_below (leafAt_scalar h) hw

/-- Every non-dictionary value of a (clash-free) union of the leaves `ps` comes from one of the
operands. -/
theorem union_origin_on (ps : List Path) (self other d' : Dict α)
    (h2 : ∀ p ∈ ps, ∀ v, other.LeafAt p v → d'.lookup p = some (merged (self.lookup p) v))
    (h3 : ∀ q, (∀ p ∈ ps, ¬ Related p q) → d'.lookup q = self.lookup q)
    (hps : ∀ p ∈ ps, ∃ v, other.LeafAt p v)
    (p : Path) (a : Option α) (h : d'.lookup p = some (.leaf a)) :
    self.lookup p = some (.leaf a) ∨ (p ∈ ps ∧ other.LeafAt p (.leaf a)) := by
  by_cases hs : ∃ q ∈ ps, Related q p
  case neg => left; rw [← h3 p (fun q hq hr => hs ⟨q, hq, hr⟩)]; exact h
  case pos =>
    obtain ⟨q, hmem, hr⟩ := hs
    obtain ⟨v, hq⟩ := hps q hmem
    have hl := h2 q hmem v hq
    rcases hr with ⟨t, rfl⟩ | ⟨t, rfl⟩
    · -- `q` above `p`
      rw [lookup_append, hl] at h
      match v, hq with
      | .leaf (some x), hq =>
        cases t with
        | nil => simp [merged] at h; subst h; right; exact ⟨by simpa using hmem, by simpa using hq⟩
        | cons => simp [merged, Val.lookup] at h
      | .leaf none, hq =>
        rcases hsq : self.lookup q with _ | (x | e)
        · cases t with
          | nil => simp [merged, hsq] at h; subst h; right; exact ⟨by simpa using hmem, by simpa using hq⟩
          | cons => simp [merged, hsq, Val.lookup] at h
        · cases t with
          | nil => simp [merged, hsq] at h; subst h; right; exact ⟨by simpa using hmem, by simpa using hq⟩
          | cons => simp [merged, hsq, Val.lookup] at h
        · left
          rw [lookup_append, hsq]
          simpa [merged, hsq] using h
      | .dict e, hq =>
        have he := hq.2.2 e rfl
        subst he
        rcases hsq : self.lookup q with _ | w
        · exfalso
          cases t with
          | nil => simp [merged, hsq] at h
          | cons =>
            simp [merged, hsq, Val.lookup] at h
            rw [lookup_emptyDict _ (by simp)] at h; cases h
        · left
          rw [lookup_append, hsq]
          simpa [merged, hsq] using h
    · -- `p` above `q`: then `p` holds a dictionary, or `p = q`
      have ht := scalar_below h hl
      subst ht
      rw [List.append_nil] at hl hq hmem
      rw [h] at hl
      match v, hq with
      | .leaf (some x), hq => simp [merged] at hl; subst hl; right; exact ⟨hmem, hq⟩
      | .leaf none, hq =>
        rcases hsq : self.lookup p with _ | (x | e) <;> simp [merged, hsq] at hl
        · subst hl; right; exact ⟨hmem, hq⟩
        · subst hl; right; exact ⟨hmem, hq⟩
      | .dict e, hq =>
        have he := hq.2.2 e rfl
        subst he
        rcases hsq : self.lookup p with _ | w <;> simp [merged, hsq] at hl
        left; rw [hl]

/-- Every non-dictionary value of a (clash-free) union comes from one of the operands. -/
theorem union_origin (self other d' : Dict α) (ho : other.WF)
    (h2 : ∀ p v, other.LeafAt p v → d'.lookup p = some (merged (self.lookup p) v))
    (h3 : ∀ q, (∀ p v, other.LeafAt p v → ¬ Related p q) → d'.lookup q = self.lookup q)
    (p : Path) (a : Option α) (h : d'.lookup p = some (.leaf a)) :
    self.lookup p = some (.leaf a) ∨ other.LeafAt p (.leaf a) :=
  (union_origin_on other.keysNested self other d' (fun p _ v hv => h2 p v hv)
    (fun q hq => h3 q (fun p v hp => hq p ((mem_keysNested other ho p).2 ⟨v, hp⟩)))
    (fun p hp => (mem_keysNested other ho p).1 hp) p a h).imp id (·.2)

/-- Clash-freedom with a third dictionary survives a union. -/
theorem union_clear (self other d' : Dict α) (ho' : other.WF)
    (h2 : ∀ p v, other.LeafAt p v → d'.lookup p = some (merged (self.lookup p) v))
    (h3 : ∀ q, (∀ p v, other.LeafAt p v → ¬ Related p q) → d'.lookup q = self.lookup q)
    (p : Path) (hs : self.Clear p) (ho : other.Clear p) : d'.Clear p := by
  rintro q hq hne ⟨a, ha⟩
  rcases union_origin self other d' ho' h2 h3 q _ ha with h | h
  · exact hs q hq hne ⟨a, h⟩
  · exact ho q hq hne ⟨a, h.2.1⟩

/-! ### Where keys of a union come from -/

theorem setKey_leaf_mem (d d' : Dict α) (p : Path) (v : Val α) (hv : LeafLike v)
    (h : d.setKey p v = .ok d') (q : Path) (w : Val α) (hq : d'.lookup q = some w) :
    (∃ w', d.lookup q = some w') ∨ q <+: p := by
  induction p generalizing d d' q w with
  | nil => simp [setKey] at h
  | cons k ks ih =>
    cases q with
    | nil => right; simp
    | cons k' qs =>
      cases ks with
      | nil =>
        simp only [setKey] at h
        have key : ∀ x : Val α, LeafLike x → d' = d.put1 k x →
            (∃ w', d.lookup (k' :: qs) = some w') ∨ (k' :: qs) <+: [k] := by
          intro x hx hd
          subst hd
          by_cases hk : k' = k
          · subst hk
            right
            rw [lookup_put1_same] at hq
            cases qs with
            | nil => exact List.prefix_refl _
            | cons k2 q2 =>
              exfalso
              match x, hx, hq with
              | .leaf a, _, hq => simp [Val.lookup] at hq
              | .dict e, hx, hq =>
                rw [hx e rfl] at hq
                simp only [Val.lookup] at hq
                rw [lookup_emptyDict _ (by simp)] at hq; cases hq
          · left
            rw [lookup_put1_ne _ _ _ hk] at hq
            exact ⟨w, hq⟩
        cases v with
        | leaf a => simp [setKey1] at h; exact key (.leaf a) (by intro e he; cases he) h.symm
        | dict e =>
          have he := hv e rfl
          subst he
          simp only [setKey1] at h
          rcases hg : d.get1 k with _ | (x | u)
          · simp only [hg] at h; cases h
            exact key (.dict .nil) (by intro e he; cases he; rfl) rfl
          · simp only [hg] at h; cases h
            left; exact ⟨w, hq⟩
          · simp only [hg, mergeInto] at h; cases h
            left
            by_cases hk : k' = k
            · subst hk
              rw [lookup_put1_same] at hq
              rw [lookup_cons, hg]
              exact ⟨w, hq⟩
            · rw [lookup_put1_ne _ _ _ hk] at hq
              exact ⟨w, hq⟩
      | cons k2 ks =>
        obtain ⟨f, hf⟩ := setKey_nil_ok (k2 :: ks) v (by simp)
        have fresh : d' = d.put1 k (.dict f) →
            (∃ w', d.lookup (k' :: qs) = some w') ∨ (k' :: qs) <+: k :: k2 :: ks := by
          intro hd
          subst hd
          by_cases hk : k' = k
          · subst hk
            rw [lookup_put1_same] at hq
            rcases ih .nil f hf qs w hq with ⟨w', h'⟩ | h'
            · right
              cases qs with
              | nil => simp
              | cons => rw [lookup_emptyDict _ (by simp)] at h'; cases h'
            · right; simpa using h'
          · rw [lookup_put1_ne _ _ _ hk] at hq
            left; exact ⟨w, hq⟩
        simp only [setKey, hf] at h
        rcases hg : d.get1 k with _ | (x | u)
        · simp only [hg] at h; cases h; exact fresh rfl
        · cases x with
          | none => simp only [hg] at h; cases h; exact fresh rfl
          | some x => simp [hg] at h
        · simp only [hg] at h
          rcases hs : u.setKey (k2 :: ks) v with e | u'
          · simp only [hs] at h
            cases e <;> simp at h
            exact fresh h.symm
          · simp only [hs] at h; cases h
            by_cases hk : k' = k
            · subst hk
              rw [lookup_put1_same] at hq
              rcases ih u u' hs qs w hq with ⟨w', h'⟩ | h'
              · left; rw [lookup_cons, hg]; exact ⟨w', h'⟩
              · right; simpa using h'
            · rw [lookup_put1_ne _ _ _ hk] at hq
              left; exact ⟨w, hq⟩

theorem unionLoop_mem (ao : Bool) (sk : List Path) (other : Dict α) (ps : List Path)
    (self d' : Dict α) (ho : other.WF) (hps : ∀ p ∈ ps, p ∈ other.keysNested)
    (h : unionLoop ao sk other self ps = .ok d')
    (q : Path) (w : Val α) (hq : d'.lookup q = some w) :
    (∃ w', self.lookup q = some w') ∨ (∃ w', other.lookup q = some w') := by
  induction ps generalizing self with
  | nil => simp [unionLoop] at h; subst h; exact Or.inl ⟨w, hq⟩
  | cons p ps ih =>
    simp only [unionLoop] at h
    rcases hst : unionStep ao sk other self p with e | s1
    · rw [hst] at h; cases h
    · rw [hst] at h
      rcases ih s1 (fun x hx => hps x (by simp [hx])) h with ⟨w1, h1⟩ | h1
      · obtain ⟨v, hv⟩ := (mem_keysNested other ho p).1 (hps p (by simp))
        have hg : other.getKey p = .ok v := (getKey_ok_iff _ _ _).2 ⟨hv.1, hv.2.1⟩
        simp only [unionStep, hg] at hst
        split at hst
        · cases hst
        · split at hst
          · cases hst; exact Or.inl ⟨w1, h1⟩
          · rcases setKey_leaf_mem self s1 p v hv.leafLike hst q w1 h1 with h' | ⟨t, rfl⟩
            · exact Or.inl h'
            · right
              have := hv.2.1
              rw [lookup_append] at this
              rcases hl : other.lookup q with _ | x
              · rw [hl] at this; simp at this
              · exact ⟨x, rfl⟩
      · exact Or.inr h1

/-- Every key of a union (even one with clashes) is a key of one of the operands. -/
theorem union_mem (ao : Bool) (self other d' : Dict α) (ho : other.WF)
    (h : self.union other ao = .ok d') (q : Path) (w : Val α) (hq : d'.lookup q = some w) :
    (∃ w', self.lookup q = some w') ∨ (∃ w', other.lookup q = some w') :=
  unionLoop_mem ao _ other _ self d' ho (fun _ hp => hp) h q w hq

theorem union_noKey (ao : Bool) (self other d' : Dict α) (ho : other.WF) (k : Key)
    (h : self.union other ao = .ok d') (hs : NoKey k self) (hn : NoKey k other) : NoKey k d' := by
  intro p hp
  rcases hl : d'.lookup p with _ | w
  · rfl
  · rcases union_mem ao self other d' ho h p w hl with ⟨w', h'⟩ | ⟨w', h'⟩
    · rw [hs p hp] at h'; cases h'
    · rw [hn p hp] at h'; cases h'

theorem WF_union (ao : Bool) (self other d' : Dict α) (hs : self.WF) (ho : other.WF)
    (h : self.union other ao = .ok d') : d'.WF := WF_unionLoop _ _ _ _ _ _ hs ho h

/-! ### Union into the empty dictionary -/

theorem setKey_not_none_dict (acc : Dict α) (p : Path) (v : Val α) (sk : List Path) (ao : Bool)
    (other : Dict α) (hg : other.getKey p = .ok v) (hsk : ao = true ∨ p ∉ sk)
    (hD : ∀ e, acc.lookup p ≠ some (.dict e)) (hp : p ≠ []) :
    unionStep ao sk other acc p = acc.setKey p v := by
  have hc : (!ao && sk.contains p) = false := by
    rcases hsk with h | h
    · simp [h]
    · simp [h]
  have h2 := getKeyD_eq acc p (.leaf none) hp
  simp only [unionStep, hc, hg]
  have : (acc.getKeyD p (.leaf none)).isDict = false := by
    rw [h2]
    rcases hl : acc.lookup p with _ | (x | e)
    · rfl
    · rfl
    · exact absurd hl (hD e)
  simp [this]

/-- Reading a flat list of leaves into a dictionary is the same as the union loop over it. -/
theorem unionLoop_eq_initFrom (ao : Bool) (sk : List Path) (other : Dict α)
    (l : List (Path × Val α)) (acc acc' : Dict α)
    (hl : ∀ x ∈ l, other.LeafAt x.1 x.2)
    (hpw : (l.map Prod.fst).Pairwise (fun p q => ¬ Related p q))
    (hsk : ao = true ∨ ∀ x ∈ l, x.1 ∉ sk)
    (habs : ∀ x ∈ l, acc.lookup x.1 = none)
    (hi : acc.initFrom l = .ok acc') :
    unionLoop ao sk other acc (l.map Prod.fst) = .ok acc' := by
  induction l generalizing acc with
  | nil => simpa [initFrom, unionLoop] using hi
  | cons x l ih =>
    obtain ⟨p, v⟩ := x
    have hlx := hl (p, v) (by simp)
    simp only [List.map_cons, unionLoop]
    rw [setKey_not_none_dict acc p v sk ao other
      ((getKey_ok_iff _ _ _).2 ⟨hlx.1, hlx.2.1⟩)
      (hsk.imp id (fun h => h (p, v) (by simp)))
      (by intro e; rw [habs (p, v) (by simp)]; simp) hlx.1]
    simp only [initFrom] at hi
    rcases hs : acc.setKey p v with e | acc1
    · rw [hs] at hi; cases hi
    · rw [hs] at hi
      simp only [List.map_cons, List.pairwise_cons] at hpw
      apply ih acc1 (fun y hy => hl y (by simp [hy])) hpw.2
        (hsk.imp id (fun h y hy => h y (by simp [hy]))) _ hi
      intro y hy
      rcases hly : acc1.lookup y.1 with _ | w
      · rfl
      · rcases setKey_leaf_mem acc acc1 p v hlx.2.2 hs y.1 w hly with ⟨w', h'⟩ | h'
        · rw [habs y (by simp [hy])] at h'; cases h'
        · exact absurd (Or.inr h') (hpw.1 y.1 (List.mem_map.2 ⟨y, hy, rfl⟩))

/-- `AttrDict().union(d)` is `d`. -/
theorem union_nil (ao : Bool) (d : Dict α) (hd : d.WF) : (Dict.nil : Dict α).union d ao = .ok d := by
  have hi := initFrom_flat d .nil hd (by simp [keys])
  simp only [append] at hi
  unfold union
  rw [← flat_fst d]
  apply unionLoop_eq_initFrom
  · intro x hx
    obtain ⟨h1, h2⟩ := flat_lookup d hd x hx
    have hm : x.1 ∈ d.keysNested := by rw [← flat_fst]; exact List.mem_map.2 ⟨x, hx, rfl⟩
    obtain ⟨v, hv⟩ := (mem_keysNested d hd x.1).1 hm
    have : v = x.2 := by have := hv.2.1; rw [h2] at this; exact (Option.some.inj this).symm
    exact this ▸ hv
  · rw [flat_fst]; exact keysNested_pairwise d hd
  · right; intro x _; simp [keysNested]
  · intro x hx
    exact lookup_emptyDict _ (flat_lookup d hd x hx).1
  · exact hi

/-- Without `_REPLACE_` keys, a union with replacement is a union. -/
theorem unionReplace_eq_union (self other : Dict α) (ao : Bool) (ho : other.WF)
    (hn : ∀ p v, other.LeafAt p v → wipeKey ∉ p) :
    self.unionReplace other ao = self.union other ao := by
  have h1 : other.keysNested.filter hasWipe = [] := by
    rw [List.filter_eq_nil_iff]
    intro p hp
    obtain ⟨v, hv⟩ := (mem_keysNested other ho p).1 hp
    simpa [hasWipe] using hn p v hv
  have h2 : other.keysNested.filter (fun k => !hasWipe k) = other.keysNested := by
    rw [List.filter_eq_self]
    intro p hp
    obtain ⟨v, hv⟩ := (mem_keysNested other ho p).1 hp
    simpa [hasWipe] using hn p v hv
  simp only [unionReplace, h1, h2, List.map_nil, union]
  cases unionLoop ao self.keysNested other self other.keysNested <;> simp [wipeLoop]

/-! ### Errors of a union -/

theorem setKey_leafLike_err (d : Dict α) (p : Path) (v : Val α) (hv : LeafLike v) (e : Err)
    (h : d.setKey p v = .error e) : e = .keyError := by
  induction p generalizing d e with
  | nil => simp [setKey] at h; exact h.symm
  | cons k ks ih =>
    cases ks with
    | nil =>
      exfalso
      cases v with
      | leaf a => simp [setKey, setKey1] at h
      | dict f =>
        have := hv f rfl; subst this
        simp only [setKey, setKey1] at h
        rcases hg : d.get1 k with _ | (x | u) <;> simp [hg, mergeInto] at h
    | cons k2 ks =>
      obtain ⟨f, hf⟩ := setKey_nil_ok (k2 :: ks) v (by simp)
      simp only [setKey, hf] at h
      rcases hg : d.get1 k with _ | (x | u)
      · simp [hg] at h
      · cases x <;> simp [hg] at h; exact h.symm
      · simp only [hg] at h
        rcases hs : u.setKey (k2 :: ks) v with e' | u'
        · have := ih u e' hs
          subst this
          simp [hs] at h
        · simp [hs] at h

theorem unionLoop_err (ao : Bool) (sk : List Path) (other : Dict α) (ps : List Path)
    (self : Dict α) (ho : other.WF) (hps : ∀ p ∈ ps, p ∈ other.keysNested) (e : Err)
    (h : unionLoop ao sk other self ps = .error e) : e = .keyError := by
  induction ps generalizing self with
  | nil => simp [unionLoop] at h
  | cons p ps ih =>
    simp only [unionLoop] at h
    obtain ⟨v, hv⟩ := (mem_keysNested other ho p).1 (hps p (by simp))
    have hg : other.getKey p = .ok v := (getKey_ok_iff _ _ _).2 ⟨hv.1, hv.2.1⟩
    rcases hst : unionStep ao sk other self p with e' | s1
    · rw [hst] at h; cases h
      simp only [unionStep, hg] at hst
      split at hst
      · cases hst; rfl
      · split at hst
        · cases hst
        · exact setKey_leafLike_err self p v hv.leafLike e hst
    · rw [hst] at h
      exact ih s1 (fun x hx => hps x (by simp [hx])) h

/-- A union can only fail with a `KeyError`. -/
theorem union_err (ao : Bool) (self other : Dict α) (ho : other.WF) (e : Err)
    (h : self.union other ao = .error e) : e = .keyError :=
  unionLoop_err ao _ other _ self ho (fun _ hp => hp) e h

/-! ### Deciding the hypotheses on concrete dictionaries -/

theorem noKey_of (k : Key) (d : Dict α) (hd : d.WF) (h : ∀ p ∈ d.keysNested, k ∉ p) : NoKey k d := by
  intro p hp
  rcases hl : d.lookup p with _ | v
  · rfl
  · have hp0 : p ≠ [] := by rintro rfl; simp at hp
    obtain ⟨r, w, hr⟩ := exists_leaf_below d p v hp0 hl
    exact absurd (List.mem_append_left r hp) (h _ ((mem_keysNested d hd _).2 ⟨w, hr⟩))

theorem silent_of (d : Dict α) (hd : d.WF) (p : Path) (h : ∀ q ∈ d.keysNested, ¬ Related q p) :
    d.Silent p := fun q v hq => h q ((mem_keysNested d hd q).2 ⟨v, hq⟩)

/-! ### Non-overriding union of unrelated dictionaries -/

/-- The leaves of a union of dictionaries whose leaves are unrelated. -/
theorem union_unrelated (d other : Dict α) (hd : d.WF) (ho : other.WF)
    (hu : ∀ p v q w, d.LeafAt p v → other.LeafAt q w → ¬ Related q p) :
    ∃ d', d.union other false = .ok d' ∧ d'.WF ∧
      ∀ p v, d'.LeafAt p v ↔ d.LeafAt p v ∨ other.LeafAt p v := by
  have hclear : ∀ p v, other.LeafAt p v → d.Clear p := by
    intro p v hp q hq hne ⟨a, ha⟩
    exact hu q (.leaf (some a)) p v (leafAt_scalar ha) hp (Or.inr hq)
  obtain ⟨d', h1, hw, h2, h3⟩ := union_ok false d other hd ho hclear (by
    intro _ p v hp ⟨w, hw⟩
    exact hu p w p v hw hp (Or.inl (List.prefix_refl p)))
  have hkeep : ∀ p v, other.LeafAt p v → d'.lookup p = some v := by
    intro p v hp
    rw [h2 p v hp]
    have hnone : d.lookup p = none := by
      rcases hl : d.lookup p with _ | w
      · rfl
      · obtain ⟨r, x, hx⟩ := exists_leaf_below d p w hp.1 hl
        exact absurd (Or.inl (by simp)) (hu (p ++ r) x p v hx hp)
    rw [hnone]
    match v, hp with
    | .leaf (some a), _ => rfl
    | .leaf none, _ => rfl
    | .dict e, hp => rw [hp.2.2 e rfl]; rfl
  refine ⟨d', h1, hw, fun p v => ⟨?_, ?_⟩⟩
  · intro hp
    by_cases hs : ∀ q w, other.LeafAt q w → ¬ Related q p
    · left; exact ⟨hp.1, by rw [← h3 p hs]; exact hp.2.1, hp.2.2⟩
    · obtain ⟨q, w, hq, hr⟩ : ∃ q w, other.LeafAt q w ∧ Related q p := by
        by_cases hh : ∃ q v, other.LeafAt q v ∧ Related q p
        · exact hh
        · exact absurd (fun q v hq hr => hh ⟨q, v, hq, hr⟩) hs
      have hq' : d'.LeafAt q w := ⟨hq.1, hkeep q w hq, hq.2.2⟩
      have := leafAt_antichain hq' hp hr
      subst this
      have : some w = some v := by rw [← hq'.2.1, ← hp.2.1]
      cases this
      right; exact hq
  · rintro (hp | hp)
    · exact ⟨hp.1, by rw [h3 p (fun q w hq => hu p v q w hp hq)]; exact hp.2.1, hp.2.2⟩
    · exact ⟨hp.1, hkeep p v hp, hp.2.2⟩

end Dict
end Calliope
