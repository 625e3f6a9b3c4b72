import Verif.Proofs.Replace

/-!
# Properties C01-C06: nested dictionaries

Vocabulary: `Verif/Spec/AttrDict.lean`.  `lookup d p` is what `d` holds at dotted key `p`
(`none`: nothing there); `getKey`, `setKey`, `delKey`, `keysNested`, `asDictFlat`,
`initFrom`, `union`, `unionReplace` model the methods of `AttrDict`.
-/

namespace Calliope
namespace Dict
variable {α : Type}

/-- `{"a": {"b": 5, "c": 1}, "n": None}`, used in the examples below. -/
def exampleDict : Dict Nat :=
  .sub "a" (.leaf "b" (some 5) (.leaf "c" (some 1) .nil)) (.leaf "n" none .nil)

/-- `get_key` reads exactly what the dictionary holds. -/
theorem C01_get_key_reads (d : Dict α) (p : Path) (v : Val α) :
    d.getKey p = .ok v ↔ p ≠ [] ∧ d.lookup p = some v :=
  getKey_ok_iff d p v

example : exampleDict.getKey ["a", "c"] = .ok (.leaf (some 1)) := by decide

/-- C01, first half (full strength): whatever the dictionary, a value set under a dotted key
is read back. -/
theorem C01_set_then_get (d d' : Dict α) (p : Path) (a : Option α)
    (h : d.setKey p (.leaf a) = .ok d') : d'.getKey p = .ok (.leaf a) := by
  refine (getKey_ok_iff d' p _).2 ⟨?_, setKey_leaf_get d d' p a h⟩
  rintro rfl
  simp [setKey] at h

example : ∃ d', exampleDict.setKey ["x", "y", "z"] (.leaf (some 7)) = .ok d' := by
  exact ⟨_, rfl⟩

/-- C01: `set_key` of a non-dictionary value raises exactly when the key has several
segments and the *first* one already holds a value other than None or a dictionary.
(A value in the way further down does not raise: see `C01_set_wipes_siblings`.) -/
theorem C01_set_raises_iff (d : Dict α) (p : Path) (a : Option α) (hp : p ≠ []) :
    (∃ e, d.setKey p (.leaf a) = .error e) ↔
      ∃ k rest, p = k :: rest ∧ rest ≠ [] ∧ d.ScalarAt [k] := by
  constructor
  · rintro ⟨e, he⟩
    rcases setKey_leaf_cases d p a hp with ⟨d', h⟩ | ⟨_, k, k2, ks, x, rfl, hx⟩
    · rw [h] at he; cases he
    · exact ⟨k, k2 :: ks, rfl, by simp, x, by rw [lookup_single]; exact hx⟩
  · rintro ⟨k, rest, rfl, hr, x, hx⟩
    rw [lookup_single] at hx
    cases rest with
    | nil => exact absurd rfl hr
    | cons k2 ks => exact ⟨.keyError, by simp [setKey, hx]⟩

example : ∃ e, (Dict.leaf "k" (some 1) .nil).setKey ["k", "x"] (.leaf (some 2)) = .error e := by
  exact ⟨.keyError, rfl⟩

/-- C01, second half, partial: `set_key` leaves everything unrelated alone *provided no
scalar sits strictly above the key*.  Missing: without the proviso it is false
(`C01_frame_fails`). -/
theorem C01_set_frame_partial (d : Dict α) (p : Path) (a : Option α) (hp : p ≠ [])
    (hc : d.Clear p) :
    ∃ d', d.setKey p (.leaf a) = .ok d' ∧ d'.lookup p = some (.leaf a) ∧
      ∀ q, ¬ Related p q → d'.lookup q = d.lookup q :=
  setKey_leaf_clear d p a hp hc

example : exampleDict.Clear ["a", "z", "w"] := clear_of_clearB _ _ (by decide)

/-- C01 is false of the code: setting `a.b.x` in `{"a": {"b": 5, "c": 1}}` returns
normally and silently loses `a.c`, a key unrelated to the one set. -/
theorem C01_frame_fails :
    ∃ (d d' : Dict Nat) (p q : Path), d.WF ∧ d.setKey p (.leaf (some 9)) = .ok d' ∧
      ¬ Related p q ∧ d.lookup q = some (.leaf (some 1)) ∧ d'.lookup q = none := by
  refine ⟨exampleDict, .sub "a" (.sub "b" (.leaf "x" (some 9) .nil) .nil) (.leaf "n" none .nil),
    ["a", "b", "x"], ["a", "c"], ?_, rfl, ?_, by decide, by decide⟩
  · simp [exampleDict, WF, keys]
  · simp [Related, List.cons_prefix_cons]

/-- C01: the exact damage.  If a scalar sits at `r.k` (with `r` not empty) and a key below it
is set, the call succeeds, everything else under `r` is gone, and everything outside `r` is
unchanged. -/
theorem C01_set_wipes_siblings (d : Dict α) (r : Path) (k k2 : Key) (ks : Path) (a : Option α)
    (hr : r ≠ []) (hs : d.ScalarAt (r ++ [k])) :
    ∃ d', d.setKey (r ++ k :: k2 :: ks) (.leaf a) = .ok d' ∧
      (∀ s, r <+: s → ¬ Related (r ++ k :: k2 :: ks) s → d'.lookup s = none) ∧
      (∀ s, ¬ r <+: s → ¬ Related (r ++ k :: k2 :: ks) s → d'.lookup s = d.lookup s) :=
  setKey_leaf_wipe d r k k2 ks a hr hs

example : exampleDict.ScalarAt (["a"] ++ ["b"]) := ⟨5, by decide⟩

/-- C02, partial: an overriding union succeeds, every leaf of the other dictionary wins
(a None only if it would not wipe out a dictionary, an empty dictionary only where nothing
was), and everything unrelated survives - *provided no scalar of `d` sits strictly above a
leaf of `other`*.  Missing: without the proviso it is false (`C02_union_loses_data`). -/
theorem C02_union_override_partial (d other : Dict α) (hd : d.WF) (ho : other.WF)
    (hc : ∀ p v, other.LeafAt p v → d.Clear p) :
    ∃ d', d.union other true = .ok d' ∧ d'.WF ∧
      (∀ p a, other.LeafAt p (.leaf (some a)) → d'.lookup p = some (.leaf (some a))) ∧
      (∀ p, other.LeafAt p (.leaf none) →
        d'.lookup p = some (.leaf none) ∨
        (∃ e, d.lookup p = some (.dict e) ∧ d'.lookup p = some (.dict e))) ∧
      (∀ p, other.LeafAt p (.dict .nil) →
        (d.lookup p = none ∧ d'.lookup p = some (.dict .nil)) ∨
        (∃ v, d.lookup p = some v ∧ d'.lookup p = some v)) ∧
      (∀ q, (∀ p v, other.LeafAt p v → ¬ Related p q) → d'.lookup q = d.lookup q) := by
  obtain ⟨d', h1, hw, h2, h3⟩ := union_ok true d other hd ho hc (by simp)
  refine ⟨d', h1, hw, ?_, ?_, ?_, h3⟩
  · intro p a hp; exact h2 p _ hp
  · intro p hp
    have := h2 p _ hp
    rcases hl : d.lookup p with _ | (x | e)
    · left; simpa [merged, hl] using this
    · left; simpa [merged, hl] using this
    · right; exact ⟨e, rfl, by simpa [merged, hl] using this⟩
  · intro p hp
    have := h2 p _ hp
    rcases hl : d.lookup p with _ | v
    · left; exact ⟨rfl, by simpa [merged, hl] using this⟩
    · right; exact ⟨v, rfl, by simpa [merged, hl] using this⟩

example : ∀ p v, (Dict.sub "a" (.leaf "c" (some 2) .nil) (.sub "n" (.leaf "m" (some 3) .nil) .nil)).LeafAt p v →
    exampleDict.Clear p := clear_all (by decide) (by decide)

example : exampleDict.union (.sub "a" (.leaf "c" (some 2) .nil) (.sub "n" (.leaf "m" (some 3) .nil) .nil)) true
    = .ok (.sub "a" (.leaf "b" (some 5) (.leaf "c" (some 2) .nil))
        (.sub "n" (.leaf "m" (some 3) .nil) .nil)) := by decide

/-- C02 is false of the code: overriding the scalar `techs.ccgt.cost` by a dictionary
loses `techs.ccgt.name` without an error, although nothing in the other dictionary mentions
it. -/
theorem C02_union_loses_data :
    ∃ (d other d' : Dict Nat) (q : Path), d.WF ∧ other.WF ∧ d.union other true = .ok d' ∧
      (∀ p v, other.LeafAt p v → ¬ Related p q) ∧
      d.lookup q = some (.leaf (some 1)) ∧ d'.lookup q = none := by
  let d : Dict Nat := .sub "techs" (.sub "ccgt" (.leaf "cost" (some 3) (.leaf "name" (some 1) .nil)) .nil) .nil
  let o : Dict Nat := .sub "techs" (.sub "ccgt" (.sub "cost" (.leaf "data" (some 5) .nil) .nil) .nil) .nil
  have ho : o.WF := by simp [o, WF, keys]
  refine ⟨d, o, o, ["techs", "ccgt", "name"], by simp [d, WF, keys], ho, by decide, ?_,
    by decide, by decide⟩
  intro p v hp hr
  have hm : p ∈ o.keysNested := (mem_keysNested o ho p).2 ⟨v, hp⟩
  have : o.keysNested = [["techs", "ccgt", "cost", "data"]] := by decide
  rw [this] at hm
  simp at hm
  subst hm
  simp [Related, List.cons_prefix_cons] at hr

/-- C03, first half (full strength): a leaf key defined in both dictionaries makes the
default union raise. -/
theorem C03_union_raises (d other : Dict α) (hd : d.WF) (ho : other.WF)
    (h : ∃ p v w, d.LeafAt p v ∧ other.LeafAt p w) :
    ∃ e, d.union other false = .error e := by
  obtain ⟨p, v, w, h1, h2⟩ := h
  exact unionLoop_twice _ _ _ _
    ⟨p, (mem_keysNested other ho p).2 ⟨w, h2⟩, (mem_keysNested d hd p).2 ⟨v, h1⟩⟩

example : exampleDict.LeafAt ["a", "b"] (.leaf (some 5)) ∧
    (Dict.sub "a" (.leaf "b" (some 6) .nil) .nil).LeafAt ["a", "b"] (.leaf (some 6)) := by
  refine ⟨⟨by simp, by decide, by simp⟩, ⟨by simp, by decide, by simp⟩⟩

/-- C03, second half, partial: when no leaf of one dictionary lies above or below a leaf of
the other, the default union succeeds and keeps every leaf of both.  Missing: a scalar on one
side at a path that is a dictionary on the other side (`C03_union_silently_loses`). -/
theorem C03_union_keeps_partial (d other : Dict α) (hd : d.WF) (ho : other.WF)
    (hu : ∀ p v q w, d.LeafAt p v → other.LeafAt q w → ¬ Related q p) :
    ∃ d', d.union other false = .ok d' ∧ d'.WF ∧
      (∀ p v, d.LeafAt p v → d'.lookup p = some v) ∧
      (∀ p v, other.LeafAt p v → d'.lookup p = some v) := by
  have hclear : ∀ p v, other.LeafAt p v → d.Clear p := by
    intro p v hp q hq hne ⟨a, ha⟩
    by_cases hq0 : q = []
    · subst hq0; simp at ha
    · exact hu q (.leaf (some a)) p v ⟨hq0, ha, by simp⟩ hp (Or.inr hq)
  obtain ⟨d', h1, hw, h2, h3⟩ := union_ok false d other hd ho hclear (by
    intro _ p v hp ⟨w, hw⟩
    exact hu p w p v hw hp (Or.inl (List.prefix_refl p)))
  refine ⟨d', h1, hw, ?_, ?_⟩
  · intro p v hp
    rw [h3 p (fun q w hq => hu p v q w hp hq)]
    exact hp.2.1
  · intro p v hp
    rw [h2 p v hp]
    have hnone : d.lookup p = none := by
      rcases hl : d.lookup p with _ | w
      · rfl
      · obtain ⟨r, x, hx⟩ := exists_leaf_below d p w hp.1 hl
        exact absurd (Or.inl (by simp)) (hu (p ++ r) x p v hx hp)
    rw [hnone]
    match v, hp with
    | .leaf (some a), _ => rfl
    | .leaf none, _ => rfl
    | .dict e, hp => rw [hp.2.2 e rfl]; rfl

example : ∀ p v q w, exampleDict.LeafAt p v →
    (Dict.sub "a" (.leaf "z" (some 8) .nil) .nil).LeafAt q w → ¬ Related q p := by
  intro p v q w hp hq
  have h1 := (mem_keysNested exampleDict (by decide) p).2 ⟨v, hp⟩
  have h2 := (mem_keysNested (Dict.sub "a" (.leaf "z" (some 8) .nil) .nil) (by decide) q).2 ⟨w, hq⟩
  have : ∀ q ∈ (Dict.sub "a" (.leaf "z" (some 8) .nil) .nil).keysNested,
      ∀ p ∈ exampleDict.keysNested, ¬ Related q p := by decide
  exact this q h2 p h1

example : exampleDict.union (.sub "a" (.leaf "z" (some 8) .nil) .nil) false
    = .ok (.sub "a" (.leaf "b" (some 5) (.leaf "c" (some 1) (.leaf "z" (some 8) .nil)))
        (.leaf "n" none .nil)) := by decide

/-- C03 is false of the code: with the default `allow_override=False`, union with `{"a": 5}`
silently replaces the whole dictionary held under `a`. -/
theorem C03_union_silently_loses :
    ∃ (d other d' : Dict Nat) (p : Path) (v : Val Nat), d.WF ∧ other.WF ∧
      d.union other false = .ok d' ∧ d.LeafAt p v ∧ d'.lookup p = none := by
  refine ⟨.sub "a" (.leaf "b" (some 1) .nil) .nil, .leaf "a" (some 5) .nil,
    .leaf "a" (some 5) .nil, ["a", "b"], .leaf (some 1), by simp [WF, keys], by simp [WF, keys],
    by decide, ⟨by simp, by decide, by simp⟩, by decide⟩

/-- C04: the nested keys are exactly the leaves, pairwise distinct, none a prefix of
another. -/
theorem C04_keys_nested (d : Dict α) (hd : d.WF) :
    (∀ p, p ∈ d.keysNested ↔ ∃ v, d.LeafAt p v) ∧
    d.keysNested.Pairwise (fun p q => ¬ Related p q) ∧ d.keysNested.Nodup := by
  refine ⟨mem_keysNested d hd, keysNested_pairwise d hd, ?_⟩
  refine (keysNested_pairwise d hd).imp ?_
  rintro p q h rfl
  exact h (Or.inl (List.prefix_refl p))

example : exampleDict.WF ∧ exampleDict.keysNested = [["a", "b"], ["a", "c"], ["n"]] := by
  refine ⟨by simp [exampleDict, WF, keys], by decide⟩

/-- C04: `AttrDict(d.as_dict_flat())` is `d` again, including the order of keys; and the flat
view maps each nested key to what `get_key` reads. -/
theorem C04_flat_round_trip (d : Dict α) (hd : d.WF) :
    ∃ items, d.asDictFlat = .ok items ∧ (Dict.nil : Dict α).initFrom items = .ok d ∧
      items.map Prod.fst = d.keysNested ∧ ∀ x ∈ items, d.getKey x.1 = .ok x.2 := by
  refine ⟨d.flat, asDictFlat_eq d hd, ?_, flat_fst d, ?_⟩
  · have := initFrom_flat d .nil hd (by simp [keys])
    simpa [append] using this
  · intro x hx
    exact (getKey_ok_iff _ _ _).2 (flat_lookup d hd x hx)

example : exampleDict.asDictFlat = .ok [(["a", "b"], .leaf (some 5)), (["a", "c"], .leaf (some 1)),
    (["n"], .leaf none)] := by decide

/-- C05: `del_key` succeeds exactly when the key is present; then the key is gone, no empty
dictionary is left on the way to it, and everything unrelated is unchanged. -/
theorem C05_del_key (d : Dict α) (p : Path) (hd : d.WF) (hp : p ≠ []) :
    ((∃ d', d.delKey p = .ok d') ↔ d.lookup p ≠ none) ∧
    (∀ d', d.delKey p = .ok d' →
      d'.WF ∧ d'.lookup p = none ∧
      (∀ q, q <+: p → q ≠ [] → d'.lookup q ≠ some (.dict .nil)) ∧
      (∀ q, ¬ Related p q → d'.lookup q = d.lookup q)) := by
  constructor
  · constructor
    · rintro ⟨d', h⟩ hn
      obtain ⟨e, he⟩ := delKey_absent d p hn
      rw [he] at h; cases h
    · intro h
      rcases hl : d.lookup p with _ | v
      · exact absurd hl h
      · obtain ⟨d', h, _⟩ := delKey_ok d p v hd hp hl
        exact ⟨d', h⟩
  · intro d' h
    rcases hl : d.lookup p with _ | v
    · obtain ⟨e, he⟩ := delKey_absent d p hl
      rw [he] at h; cases h
    · obtain ⟨d1, h1, hw, h2, h3, h4⟩ := delKey_ok d p v hd hp hl
      rw [h1] at h; cases h
      refine ⟨hw, h2, ?_, h4⟩
      intro q hq hq0 hn
      by_cases hqp : q = p
      · subst hqp; rw [h2] at hn; cases hn
      · rcases h3 q hq hqp hq0 with h | ⟨e, he, h⟩
        · rw [h] at hn; cases hn
        · rw [h] at hn; cases hn; exact he rfl

example : (Dict.sub "a" (.sub "b" (.leaf "c" (some 1) .nil) .nil) (.leaf "z" (some 2) .nil)).delKey
    ["a", "b", "c"] = .ok (.leaf "z" (some 2) .nil) := by decide

/-- C06: union with replacement.  Assumptions: `_REPLACE_` is not a top-level key of `other`,
every replaced key exists in `d`, no replaced key lies below another one, and no scalar of
`d` sits above an ordinary leaf of `other`.  Then every replaced key holds exactly the
replacement, every ordinary leaf outside the replaced parts wins, everything unrelated is
unchanged. -/
theorem C06_replace (d other : Dict α) (hd : d.WF) (ho : other.WF)
    (htop : other.get1 wipeKey = none)
    (hclear : ∀ p v, other.LeafAt p v → wipeKey ∉ p → d.Clear p)
    (hpres : ∀ k v, wipeKey ∉ k → other.lookup (k ++ [wipeKey]) = some v → d.lookup k ≠ none)
    (hunrel : ∀ k v k' v', wipeKey ∉ k → wipeKey ∉ k' → other.lookup (k ++ [wipeKey]) = some v →
      other.lookup (k' ++ [wipeKey]) = some v' → k = k' ∨ ¬ Related k k') :
    ∃ d', d.unionReplace other true = .ok d' ∧ d'.WF ∧
      (∀ k v, k ≠ [] → wipeKey ∉ k → other.lookup (k ++ [wipeKey]) = some v →
        d'.lookup k = some v) ∧
      (∀ p a, other.LeafAt p (.leaf (some a)) → wipeKey ∉ p →
        (∀ k v, wipeKey ∉ k → other.lookup (k ++ [wipeKey]) = some v → ¬ Related k p) →
        d'.lookup p = some (.leaf (some a))) ∧
      (∀ q, (∀ p v, other.LeafAt p v → wipeKey ∉ p → ¬ Related p q) →
        (∀ k v, wipeKey ∉ k → other.lookup (k ++ [wipeKey]) = some v → ¬ Related k q) →
        d'.lookup q = d.lookup q) := by
  obtain ⟨d', h1, h2, h3, h4, _, h5, _⟩ := unionReplace_ok d other hd ho htop hclear hpres hunrel
  exact ⟨d', h1, h2, h3, h4, h5⟩

/-- `{"a": {"_REPLACE_": {"q": 4, "r": 6}}, "z": 1}`: the hypotheses of `C06_replace` hold
for it and `exampleDict`. -/
def exampleReplace : Dict Nat :=
  .sub "a" (.sub "_REPLACE_" (.leaf "q" (some 4) (.leaf "r" (some 6) .nil)) .nil)
    (.leaf "z" (some 1) .nil)

theorem exampleReplace_keys (k : Path) (v : Val Nat) (hn : wipeKey ∉ k)
    (h : exampleReplace.lookup (k ++ [wipeKey]) = some v) : k = ["a"] := by
  by_cases hk : k = []
  · subst hk; revert h; simp [exampleReplace, lookup, wipeKey, get1]
  obtain ⟨r, w, hr⟩ := exists_leaf_below exampleReplace _ v (by simp) h
  have hm := (mem_keysNested exampleReplace (by decide) _).2 ⟨w, hr⟩
  have hp := wipePrefix_append k r hk hn
  rw [List.append_assoc] at hm
  have hall : ∀ p ∈ exampleReplace.keysNested, wipePrefix p = ["a"] ∨ wipeKey ∉ p := by decide
  rcases hall _ hm with h' | h'
  · rw [← hp]; exact h'
  · simp at h'

example : ∃ d', exampleDict.unionReplace exampleReplace true = .ok d' ∧
    d'.lookup ["a"] = some (.dict (.leaf "q" (some 4) (.leaf "r" (some 6) .nil))) := by
  obtain ⟨d', h, _, h2, _⟩ := C06_replace exampleDict exampleReplace (by decide) (by decide)
    (by decide) (fun p v hp _ => clear_all (by decide) (by decide) p v hp)
    (fun k v hn h => by rw [exampleReplace_keys k v hn h]; decide)
    (fun k v k' v' hn hn' h h' => by
      left; rw [exampleReplace_keys k v hn h, exampleReplace_keys k' v' hn' h'])
  exact ⟨d', h, h2 ["a"] _ (by simp) (by decide) (by decide)⟩

example : exampleDict.unionReplace
    (.sub "a" (.sub "_REPLACE_" (.leaf "q" (some 4) (.leaf "r" (some 6) .nil)) .nil)
      (.leaf "z" (some 1) .nil)) true
    = .ok (.leaf "n" none (.leaf "z" (some 1)
        (.sub "a" (.leaf "q" (some 4) (.leaf "r" (some 6) .nil)) .nil))) := by decide

end Dict
end Calliope
