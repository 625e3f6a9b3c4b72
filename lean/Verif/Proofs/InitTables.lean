import Verif.Spec.InitTables
import Verif.Proofs.Tables3
import Verif.Proofs.ModelData4
import Verif.Proofs.AttrDict3

/-!
# Definitions from data tables: unions

The union of a dictionary without values with another one, and the union of dictionaries of settings.
-/

namespace Calliope
namespace Dict

variable {α : Type}

/-- A dictionary without values other than `None`. -/
def Bare (s : Dict α) : Prop := ∀ q, ¬ s.ScalarAt q

theorem lookup_below {d : Dict α} {p r : Path} {v : Val α} (h : d.lookup p = some v) :
    d.lookup (p ++ r) = v.lookup r := by
  rw [lookup_append, h]; rfl

theorem vlookup_leaf {a : Option α} {r : Path} (hr : r ≠ []) : (Val.leaf a).lookup r = none := by
  cases r with
  | nil => exact absurd rfl hr
  | cons k ks => rfl

theorem vlookup_nilDict {r : Path} (hr : r ≠ []) : (Val.dict (.nil : Dict α)).lookup r = none :=
  lookup_emptyDict r hr

theorem some_above {d : Dict α} {q r : Path} {w : Val α} (h : d.lookup (q ++ r) = some w) :
    ∃ v, d.lookup q = some v ∧ (r ≠ [] → ∃ e, v = .dict e ∧ e ≠ .nil) := by
  rw [lookup_append] at h
  rcases hq : d.lookup q with _ | v
  · rw [hq] at h; cases h
  · refine ⟨v, rfl, fun hr => ?_⟩
    rw [hq] at h
    change v.lookup r = some w at h
    rcases v with a | e
    · rw [vlookup_leaf hr] at h; cases h
    · refine ⟨e, rfl, ?_⟩
      rintro rfl
      rw [vlookup_nilDict hr] at h; cases h

/-- Below a leaf of `other`, the merged dictionary has what `S` has. -/
theorem merged_below {S D : Dict α} {p r : Path} {v : Val α} (hv : LeafLike v) (hr : r ≠ [])
    (h : D.lookup p = some (merged (S.lookup p) v)) (hns : ∀ a, v ≠ .leaf (some a)) :
    D.lookup (p ++ r) = S.lookup (p ++ r) := by
  rw [lookup_below h]
  rcases v with (_ | a) | e
  · rcases hs : S.lookup p with _ | (b | e)
    · rw [lookup_append, hs]; exact vlookup_leaf hr
    · rw [lookup_append, hs]
      show (Val.leaf none).lookup r = (Val.leaf b).lookup r
      rw [vlookup_leaf hr, vlookup_leaf hr]
    · rw [lookup_append, hs]; rfl
  · exact absurd rfl (hns a)
  · rcases hs : S.lookup p with _ | w
    · rw [lookup_append, hs]; exact vlookup_nilDict hr
    · rw [lookup_append, hs]; rfl

/-- The union of a dictionary without values with another. -/
theorem union_bare (S other : Dict α) (hS : S.Bare) (hw : S.WF) (ho : other.WF) :
    ∃ D, S.union other true = .ok D ∧ D.WF ∧
      (∀ q, D.lookup q ≠ none → S.lookup q ≠ none ∨ other.lookup q ≠ none) ∧
      (∀ q, other.lookup q ≠ none → D.lookup q ≠ none) ∧
      (∀ q, S.lookup q ≠ none → (∀ r, r <+: q → r ≠ q → ¬ other.ScalarAt r) → D.lookup q ≠ none) ∧
      (∀ q a, D.lookup q = some (.leaf (some a)) ↔ other.lookup q = some (.leaf (some a))) ∧
      (∀ q v, S.lookup q = none → (D.LeafAt q v ↔ other.LeafAt q v)) := by
  obtain ⟨D, h1, h2, h3, h4⟩ := union_ok true S other hw ho (fun p v _ q _ _ => hS q) (fun h => by cases h)
  -- for a path, the leaves of `other` on its branch
  have cases' : ∀ q, q ≠ [] → (∀ p v, other.LeafAt p v → ¬ Related p q) ∨
      (∃ r w, r ≠ [] ∧ other.LeafAt (q ++ r) w) ∨ (∃ w, other.LeafAt q w) ∨
      (∃ p r w, r ≠ [] ∧ q = p ++ r ∧ other.LeafAt p w) := by
    intro q hq
    by_cases hc : ∀ p v, other.LeafAt p v → ¬ Related p q
    · exact .inl hc
    · push Not at hc
      obtain ⟨p, v, hl, hr⟩ := hc
      rcases hr with ⟨r, rfl⟩ | ⟨r, rfl⟩
      · by_cases hn : r = []
        · subst hn; exact .inr (.inr (.inl ⟨v, by simpa using hl⟩))
        · exact .inr (.inr (.inr ⟨p, r, v, hn, rfl, hl⟩))
      · by_cases hn : r = []
        · subst hn; exact .inr (.inr (.inl ⟨v, by simpa using hl⟩))
        · exact .inr (.inl ⟨r, v, hn, hl⟩)
  have below : ∀ p r w, r ≠ [] → other.LeafAt p w → D.lookup (p ++ r) ≠ none →
      (∀ a, w ≠ .leaf (some a)) ∧ D.lookup (p ++ r) = S.lookup (p ++ r) := by
    intro p r w hr hl hd
    have hns : ∀ a, w ≠ .leaf (some a) := by
      rintro a rfl
      apply hd
      rw [lookup_below (h3 p _ hl)]
      exact vlookup_leaf hr
    exact ⟨hns, merged_below hl.leafLike hr (h3 p w hl) hns⟩
  refine ⟨D, h1, h2, ?_, ?_, ?_, ?_, ?_⟩
  · intro q hd
    by_cases hq : q = []
    · subst hq; left; simp
    rcases cases' q hq with hc | ⟨r, w, hr, hl⟩ | ⟨w, hl⟩ | ⟨p, r, w, hr, rfl, hl⟩
    · left; rw [← h4 q hc]; exact hd
    · right
      obtain ⟨v, hv, -⟩ := some_above hl.2.1
      rw [hv]; simp
    · right; rw [hl.2.1]; simp
    · left; rw [← (below p r w hr hl hd).2]; exact hd
  · intro q hd
    by_cases hq : q = []
    · subst hq; simp
    rcases hv : other.lookup q with _ | v
    · exact absurd hv hd
    obtain ⟨r, w, hl⟩ := exists_leaf_below other q v hq hv
    obtain ⟨v', hv', -⟩ := some_above (h3 _ _ hl)
    rw [hv']; simp
  · intro q hs hno
    by_cases hq : q = []
    · subst hq; simp
    rcases cases' q hq with hc | ⟨r, w, hr, hl⟩ | ⟨w, hl⟩ | ⟨p, r, w, hr, rfl, hl⟩
    · rw [h4 q hc]; exact hs
    · obtain ⟨v', hv', -⟩ := some_above (h3 _ _ hl)
      rw [hv']; simp
    · rw [h3 _ _ hl]; simp
    · rw [merged_below hl.leafLike hr (h3 p w hl)]
      · exact hs
      · rintro a rfl
        exact hno p (List.prefix_append p r) (by simpa using hr) ⟨a, hl.2.1⟩
  · intro q a
    constructor
    · intro hd
      have hq : q ≠ [] := by rintro rfl; simp at hd
      rcases cases' q hq with hc | ⟨r, w, hr, hl⟩ | ⟨w, hl⟩ | ⟨p, r, w, hr, rfl, hl⟩
      · rw [h4 q hc] at hd; exact absurd ⟨a, hd⟩ (hS q)
      · obtain ⟨v', hv', hx⟩ := some_above (h3 _ _ hl)
        obtain ⟨e, rfl, -⟩ := hx hr
        rw [hv'] at hd; cases hd
      · rw [h3 q w hl] at hd
        rcases w with (_ | b) | e
        · rcases hs : S.lookup q with _ | (b | e)
          · rw [hs] at hd; cases hd
          · rw [hs] at hd; cases hd
          · rw [hs] at hd; cases hd
        · rw [hl.2.1]; exact hd
        · rcases hs : S.lookup q with _ | x
          · rw [hs] at hd; cases hd
          · rw [hs] at hd
            exact absurd ⟨a, hs.trans hd⟩ (hS q)
      · rw [(below p r w hr hl (by rw [hd]; simp)).2] at hd
        exact absurd ⟨a, hd⟩ (hS _)
    · intro ho'
      have hq : q ≠ [] := by rintro rfl; simp at ho'
      exact h3 q _ ⟨hq, ho', by intro e he; cases he⟩
  · intro q v hs
    have hnone : ∀ w : Val α, LeafLike w → merged none w = w := by
      intro w hw'
      rcases w with (_ | b) | e
      · rfl
      · rfl
      · rw [hw' e rfl]; rfl
    constructor
    · rintro ⟨hq, hd, hv⟩
      rcases cases' q hq with hc | ⟨r, w, hr, hl⟩ | ⟨w, hl⟩ | ⟨p, r, w, hr, rfl, hl⟩
      · rw [h4 q hc, hs] at hd; cases hd
      · obtain ⟨v', hv', hx⟩ := some_above (h3 _ _ hl)
        obtain ⟨e, rfl, hne⟩ := hx hr
        rw [hv', Option.some.injEq] at hd
        exact absurd (hv e hd.symm) hne
      · rw [h3 q w hl, hs, hnone w hl.leafLike, Option.some.injEq] at hd
        rw [← hd]; exact hl
      · rw [(below p r w hr hl (by rw [hd]; simp)).2, hs] at hd
        cases hd
    · intro hl
      refine ⟨hl.1, ?_, hl.2.2⟩
      rw [h3 q v hl, hs, hnone v hl.leafLike]

/-! ### Dictionaries of settings -/

/-- All leaves are values two levels down. -/
def Deep2 (d : Dict α) : Prop := ∀ q v, d.LeafAt q v → ∃ t p x, q = [t, p] ∧ v = .leaf (some x)

theorem Deep2.scalar {d : Dict α} (hd : d.Deep2) {q : Path} (h : d.ScalarAt q) : ∃ t p, q = [t, p] := by
  obtain ⟨a, ha⟩ := h
  obtain ⟨t, p, x, rfl, -⟩ := hd q (.leaf (some a)) ⟨by rintro rfl; simp at ha, ha, by intro e he; cases he⟩
  exact ⟨t, p, rfl⟩

theorem related_two {t p t' p' : Key} (h : Related [t, p] [t', p']) : t = t' ∧ p = p' := by
  rcases h with h | h
  · have := h.eq_of_length rfl
    simpa using this
  · have := h.eq_of_length rfl
    simp only [List.cons.injEq, and_true] at this
    exact ⟨this.1.symm, this.2.symm⟩

/-- A union of dictionaries of settings that does not raise. -/
theorem union_deep2 {d s D : Dict α} (hd : d.Deep2) (hdw : d.WF) (hs : s.Deep2) (hsw : s.WF)
    (h : d.union s false = .ok D) :
    D.WF ∧ D.Deep2 ∧
      (∀ t p x, D.lookup [t, p] = some (.leaf (some x)) ↔
        d.lookup [t, p] = some (.leaf (some x)) ∨ s.lookup [t, p] = some (.leaf (some x))) ∧
      (∀ t p, ¬ (d.ScalarAt [t, p] ∧ s.ScalarAt [t, p])) := by
  have leafOf : ∀ {e : Dict α} {t p : Key} {x : α}, e.lookup [t, p] = some (.leaf (some x)) →
      e.LeafAt [t, p] (.leaf (some x)) := fun hx => ⟨by simp, hx, by intro e he; cases he⟩
  have hno : ∀ q v, s.LeafAt q v → ¬ ∃ w, d.LeafAt q w := by
    rintro q v hv ⟨w, hw⟩
    have := unionLoop_twice d.keysNested s s.keysNested d
      ⟨q, (mem_keysNested s hsw q).2 ⟨v, hv⟩, (mem_keysNested d hdw q).2 ⟨w, hw⟩⟩
    obtain ⟨e, he⟩ := this
    have h' : unionLoop false d.keysNested s d s.keysNested = .ok D := h
    rw [he] at h'; cases h'
  obtain ⟨D', h1, h2, h3, h4⟩ := union_ok false d s hdw hsw (by
    intro p v hv q hq hne hsc
    obtain ⟨t, k, rfl⟩ := hd.scalar hsc
    obtain ⟨t', k', x, rfl, -⟩ := hs p v hv
    exact hne (hq.eq_of_length rfl)) (fun _ => hno)
  rw [h1] at h
  cases h
  have at2 : ∀ t p, (∀ v, ¬ s.LeafAt [t, p] v) → D.lookup [t, p] = d.lookup [t, p] := by
    intro t p hc
    apply h4
    intro q v hv hr
    obtain ⟨t', p', x, rfl, -⟩ := hs q v hv
    obtain ⟨rfl, rfl⟩ := related_two hr
    exact hc v hv
  refine ⟨h2, ?_, ?_, ?_⟩
  · rintro q v ⟨hq, hl, hv⟩
    by_cases hc : ∀ p w, s.LeafAt p w → ¬ Related p q
    · rw [h4 q hc] at hl
      exact hd q v ⟨hq, hl, hv⟩
    · push Not at hc
      obtain ⟨p, w, hw, hr⟩ := hc
      obtain ⟨t, k, x, rfl, rfl⟩ := hs p w hw
      have h3' := h3 _ _ hw
      rcases hr with ⟨r, rfl⟩ | ⟨r, hr⟩
      · by_cases hn : r = []
        · subst hn
          rw [List.append_nil] at hl ⊢
          rw [h3'] at hl
          exact ⟨t, k, x, rfl, (Option.some.inj hl).symm⟩
        · rw [lookup_below h3'] at hl
          change (Val.leaf (some x)).lookup r = some v at hl
          rw [vlookup_leaf hn] at hl
          cases hl
      · by_cases hn : r = []
        · subst hn
          rw [List.append_nil] at hr
          subst hr
          rw [h3'] at hl
          exact ⟨t, k, x, rfl, (Option.some.inj hl).symm⟩
        · rw [← hr] at h3'
          obtain ⟨v', hv', hx⟩ := some_above h3'
          obtain ⟨e, rfl, hne⟩ := hx hn
          rw [hv', Option.some.injEq] at hl
          exact absurd (hv e hl.symm) hne
  · intro t p x
    constructor
    · intro hD
      by_cases hc : ∃ v, s.LeafAt [t, p] v
      · obtain ⟨v, hv⟩ := hc
        obtain ⟨_, _, y, -, rfl⟩ := hs _ v hv
        rw [h3 _ _ hv] at hD
        right
        rw [hv.2.1]; exact hD
      · push Not at hc
        left
        rw [← at2 t p hc]; exact hD
    · rintro (hx | hx)
      · rw [at2 t p (fun v hv => hno _ v hv ⟨_, leafOf hx⟩)]; exact hx
      · exact h3 _ _ (leafOf hx)
  · rintro t p ⟨⟨x, hx⟩, ⟨y, hy⟩⟩
    exact hno _ _ (leafOf hy) ⟨_, leafOf hx⟩

end Dict
end Calliope
