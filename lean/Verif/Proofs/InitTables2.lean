import Verif.Proofs.InitTables

/-!
# Definitions from data tables: the dictionaries of a table, and the loops over tables
-/

namespace Calliope
namespace Tables

open Grid ModelData Dict

variable {V : Type}

/-! ### The dictionaries of a table -/

theorem get1_skeleton (ls : List Label) (t : Label) :
    (skeleton ls : Dict (Datum V)).get1 t = if t ∈ ls then some (.dict .nil) else none := by
  induction ls with
  | nil => simp [skeleton, get1]
  | cons l ls ih =>
    simp only [skeleton, get1, ih, List.mem_cons]
    by_cases h : l = t
    · simp [h]
    · have h' : ¬ t = l := fun e => h e.symm
      simp [h, h']

theorem keys_skeleton (ls : List Label) : (skeleton ls : Dict (Datum V)).keys = ls := by
  induction ls with
  | nil => rfl
  | cons l ls ih => simp [skeleton, keys, ih]

theorem wf_skeleton {ls : List Label} (h : ls.Nodup) : (skeleton ls : Dict (Datum V)).WF := by
  induction ls with
  | nil => trivial
  | cons l ls ih =>
    have h' := List.nodup_cons.mp h
    refine ⟨?_, trivial, ih h'.2⟩
    rw [keys_skeleton]; exact h'.1

theorem lookup_skeleton (ls : List Label) (t p : Label) (r : Path) :
    (skeleton ls : Dict (Datum V)).lookup (t :: p :: r) = none := by
  rw [lookup_cons, get1_skeleton]
  by_cases h : t ∈ ls
  · rw [if_pos h]
    exact vlookup_nilDict (by simp)
  · rw [if_neg h]; rfl

theorem bare_skeleton (ls : List Label) : (skeleton ls : Dict (Datum V)).Bare := by
  rintro q ⟨a, ha⟩
  rcases q with _ | ⟨t, _ | ⟨p, r⟩⟩
  · simp at ha
  · rw [lookup_single, get1_skeleton] at ha
    split at ha
    · cases ha
    · cases ha
  · rw [lookup_skeleton] at ha; cases ha

theorem get1_noneDict (ts : List Label) (t : Label) :
    (noneDict ts : Dict (Datum V)).get1 t = if t ∈ ts then some (.leaf none) else none := by
  induction ts with
  | nil => simp [noneDict, get1]
  | cons l ls ih =>
    simp only [noneDict, get1, ih, List.mem_cons]
    by_cases h : l = t
    · simp [h]
    · have h' : ¬ t = l := fun e => h e.symm
      simp [h, h']

theorem keys_noneDict (ls : List Label) : (noneDict ls : Dict (Datum V)).keys = ls := by
  induction ls with
  | nil => rfl
  | cons l ls ih => simp [noneDict, keys, ih]

theorem wf_noneDict {ls : List Label} (h : ls.Nodup) : (noneDict ls : Dict (Datum V)).WF := by
  induction ls with
  | nil => trivial
  | cons l ls ih =>
    have h' := List.nodup_cons.mp h
    refine ⟨?_, ih h'.2⟩
    rw [keys_noneDict]; exact h'.1

theorem techsAt_nodup (ds : DS V) (n : Label) : (techsAt ds n).Nodup :=
  (List.nodup_dedup _).filter _

/-- The dictionary of the nodes of a table. -/
theorem nodeLoop_ok {ds : DS V} {link : Label → Option Bool} : ∀ {ns : List Label} {d : Dict (Datum V)},
    nodeLoop ds link ns = .ok d →
      d.keys = ns ∧
      (∀ n, d.get1 n = if n ∈ ns then some (.dict (.sub "techs" (noneDict (techsAt ds n)) .nil)) else none) ∧
      (∀ n ∈ ns, ∀ t ∈ techsAt ds n, link t = some false) ∧ (ns.Nodup → d.WF)
  | [], d, h => by
      cases h
      exact ⟨rfl, fun n => by simp [get1], by simp, fun _ => trivial⟩
  | n :: ns, d, h => by
      simp only [nodeLoop] at h
      rcases h1 : nodeTechs ds link n with e | ts
      · rw [h1] at h; cases h
      rw [h1] at h
      simp only at h
      rcases h2 : nodeLoop ds link ns with e | d'
      · rw [h2] at h; cases h
      rw [h2] at h
      cases h
      obtain ⟨k, g, l, w⟩ := nodeLoop_ok h2
      obtain ⟨rfl, hl⟩ := nodeTechs_ok.mp h1
      refine ⟨by simp [keys, k], ?_, ?_, ?_⟩
      · intro m
        simp only [get1, g, List.mem_cons]
        by_cases hm : n = m
        · simp [hm]
        · have hm' : ¬ m = n := fun e => hm e.symm
          simp [hm, hm']
      · intro m hm
        rcases List.mem_cons.mp hm with rfl | hm
        · exact hl
        · exact l m hm
      · intro hn
        have h' := List.nodup_cons.mp hn
        refine ⟨?_, ⟨?_, wf_noneDict (techsAt_nodup ds n), trivial⟩, w h'.2⟩
        · rw [k]; exact h'.1
        · simp [keys]

/-- A table puts a technology at a node. -/
theorem mem_techsAt {ds : DS V} {n t : Label} (hn : ("nodes", n) ∈ ds.coords) :
    t ∈ techsAt ds n ↔ PutsAt ds n t := by
  unfold techsAt PutsAt
  rw [List.mem_filter, List.mem_dedup, mem_labelsOf, List.any_eq_true]
  constructor
  · rintro ⟨ht, ⟨p, a⟩, hx, hb⟩
    simp only [Bool.and_eq_true, List.contains_eq_mem, decide_eq_true_eq] at hb
    obtain ⟨σ, hσ, hat⟩ := (Clean.anyCell_iff' _ _).mp hb.2
    have hat' : (a.at σ).isSome = true := hat
    obtain ⟨v, hv⟩ := Option.isSome_iff_exists.mp hat'
    have h1 := hσ "nodes" hb.1.1
    have h2 := hσ "techs" hb.1.2
    simp only [if_true, List.mem_singleton] at h1
    rw [if_neg (by decide)] at h2
    simp only [if_true, List.mem_singleton] at h2
    refine ⟨p, a, σ, v, hx, hb.1.1, hb.1.2, ?_, h1, h2, hv⟩
    intro d hd
    have := hσ d hd
    by_cases e1 : d = "nodes"
    · subst e1; rw [h1]; exact hn
    · rw [if_neg e1] at this
      by_cases e2 : d = "techs"
      · subst e2; rw [h2]; exact ht
      · rw [if_neg e2, mem_labelsOf] at this; exact this
  · rintro ⟨p, a, ρ, v, hx, d1, d2, hρ, e1, e2, hv⟩
    refine ⟨e2 ▸ hρ "techs" d2, (p, a), hx, ?_⟩
    simp only [Bool.and_eq_true, List.contains_eq_mem, decide_eq_true_eq]
    refine ⟨⟨d1, d2⟩, (Clean.anyCell_iff' _ _).mpr ⟨ρ, ?_, ?_⟩⟩
    · intro d hd
      by_cases h1 : d = "nodes"
      · subst h1; rw [if_pos rfl]; simp [e1]
      · rw [if_neg h1]
        by_cases h2 : d = "techs"
        · subst h2; rw [if_pos rfl]; simp [e2]
        · rw [if_neg h2, mem_labelsOf]; exact hρ d hd
    · show (a.at ρ).isSome = true
      rw [hv]; rfl

/-- `node_dict` of a table. -/
theorem nodeDict_ok {ds : DS V} {link : Label → Option Bool} {d : Dict (Datum V)} (h : nodeDict ds link = .ok d) :
    d.WF ∧ d.Bare ∧ (∀ n t, d.lookup [n, "techs", t] ≠ none ↔ PutsAt ds n t) ∧
      (∀ n t, PutsAt ds n t → link t = some false) ∧
      (∀ q, d.lookup q ≠ none → q = [] ∨ (∃ n, q = [n]) ∨ (∃ n, q = [n, "techs"]) ∨ ∃ n t, q = [n, "techs", t]) ∧
      (∀ n, d.lookup [n] ≠ none →
        ("nodes", n) ∈ ds.coords ∧ ∃ x ∈ ds.vars, "nodes" ∈ x.2.dims ∧ "techs" ∈ x.2.dims) := by
  unfold nodeDict at h
  split at h
  · rename_i hv
    obtain ⟨-, g, l, w⟩ := nodeLoop_ok h
    have look : ∀ n p r, d.lookup (n :: p :: r) =
        if n ∈ (labelsOf ds.coords "nodes").dedup ∧ p = "techs" then
          (noneDict (techsAt ds n) : Dict (Datum V)).lookup r else none := by
      intro n p r
      rw [lookup_cons, g]
      by_cases hn : n ∈ (labelsOf ds.coords "nodes").dedup
      · rw [if_pos hn]
        show (Dict.sub "techs" (noneDict (techsAt ds n)) .nil : Dict (Datum V)).lookup (p :: r) = _
        rw [lookup_cons]
        simp only [get1]
        by_cases hp : p = "techs"
        · subst hp; rw [if_pos rfl, if_pos ⟨hn, rfl⟩]; rfl
        · rw [if_neg (fun e => hp e.symm), if_neg (fun e => hp e.2)]; rfl
      · rw [if_neg hn, if_neg (fun e => hn e.1)]; rfl
    have nd : ∀ ts (t : Label) (r : Path), (noneDict ts : Dict (Datum V)).lookup (t :: r) =
        if t ∈ ts ∧ r = [] then some (.leaf none) else none := by
      intro ts t r
      rw [lookup_cons, get1_noneDict]
      by_cases ht : t ∈ ts
      · rw [if_pos ht]
        by_cases hr : r = []
        · subst hr; rw [if_pos ⟨ht, rfl⟩]; rfl
        · rw [if_neg (fun e => hr e.2)]; exact vlookup_leaf hr
      · rw [if_neg ht, if_neg (fun e => ht e.1)]; rfl
    have hmem : ∀ n, n ∈ (labelsOf ds.coords "nodes").dedup ↔ ("nodes", n) ∈ ds.coords := by
      intro n; rw [List.mem_dedup, mem_labelsOf]
    have puts_node : ∀ n t, PutsAt ds n t → ("nodes", n) ∈ ds.coords := by
      rintro n t ⟨p, a, ρ, v, -, d1, -, hρ, rfl, -⟩
      exact hρ _ d1
    refine ⟨w (List.nodup_dedup _), ?_, ?_, ?_, ?_, ?_⟩
    · rintro q ⟨a, ha⟩
      rcases q with _ | ⟨n, _ | ⟨p, _ | ⟨t, r⟩⟩⟩
      · simp at ha
      · rw [lookup_single, g] at ha
        split at ha <;> cases ha
      · rw [look] at ha
        split at ha
        · simp at ha
        · cases ha
      · rw [look, nd] at ha
        split at ha
        · split at ha <;> cases ha
        · cases ha
    · intro n t
      rw [look, nd]
      constructor
      · intro hne
        split at hne
        · rename_i hc
          split at hne
          · rename_i ht
            exact (mem_techsAt ((hmem n).mp hc.1)).mp ht.1
          · exact absurd rfl hne
        · exact absurd rfl hne
      · intro hp
        have hn := puts_node n t hp
        rw [if_pos ⟨(hmem n).mpr hn, rfl⟩, if_pos ⟨(mem_techsAt hn).mpr hp, rfl⟩]
        simp
    · intro n t hp
      have hn := puts_node n t hp
      exact l n ((hmem n).mpr hn) t ((mem_techsAt hn).mpr hp)
    · intro q hne
      rcases q with _ | ⟨n, _ | ⟨p, _ | ⟨t, r⟩⟩⟩
      · exact .inl rfl
      · exact .inr (.inl ⟨n, rfl⟩)
      · rw [look] at hne
        split at hne
        · rename_i hc
          exact .inr (.inr (.inl ⟨n, by rw [hc.2]⟩))
        · exact absurd rfl hne
      · rw [look, nd] at hne
        split at hne
        · rename_i hc
          split at hne
          · rename_i ht
            exact .inr (.inr (.inr ⟨n, t, by rw [hc.2, ht.2]⟩))
          · exact absurd rfl hne
        · exact absurd rfl hne
    · intro n hne
      rw [lookup_single, g] at hne
      split at hne
      · rename_i hn
        refine ⟨(hmem n).mp hn, ?_⟩
        rw [List.any_eq_true] at hv
        obtain ⟨x, hx, hb⟩ := hv
        simp only [Bool.and_eq_true, List.contains_eq_mem, decide_eq_true_eq] at hb
        exact ⟨x, hx, hb⟩
      · exact absurd rfl hne
  · rename_i hv
    cases h
    have hno : ∀ n t, ¬ PutsAt ds n t := by
      rintro n t ⟨p, a, ρ, v, hx, d1, d2, -⟩
      apply hv
      rw [List.any_eq_true]
      exact ⟨(p, a), hx, by simp [d1, d2]⟩
    refine ⟨trivial, ?_, ?_, ?_, ?_, ?_⟩
    · rintro q ⟨a, ha⟩
      rcases q with _ | ⟨n, r⟩
      · simp at ha
      · rw [lookup_emptyDict _ (by simp)] at ha; cases ha
    · intro n t
      rw [lookup_emptyDict _ (by simp)]
      exact ⟨fun h => absurd rfl h, fun h => absurd h (hno n t)⟩
    · intro n t h; exact absurd h (hno n t)
    · intro q hne
      rcases q with _ | ⟨n, r⟩
      · exact .inl rfl
      · rw [lookup_emptyDict _ (by simp)] at hne; exact absurd rfl hne
    · intro n hne
      rw [lookup_emptyDict _ (by simp)] at hne; exact absurd rfl hne

/-! ### Settings -/

theorem get1_settingDict (p : String) (g : Label → Option (Datum V)) (ls : List Label) (t : Label) :
    (settingDict p g ls).get1 t =
      if t ∈ ls then (g t).map (fun x => .dict (.leaf p (some x) .nil)) else none := by
  induction ls with
  | nil => simp [settingDict, get1]
  | cons l ls ih =>
    simp only [settingDict, List.mem_cons]
    rcases hg : g l with _ | x
    · simp only [ih]
      by_cases h : t = l
      · subst h; simp [hg]
      · simp [h]
    · simp only [get1, ih]
      by_cases h : l = t
      · subst h; simp [hg]
      · have h' : ¬ t = l := fun e => h e.symm
        simp [h, h']

theorem keys_settingDict (p : String) (g : Label → Option (Datum V)) (ls : List Label) :
    ∀ k ∈ (settingDict p g ls).keys, k ∈ ls := by
  induction ls with
  | nil => simp [settingDict, keys]
  | cons l ls ih =>
    intro k hk
    simp only [settingDict] at hk
    rcases hg : g l with _ | x
    · rw [hg] at hk
      exact List.mem_cons_of_mem _ (ih k hk)
    · rw [hg] at hk
      simp only [keys, List.mem_cons] at hk
      rcases hk with rfl | hk
      · simp
      · exact List.mem_cons_of_mem _ (ih k hk)

theorem wf_settingDict (p : String) (g : Label → Option (Datum V)) {ls : List Label} (h : ls.Nodup) :
    (settingDict p g ls).WF := by
  induction ls with
  | nil => trivial
  | cons l ls ih =>
    have h' := List.nodup_cons.mp h
    simp only [settingDict]
    rcases hg : g l with _ | x
    · exact ih h'.2
    · exact ⟨fun hk => h'.1 (keys_settingDict p g ls l hk), ⟨by simp [keys], trivial⟩, ih h'.2⟩

theorem lookup_settingDict (p : String) (g : Label → Option (Datum V)) (ls : List Label) (t q : Label) (x : Datum V) :
    (settingDict p g ls).lookup [t, q] = some (.leaf (some x)) ↔ q = p ∧ t ∈ ls ∧ g t = some x := by
  rw [lookup_cons, get1_settingDict]
  by_cases ht : t ∈ ls
  · rw [if_pos ht]
    rcases hg : g t with _ | y
    · simp
    · show (Dict.leaf p (some y) .nil : Dict (Datum V)).lookup [q] = _ ↔ _
      rw [lookup_single]
      simp only [get1]
      by_cases hp : p = q
      · subst hp; simp [ht]
      · have hp' : ¬ q = p := fun e => hp e.symm
        simp [hp, hp']
  · rw [if_neg ht]; simp [ht]

theorem deep2_settingDict (p : String) (g : Label → Option (Datum V)) (ls : List Label) :
    (settingDict p g ls).Deep2 := by
  rintro q v ⟨hq, hl, hv⟩
  rcases q with _ | ⟨t, r⟩
  · exact absurd rfl hq
  rw [lookup_cons, get1_settingDict] at hl
  split at hl
  · rcases hg : g t with _ | x
    · rw [hg] at hl; cases hl
    · rw [hg] at hl
      change (Dict.leaf p (some x) .nil : Dict (Datum V)).lookup r = some v at hl
      rcases r with _ | ⟨k, r⟩
      · rw [lookup_nil, Option.some.injEq] at hl
        have := hv _ hl.symm
        cases this
      · rw [lookup_cons] at hl
        simp only [get1] at hl
        split at hl
        · rcases r with _ | ⟨k', r⟩
          · exact ⟨t, k, x, rfl, by simpa using hl.symm⟩
          · change (Val.leaf (some x)).lookup (k' :: r) = some v at hl
            rw [vlookup_leaf (by simp)] at hl; cases hl
        · cases hl
  · cases hl

theorem deep2_nil : (Dict.nil : Dict (Datum V)).Deep2 := by
  rintro q v ⟨hq, hl, -⟩
  rw [lookup_emptyDict _ hq] at hl; cases hl

/-! ### The loops -/

/-- The loop of definitions. -/
theorem initDefs_ok {f : DS V → Except Err (Dict (Datum V))}
    (hf : ∀ ds s, f ds = .ok s → s.Bare ∧ s.WF) : ∀ {tables : List (DS V)} {d D : Dict (Datum V)}, d.WF →
    initDefs f tables d = .ok D →
      D.WF ∧ (∀ ds ∈ tables, ∃ s, f ds = .ok s) ∧
      (∀ q, D.lookup q ≠ none → d.lookup q ≠ none ∨ ∃ ds ∈ tables, ∃ s, f ds = .ok s ∧ s.lookup q ≠ none) ∧
      (∀ q, d.lookup q ≠ none → D.lookup q ≠ none) ∧
      (∀ ds ∈ tables, ∀ s, f ds = .ok s → ∀ q, s.lookup q ≠ none →
        (∀ r, r <+: q → r ≠ q → ¬ d.ScalarAt r) → D.lookup q ≠ none) ∧
      (∀ q a, D.lookup q = some (.leaf (some a)) ↔ d.lookup q = some (.leaf (some a))) ∧
      (∀ q v, (∀ ds ∈ tables, ∀ s, f ds = .ok s → s.lookup q = none) → (D.LeafAt q v ↔ d.LeafAt q v))
  | [], d, D, hd, h => by
      cases h
      exact ⟨hd, by simp, fun q hq => .inl hq, fun q hq => hq, by simp, fun _ _ => Iff.rfl, fun _ _ _ => Iff.rfl⟩
  | ds :: rest, d, D, hd, h => by
      simp only [initDefs] at h
      rcases h1 : f ds with e | s
      · rw [h1] at h; cases h
      rw [h1] at h
      simp only at h
      obtain ⟨hb, hw⟩ := hf ds s h1
      obtain ⟨d', u1, u2, u3, u4, u5, u6, u7⟩ := union_bare s d hb hw hd
      rw [u1] at h
      simp only at h
      obtain ⟨i1, i2, i3, i4, i5, i6, i7⟩ := initDefs_ok hf u2 h
      refine ⟨i1, ?_, ?_, ?_, ?_, ?_, ?_⟩
      · intro x hx
        rcases List.mem_cons.mp hx with rfl | hx
        · exact ⟨s, h1⟩
        · exact i2 x hx
      · intro q hq
        rcases i3 q hq with hq | ⟨x, hx, y, hy, hq⟩
        · rcases u3 q hq with hq | hq
          · exact .inr ⟨ds, by simp, s, h1, hq⟩
          · exact .inl hq
        · exact .inr ⟨x, by simp [hx], y, hy, hq⟩
      · intro q hq
        exact i4 q (u4 q hq)
      · intro x hx y hy q hq hno
        rcases List.mem_cons.mp hx with rfl | hx
        · rw [h1] at hy; cases hy
          exact i4 q (u5 q hq hno)
        · refine i5 x hx y hy q hq (fun r hr hne hsc => ?_)
          obtain ⟨a, ha⟩ := hsc
          exact hno r hr hne ⟨a, (u6 r a).mp ha⟩
      · intro q a
        rw [i6 q a, u6 q a]
      · intro q v hno
        rw [i7 q v (fun x hx => hno x (by simp [hx])), u7 q v (hno ds (by simp) s h1)]

/-- Has a value at `[t, p]`. -/
def HasAt (t p : Key) : Except Err (Dict (Datum V)) → Prop
  | .error _ => False
  | .ok s => s.ScalarAt [t, p]

/-- The loop of settings. -/
theorem collect_ok : ∀ {l : List (Except Err (Dict (Datum V)))} {d D : Dict (Datum V)},
    (∀ s, .ok s ∈ l → s.Deep2 ∧ s.WF) → d.Deep2 → d.WF → collect l d = .ok D →
      D.Deep2 ∧ D.WF ∧ (∀ x ∈ l, ∃ s, x = .ok s) ∧
      (∀ t p x, D.lookup [t, p] = some (.leaf (some x)) ↔
        d.lookup [t, p] = some (.leaf (some x)) ∨ ∃ s, .ok s ∈ l ∧ s.lookup [t, p] = some (.leaf (some x))) ∧
      l.Pairwise (fun a b => ∀ t p, ¬ (HasAt t p a ∧ HasAt t p b)) ∧
      (∀ t p, d.ScalarAt [t, p] → ∀ x ∈ l, ¬ HasAt t p x)
  | [], d, D, _, h1, h2, h => by
      cases h
      exact ⟨h1, h2, by simp, by simp, .nil, by simp⟩
  | .error e :: l, d, D, _, _, _, h => by cases h
  | .ok s :: l, d, D, hl, h1, h2, h => by
      simp only [collect] at h
      rcases hu : d.union s false with e | d'
      · rw [hu] at h; cases h
      rw [hu] at h
      simp only at h
      obtain ⟨s1, s2⟩ := hl s (by simp)
      obtain ⟨u1, u2, u3, u4⟩ := union_deep2 h1 h2 s1 s2 hu
      obtain ⟨i1, i2, i3, i4, i5, i6⟩ := collect_ok (fun x hx => hl x (by simp [hx])) u2 u1 h
      refine ⟨i1, i2, ?_, ?_, ?_, ?_⟩
      · intro x hx
        rcases List.mem_cons.mp hx with rfl | hx
        · exact ⟨s, rfl⟩
        · exact i3 x hx
      · intro t p x
        rw [i4 t p x, u3 t p x, or_assoc]
        refine or_congr Iff.rfl ⟨?_, ?_⟩
        · rintro (hx | ⟨y, hy, hx⟩)
          · exact ⟨s, by simp, hx⟩
          · exact ⟨y, by simp [hy], hx⟩
        · rintro ⟨y, hy, hx⟩
          rcases List.mem_cons.mp hy with hy | hy
          · cases hy; exact .inl hx
          · exact .inr ⟨y, hy, hx⟩
      · refine List.Pairwise.cons ?_ i5
        rintro b hb t p ⟨⟨x, hx⟩, hb'⟩
        exact i6 t p ⟨x, (u3 t p x).mpr (.inr hx)⟩ b hb hb'
      · rintro t p ⟨x, hx⟩ b hb hb'
        rcases List.mem_cons.mp hb with rfl | hb
        · exact u4 t p ⟨⟨x, hx⟩, hb'⟩
        · exact i6 t p ⟨x, (u3 t p x).mpr (.inl hx)⟩ b hb hb'

end Tables
end Calliope
