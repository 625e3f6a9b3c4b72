import Verif.Proofs.ModelData4

namespace Calliope
namespace ModelData

open Grid Dict

variable {V : Type}

/-! ### Clashes -/

theorem setKey_other {d d' : Def V} {k : Key} {ks : Path} {v : Val (Datum V)} (h : d.setKey (k :: ks) v = .ok d')
    {p : Key} (hp : p ≠ k) : d'.get1 p = d.get1 p := by
  cases ks with
  | nil =>
    simp only [setKey] at h
    rcases v with a | e
    · simp only [setKey1, Except.ok.injEq] at h
      subst h
      rw [get1_put1, if_neg hp]
    · simp only [setKey1] at h
      rcases hg : d.get1 k with _ | (a | u)
      · rw [hg] at h
        simp only [Except.ok.injEq] at h
        subst h
        rw [get1_put1, if_neg hp]
      · rw [hg] at h
        simp only [] at h
        split at h
        · simp only [Except.ok.injEq] at h
          subst h; rfl
        · cases h
      · rw [hg] at h
        simp only [] at h
        split at h
        · simp only [Except.ok.injEq] at h
          subst h
          rw [get1_put1, if_neg hp]
        · cases h
  | cons k2 ks =>
    simp only [setKey] at h
    have hfresh : (match (Dict.nil : Dict (Datum V)).setKey (k2 :: ks) v with
        | .ok e => Except.ok (d.put1 k (.dict e))
        | .error e => .error e) = .ok d' → d'.get1 p = d.get1 p := by
      intro hx
      rcases hy : (Dict.nil : Dict (Datum V)).setKey (k2 :: ks) v with e | e
      · rw [hy] at hx; cases hx
      · rw [hy] at hx
        simp only [Except.ok.injEq] at hx
        subst hx
        rw [get1_put1, if_neg hp]
    rcases hg : d.get1 k with _ | ((_ | a) | u)
    · rw [hg] at h
      apply hfresh
      rw [← h]
      cases (Dict.nil : Dict (Datum V)).setKey (k2 :: ks) v <;> rfl
    · rw [hg] at h
      apply hfresh
      rw [← h]
      cases (Dict.nil : Dict (Datum V)).setKey (k2 :: ks) v <;> rfl
    · rw [hg] at h; cases h
    · rw [hg] at h
      simp only [] at h
      rcases hs : u.setKey (k2 :: ks) v with e | u'
      · rw [hs] at h
        cases e
        case keyError =>
          apply hfresh
          rw [← h]
          cases (Dict.nil : Dict (Datum V)).setKey (k2 :: ks) v <;> rfl
        all_goals cases h
      · rw [hs] at h
        simp only [Except.ok.injEq] at h
        subst h
        rw [get1_put1, if_neg hp]

theorem unionLoop_clash (sk : List Path) (o : Def V) (k : Key) (a : Datum V) :
    ∀ (ps : List Path) (self u : Def V), (∀ q ∈ ps, q ≠ [] ∧ (q.head? = some k → 2 ≤ q.length)) →
      (∃ q ∈ ps, q.head? = some k) → (∀ q ∈ ps, ∃ w, o.getKey q = .ok w ∧ w.isDict = false ∨
        q.head? ≠ some k ∧ o.getKey q = .ok w) →
      self.get1 k = some (.leaf (some a)) → unionLoop true sk o self ps ≠ .ok u
  | [], _, _, _, h, _, _ => by obtain ⟨q, hq, _⟩ := h; cases hq
  | q :: ps, self, u, h1, h2, h3, hk => by
      intro h
      simp only [unionLoop, unionStep, Bool.not_true, Bool.false_and, Bool.false_eq_true, if_false] at h
      obtain ⟨hq0, hq2⟩ := h1 q (by simp)
      rcases q with _ | ⟨j, js⟩
      · exact hq0 rfl
      by_cases hj : j = k
      · subst hj
        have hlen := hq2 rfl
        rcases js with _ | ⟨j2, js⟩
        · simp at hlen
        obtain ⟨w, hw⟩ := h3 (j :: j2 :: js) (by simp)
        have hw' : o.getKey (j :: j2 :: js) = .ok w := by
          rcases hw with hw | hw
          · exact hw.1
          · exact hw.2
        rw [hw'] at h
        have hd : (self.getKeyD (j :: j2 :: js) (.leaf none)).isDict = false := by
          simp [getKeyD, hk, Val.isDict]
        have hset : self.setKey (j :: j2 :: js) w = .error .keyError := by
          simp [setKey, hk]
        simp [hd, hset] at h
      · have hrec : ∀ s, s.get1 k = self.get1 k → unionLoop true sk o s ps ≠ .ok u := by
          intro s hs
          apply unionLoop_clash sk o k a ps s u (fun q hq => h1 q (by simp [hq])) ?_ (fun q hq => h3 q (by simp [hq]))
            (by rw [hs]; exact hk)
          obtain ⟨q, hq, hqk⟩ := h2
          rcases List.mem_cons.1 hq with rfl | hq
          · simp only [List.head?_cons, Option.some.injEq] at hqk
            exact absurd hqk hj
          · exact ⟨q, hq, hqk⟩
        rcases hg : o.getKey (j :: js) with e | w
        · rw [hg] at h; cases h
        rw [hg] at h
        simp only [] at h
        split at h
        · rename_i hss
          split at hss
          · cases hss
          · cases h
        · rename_i s hss
          split at hss
          · simp only [Except.ok.injEq] at hss
            subst hss
            exact hrec self rfl h
          · exact hrec s (setKey_other hss (fun e => hj e.symm)) h

/-- Indexed data over a single value. -/
theorem union_clash {b d : Def V} (hd : d.WF) (hf : Flat d) {k : Key} {a : Datum V} {s : Def V}
    (hb : b.get1 k = some (.leaf (some a))) (hk : d.get1 k = some (.dict s)) (hs : s ≠ .nil) (u : Def V) :
    b.union d true ≠ .ok u := by
  apply unionLoop_clash _ d k a
  · intro q hq
    refine ⟨keysNested_ne_nil d q hq, fun hh => ?_⟩
    obtain ⟨v, hv⟩ := (mem_keysNested d hd q).1 hq
    rcases q with _ | ⟨j, js⟩
    · cases hh
    · simp only [List.head?_cons, Option.some.injEq] at hh
      subst hh
      rcases js with _ | ⟨j2, js⟩
      · exfalso
        have h1 := hv.2.1
        rw [lookup_single, hk] at h1
        simp only [Option.some.injEq] at h1
        exact hs (hv.2.2 s h1.symm)
      · simp
  · obtain ⟨r, v, hr⟩ := exists_leaf_below_dict s hs
    refine ⟨k :: r, (mem_keysNested d hd _).2 ⟨v, by simp, ?_, hr.2.2⟩, rfl⟩
    rw [lookup_cons, hk]
    exact hr.2.1
  · intro q hq
    obtain ⟨v, hv⟩ := (mem_keysNested d hd q).1 hq
    have hg : d.getKey q = .ok v := (getKey_ok_iff d q v).2 ⟨hv.1, hv.2.1⟩
    by_cases hh : q.head? = some k
    · refine ⟨v, .inl ⟨hg, ?_⟩⟩
      rcases q with _ | ⟨j, js⟩
      · cases hh
      · simp only [List.head?_cons, Option.some.injEq] at hh
        subst hh
        have h1 := hv.2.1
        rw [lookup_cons, hk] at h1
        rcases js with _ | ⟨j2, js⟩
        · exfalso
          have h1 := hv.2.1
          rw [lookup_single, hk] at h1
          simp only [Option.some.injEq] at h1
          exact hs (hv.2.2 s h1.symm)
        · have h1 : Dict.lookup s (j2 :: js) = some v := h1
          rw [lookup_cons] at h1
          rcases hs2 : s.get1 j2 with _ | w
          · rw [hs2] at h1; cases h1
          · obtain ⟨a', rfl⟩ := hf _ s hk j2 w hs2
            rw [hs2] at h1
            rcases js with _ | ⟨j3, js⟩
            · have h1 : some (Val.leaf a') = some v := h1
              cases h1; rfl
            · have h1 : (none : Option (Val (Datum V))) = some v := h1
              cases h1
    · exact ⟨v, .inr ⟨hh, hg⟩⟩
  · exact hb

/-! ### Erasing inactive items -/

theorem items_del1 {d : Dict (Datum V)} {k : Key} {v : Val (Datum V)} (h : d.get1 k = some v) :
    ∃ l1 l2, items d = l1 ++ (k, v) :: l2 ∧ items (d.del1 k) = l1 ++ l2 := by
  induction d with
  | nil => cases h
  | leaf j a r ih =>
    simp only [get1] at h
    simp only [items, del1]
    by_cases hj : j = k
    · subst hj
      simp only [if_true, Option.some.injEq] at h
      subst h
      exact ⟨[], items r, by simp, by simp⟩
    · rw [if_neg hj] at h
      obtain ⟨l1, l2, h1, h2⟩ := ih h
      exact ⟨(j, .leaf a) :: l1, l2, by simp [h1], by simp [hj, items, h2]⟩
  | sub j a r _ ih =>
    simp only [get1] at h
    simp only [items, del1]
    by_cases hj : j = k
    · subst hj
      simp only [if_true, Option.some.injEq] at h
      subst h
      exact ⟨[], items r, by simp, by simp⟩
    · rw [if_neg hj] at h
      obtain ⟨l1, l2, h1, h2⟩ := ih h
      exact ⟨(j, .dict a) :: l1, l2, by simp [h1], by simp [hj, items, h2]⟩

theorem items_put1 {d : Dict (Datum V)} {k : Key} {v w : Val (Datum V)} (h : d.get1 k = some v) :
    ∃ l1 l2, items d = l1 ++ (k, v) :: l2 ∧ items (d.put1 k w) = l1 ++ (k, w) :: l2 := by
  induction d with
  | nil => cases h
  | leaf j a r ih =>
    simp only [get1] at h
    simp only [items, put1]
    by_cases hj : j = k
    · subst hj
      simp only [if_true, Option.some.injEq] at h
      subst h
      refine ⟨[], items r, by simp, ?_⟩
      rcases w with w | w <;> simp [items]
    · rw [if_neg hj] at h
      obtain ⟨l1, l2, h1, h2⟩ := ih h
      exact ⟨(j, .leaf a) :: l1, l2, by simp [h1], by simp [hj, items, h2]⟩
  | sub j a r _ ih =>
    simp only [get1] at h
    simp only [items, put1]
    by_cases hj : j = k
    · subst hj
      simp only [if_true, Option.some.injEq] at h
      subst h
      refine ⟨[], items r, by simp, ?_⟩
      rcases w with w | w <;> simp [items]
    · rw [if_neg hj] at h
      obtain ⟨l1, l2, h1, h2⟩ := ih h
      exact ⟨(j, .dict a) :: l1, l2, by simp [h1], by simp [hj, items, h2]⟩

/-- An inactive item only adds its name to the inactive ones. -/
theorem inheritLoop_erase {ctx : Ctx V} {f : Key → Val (Datum V) → Except Err (Def V)} {k : Key}
    {v : Val (Datum V)} {d : Def V} (hf : f k v = .ok d) (ha : active ctx d = false)
    (l2 : List (Key × Val (Datum V))) : ∀ (l1 : List (Key × Val (Datum V))),
      match inheritLoop ctx f (l1 ++ l2) with
      | .error e => inheritLoop ctx f (l1 ++ (k, v) :: l2) = .error e
      | .ok (on, off) => ∃ o1 o2, off = o1 ++ o2 ∧
          inheritLoop ctx f (l1 ++ (k, v) :: l2) = .ok (on, o1 ++ k :: o2)
  | [] => by
      simp only [List.nil_append, inheritLoop, hf]
      rcases inheritLoop ctx f l2 with e | ⟨on, off⟩
      · rfl
      · exact ⟨[], off, rfl, by simp [ha]⟩
  | (j, w) :: l1 => by
      have ih := inheritLoop_erase hf ha l2 l1
      simp only [List.cons_append, inheritLoop]
      rcases hj : f j w with e | d'
      · simp only []
      · simp only []
        rcases hl : inheritLoop ctx f (l1 ++ l2) with e | ⟨on, off⟩
        · rw [hl] at ih
          simp only [] at ih
          rw [ih]
        · rw [hl] at ih
          simp only [] at ih
          obtain ⟨o1, o2, ho, hr⟩ := ih
          rw [hr]
          by_cases hd : active ctx d' = true
          · simp only [if_pos hd]
            exact ⟨o1, o2, ho, rfl⟩
          · simp only [if_neg hd]
            exact ⟨j :: o1, o2, by simp [ho], by simp⟩

/-- A replaced item with the same definition changes nothing. -/
theorem inheritLoop_map {ctx : Ctx V} {f : Key → Val (Datum V) → Except Err (Def V)} {k : Key}
    {v w : Val (Datum V)} {d e : Def V} (hv : f k v = .ok d) (hw : f k w = .ok e) (ha : active ctx d = active ctx e)
    (l2 : List (Key × Val (Datum V))) : ∀ (l1 : List (Key × Val (Datum V))),
      match inheritLoop ctx f (l1 ++ (k, v) :: l2) with
      | .error x => inheritLoop ctx f (l1 ++ (k, w) :: l2) = .error x
      | .ok (on, off) =>
          (active ctx d = true ∧ ∃ a b, on = a ++ (k, d) :: b ∧
            inheritLoop ctx f (l1 ++ (k, w) :: l2) = .ok (a ++ (k, e) :: b, off)) ∨
          (active ctx d = false ∧ inheritLoop ctx f (l1 ++ (k, w) :: l2) = .ok (on, off))
  | [] => by
      simp only [List.nil_append, inheritLoop, hv, hw]
      rcases inheritLoop ctx f l2 with x | ⟨on, off⟩
      · rfl
      · by_cases hd : active ctx d = true
        · simp only [if_pos hd]
          refine .inl ⟨hd, [], on, rfl, ?_⟩
          rw [← ha, hd]; rfl
        · simp only [if_neg hd]
          have hd' : active ctx d = false := by simpa using hd
          refine .inr ⟨hd', ?_⟩
          rw [← ha, hd']; rfl
  | (j, x) :: l1 => by
      have ih := inheritLoop_map hv hw ha l2 l1
      simp only [List.cons_append, inheritLoop]
      rcases hj : f j x with y | d'
      · simp only []
      · simp only []
        rcases hl : inheritLoop ctx f (l1 ++ (k, v) :: l2) with y | ⟨on, off⟩
        · rw [hl] at ih
          simp only [] at ih
          rw [ih]
        · rw [hl] at ih
          simp only [] at ih
          rcases ih with ⟨hd, a, b, ho, hr⟩ | ⟨hd, hr⟩
          · rw [hr]
            by_cases hd' : active ctx d' = true
            · simp only [if_pos hd']
              exact .inl ⟨hd, (j, d') :: a, b, by simp [ho], by simp⟩
            · simp only [if_neg hd']
              exact .inl ⟨hd, a, b, ho, rfl⟩
          · rw [hr]
            by_cases hd' : active ctx d' = true
            · simp only [if_pos hd']
              exact .inr ⟨hd, by trivial⟩
            · simp only [if_neg hd']
              exact .inr ⟨hd, by trivial⟩

theorem dropLabel_comm (a b : String) (x y : Label) (ds : DS V) :
    dropLabel a (dropLabel b ds y) x = dropLabel b (dropLabel a ds x) y := by
  simp only [dropLabel, List.filter_filter, List.map_map, DS.mk.injEq]
  refine ⟨?_, ?_⟩
  · congr 1; funext z; rw [Bool.and_comm]
  · apply List.map_congr_left
    intro z _
    simp only [Function.comp]
    congr 2
    funext c
    by_cases h1 : (a, x) ∈ z.2.dims.zip c <;> by_cases h2 : (b, y) ∈ z.2.dims.zip c <;>
      simp [h1, h2]

theorem foldl_dropLabel (a b : String) (y : Label) : ∀ (l : List Label) (ds : DS V),
    l.foldl (dropLabel a) (dropLabel b ds y) = dropLabel b (l.foldl (dropLabel a) ds) y
  | [], _ => rfl
  | x :: l, ds => by
      rw [List.foldl_cons, List.foldl_cons, dropLabel_comm, foldl_dropLabel a b y l]

theorem foldl_insert (a : String) (k : Label) (o1 o2 : List Label) (ds : DS V) :
    (o1 ++ k :: o2).foldl (dropLabel a) ds = (o1 ++ o2).foldl (dropLabel a) (dropLabel a ds k) := by
  rw [List.foldl_append, List.foldl_cons, List.foldl_append]
  congr 1
  rw [← foldl_dropLabel]

theorem labelsOf_drop {a d : String} (h : d ≠ a) (ds : DS V) (l : Label) :
    labelsOf (dropLabel a ds l).coords d = labelsOf ds.coords d := by
  simp only [labelsOf, dropLabel, List.filter_filter]
  congr 1
  apply List.filter_congr
  intro x _
  by_cases hx : x.1 = d
  · have : x ≠ (a, l) := by
      rintro rfl
      exact h hx.symm
    simp [hx, this]
  · simp [hx]

theorem nodesData_congr {ctx : Ctx V} {m m' : Source V} (h : inheritTech m = inheritTech m')
    (links : List (LinkAt V)) : ∀ (nodes : List (Key × Def V)),
      nodesData ctx m links nodes = nodesData ctx m' links nodes
  | [] => rfl
  | (n, d) :: nodes => by
      simp only [nodesData, nodesData_congr h links nodes]
      have : nodeData ctx m links n d = nodeData ctx m' links n d := by
        simp only [nodeData, h]
      rw [this]

theorem nodesData_append_error {ctx : Ctx V} {m : Source V} {links : List (LinkAt V)} {x y : Key × Def V}
    (h : nodeData ctx m links x.1 x.2 = nodeData ctx m links y.1 y.2) (l2 : List (Key × Def V)) :
    ∀ (l1 : List (Key × Def V)), nodesData ctx m links (l1 ++ x :: l2) = nodesData ctx m links (l1 ++ y :: l2)
  | [] => by simp only [List.nil_append, nodesData, h]
  | z :: l1 => by
      simp only [List.cons_append, nodesData, nodesData_append_error h l2 l1]

theorem nodeRefs_erase {ctx : Ctx V} {k : Key} {v : Val (Datum V)}
    (h : v = .leaf none ∨ ∃ d, v = .dict d ∧ (active ctx d = false ∨ d = .nil)) (l2 : List (Key × Val (Datum V))) :
    ∀ (l1 : List (Key × Val (Datum V))), nodeRefs ctx (l1 ++ (k, v) :: l2) = nodeRefs ctx (l1 ++ l2)
  | [] => by
      simp only [List.nil_append, nodeRefs]
      rcases nodeRefs ctx l2 with e | out
      · rfl
      · rcases h with rfl | ⟨d, rfl, h | rfl⟩
        · rfl
        · simp [h]
        · simp [active, get1, keys]
  | (j, w) :: l1 => by
      simp only [List.cons_append, nodeRefs, nodeRefs_erase h l2 l1]

end ModelData
end Calliope
