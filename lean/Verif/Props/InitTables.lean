import Verif.Proofs.InitTables3
import Verif.Props.ModelData2

/-!
# Definitions from data tables (C75)
-/

namespace Calliope
namespace Tables

open Grid ModelData Dict

variable {V : Type} {ctx : Ctx V} {lookups : List (String × String)} {tables : List (DS V)} {m m' : Source V} {ds : DS V}

/-! ### Technologies -/

/-- **C75.** The technologies of the model are those written in YAML and those named in data tables. -/
theorem C75_techs (hm : Sound m) (h : initTables ctx lookups tables m = .ok (m', ds)) (t : Key) :
    (∃ v, m'.techs.get1 t = some v) ↔ (∃ v, m.techs.get1 t = some v) ∨ ∃ x ∈ tables, NamesTech x t := by
  obtain ⟨S⟩ := steps h
  obtain ⟨-, -, h3, h4, h5, -, -⟩ := initDefs_ok techDict_facts hm.techs S.techs_eq
  have look : ∀ d : Dict (Datum V), (∃ v, d.get1 t = some v) ↔ d.lookup [t] ≠ none := by
    intro d; rw [lookup_single, Option.ne_none_iff_exists']
  have sk : ∀ x : DS V, (techDict x).lookup [t] ≠ none ↔ NamesTech x t := by
    intro x
    unfold techDict NamesTech
    rw [lookup_single, get1_skeleton, ← mem_labelsOf]
    simp
  rw [look, look]
  constructor
  · intro hq
    rcases h3 _ hq with hq | ⟨x, hx, s, hs, hq⟩
    · exact .inl hq
    · cases hs; exact .inr ⟨x, hx, (sk x).mp hq⟩
  · rintro (hq | ⟨x, hx, hq⟩)
    · exact h4 _ hq
    · refine h5 x hx _ rfl _ ((sk x).mpr hq) ?_
      rintro r ⟨r', hr⟩ hne ⟨a, ha⟩
      rcases r with _ | ⟨k, r⟩
      · simp at ha
      · simp only [List.cons_append, List.cons.injEq, List.append_eq_nil_iff] at hr
        exact hne (by rw [hr.1, hr.2.1])

/-- **C75.** Their settings are those written in YAML, all of them and no others. -/
theorem C75_tech_settings (hm : Sound m) (h : initTables ctx lookups tables m = .ok (m', ds)) :
    SameLeaves (fun q => 2 ≤ q.length) m.techs m'.techs := by
  obtain ⟨S⟩ := steps h
  obtain ⟨-, -, -, -, -, -, h7⟩ := initDefs_ok techDict_facts hm.techs S.techs_eq
  intro q v hq
  apply h7
  rintro x - s hs
  cases hs
  rcases q with _ | ⟨t, _ | ⟨p, r⟩⟩
  · simp at hq
  · simp at hq
  · exact lookup_skeleton _ _ _ _

/-! ### Technologies at nodes -/

/-- **C75.** A technology is at a node if YAML lists it there, or a data table has a value for it there. -/
theorem C75_nodes (hm : Sound m) (hn : ∀ n a, m.nodes.get1 n ≠ some (.leaf (some a)))
    (ht : ∀ n a, (written (m.nodes.get1 n)).get1 "techs" ≠ some (.leaf (some a)))
    (h : initTables ctx lookups tables m = .ok (m', ds)) (n t : Key) :
    (∃ v, atNode m' n t = some v) ↔ (∃ v, atNode m n t = some v) ∨ ∃ x ∈ tables, PutsAt x n t := by
  obtain ⟨S⟩ := steps h
  obtain ⟨-, h2, h3, h4, h5, -, -⟩ := initDefs_ok (nodeDict_facts _) hm.nodes S.nodes_eq
  rw [atNode_lookup, atNode_lookup, ← Option.ne_none_iff_exists', ← Option.ne_none_iff_exists']
  constructor
  · intro hq
    rcases h3 _ hq with hq | ⟨x, hx, s, hs, hq⟩
    · exact .inl hq
    · exact .inr ⟨x, hx, ((nodeDict_ok hs).2.2.1 n t).mp hq⟩
  · rintro (hq | ⟨x, hx, hq⟩)
    · exact h4 _ hq
    · obtain ⟨s, hs⟩ := h2 x hx
      refine h5 x hx s hs _ (((nodeDict_ok hs).2.2.1 n t).mpr hq) ?_
      rintro r ⟨r', hr⟩ hne ⟨a, ha⟩
      rcases r with _ | ⟨k, _ | ⟨k2, _ | ⟨k3, r⟩⟩⟩
      · simp at ha
      · simp only [List.cons_append, List.cons.injEq] at hr
        rw [lookup_single] at ha
        exact hn k a ha
      · simp only [List.cons_append, List.cons.injEq] at hr
        rw [hr.2.1, lookup_two] at ha
        exact ht k a ha
      · simp only [List.cons_append, List.cons.injEq, List.append_eq_nil_iff] at hr
        exact hne (by rw [hr.1, hr.2.1, hr.2.2.1, hr.2.2.2.1])

/-- **C75.** The settings of nodes, and of technologies at nodes, are those written in YAML. -/
theorem C75_node_settings (hm : Sound m) (h : initTables ctx lookups tables m = .ok (m', ds)) :
    SameLeaves (fun q => (∃ n p r, q = n :: p :: r ∧ p ≠ "techs") ∨ 4 ≤ q.length) m.nodes m'.nodes ∧
      ∀ q a, m'.nodes.lookup q = some (.leaf (some a)) ↔ m.nodes.lookup q = some (.leaf (some a)) := by
  obtain ⟨S⟩ := steps h
  obtain ⟨-, -, -, -, -, h6, h7⟩ := initDefs_ok (nodeDict_facts _) hm.nodes S.nodes_eq
  refine ⟨fun q v hq => h7 q v (fun x _ s hs => ?_), h6⟩
  by_contra hne
  rcases (nodeDict_ok hs).2.2.2.2.1 q hne with rfl | ⟨n, rfl⟩ | ⟨n, rfl⟩ | ⟨n, t, rfl⟩ <;>
    rcases hq with ⟨n', p, r, he, hp⟩ | hq
  · cases he
  · simp at hq
  · cases he
  · simp at hq
  · simp only [List.cons.injEq] at he; exact hp he.2.1.symm
  · simp at hq
  · simp only [List.cons.injEq] at he; exact hp he.2.1.symm
  · simp at hq

/-! ### Settings of technologies from tables -/

theorem base_facts (tables : List (DS V)) :
    ∀ s, .ok s ∈ tables.flatMap (fun ds => baseInputs.map (baseDict ds)) → s.Deep2 ∧ s.WF := by
  intro s hs
  rw [List.mem_flatMap] at hs
  obtain ⟨x, -, hs⟩ := hs
  rw [List.mem_map] at hs
  obtain ⟨p, -, hs⟩ := hs
  exact ⟨(baseDict_ok hs).1, (baseDict_ok hs).2.1⟩

theorem lookup_facts (hl : ∀ l ∈ lookups, l.2 ≠ "techs") (tables : List (DS V)) :
    ∀ s, .ok s ∈ tables.flatMap (fun ds => lookups.map (fun l => lookupDict ds l.1 l.2)) → s.Deep2 ∧ s.WF := by
  intro s hs
  rw [List.mem_flatMap] at hs
  obtain ⟨x, -, hs⟩ := hs
  rw [List.mem_map] at hs
  obtain ⟨l, hm, hs⟩ := hs
  exact ⟨(lookupDict_ok (hl l hm) hs).1, (lookupDict_ok (hl l hm) hs).2.1⟩

theorem nil_none {t p : Key} {v : Val (Datum V)} : ¬ (Dict.nil : Dict (Datum V)).lookup [t, p] = some v := by
  intro h; rw [lookup_emptyDict _ (by simp)] at h; cases h

theorem base_value (S : Steps ctx lookups tables m m' ds) (t p : Key) (x : Datum V) :
    S.base.lookup [t, p] = some (.leaf (some x)) ↔ ∃ d ∈ tables, SetsBase d t p x := by
  obtain ⟨-, -, c3, c4, -, -⟩ := collect_ok (base_facts tables) deep2_nil trivial S.base_eq
  rw [c4 t p x]
  constructor
  · rintro (hx | ⟨s, hs, hx⟩)
    · exact absurd hx nil_none
    · rw [List.mem_flatMap] at hs
      obtain ⟨d, hd, hs⟩ := hs
      rw [List.mem_map] at hs
      obtain ⟨q, hq, hs⟩ := hs
      obtain ⟨rfl, hx⟩ := ((baseDict_ok hs).2.2 t p x).mp hx
      exact ⟨d, hd, hq, hx⟩
  · rintro ⟨d, hd, hq, hx⟩
    have hmem : baseDict d p ∈ tables.flatMap (fun ds => baseInputs.map (baseDict ds)) :=
      List.mem_flatMap.mpr ⟨d, hd, List.mem_map.mpr ⟨p, hq, rfl⟩⟩
    obtain ⟨s, hs⟩ := c3 _ hmem
    rw [hs] at hmem
    exact .inr ⟨s, hmem, ((baseDict_ok hs).2.2 t p x).mpr ⟨rfl, hx⟩⟩

/-- **C75.** Data of technologies from tables: `base_tech`, `link_from`, `link_to` and the lookups.  Each is what a table
sets. -/
theorem C75_data (hl : ∀ l ∈ lookups, l.2 ≠ "techs") (h : initTables ctx lookups tables m = .ok (m', ds)) (t p : Key) :
    (∀ v, (written (m'.tables.get1 t)).get1 p = some v →
      ∃ x, v = .leaf (some x) ∧ ∃ d ∈ tables, Sets lookups d t p x) ∧
    (∀ d ∈ tables, ∀ x, Sets lookups d t p x →
      ∃ x', (written (m'.tables.get1 t)).get1 p = some (.leaf (some x')) ∧ Sets lookups d t p x') := by
  obtain ⟨S⟩ := steps h
  obtain ⟨b1, b2, -, -, -, -⟩ := collect_ok (base_facts tables) deep2_nil trivial S.base_eq
  obtain ⟨c1, c2, c3, c4, -, -⟩ := collect_ok (lookup_facts hl tables) b1 b2 S.data_eq
  rw [← lookup_two]
  constructor
  · intro v hv
    obtain ⟨x, rfl⟩ : ∃ x, v = .leaf (some x) := by
      obtain ⟨r, w, hlf⟩ := exists_leaf_below m'.tables [t, p] v (by simp) hv
      obtain ⟨t', p', y, e, rfl⟩ := c1 _ _ hlf
      have : r = [] := by
        have := congrArg List.length e
        simp only [List.length_append, List.length_cons, List.length_nil] at this
        exact List.eq_nil_of_length_eq_zero (by omega)
      subst this
      rw [List.append_nil] at hlf
      have := hlf.2.1
      rw [hv, Option.some.injEq] at this
      exact ⟨y, this⟩
    refine ⟨x, rfl, ?_⟩
    rcases (c4 t p x).mp hv with hx | ⟨s, hs, hx⟩
    · obtain ⟨d, hd, hx⟩ := (base_value S t p x).mp hx
      exact ⟨d, hd, .inl hx⟩
    · rw [List.mem_flatMap] at hs
      obtain ⟨d, hd, hs⟩ := hs
      rw [List.mem_map] at hs
      obtain ⟨⟨q, dim⟩, hq, hs⟩ := hs
      obtain ⟨rfl, hn, ls, hls⟩ := (lookupDict_ok (hl _ hq) hs).2.2.1 t p x hx
      exact ⟨d, hd, .inr ⟨dim, ls, hq, hn, hls⟩⟩
  · rintro d hd x (hx | ⟨dim, ls, hq, hn, hnd, hls, has⟩)
    · exact ⟨x, (c4 t p x).mpr (.inl ((base_value S t p x).mpr ⟨d, hd, hx⟩)), .inl hx⟩
    · have hmem : lookupDict d p dim ∈ tables.flatMap (fun ds => lookups.map (fun l => lookupDict ds l.1 l.2)) :=
        List.mem_flatMap.mpr ⟨d, hd, List.mem_map.mpr ⟨(p, dim), hq, rfl⟩⟩
      obtain ⟨s, hs⟩ := c3 _ hmem
      rw [hs] at hmem
      obtain ⟨l, hll⟩ : ∃ l, l ∈ ls := by
        rcases has with ⟨l, rfl, -⟩ | ⟨h2, -⟩
        · exact ⟨l, by simp⟩
        · exact List.exists_mem_of_length_pos (by omega)
      obtain ⟨x', hx'⟩ := (lookupDict_ok (hl _ hq) hs).2.2.2 t l hn ((hls l).mp hll)
      obtain ⟨-, hn', ls', hls'⟩ := (lookupDict_ok (hl _ hq) hs).2.2.1 t p x' hx'
      exact ⟨x', (c4 t p x').mpr (.inr ⟨s, hmem, hx'⟩), .inr ⟨dim, ls', hq, hn', hls'⟩⟩

/-- **C75.** Nothing is set by two tables. -/
theorem C75_once (hl : ∀ l ∈ lookups, l.2 ≠ "techs") (h : initTables ctx lookups tables m = .ok (m', ds)) :
    tables.Pairwise (fun a b => ∀ t p x y, ¬ (Sets lookups a t p x ∧ Sets lookups b t p y)) := by
  obtain ⟨S⟩ := steps h
  obtain ⟨b1, b2, b3, b4, b5, -⟩ := collect_ok (base_facts tables) deep2_nil trivial S.base_eq
  obtain ⟨c1, c2, c3, c4, c5, c6⟩ := collect_ok (lookup_facts hl tables) b1 b2 S.data_eq
  have hbase : ∀ d ∈ tables, ∀ t p x, SetsBase d t p x →
      baseDict d p ∈ baseInputs.map (baseDict d) ∧ HasAt t p (baseDict d p) := by
    rintro d hd t p x ⟨hq, hx⟩
    have hm1 : baseDict d p ∈ baseInputs.map (baseDict d) := List.mem_map.mpr ⟨p, hq, rfl⟩
    refine ⟨hm1, ?_⟩
    obtain ⟨s, hs⟩ := b3 _ (List.mem_flatMap.mpr ⟨d, hd, hm1⟩)
    rw [hs]
    exact ⟨x, ((baseDict_ok hs).2.2 t p x).mpr ⟨rfl, hx⟩⟩
  have hlook : ∀ d ∈ tables, ∀ t p x, SetsLookup lookups d t p x →
      ∃ y ∈ lookups.map (fun l => lookupDict d l.1 l.2), HasAt t p y := by
    rintro d hd t p x ⟨dim, ls, hq, hn, hnd, hls, has⟩
    have hm1 : lookupDict d p dim ∈ lookups.map (fun l => lookupDict d l.1 l.2) :=
      List.mem_map.mpr ⟨(p, dim), hq, rfl⟩
    refine ⟨_, hm1, ?_⟩
    obtain ⟨s, hs⟩ := c3 _ (List.mem_flatMap.mpr ⟨d, hd, hm1⟩)
    rw [hs]
    obtain ⟨l, hll⟩ : ∃ l, l ∈ ls := by
      rcases has with ⟨l, rfl, -⟩ | ⟨h2, -⟩
      · exact ⟨l, by simp⟩
      · exact List.exists_mem_of_length_pos (by omega)
    exact (lookupDict_ok (hl _ hq) hs).2.2.2 t l hn ((hls l).mp hll)
  have cross : ∀ a ∈ tables, ∀ b ∈ tables, ∀ t p x y, SetsBase a t p x → ¬ SetsLookup lookups b t p y := by
    intro a ha b hb t p x y hx hy
    obtain ⟨z, hz, hz'⟩ := hlook b hb t p y hy
    exact c6 t p ⟨x, (base_value S t p x).mpr ⟨a, ha, hx⟩⟩ z (List.mem_flatMap.mpr ⟨b, hb, hz⟩) hz'
  have p1 := (List.pairwise_flatMap.mp b5).2
  have p2 := (List.pairwise_flatMap.mp c5).2
  refine (p1.and p2).imp_of_mem ?_
  rintro a b ha hb ⟨q1, q2⟩ t p x y ⟨hx | hx, hy | hy⟩
  · obtain ⟨i1, i2⟩ := hbase a ha t p x hx
    obtain ⟨j1, j2⟩ := hbase b hb t p y hy
    exact q1 _ i1 _ j1 t p ⟨i2, j2⟩
  · exact cross a ha b hb t p x y hx hy
  · exact cross b hb a ha t p y x hy hx
  · obtain ⟨u, i1, i2⟩ := hlook a ha t p x hx
    obtain ⟨w, j1, j2⟩ := hlook b hb t p y hy
    exact q2 _ i1 _ j1 t p ⟨i2, j2⟩

/-! ### Values -/

/-- **C75.** Other inputs have the value of the last table that gives one; lookups are not among them. -/
theorem C75_values (hv : ∀ x ∈ tables, (x.vars.map Prod.fst).Nodup)
    (h : initTables ctx lookups tables m = .ok (m', ds)) (p : Key) (ρ : String → Label) :
    valueOf ds p ρ = if p ∈ lookups.map Prod.fst then none
      else tables.reverse.findSome? (fun x => valueOf x p ρ) := by
  obtain ⟨S⟩ := steps h
  have hval : ∀ x : DS V, valueOf (withoutLookups lookups x) p ρ =
      if p ∈ lookups.map Prod.fst then none else valueOf x p ρ := by
    intro x
    have hne : ∀ (l : List (String × Arr (Option (ModelData.Scalar V)))) {k : String} (a), p ≠ k →
        ((k, a) :: l).lookup p = l.lookup p := by
      intro l k a hk
      have hb : (p == k) = false := by simpa using hk
      rw [List.lookup_cons, hb]
    have hlk : ∀ l : List (String × Arr (Option (ModelData.Scalar V))),
        (l.filter (fun y => !(lookups.map Prod.fst).contains y.1)).lookup p =
          if p ∈ lookups.map Prod.fst then none else l.lookup p := by
      intro l
      induction l with
      | nil => simp
      | cons y l ih =>
        obtain ⟨k, a⟩ := y
        by_cases hk : k ∈ lookups.map Prod.fst
        · rw [List.filter_cons_of_neg (by simpa using hk), ih]
          by_cases hp : p = k
          · subst hp; rw [if_pos hk, if_pos hk]
          · rw [hne l a hp]
        · rw [List.filter_cons_of_pos (by simpa using hk)]
          by_cases hp : p = k
          · subst hp; simp [hk]
          · rw [hne _ a hp, hne _ a hp, ih]
    unfold valueOf withoutLookups
    rw [hlk]
    split
    · rename_i hn
      split at hn
      · rename_i hp; rw [if_pos hp]
      · rename_i hp; rw [if_neg hp, hn]
    · rename_i a hn
      split at hn
      · cases hn
      · rename_i hp; rw [if_neg hp, hn]
  rw [S.ds_eq, ModelData.C55_history _ (by simp) (by
    intro x hx
    obtain ⟨y, hy, rfl⟩ := List.mem_map.mp hx
    exact (hv y hy).sublist (List.filter_sublist.map _))]
  have hnil : valueOf (⟨m'.nodes.keys.map (fun n => ("nodes", n)) ++ m'.techs.keys.map (fun t => ("techs", t)), []⟩ : DS V)
      p ρ = none := rfl
  rw [hnil, Option.or_none, ← List.map_reverse]
  have : ∀ l : List (DS V), (l.map (withoutLookups lookups)).findSome? (fun x => valueOf x p ρ) =
      if p ∈ lookups.map Prod.fst then none else l.findSome? (fun x => valueOf x p ρ) := by
    intro l
    induction l with
    | nil => simp
    | cons x l ih =>
      rw [List.map_cons, List.findSome?_cons, List.findSome?_cons, hval, ih]
      split
      · rename_i hx
        split at hx
        · cases hx
        · rename_i hp; rw [if_neg hp, hx]
      · rename_i hx
        split at hx
        · rename_i hp; rw [if_pos hp, if_pos hp]
        · rename_i hp; rw [if_neg hp, if_neg hp, hx]
  exact this _

/-! ### The definition that results -/

theorem sound_techs (hm : Sound m) (S : Steps ctx lookups tables m m' ds) (hS : SameLeaves (fun q => 2 ≤ q.length) m.techs m'.techs) :
    ∀ t d, m'.techs.get1 t = some (.dict d) → Plain d := by
  obtain ⟨h1, -⟩ := initDefs_ok techDict_facts hm.techs S.techs_eq
  intro t d hd
  refine plain_back (D := m'.techs) (d := m.techs) (q := [t]) (by simp) h1 ?_ ?_ (by rw [lookup_single, hd])
  · intro p r v hl
    exact (hS _ v (by simp)).mp hl
  · intro x hx
    rw [lookup_single] at hx
    exact hm.tech t x hx

theorem sound_base (hm : Sound m) (h : initTables ctx lookups tables m = .ok (m', ds))
    (S : Steps ctx lookups tables m m' ds) : Sound (⟨m'.techs, m.nodes, S.base⟩ : Source V) := by
  obtain ⟨h1, -⟩ := initDefs_ok techDict_facts hm.techs S.techs_eq
  obtain ⟨b1, b2, -⟩ := collect_ok (base_facts tables) deep2_nil trivial S.base_eq
  have hT := sound_techs hm S (C75_tech_settings hm h)
  exact ⟨hm.nodes, h1, b2, hm.node, hm.listed, hT, fun t d hd => Deep2.plain b1 b2 hd⟩

/-- **C75.** The definition that results is one as the schema allows it, so that what is shown about building inputs (C52 to
C55) holds of it. -/
theorem C75_sound (hl : ∀ l ∈ lookups, l.2 ≠ "techs") (hm : Sound m)
    (h : initTables ctx lookups tables m = .ok (m', ds)) : Sound m' := by
  obtain ⟨S⟩ := steps h
  have hB := sound_base hm h S
  obtain ⟨b1, b2, -⟩ := collect_ok (base_facts tables) deep2_nil trivial S.base_eq
  obtain ⟨c1, c2, -⟩ := collect_ok (lookup_facts hl tables) b1 b2 S.data_eq
  obtain ⟨n1, -⟩ := initDefs_ok (nodeDict_facts _) hm.nodes S.nodes_eq
  refine ⟨n1, hB.techs, c2, fun n d hd => dict_wf n1 hd, ?_, hB.tech, fun t d hd => Deep2.plain c1 c2 hd⟩
  intro n t d hd
  rw [atNode_lookup] at hd
  refine plain_back (D := m'.nodes) (d := m.nodes) (q := [n, "techs", t]) (by simp) n1 ?_ ?_ hd
  · intro p r v hlf
    exact ((C75_node_settings hm h).1 _ v (.inr (by simp))).mp hlf
  · intro x hx
    rw [← atNode_lookup] at hx
    exact hm.listed n t x hx

/-- What must hold of a technology for which a table has a value at a node. -/
theorem put_active (hm : Sound m) (h : initTables ctx lookups tables m = .ok (m', ds))
    (S : Steps ctx lookups tables m m' ds) {x : DS V} (hx : x ∈ tables) {n t : Key} (hp : PutsAt x n t) :
    on ctx (techSetting (⟨m'.techs, m.nodes, S.base⟩ : Source V) t "active") = true ∧
      techSetting (⟨m'.techs, m.nodes, S.base⟩ : Source V) t "base_tech" ≠
        some (.leaf (some (.one (.str "transmission")))) := by
  have hB := sound_base hm h S
  obtain ⟨-, h2, -⟩ := initDefs_ok (nodeDict_facts _) hm.nodes S.nodes_eq
  obtain ⟨s, hs⟩ := h2 x hx
  have hl := (nodeDict_ok hs).2.2.2.1 n t hp
  unfold linkOf at hl
  obtain ⟨d, hd, hlink⟩ := Option.map_eq_some_iff.mp hl
  obtain ⟨v, hv, hf, ha⟩ := ((inheritLoop_ok S.defs_eq).2.1 t d).mp (mem_of_lookup' hd)
  have hv' := (mem_items hB.techs).mp hv
  obtain ⟨-, -, h5⟩ := inheritTech_top hB hv' hf
  rw [active_eq, h5] at ha
  refine ⟨ha, fun hc => ?_⟩
  rw [← h5] at hc
  unfold isLink at hlink
  rw [hc] at hlink
  simp at hlink

theorem base_only (S : Steps ctx lookups tables m m' ds) {t p : Key}
    (hp : p ∉ ["base_tech", "link_to", "link_from"]) : (written (S.base.get1 t)).get1 p = none := by
  obtain ⟨b1, -⟩ := collect_ok (base_facts tables) deep2_nil trivial S.base_eq
  rw [← lookup_two]
  by_contra hne
  obtain ⟨v, hv⟩ := Option.ne_none_iff_exists'.mp hne
  obtain ⟨r, w, hlf⟩ := exists_leaf_below S.base [t, p] v (by simp) hv
  obtain ⟨t', p', y, e, rfl⟩ := b1 _ _ hlf
  have hr : r = [] := by
    have := congrArg List.length e
    simp only [List.length_append, List.length_cons, List.length_nil] at this
    exact List.eq_nil_of_length_eq_zero (by omega)
  subst hr
  rw [List.append_nil] at hlf
  obtain ⟨d, -, hq, -⟩ := (base_value S t p y).mp hlf.2.1
  exact hp hq

/-- A setting that is no dictionary in YAML is the same in the definition that results. -/
theorem setting_same (hS : SameLeaves (fun q => 2 ≤ q.length) m.techs m'.techs) (t p : Key)
    (hnd : ∀ s, (written (m.techs.get1 t)).get1 p ≠ some (.dict s)) :
    (written (m'.techs.get1 t)).get1 p = (written (m.techs.get1 t)).get1 p := by
  rw [← lookup_two, ← lookup_two] at *
  have hd' : ∀ y, m'.techs.lookup [t, p] ≠ some (.dict y) := by
    intro y hy
    obtain ⟨y', hy'⟩ := dict_back (D := m'.techs) (d := m.techs) (q := [t, p]) (by simp)
      (fun r v hl => (hS _ v (by simp)).mp hl) hy
    exact hnd y' hy'
  rcases h1 : m.techs.lookup [t, p] with _ | (a | y)
  · rcases h2 : m'.techs.lookup [t, p] with _ | (b | y)
    · rfl
    · have := (hS [t, p] (.leaf b) (by simp)).mp ⟨by simp, h2, by intro e he; cases he⟩
      have this := this.2.1
      rw [h1] at this
      cases this
    · exact absurd h2 (hd' y)
  · exact ((hS [t, p] (.leaf a) (by simp)).mpr ⟨by simp, h1, by intro e he; cases he⟩).2.1
  · exact absurd h1 (hnd y)

/-- **C75, finding.** A model cannot be built if a technology is deactivated in YAML and a data table has a value for it at
some node: the table is not ignored, as data in YAML would be. -/
theorem C75_deactivated (hm : Sound m) {x : DS V} (hx : x ∈ tables) {n t : Key} (hp : PutsAt x n t)
    (hoff : on ctx ((written (m.techs.get1 t)).get1 "active") = false) :
    ∃ e, initTables ctx lookups tables m = .error e := by
  rcases h : initTables ctx lookups tables m with e | ⟨m', ds⟩
  · exact ⟨e, rfl⟩
  exfalso
  obtain ⟨S⟩ := steps h
  have ha := (put_active hm h S hx hp).1
  have hact : ∀ s, (written (m.techs.get1 t)).get1 "active" ≠ some (.dict s) := by
    intro s hs
    rcases hg : m.techs.get1 t with _ | (a | d)
    · rw [hg] at hs; cases hs
    · rw [hg] at hs; cases hs
    · rw [hg] at hs; exact (hm.tech t d hg).act s hs
  have hsame := setting_same (C75_tech_settings hm h) t "active" hact
  unfold techSetting at ha
  simp only at ha
  rw [base_only S (by decide), hsame, over_none (fun s hs => absurd hs (hact s)), hoff] at ha
  cases ha

/-- **C75.** A data table cannot have values for a link over nodes. -/
theorem C75_links (hm : Sound m) (hb : "base_tech" ∉ lookups.map Prod.fst) (hl : ∀ l ∈ lookups, l.2 ≠ "techs")
    (h : initTables ctx lookups tables m = .ok (m', ds)) {x : DS V} (hx : x ∈ tables) {n t : Key} (hp : PutsAt x n t) :
    techSetting m' t "base_tech" ≠ some (.leaf (some (.one (.str "transmission")))) := by
  obtain ⟨S⟩ := steps h
  have hne := (put_active hm h S hx hp).2
  have hsame : (written (m'.tables.get1 t)).get1 "base_tech" = (written (S.base.get1 t)).get1 "base_tech" := by
    obtain ⟨b1, b2, -⟩ := collect_ok (base_facts tables) deep2_nil trivial S.base_eq
    obtain ⟨c1, c2, c3, c4, -⟩ := collect_ok (lookup_facts hl tables) b1 b2 S.data_eq
    have hval : ∀ v, (written (m'.tables.get1 t)).get1 "base_tech" = some v → ∃ y, v = .leaf (some y) := by
      intro v hv
      obtain ⟨y, rfl, -⟩ := (C75_data hl h t "base_tech").1 v hv
      exact ⟨y, rfl⟩
    have key : ∀ y, (written (m'.tables.get1 t)).get1 "base_tech" = some (.leaf (some y)) ↔
        (written (S.base.get1 t)).get1 "base_tech" = some (.leaf (some y)) := by
      intro y
      rw [← lookup_two, ← lookup_two, c4]
      constructor
      · rintro (hy | ⟨s, hs, hy⟩)
        · exact hy
        · rw [List.mem_flatMap] at hs
          obtain ⟨d, hd, hs⟩ := hs
          rw [List.mem_map] at hs
          obtain ⟨⟨q, dim⟩, hq, hs⟩ := hs
          obtain ⟨he, -⟩ := (lookupDict_ok (hl _ hq) hs).2.2.1 t _ y hy
          simp only at he
          exact absurd (List.mem_map.mpr ⟨(q, dim), hq, he.symm⟩) hb
      · exact .inl
    rcases h1 : (written (m'.tables.get1 t)).get1 "base_tech" with _ | v
    · rcases h2 : (written (S.base.get1 t)).get1 "base_tech" with _ | w
      · rfl
      · exfalso
        have hw : S.base.lookup [t, "base_tech"] = some w := by rw [lookup_two]; exact h2
        obtain ⟨r, u, hlf⟩ := exists_leaf_below S.base _ w (by simp) hw
        obtain ⟨t', p', y, e, rfl⟩ := b1 _ _ hlf
        have hr : r = [] := by
          have := congrArg List.length e
          simp only [List.length_append, List.length_cons, List.length_nil] at this
          exact List.eq_nil_of_length_eq_zero (by omega)
        subst hr
        rw [List.append_nil] at hlf
        have hy := hlf.2.1
        rw [lookup_two] at hy
        have := (key y).mpr hy
        rw [h1] at this; cases this
    · obtain ⟨y, rfl⟩ := hval v h1
      exact ((key y).mp h1).symm
  intro hc
  apply hne
  unfold techSetting at hc ⊢
  simp only
  rw [← hsame]
  exact hc

/-! ### Examples -/

namespace Demo

/-- Capacities of technologies at nodes. -/
def caps : DS Nat :=
  ⟨[("nodes", "a"), ("nodes", "b"), ("techs", "pv"), ("techs", "chp")],
   [("flow_cap_max", ⟨["nodes", "techs"], fun c =>
      if c = ["a", "pv"] then some (.num 1) else if c = ["b", "chp"] then some (.num 2) else none⟩)]⟩

/-- What the technologies are, and their carriers. -/
def kinds : DS Nat :=
  ⟨[("techs", "pv"), ("techs", "chp"), ("carriers", "power"), ("carriers", "heat")],
   [("base_tech", ⟨["techs"], fun c =>
      if c = ["pv"] then some (.str "supply") else if c = ["chp"] then some (.str "conversion") else none⟩),
    ("carrier_out", ⟨["techs", "carriers"], fun c =>
      if c = ["pv", "power"] ∨ c = ["chp", "power"] ∨ c = ["chp", "heat"] then some (.bool true) else none⟩)]⟩

/-- In YAML: a name for one of the technologies, and another technology at a node. -/
def yaml : Source Nat :=
  ⟨.sub "pv" (.leaf "name" (some (.one (.str "PV"))) .nil) (.sub "demand" (.leaf "base_tech" (some (.one (.str "demand"))) .nil) .nil),
   .sub "a" (.leaf "latitude" (some (.one (.num 5))) (.sub "techs" (.leaf "demand" none .nil) .nil)) .nil,
   .nil⟩

def pivots : List (String × String) := [("carrier_in", "carriers"), ("carrier_out", "carriers")]

def ctx0 : Ctx Nat := ⟨fun _ => none, false, fun _ => "", fun n => n ≠ 0⟩

/-- The definition that results. -/
def out : Source Nat × DS Nat :=
  match initTables ctx0 pivots [caps, kinds] yaml with
  | .ok x => x
  | .error _ => (⟨.nil, .nil, .nil⟩, ⟨[], []⟩)

theorem out_eq : initTables ctx0 pivots [caps, kinds] yaml = .ok (out.1, out.2) := by
  have : ∃ x, initTables ctx0 pivots [caps, kinds] yaml = .ok x := by
    have hb : (match initTables ctx0 pivots [caps, kinds] yaml with | .ok _ => true | .error _ => false) = true := by
      decide +kernel
    rcases h : initTables ctx0 pivots [caps, kinds] yaml with e | x
    · rw [h] at hb; cases hb
    · exact ⟨x, rfl⟩
  obtain ⟨x, hx⟩ := this
  unfold out
  rw [hx]

theorem plain_leaf (k : Key) (x : Datum Nat) : Plain (.leaf k (some x) .nil : Dict (Datum Nat)) := by
  refine ⟨⟨by simp [keys], trivial⟩, ?_, ?_⟩
  · intro p s h
    simp only [get1] at h
    split at h <;> cases h
  · intro s h
    simp only [get1] at h
    split at h <;> cases h

theorem yaml_sound : Sound yaml := by
  refine ⟨?_, ?_, trivial, ?_, ?_, ?_, ?_⟩
  · exact ⟨by decide, ⟨by decide, by decide, ⟨by decide, trivial⟩, trivial⟩, trivial⟩
  · exact ⟨by decide, ⟨by decide, trivial⟩, by decide, ⟨by decide, trivial⟩, trivial⟩
  · intro n d h
    simp only [yaml, get1] at h
    split at h
    · cases h
      exact ⟨by decide, by decide, ⟨by decide, trivial⟩, trivial⟩
    · cases h
  · intro n t d h
    rw [atNode_lookup, lookup_cons] at h
    simp only [yaml, get1] at h
    split at h
    · change (Dict.leaf "latitude" (some (.one (.num 5))) (.sub "techs" (.leaf "demand" none .nil) .nil) : Dict (Datum Nat)).lookup ["techs", t] = _ at h
      rw [lookup_two] at h
      simp only [get1, written] at h
      rw [if_neg (by decide), if_pos trivial] at h
      simp only [get1] at h
      split at h <;> cases h
    · cases h
  · intro t d h
    simp only [yaml, get1] at h
    split at h
    · cases h; exact plain_leaf _ _
    · split at h
      · cases h; exact plain_leaf _ _
      · cases h
  · intro t d h; cases h

example : out.1.techs.keys = ["pv", "chp", "demand"] ∨ out.1.techs.keys = ["chp", "pv", "demand"] := by decide +kernel
example : (atNode out.1 "a" "pv", atNode out.1 "a" "demand", atNode out.1 "b" "chp") =
    (some (.leaf none), some (.leaf none), some (.leaf none)) := by decide +kernel
example : atNode out.1 "b" "pv" = none := by decide +kernel
example : (written (out.1.tables.get1 "chp")).get1 "carrier_out" =
    some (.leaf (some (.list [some (.str "power"), some (.str "heat")]))) := by decide +kernel
example : valueOf out.2 "flow_cap_max" (fun d => if d = "nodes" then "b" else "chp") = some (.num 2) := by decide +kernel
example : valueOf out.2 "carrier_out" (fun d => if d = "carriers" then "heat" else "chp") = none := by decide +kernel

theorem puts_pv : PutsAt caps "a" "pv" := by
  refine ⟨_, _, fun d => if d = "nodes" then "a" else "pv", .num 1, List.mem_singleton.mpr rfl, by decide, by decide, ?_, rfl, rfl, rfl⟩
  intro d hd
  simp only [List.mem_cons, List.not_mem_nil, or_false] at hd
  rcases hd with rfl | rfl <;> decide

example : (∃ v, atNode out.1 "a" "pv" = some v) := by
  refine (C75_nodes yaml_sound ?_ ?_ out_eq "a" "pv").mpr (.inr ⟨caps, by simp, puts_pv⟩)
  · intro n a h
    simp only [yaml, get1] at h
    split at h <;> cases h
  · intro n a h
    rw [← lookup_two, lookup_cons] at h
    simp only [yaml, get1] at h
    split at h
    · change (Dict.leaf "latitude" (some (.one (.num 5))) (.sub "techs" (.leaf "demand" none .nil) .nil) : Dict (Datum Nat)).lookup ["techs"] = _ at h
      rw [lookup_single] at h
      simp only [get1] at h
      rw [if_neg (by decide), if_pos trivial] at h
      cases h
    · cases h

example : Sound out.1 := C75_sound (by decide) yaml_sound out_eq

/-- The same, with the technology deactivated in YAML. -/
def yamlOff : Source Nat :=
  ⟨.sub "pv" (.leaf "active" (some (.one (.bool false))) .nil) .nil, .nil, .nil⟩

theorem yamlOff_sound : Sound yamlOff := by
  refine ⟨trivial, ⟨by decide, ⟨by decide, trivial⟩, trivial⟩, trivial, ?_, ?_, ?_, ?_⟩
  · intro n d h; cases h
  · intro n t d h; cases h
  · intro t d h
    simp only [yamlOff, get1] at h
    split at h
    · cases h; exact plain_leaf _ _
    · cases h
  · intro t d h; cases h

/-- The finding. -/
example : ∃ e, initTables ctx0 pivots [caps, kinds] yamlOff = .error e :=
  C75_deactivated yamlOff_sound (x := caps) (n := "a") (t := "pv") (by simp) puts_pv (by decide +kernel)

/-- The error that is raised, if one is. -/
def raised {α : Type} : Except Err α → Option Err
  | .error e => some e
  | .ok _ => none

example : raised (initTables ctx0 pivots [caps, kinds] yamlOff) = some .keyError := by decide +kernel

/-- Two tables with the kind of a technology. -/
example : raised (initTables ctx0 pivots [kinds, kinds] yaml) = some .keyError := by decide +kernel

end Demo

end Tables
end Calliope
