import Verif.Proofs.ModelData3

namespace Calliope
namespace ModelData

open Grid Dict

variable {V : Type}

/-! ### Links -/

/-- What `placeLink` does with a link whose nodes are there. -/
structure Placed (ctx : Ctx V) (known : Label → Bool) (name : Key) (d : Def V) (here : List (LinkAt V)) where
  f : Val (Datum V)
  t : Val (Datum V)
  nf : Label
  nt : Label
  df : Def V
  dt : Def V
  from_eq : d.get1 "link_from" = some f
  to_eq : d.get1 "link_to" = some t
  nf_eq : nodeName ctx f = some nf
  nt_eq : nodeName ctx t = some nt
  knownf : known nf = true
  knownt : known nt = true
  here_eq : here = if nf = nt then [⟨nt, name, dt⟩] else [⟨nf, name, df⟩, ⟨nt, name, dt⟩]
  df_eq : df = if oneWay ctx d then ((d.del1 "link_from").del1 "link_to").del1 "carrier_out"
    else (d.del1 "link_from").del1 "link_to"
  dt_eq : dt = if oneWay ctx d then ((d.del1 "link_from").del1 "link_to").del1 "carrier_in"
    else (d.del1 "link_from").del1 "link_to"

theorem popKey_ok {d e : Def V} {k : Key} {v : Val (Datum V)} (h : popKey d k = .ok (v, e)) :
    d.get1 k = some v ∧ e = d.del1 k := by
  unfold popKey at h
  rcases hg : d.get1 k with _ | w
  · rw [hg] at h; cases h
  · rw [hg] at h
    simp only [Except.ok.injEq, Prod.mk.injEq] at h
    exact ⟨by rw [h.1], h.2.symm⟩

theorem placeLink_ok {ctx : Ctx V} {known : Label → Bool} {name : Key} {d : Def V} {here : Option (List (LinkAt V))}
    (h : placeLink ctx known name d = .ok here) :
    match here with
    | some l => Nonempty (Placed ctx known name d l)
    | none => ∃ f t, d.get1 "link_from" = some f ∧ d.get1 "link_to" = some t ∧
        ∀ nf nt, nodeName ctx f = some nf → nodeName ctx t = some nt → ¬ (known nf = true ∧ known nt = true) := by
  unfold placeLink at h
  rcases h1 : popKey d "link_from" with e | ⟨f, d1⟩
  · rw [h1] at h; cases h
  rw [h1] at h
  simp only [] at h
  rcases h2 : popKey d1 "link_to" with e | ⟨t, d2⟩
  · rw [h2] at h; cases h
  rw [h2] at h
  simp only [] at h
  obtain ⟨a1, rfl⟩ := popKey_ok h1
  obtain ⟨a2, rfl⟩ := popKey_ok h2
  rw [get1_del1_ne d (by decide)] at a2
  rcases h3 : nodeName ctx f with _ | nf
  · rw [h3] at h
    simp only [Except.ok.injEq] at h
    subst h
    exact ⟨f, t, a1, a2, fun nf nt hf => by rw [h3] at hf; cases hf⟩
  rcases h4 : nodeName ctx t with _ | nt
  · rw [h3, h4] at h
    simp only [Except.ok.injEq] at h
    subst h
    exact ⟨f, t, a1, a2, fun nf nt _ ht => by rw [h4] at ht; cases ht⟩
  rw [h3, h4] at h
  simp only [] at h
  by_cases hk : (known nf && known nt) = true
  · rw [if_pos hk] at h
    simp only [Bool.and_eq_true] at hk
    unfold linkEnds at h
    have how : oneWay ctx ((d.del1 "link_from").del1 "link_to") = oneWay ctx d := by
      unfold oneWay
      rw [get1_del1_ne _ (by decide), get1_del1_ne _ (by decide)]
    rw [how] at h
    by_cases ho : oneWay ctx d = true
    · rw [if_pos ho] at h
      rcases h5 : popKey ((d.del1 "link_from").del1 "link_to") "carrier_out" with e | ⟨v, df⟩
      · rw [h5] at h; cases h
      rcases h6 : popKey ((d.del1 "link_from").del1 "link_to") "carrier_in" with e | ⟨w, dt⟩
      · rw [h5, h6] at h; cases h
      rw [h5, h6] at h
      simp only [Except.ok.injEq] at h
      subst h
      exact ⟨⟨f, t, nf, nt, df, dt, a1, a2, h3, h4, hk.1, hk.2, rfl,
        by rw [if_pos ho]; exact (popKey_ok h5).2, by rw [if_pos ho]; exact (popKey_ok h6).2⟩⟩
    · rw [if_neg ho] at h
      simp only [Except.ok.injEq] at h
      subst h
      exact ⟨⟨f, t, nf, nt, _, _, a1, a2, h3, h4, hk.1, hk.2, rfl, by rw [if_neg ho], by rw [if_neg ho]⟩⟩
  · rw [if_neg hk] at h
    simp only [Except.ok.injEq] at h
    subst h
    refine ⟨f, t, a1, a2, fun nf' nt' hf ht => ?_⟩
    rw [h3] at hf; rw [h4] at ht
    cases hf; cases ht
    simpa using hk

theorem linksAt_append (a b : List (LinkAt V)) (n : Label) : linksAt (a ++ b) n = linksAt a n ++ linksAt b n := by
  simp [linksAt]

theorem placed_at {ctx : Ctx V} {known : Label → Bool} {name : Key} {d : Def V} {here : List (LinkAt V)}
    (P : Placed ctx known name d here) (n : Label) :
    linksAt here n = if n = P.nt then [(name, P.dt)] else if n = P.nf then [(name, P.df)] else [] := by
  refine (congrArg (fun z => linksAt z n) P.here_eq).trans ?_
  by_cases he : P.nf = P.nt
  · rw [if_pos he]
    simp only [linksAt, List.filter_cons, List.filter_nil]
    by_cases hn : n = P.nt
    · simp [hn]
    · rw [beq_false_of_ne (fun e => hn e.symm)]
      simp [hn, he]
  · rw [if_neg he]
    simp only [linksAt, List.filter_cons, List.filter_nil]
    by_cases hn : n = P.nt
    · subst hn
      simp [beq_false_of_ne he]
    · rw [if_neg hn, beq_false_of_ne (fun e => hn e.symm)]
      by_cases hf : n = P.nf
      · subst hf; simp
      · simp [beq_false_of_ne (Ne.symm hf), hf]

theorem placeLinks_ok {ctx : Ctx V} {known : Label → Bool} :
    ∀ {l : List (Key × Def V)} {links missing}, placeLinks ctx known l = .ok (links, missing) →
      (∀ n, ((linksAt links n).map Prod.fst).Sublist (l.map Prod.fst)) ∧
      (∀ n t e, (t, e) ∈ linksAt links n ↔ ∃ d here, (t, d) ∈ l ∧ isLink d = true ∧
        placeLink ctx known t d = .ok (some here) ∧ (t, e) ∈ linksAt here n) ∧
      (∀ t, t ∈ missing ↔ ∃ d, (t, d) ∈ l ∧ isLink d = true ∧ placeLink ctx known t d = .ok none) ∧
      (∀ t d, (t, d) ∈ l → isLink d = true → ∃ x, placeLink ctx known t d = .ok x)
  | [], links, missing, h => by
      simp only [placeLinks, Except.ok.injEq, Prod.mk.injEq] at h
      obtain ⟨rfl, rfl⟩ := h
      simp [linksAt]
  | (name, d) :: l, links, missing, h => by
      simp only [placeLinks] at h
      by_cases hi : isLink d = true
      · rw [if_pos hi] at h
        rcases h1 : placeLink ctx known name d with e | here
        · rw [h1] at h; cases h
        rw [h1] at h
        simp only [] at h
        rcases h2 : placeLinks ctx known l with e | ⟨out, mis⟩
        · rw [h2] at h; cases h
        rw [h2] at h
        obtain ⟨b1, b2, b3, b4⟩ := placeLinks_ok h2
        have b4' : ∀ t d', (t, d') ∈ (name, d) :: l → isLink d' = true → ∃ x, placeLink ctx known t d' = .ok x := by
          intro t d' ht
          rcases List.mem_cons.1 ht with ht | ht
          · simp only [Prod.mk.injEq] at ht
            obtain ⟨rfl, rfl⟩ := ht
            exact fun _ => ⟨here, h1⟩
          · exact b4 t d' ht
        have hP := placeLink_ok h1
        rcases here with _ | here
        · simp only [Except.ok.injEq, Prod.mk.injEq] at h
          obtain ⟨rfl, rfl⟩ := h
          refine ⟨fun n => (b1 n).trans (by simp), fun n t e => ?_, fun t => ?_, b4'⟩
          · rw [b2]
            constructor
            · rintro ⟨d', here', hd, hr⟩
              exact ⟨d', here', by simp [hd], hr⟩
            · rintro ⟨d', here', hd, hi', hp, hr⟩
              rcases List.mem_cons.1 hd with hd | hd
              · simp only [Prod.mk.injEq] at hd
                obtain ⟨rfl, rfl⟩ := hd
                rw [h1] at hp
                simp at hp
              · exact ⟨d', here', hd, hi', hp, hr⟩
          · simp only [List.mem_cons, b3, Prod.mk.injEq]
            constructor
            · rintro (rfl | ⟨d', hd, hr⟩)
              · exact ⟨d, .inl ⟨rfl, rfl⟩, hi, h1⟩
              · exact ⟨d', .inr hd, hr⟩
            · rintro ⟨d', ⟨rfl, rfl⟩ | hd, hr⟩
              · exact .inl rfl
              · exact .inr ⟨d', hd, hr⟩
        · simp only [Except.ok.injEq, Prod.mk.injEq] at h
          obtain ⟨rfl, rfl⟩ := h
          obtain ⟨P⟩ := hP
          refine ⟨fun n => ?_, fun n t e => ?_, fun t => ?_, b4'⟩
          · rw [linksAt_append, placed_at P n]
            split
            · simpa using b1 n
            · split
              · simpa using b1 n
              · exact (b1 n).trans (by simp)
          · rw [linksAt_append, List.mem_append, b2]
            constructor
            · rintro (he | ⟨d', here', hd, hr⟩)
              · have htn : t = name := by
                  rw [placed_at P n] at he
                  split at he
                  · simp at he; exact he.1
                  · split at he
                    · simp at he; exact he.1
                    · cases he
                subst htn
                exact ⟨d, here, by simp, hi, h1, he⟩
              · exact ⟨d', here', by simp [hd], hr⟩
            · rintro ⟨d', here', hd, hi', hp, hr⟩
              rcases List.mem_cons.1 hd with hd | hd
              · simp only [Prod.mk.injEq] at hd
                obtain ⟨rfl, rfl⟩ := hd
                rw [h1] at hp
                simp only [Except.ok.injEq, Option.some.injEq] at hp
                subst hp
                exact .inl hr
              · exact .inr ⟨d', here', hd, hi', hp, hr⟩
          · rw [b3]
            constructor
            · rintro ⟨d', hd, hr⟩
              exact ⟨d', by simp [hd], hr⟩
            · rintro ⟨d', hd, hr⟩
              rcases List.mem_cons.1 hd with hd | hd
              · simp only [Prod.mk.injEq] at hd
                obtain ⟨rfl, rfl⟩ := hd
                rw [h1] at hr
                simp at hr
              · exact ⟨d', hd, hr⟩
      · rw [if_neg hi] at h
        obtain ⟨b1, b2, b3, b4⟩ := placeLinks_ok h
        refine ⟨fun n => (b1 n).trans (by simp), fun n t e => ?_, fun t => ?_, fun t d' ht hl => ?_⟩
        · rw [b2]
          constructor
          · rintro ⟨d', here', hd, hr⟩
            exact ⟨d', here', by simp [hd], hr⟩
          · rintro ⟨d', here', hd, hi', hr⟩
            rcases List.mem_cons.1 hd with hd | hd
            · simp only [Prod.mk.injEq] at hd
              obtain ⟨rfl, rfl⟩ := hd
              exact absurd hi' hi
            · exact ⟨d', here', hd, hi', hr⟩
        · rw [b3]
          constructor
          · rintro ⟨d', hd, hr⟩
            exact ⟨d', by simp [hd], hr⟩
          · rintro ⟨d', hd, hi', hr⟩
            rcases List.mem_cons.1 hd with hd | hd
            · simp only [Prod.mk.injEq] at hd
              obtain ⟨rfl, rfl⟩ := hd
              exact absurd hi' hi
            · exact ⟨d', hd, hi', hr⟩
        · rcases List.mem_cons.1 ht with hd | hd
          · simp only [Prod.mk.injEq] at hd
            obtain ⟨rfl, rfl⟩ := hd
            exact absurd hl hi
          · exact b4 t d' hd hl

/-! ### What is at a node -/

variable [DecidableEq V] {ctx : Ctx V} {m : Source V} {ds0 ds : DS V}

theorem Parts.nodes_nodup (hs : Sound m) (P : Parts ctx m ds0 ds) : (P.nodes.map Prod.fst).Nodup := by
  have h := (inheritLoop_ok P.h1).1
  rw [items_fst] at h
  exact h.nodup (keys_nodup hs.nodes)

theorem Parts.techs_nodup (hs : Sound m) (P : Parts ctx m ds0 ds) : (P.techs.map Prod.fst).Nodup := by
  have h := (inheritLoop_ok P.h2).1
  rw [items_fst] at h
  exact h.nodup (keys_nodup hs.techs)

theorem Parts.mem_nodes (hs : Sound m) (P : Parts ctx m ds0 ds) {n : Key} {d : Def V} :
    (n, d) ∈ P.nodes ↔ (m.nodes.get1 n = some (.dict d) ∨ m.nodes.get1 n = some (.leaf none) ∧ d = .nil) ∧
      on ctx (d.get1 "active") = true := by
  rw [(inheritLoop_ok P.h1).2.1]
  constructor
  · rintro ⟨v, hv, hf, ha⟩
    rw [mem_items hs.nodes] at hv
    rw [active_eq] at ha
    refine ⟨?_, ha⟩
    rcases v with (_ | a) | e
    · simp only [inheritNode, itemDef, Except.ok.injEq] at hf
      exact .inr ⟨hv, hf.symm⟩
    · cases hf
    · simp only [inheritNode, itemDef, Except.ok.injEq] at hf
      subst hf; exact .inl hv
  · rintro ⟨h | ⟨h, rfl⟩, ha⟩
    · exact ⟨.dict d, (mem_items hs.nodes).2 h, rfl, by rw [active_eq]; exact ha⟩
    · exact ⟨.leaf none, (mem_items hs.nodes).2 h, rfl, by rw [active_eq]; exact ha⟩

theorem Parts.mem_techs (hs : Sound m) (P : Parts ctx m ds0 ds) {t : Key} {d : Def V} (h : (t, d) ∈ P.techs) :
    d.WF ∧ (∀ p, d.get1 p = techSetting m t p) ∧ on ctx (techSetting m t "active") = true := by
  obtain ⟨v, hv, hf, ha⟩ := ((inheritLoop_ok P.h2).2.1 t d).1 h
  rw [mem_items hs.techs] at hv
  obtain ⟨a, _, b⟩ := inheritTech_top hs hv hf
  refine ⟨a, b, ?_⟩
  rw [active_eq, b] at ha
  exact ha

theorem Parts.tech_mem (hs : Sound m) (P : Parts ctx m ds0 ds) {t : Key} {v : Val (Datum V)}
    (hv : m.techs.get1 t = some v) (ha : on ctx (techSetting m t "active") = true) : ∃ d, (t, d) ∈ P.techs := by
  obtain ⟨d, hd⟩ := (inheritLoop_ok P.h2).2.2.2 t v ((mem_items hs.techs).2 hv)
  obtain ⟨a, _, b⟩ := inheritTech_top hs hv hd
  exact ⟨d, ((inheritLoop_ok P.h2).2.1 t d).2 ⟨v, (mem_items hs.techs).2 hv, hd, by rw [active_eq, b]; exact ha⟩⟩

/-- The technologies and links of a node. -/
structure AtNode (P : Parts ctx m ds0 ds) (x : NodeData V) where
  d : Def V
  techs : Def V
  refs : List Key
  defs : List (Key × Def V)
  off : List Key
  mem : (x.node, d) ∈ P.nodes
  techs_eq : techsOf d = .ok techs
  refs_eq : nodeRefs ctx (items techs) = .ok refs
  defs_eq : inheritLoop ctx (inheritTech m) (items techs) = .ok (defs, off)
  noLink : ∀ y ∈ defs, isLink y.2 = false
  apart : ∀ y ∈ linksAt P.links x.node, y.1 ∉ defs.map Prod.fst
  ds_eq : defDs ctx "techs" ⟨[], []⟩ (defs ++ linksAt P.links x.node) = .ok x.ds
  ix_eq : expand refs x.ds = .ok x.indexed

theorem Parts.atNode (P : Parts ctx m ds0 ds) {x : NodeData V} (hx : x ∈ P.l) : Nonempty (AtNode P x) := by
  obtain ⟨d, hd, hp⟩ := (nodesData_ok P.h4).2.1 x hx
  obtain ⟨techs, refs, defs, off, h1, h2, h3, h4, h5, h6, h7⟩ := hp.parts
  exact ⟨⟨d, techs, refs, defs, off, hd, h1, h2, h3, h4, h5, h6, h7⟩⟩

omit [DecidableEq V] in
theorem techsOf_written {d techs : Def V} (h : techsOf d = .ok techs) : techs = written (d.get1 "techs") := by
  unfold techsOf at h
  rcases hg : d.get1 "techs" with _ | ((_ | a) | e)
  · rw [hg] at h; cases h
  · rw [hg] at h; simp only [Except.ok.injEq] at h; exact h.symm
  · rw [hg] at h; cases h
  · rw [hg] at h; simp only [Except.ok.injEq] at h; exact h.symm

theorem AtNode.written_d (hs : Sound m) {P : Parts ctx m ds0 ds} {x : NodeData V} (A : AtNode P x) :
    A.d = written (m.nodes.get1 x.node) ∧ A.d.WF := by
  rcases ((P.mem_nodes hs).1 A.mem).1 with h | ⟨h, h'⟩
  · exact ⟨by rw [h]; rfl, hs.node _ _ h⟩
  · exact ⟨by rw [h, h']; rfl, by rw [h']; trivial⟩

theorem AtNode.listed (hs : Sound m) {P : Parts ctx m ds0 ds} {x : NodeData V} (A : AtNode P x) (t : Key) :
    A.techs.get1 t = ModelData.atNode m x.node t := by
  unfold ModelData.atNode
  rw [← (A.written_d hs).1, techsOf_written A.techs_eq]

theorem AtNode.techs_wf (hs : Sound m) {P : Parts ctx m ds0 ds} {x : NodeData V} (A : AtNode P x) :
    A.techs.WF := by
  rw [techsOf_written A.techs_eq]
  rcases hg : A.d.get1 "techs" with _ | (a | e)
  · trivial
  · trivial
  · exact dict_wf (A.written_d hs).2 hg

theorem AtNode.mem_defs (hs : Sound m) {P : Parts ctx m ds0 ds} {x : NodeData V} (A : AtNode P x) {t : Key}
    {d : Def V} (h : (t, d) ∈ A.defs) :
    d.WF ∧ (∃ v, ModelData.atNode m x.node t = some v) ∧ (∀ p, d.get1 p = nodeSetting m x.node t p) ∧
      on ctx (nodeSetting m x.node t "active") = true ∧ (∃ b, m.techs.get1 t = some (.dict b)) := by
  obtain ⟨v, hv, hf, ha⟩ := ((inheritLoop_ok A.defs_eq).2.1 t d).1 h
  rw [mem_items (A.techs_wf hs), A.listed hs] at hv
  obtain ⟨a, _, b, _, c⟩ := inheritTech_ok hs (fun y hy => hs.listed x.node t y (by rw [hv, hy])) hf
  have hc : ∀ p, d.get1 p = nodeSetting m x.node t p := by
    intro p; rw [c p]; unfold nodeSetting; rw [hv]
  refine ⟨a, ⟨v, hv⟩, hc, ?_, b⟩
  rw [active_eq, hc] at ha
  exact ha

theorem AtNode.defs_mem (hs : Sound m) {P : Parts ctx m ds0 ds} {x : NodeData V} (A : AtNode P x) {t : Key}
    {v : Val (Datum V)} (hv : ModelData.atNode m x.node t = some v)
    (ha : on ctx (nodeSetting m x.node t "active") = true) : ∃ d, (t, d) ∈ A.defs := by
  have hv' : (t, v) ∈ items A.techs := (mem_items (A.techs_wf hs)).2 (by rw [A.listed hs]; exact hv)
  obtain ⟨d, hd⟩ := (inheritLoop_ok A.defs_eq).2.2.2 t v hv'
  obtain ⟨a, _, b, _, c⟩ := inheritTech_ok hs (fun y hy => hs.listed x.node t y (by rw [hv, hy])) hd
  refine ⟨d, ((inheritLoop_ok A.defs_eq).2.1 t d).2 ⟨v, hv', hd, ?_⟩⟩
  rw [active_eq, c]
  unfold nodeSetting at ha
  rw [hv] at ha
  exact ha

theorem AtNode.names_nodup (hs : Sound m) {P : Parts ctx m ds0 ds} {x : NodeData V} (A : AtNode P x) :
    ((A.defs ++ linksAt P.links x.node).map Prod.fst).Nodup := by
  rw [List.map_append, List.nodup_append]
  have h := (inheritLoop_ok A.defs_eq).1
  rw [items_fst] at h
  refine ⟨h.nodup (keys_nodup (A.techs_wf hs)), ((placeLinks_ok P.h3).1 x.node).nodup (P.techs_nodup hs), ?_⟩
  intro a ha b hb hab
  subst hab
  obtain ⟨y, hy, rfl⟩ := List.mem_map.1 hb
  exact A.apart y hy ha

theorem AtNode.links_wf (hs : Sound m) {P : Parts ctx m ds0 ds} {x : NodeData V} {t : Key} {e : Def V}
    (h : (t, e) ∈ linksAt P.links x.node) : e.WF := by
  obtain ⟨d, here, hd, hi, hp, he⟩ := ((placeLinks_ok P.h3).2.1 x.node t e).1 h
  obtain ⟨Q⟩ := placeLink_ok hp
  have hw := (P.mem_techs hs hd).1
  rw [placed_at Q] at he
  split at he
  · simp only [List.mem_singleton, Prod.mk.injEq] at he
    rw [he.2, Q.dt_eq]
    split
    · exact WF_del1 (WF_del1 (WF_del1 hw))
    · exact WF_del1 (WF_del1 hw)
  · split at he
    · simp only [List.mem_singleton, Prod.mk.injEq] at he
      rw [he.2, Q.df_eq]
      split
      · exact WF_del1 (WF_del1 (WF_del1 hw))
      · exact WF_del1 (WF_del1 hw)
    · cases he

/-- The arrays of a node. -/
theorem AtNode.at (hs : Sound m) {P : Parts ctx m ds0 ds} {x : NodeData V} (A : AtNode P x) (p : String)
    (ρ : String → Label) :
    varAt x.ds.vars p ρ = match (A.defs ++ linksAt P.links x.node).lookup (ρ "techs") with
      | none => none
      | some d => saysAt ctx (d.get1 p) p ρ := by
  rw [defDs_at ctx "techs" p ρ _ _ _ (A.names_nodup hs) ?_ A.ds_eq]
  · simp only [varAt, List.lookup_nil, Option.none_or]
    cases (A.defs ++ linksAt P.links x.node).lookup (ρ "techs") <;> rfl
  · rintro ⟨t, d⟩ hd
    rcases List.mem_append.1 hd with hd | hd
    · exact (A.mem_defs hs hd).1
    · exact AtNode.links_wf hs hd

theorem AtNode.names {P : Parts ctx m ds0 ds} {x : NodeData V} (A : AtNode P x) (p : String) :
    p ∈ x.ds.names ↔ ∃ y ∈ A.defs ++ linksAt P.links x.node, p ∈ y.2.keys := by
  have := defDs_names ctx "techs" p _ _ _ A.ds_eq
  simpa [DS.names] using this

omit [DecidableEq V] in
/-- A setting that is not given at a node comes from the technology. -/
theorem nodeSetting_eq_tech {n t p : Key} (h : p ∉ (written (ModelData.atNode m n t)).keys) :
    nodeSetting m n t p = techSetting m t p := by
  unfold nodeSetting techSetting
  rw [(get1_eq_none _ p).2 h]
  rfl

omit [DecidableEq V] in
/-- A technology that is active at a node is not switched off there. -/
theorem node_active (hs : Sound m) {n t : Key} (h : on ctx (nodeSetting m n t "active") = true) :
    on ctx ((written (ModelData.atNode m n t)).get1 "active") = true := by
  unfold nodeSetting at h
  rcases hc : (written (ModelData.atNode m n t)).get1 "active" with _ | (a | s)
  · rfl
  · rw [hc] at h
    have hb : ∀ e, (written (m.techs.get1 t)).get1 "active" ≠ some (.dict e) := by
      rcases hg : m.techs.get1 t with _ | (a | b)
      · intro e he; cases he
      · intro e he; cases he
      · exact (hs.tech t b hg).act
    have ht : ∀ e, (written (m.tables.get1 t)).get1 "active" ≠ some (.dict e) := by
      rcases hg : m.tables.get1 t with _ | (a | b)
      · intro e he; cases he
      · intro e he; cases he
      · exact (hs.table t b hg).act
    rcases a with _ | a
    · have h1 : over ((written (m.techs.get1 t)).get1 "active") (some (.leaf none)) = some (.leaf none) := by
        rcases hg : (written (m.techs.get1 t)).get1 "active" with _ | (a | e)
        · rfl
        · rfl
        · exact absurd hg (hb e)
      have h2 : over ((written (m.tables.get1 t)).get1 "active") (some (.leaf none)) = some (.leaf none) := by
        rcases hg : (written (m.tables.get1 t)).get1 "active" with _ | (a | e)
        · rfl
        · rfl
        · exact absurd hg (ht e)
      rw [h1, h2] at h
      exact h
    · exact h
  · exfalso
    rcases hg : ModelData.atNode m n t with _ | (a | e)
    · rw [hg] at hc; cases hc
    · rw [hg] at hc; cases hc
    · rw [hg] at hc
      exact (hs.listed n t e hg).act s hc

/-- The settings given at a node for an active technology are indexed over nodes. -/
theorem AtNode.mem_indexed (hs : Sound m) {P : Parts ctx m ds0 ds} {x : NodeData V} (A : AtNode P x) {t : Key}
    (ha : on ctx (nodeSetting m x.node t "active") = true) {p : Key}
    (hp : p ∈ (written (ModelData.atNode m x.node t)).keys) : p ∈ A.refs := by
  have h := node_active hs ha
  rcases hg : ModelData.atNode m x.node t with _ | (a | e)
  · rw [hg] at hp; cases hp
  · rw [hg] at hp; cases hp
  · rw [hg] at hp h
    refine ((nodeRefs_ok A.refs_eq).1 p).2 ⟨t, e, ?_, by rw [active_eq]; exact h, hp⟩
    rw [mem_items (A.techs_wf hs), A.listed hs, hg]

/-- `base_tech` is not given at nodes. -/
theorem AtNode.base_tech (hs : Sound m) {P : Parts ctx m ds0 ds} {x : NodeData V} (A : AtNode P x) {t : Key}
    (ha : on ctx (nodeSetting m x.node t "active") = true) :
    "base_tech" ∉ (written (ModelData.atNode m x.node t)).keys := by
  intro hp
  have h := node_active hs ha
  rcases hg : ModelData.atNode m x.node t with _ | (a | e)
  · rw [hg] at hp; cases hp
  · rw [hg] at hp; cases hp
  · rw [hg] at hp h
    refine (nodeRefs_ok A.refs_eq).2 t e ?_ (by rw [active_eq]; exact h) hp
    rw [mem_items (A.techs_wf hs), A.listed hs, hg]

/-- A technology of a node is not a link anywhere. -/
theorem AtNode.not_link (hs : Sound m) {P : Parts ctx m ds0 ds} {x : NodeData V} (A : AtNode P x) {t : Key}
    {d : Def V} (h : (t, d) ∈ A.defs) (n : Label) (e : Def V) : (t, e) ∉ linksAt P.links n := by
  intro he
  obtain ⟨d', here, hd, hi, _, _⟩ := ((placeLinks_ok P.h3).2.1 n t e).1 he
  obtain ⟨_, _, h3, h4, _⟩ := A.mem_defs hs h
  have h5 := A.noLink _ h
  have h6 := (P.mem_techs hs hd).2.1 "base_tech"
  unfold isLink at hi h5
  simp only [] at h5
  rw [h3, nodeSetting_eq_tech (A.base_tech hs h4)] at h5
  rw [h6] at hi
  rw [hi] at h5
  cases h5

theorem AtNode.lookup_tech (hs : Sound m) {P : Parts ctx m ds0 ds} {x : NodeData V} (A : AtNode P x) {t : Key}
    {d : Def V} (h : (t, d) ∈ A.defs) : (A.defs ++ linksAt P.links x.node).lookup t = some d :=
  lookup_of_mem (A.names_nodup hs) (List.mem_append_left _ h)

theorem AtNode.lookup_link (hs : Sound m) {P : Parts ctx m ds0 ds} {x : NodeData V} (A : AtNode P x) {t : Key}
    {d : Def V} (h : (t, d) ∈ linksAt P.links x.node) : (A.defs ++ linksAt P.links x.node).lookup t = some d :=
  lookup_of_mem (A.names_nodup hs) (List.mem_append_right _ h)

theorem Parts.l_nodup (hs : Sound m) (P : Parts ctx m ds0 ds) : (P.l.map NodeData.node).Nodup := by
  rw [(nodesData_ok P.h4).1]; exact P.nodes_nodup hs

omit [DecidableEq V] in
theorem find_node {l : List (NodeData V)} (hn : (l.map NodeData.node).Nodup) {x : NodeData V} (hx : x ∈ l) :
    l.find? (fun y => y.node == x.node) = some x := by
  induction l with
  | nil => cases hx
  | cons y l ih =>
    simp only [List.map_cons, List.nodup_cons] at hn
    rw [List.find?_cons]
    rcases List.mem_cons.1 hx with rfl | hx
    · simp
    · rw [beq_false_of_ne (fun e => hn.1 (by rw [e]; exact List.mem_map.2 ⟨x, hx, rfl⟩))]
      exact ih hn.2 hx

omit [DecidableEq V] in
theorem findSome_const {α β : Type} (f : α → Option β) (c : Option β) : ∀ (l : List α),
    (∀ x ∈ l, f x = none ∨ f x = c) → (∃ x ∈ l, f x = c) → l.findSome? f = c
  | [], _, h => by obtain ⟨x, hx, _⟩ := h; cases hx
  | x :: l, h1, h2 => by
      rw [List.findSome?_cons]
      rcases hf : f x with _ | y
      · simp only []
        rcases c with _ | z
        · rw [List.findSome?_eq_none_iff]
          intro y hy
          rcases h1 y (List.mem_cons_of_mem _ hy) with h | h <;> exact h
        · apply findSome_const f (some z) l (fun y hy => h1 y (List.mem_cons_of_mem _ hy))
          obtain ⟨y, hy, hc⟩ := h2
          rcases List.mem_cons.1 hy with rfl | hy
          · rw [hf] at hc; cases hc
          · exact ⟨y, hy, hc⟩
      · rcases h1 x (by simp) with h | h
        · rw [hf] at h; cases h
        · rw [hf] at h; simpa using h

/-- The technology part of the inputs at a technology of a node. -/
theorem Parts.combine_tech (hs : Sound m) (P : Parts ctx m ds0 ds) {x : NodeData V} (hx : x ∈ P.l) {t : Key}
    {v : Val (Datum V)} (hv : ModelData.atNode m x.node t = some v)
    (ha : on ctx (nodeSetting m x.node t "active") = true) (p : Key) (ρ : String → Label)
    (hn : ρ "nodes" = x.node) (ht : ρ "techs" = t) :
    varAt (combine P.l).vars p ρ = saysAt ctx (nodeSetting m x.node t p) p ρ := by
  obtain ⟨A⟩ := P.atNode hx
  obtain ⟨d, hd⟩ := A.defs_mem hs hv ha
  have hval : varAt x.ds.vars p ρ = saysAt ctx (nodeSetting m x.node t p) p ρ := by
    rw [A.at hs, ht, A.lookup_tech hs hd]
    simp only []
    rw [(A.mem_defs hs hd).2.2.1]
  rw [combine_at _ (P.l_nodup hs)]
  split
  · rw [hn, find_node (P.l_nodup hs) hx]
    exact hval
  · rename_i hix
    apply findSome_const _ _ _ _ ⟨x, hx, hval⟩
    intro y hy
    obtain ⟨B⟩ := P.atNode hy
    rw [B.at hs, ht]
    rcases hl : (B.defs ++ linksAt P.links y.node).lookup t with _ | e
    · exact .inl rfl
    · right
      simp only []
      have he := mem_of_lookup hl
      have he' : (t, e) ∈ B.defs := by
        rcases List.mem_append.1 he with he | he
        · exact he
        · exact absurd he (A.not_link hs hd _ _)
      obtain ⟨_, _, h3, h4, _⟩ := B.mem_defs hs he'
      have key : ∀ {z : NodeData V} (C : AtNode P z), z ∈ P.l →
          on ctx (nodeSetting m z.node t "active") = true → nodeSetting m z.node t p = techSetting m t p := by
        intro z C hz hza
        apply nodeSetting_eq_tech
        intro hp
        apply hix
        rw [List.any_eq_true]
        refine ⟨z, hz, ?_⟩
        have := ((expand_ok C.ix_eq).2.1 p).2 (.inl (C.mem_indexed hs hza hp))
        simpa using this
      rw [h3, key B hy h4, key A hx ha]

/-- The setting of a node itself. -/
theorem Parts.node_at (hs : Sound m) (P : Parts ctx m ds0 ds) (p : Key) (ρ : String → Label) :
    varAt P.nds.vars p ρ = match P.nodes.lookup (ρ "nodes") with
      | none => none
      | some d => saysAt ctx (if p = "techs" then none else d.get1 p) p ρ := by
  have hw : ∀ x ∈ P.nodes, x.2.WF := by
    rintro ⟨n, d⟩ hx
    rcases ((P.mem_nodes hs).1 hx).1 with h | ⟨_, h⟩
    · exact hs.node n d h
    · rw [h]; trivial
  have h := P.h5
  rw [defDs_at ctx "nodes" p ρ _ _ _ ?_ ?_ h]
  · rw [lookup_map_snd (fun d : Def V => d.del1 "techs")]
    rcases hl : P.nodes.lookup (ρ "nodes") with _ | d
    · simp [varAt]
    · simp only [Option.map_some, varAt, List.lookup_nil, Option.none_or]
      have hd := hw _ (mem_of_lookup hl)
      by_cases hp : p = "techs"
      · subst hp
        rw [if_pos rfl, get1_del1_self _ hd]
      · rw [if_neg hp, get1_del1_ne _ hp]
  · rw [List.map_map]
    exact P.nodes_nodup hs
  · intro x hx
    obtain ⟨y, hy, rfl⟩ := List.mem_map.1 hx
    exact WF_del1 (hw y hy)

theorem Parts.new_at (P : Parts ctx m ds0 ds) (p : Key) (ρ : String → Label) :
    varAt P.new.vars p ρ = (varAt (combine P.l).vars p ρ).or (varAt P.nds.vars p ρ) :=
  mergeNodes_at P.h6 (defDs_nodup ctx "nodes" _ _ _ (by simp) P.h5) p ρ

open Classical in
/-- The data of the tables that is kept. -/
theorem Parts.old_at (P : Parts ctx m ds0 ds) (hn : (ds0.vars.map Prod.fst).Nodup) (p : Key) (ρ : String → Label) :
    ∃ old, valueOf ds p ρ = ((varAt (combine P.l).vars p ρ).or (varAt P.nds.vars p ρ)).or old ∧
      old = if (overDim ds0 p "nodes" ∧ ρ "nodes" ∈ P.offNodes) ∨
          (overDim ds0 p "techs" ∧ (ρ "techs" ∈ P.offTechs ∨ ρ "techs" ∈ P.missing)) then none
        else valueOf ds0 p ρ := by
  obtain ⟨a1, a2, a3⟩ := dropLabels_at "nodes" p ρ P.offNodes ds0
  obtain ⟨b1, b2, b3⟩ := dropLabels_at "techs" p ρ P.offTechs (P.offNodes.foldl (dropLabel "nodes") ds0)
  obtain ⟨c1, c2, c3⟩ := dropLabels_at "techs" p ρ P.missing
    (P.offTechs.foldl (dropLabel "techs") (P.offNodes.foldl (dropLabel "nodes") ds0))
  refine ⟨_, ?_, rfl⟩
  refine (congrArg (fun z => valueOf z p ρ) P.h7).trans ?_
  rw [addToDataset_at _ _ (by rw [c3, b3, a3]; exact hn), valueOf_eq, P.new_at]
  congr 1
  have hod : ∀ (d1 d2 : DS V) (dim : String), (d1.vars.lookup p).map Arr.dims = (d2.vars.lookup p).map Arr.dims →
      ((∃ a, d1.vars.lookup p = some a ∧ dim ∈ a.dims) ↔ ∃ a, d2.vars.lookup p = some a ∧ dim ∈ a.dims) := by
    intro d1 d2 dim h
    rcases h1 : d1.vars.lookup p with _ | x
    · rw [h1] at h
      rcases h2 : d2.vars.lookup p with _ | y
      · simp
      · rw [h2] at h; cases h
    · rw [h1] at h
      rcases h2 : d2.vars.lookup p with _ | y
      · rw [h2] at h; cases h
      · rw [h2] at h
        simp only [Option.map_some, Option.some.injEq] at h
        simp [h]
  have e1 := hod _ _ "techs" a2
  have e2 := hod _ _ "techs" (b2.trans a2)
  rw [c1, b1, a1]
  simp only [e1, e2]
  unfold overDim
  by_cases q1 : ∃ a, ds0.vars.lookup p = some a ∧ "nodes" ∈ a.dims
  · by_cases q2 : ∃ a, ds0.vars.lookup p = some a ∧ "techs" ∈ a.dims
    · by_cases r1 : ρ "nodes" ∈ P.offNodes <;> by_cases r2 : ρ "techs" ∈ P.offTechs <;>
        by_cases r3 : ρ "techs" ∈ P.missing <;> simp [q1, q2, r1, r2, r3]
    · by_cases r1 : ρ "nodes" ∈ P.offNodes <;> simp [q1, q2, r1]
  · by_cases q2 : ∃ a, ds0.vars.lookup p = some a ∧ "techs" ∈ a.dims
    · by_cases r2 : ρ "techs" ∈ P.offTechs <;>
        by_cases r3 : ρ "techs" ∈ P.missing <;> simp [q1, q2, r2, r3]
    · simp [q1, q2]

theorem Parts.mem_offNodes (hs : Sound m) (P : Parts ctx m ds0 ds) {n : Key} :
    n ∈ P.offNodes ↔ ∃ d, m.nodes.get1 n = some (.dict d) ∧ on ctx (d.get1 "active") = false := by
  rw [(inheritLoop_ok P.h1).2.2.1]
  constructor
  · rintro ⟨v, d, hv, hf, ha⟩
    rw [mem_items hs.nodes] at hv
    rw [active_eq] at ha
    rcases v with (_ | a) | e
    · simp only [inheritNode, itemDef, Except.ok.injEq] at hf
      subst hf
      cases ha
    · cases hf
    · simp only [inheritNode, itemDef, Except.ok.injEq] at hf
      subst hf
      exact ⟨e, hv, ha⟩
  · rintro ⟨d, hd, ha⟩
    exact ⟨.dict d, d, (mem_items hs.nodes).2 hd, rfl, by rw [active_eq]; exact ha⟩

theorem Parts.mem_offTechs (hs : Sound m) (P : Parts ctx m ds0 ds) {t : Key} :
    t ∈ P.offTechs ↔ (∃ v, m.techs.get1 t = some v) ∧ on ctx (techSetting m t "active") = false := by
  rw [(inheritLoop_ok P.h2).2.2.1]
  constructor
  · rintro ⟨v, d, hv, hf, ha⟩
    rw [mem_items hs.techs] at hv
    obtain ⟨_, _, b⟩ := inheritTech_top hs hv hf
    rw [active_eq, b] at ha
    exact ⟨⟨v, hv⟩, ha⟩
  · rintro ⟨⟨v, hv⟩, ha⟩
    obtain ⟨d, hd⟩ := (inheritLoop_ok P.h2).2.2.2 t v ((mem_items hs.techs).2 hv)
    obtain ⟨_, _, b⟩ := inheritTech_top hs hv hd
    exact ⟨v, d, (mem_items hs.techs).2 hv, hd, by rw [active_eq, b]; exact ha⟩

theorem Parts.nodeData_mem (P : Parts ctx m ds0 ds) {n : Key} {d : Def V} (h : (n, d) ∈ P.nodes) :
    ∃ x ∈ P.l, x.node = n := by
  obtain ⟨x, hx, hp⟩ := (nodesData_ok P.h4).2.2 n d h
  exact ⟨x, hx, hp.node_eq⟩

end ModelData
end Calliope
