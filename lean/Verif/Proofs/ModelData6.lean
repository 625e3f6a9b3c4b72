import Verif.Proofs.ModelData5

namespace Calliope
namespace ModelData

open Grid Dict

variable {V : Type} [DecidableEq V] {ctx : Ctx V} {m : Source V} {ds0 ds : DS V}

theorem Parts.activeNode (hs : Sound m) (P : Parts ctx m ds0 ds) {n : Key} (h : ActiveNode ctx m n) :
    ∃ x ∈ P.l, x.node = n := by
  obtain ⟨⟨d, hd⟩, ha⟩ := h
  rw [hd] at ha
  exact P.nodeData_mem ((P.mem_nodes hs).2 ⟨.inl hd, ha⟩)

theorem Parts.active_of (hs : Sound m) (P : Parts ctx m ds0 ds) {x : NodeData V} (hx : x ∈ P.l) :
    ActiveNode ctx m x.node := by
  obtain ⟨A⟩ := P.atNode hx
  obtain ⟨h1, h2⟩ := (P.mem_nodes hs).1 A.mem
  rcases h1 with h1 | ⟨h1, h3⟩
  · exact ⟨⟨_, h1⟩, by rw [h1]; exact h2⟩
  · have := A.techs_eq
    rw [h3] at this
    cases this

/-- The setting of the node itself. -/
theorem Parts.own_at (hs : Sound m) (P : Parts ctx m ds0 ds) (p : Key) (ρ : String → Label)
    (hn : ActiveNode ctx m (ρ "nodes")) :
    varAt P.nds.vars p ρ = saysAt ctx (ownSetting m (ρ "nodes") p) p ρ := by
  obtain ⟨⟨d, hd⟩, ha⟩ := hn
  rw [P.node_at hs]
  have hl : P.nodes.lookup (ρ "nodes") = some d := by
    apply lookup_of_mem (P.nodes_nodup hs)
    rw [hd] at ha
    exact (P.mem_nodes hs).2 ⟨.inl hd, ha⟩
  rw [hl]
  unfold ownSetting
  rw [hd]
  rfl

theorem Parts.own_none (hs : Sound m) (P : Parts ctx m ds0 ds) (p : Key) (ρ : String → Label)
    (hn : ¬ ActiveNode ctx m (ρ "nodes")) : varAt P.nds.vars p ρ = none := by
  rw [P.node_at hs]
  rcases hl : P.nodes.lookup (ρ "nodes") with _ | d
  · rfl
  · obtain ⟨x, hx, he⟩ := P.nodeData_mem (mem_of_lookup hl)
    exact absurd (he ▸ P.active_of hs hx) hn

omit [DecidableEq V] in
theorem isLink_iff {d : Def V} : isLink d = true ↔
    d.get1 "base_tech" = some (.leaf (some (.one (.str "transmission")))) := by
  unfold isLink
  constructor
  · intro h
    split at h
    · rename_i s hs
      rw [hs]
      simp only [beq_iff_eq] at h
      rw [h]
    · cases h
  · intro h
    rw [h]
    rfl

/-- The nodes a link may go to: the active ones, and those of the data tables. -/
def Parts.known (P : Parts ctx m ds0 ds) (n : Label) : Bool :=
  (P.nodes.map Prod.fst).contains n || (labelsOf (P.offNodes.foldl (dropLabel "nodes") ds0).coords "nodes").contains n

theorem Parts.known_active (hs : Sound m) (P : Parts ctx m ds0 ds) {n : Label} (h : ActiveNode ctx m n) :
    P.known n = true := by
  obtain ⟨⟨d, hd⟩, ha⟩ := h
  rw [hd] at ha
  have := (P.mem_nodes hs).2 ⟨.inl hd, ha⟩
  unfold Parts.known
  rw [Bool.or_eq_true]
  left
  rw [List.contains_iff_mem]
  exact List.mem_map.2 ⟨_, this, rfl⟩

omit [DecidableEq V] in
theorem labelsOf_drops {a : String} : ∀ (ls : List Label) (ds : DS V) (l : Label),
    l ∈ labelsOf (ls.foldl (dropLabel a) ds).coords a → (a, l) ∈ ds.coords
  | [], ds, l, h => by
      simp only [List.foldl_nil, labelsOf, List.mem_map, List.mem_filter] at h
      obtain ⟨⟨x, y⟩, ⟨h1, h2⟩, h3⟩ := h
      simp only [beq_iff_eq] at h2
      simp only [] at h3
      subst h2; subst h3
      exact h1
  | k :: ls, ds, l, h => by
      have := labelsOf_drops ls (dropLabel a ds k) l h
      simp only [dropLabel, List.mem_filter] at this
      exact this.1

theorem Parts.known_reaches (hs : Sound m) (P : Parts ctx m ds0 ds) {n : Label} (h : P.known n = true) :
    Reaches ctx m ds0 n := by
  unfold Parts.known at h
  rw [Bool.or_eq_true] at h
  rcases h with h | h
  · rw [List.contains_iff_mem] at h
    obtain ⟨⟨n', d⟩, hx, rfl⟩ := List.mem_map.1 h
    obtain ⟨x, hx, he⟩ := P.nodeData_mem hx
    exact .inl (he ▸ P.active_of hs hx)
  · rw [List.contains_iff_mem] at h
    exact .inr (labelsOf_drops _ _ _ h)

omit [DecidableEq V] in
theorem nodeName_some {x : Scalar V} : nodeName ctx (.leaf (some (.one x))) = some (ctx.label x) := rfl

/-- A link with active ends is placed at them. -/
theorem Parts.link_placed (hs : Sound m) (P : Parts ctx m ds0 ds) {t nf nt : Key} (L : Link ctx m t nf nt)
    (hf : ActiveNode ctx m nf) (ht : ActiveNode ctx m nt) :
    ∃ d here, (t, d) ∈ P.techs ∧ isLink d = true ∧ placeLink ctx P.known t d = .ok (some here) ∧
      ∃ Q : Placed ctx P.known t d here, Q.nf = nf ∧ Q.nt = nt := by
  obtain ⟨v, hv⟩ := L.tech
  obtain ⟨d, hd⟩ := P.tech_mem hs hv L.on
  have hg := (P.mem_techs hs hd).2.1
  have hl : isLink d = true := isLink_iff.2 ((hg "base_tech").trans L.kind)
  obtain ⟨here, hp⟩ := (placeLinks_ok P.h3).2.2.2 t d hd hl
  obtain ⟨x, hx, rfl⟩ := L.here
  obtain ⟨y, hy, rfl⟩ := L.there
  rw [← hg] at hx hy
  have hk := placeLink_ok hp
  rcases here with _ | here
  · exfalso
    obtain ⟨f, g, h1, h2, h3⟩ := hk
    rw [hx] at h1; rw [hy] at h2
    cases h1; cases h2
    exact h3 _ _ nodeName_some nodeName_some ⟨P.known_active hs hf, P.known_active hs ht⟩
  · obtain ⟨Q⟩ := hk
    refine ⟨d, here, hd, hl, hp, Q, ?_, ?_⟩
    · have h1 := Q.from_eq
      have h2 := Q.nf_eq
      rw [hx, Option.some.injEq] at h1
      rw [← h1, nodeName_some, Option.some.injEq] at h2
      exact h2.symm
    · have h1 := Q.to_eq
      have h2 := Q.nt_eq
      rw [hy, Option.some.injEq] at h1
      rw [← h1, nodeName_some, Option.some.injEq] at h2
      exact h2.symm

theorem oneWay_iff (P : Parts ctx m ds0 ds) (hs : Sound m) {t : Key} {d : Def V} (hd : (t, d) ∈ P.techs) :
    oneWay ctx d = true ↔ OneWay ctx m t := by
  unfold oneWay OneWay
  rw [(P.mem_techs hs hd).2.1]
  rcases techSetting m t "one_way" with _ | v
  · simp
  · simp [truthVal_eq]

omit [DecidableEq V] in
/-- The definition of a link at one of its ends. -/
theorem Placed.end_get {t : Key} {d : Def V} {known : Label → Bool} {here : List (LinkAt V)}
    (Q : Placed ctx known t d here) (hw : d.WF) (p : Key) (h1 : p ≠ "link_from") (h2 : p ≠ "link_to") :
    Q.df.get1 p = (if oneWay ctx d = true ∧ p = "carrier_out" then none else d.get1 p) ∧
    Q.dt.get1 p = (if oneWay ctx d = true ∧ p = "carrier_in" then none else d.get1 p) := by
  have hw2 : ((d.del1 "link_from").del1 "link_to").WF := WF_del1 (WF_del1 hw)
  rw [Q.df_eq, Q.dt_eq]
  by_cases ho : oneWay ctx d = true
  · simp only [ho, if_true, true_and]
    constructor
    · by_cases hp : p = "carrier_out"
      · subst hp
        rw [if_pos rfl, get1_del1_self _ hw2]
      · rw [if_neg hp, get1_del1_ne _ hp, get1_del1_ne _ h2, get1_del1_ne _ h1]
    · by_cases hp : p = "carrier_in"
      · subst hp
        rw [if_pos rfl, get1_del1_self _ hw2]
      · rw [if_neg hp, get1_del1_ne _ hp, get1_del1_ne _ h2, get1_del1_ne _ h1]
  · simp only [ho]
    simp only [Bool.false_eq_true, if_false, false_and]
    rw [get1_del1_ne _ h2, get1_del1_ne _ h1]
    exact ⟨rfl, rfl⟩

omit [DecidableEq V] in
theorem Placed.end_none {t : Key} {d : Def V} {known : Label → Bool} {here : List (LinkAt V)}
    (Q : Placed ctx known t d here) (hw : d.WF) (p : Key) (h : p = "link_from" ∨ p = "link_to") :
    Q.df.get1 p = none ∧ Q.dt.get1 p = none := by
  have h0 : ((d.del1 "link_from").del1 "link_to").get1 p = none := by
    rcases h with rfl | rfl
    · rw [get1_del1_ne _ (by decide), get1_del1_self _ hw]
    · rw [get1_del1_self _ (WF_del1 hw)]
  have hne : p ≠ "carrier_out" ∧ p ≠ "carrier_in" := by
    rcases h with rfl | rfl <;> decide
  rw [Q.df_eq, Q.dt_eq]
  constructor <;> split
  · rw [get1_del1_ne _ hne.1, h0]
  · exact h0
  · rw [get1_del1_ne _ hne.2, h0]
  · exact h0

/-- Variables of the carriers are over nodes. -/
theorem Parts.combine_carrier (hs : Sound m) (P : Parts ctx m ds0 ds) {p : Key}
    (hp : p = "carrier_in" ∨ p = "carrier_out") (ρ : String → Label) :
    varAt (combine P.l).vars p ρ = match P.l.find? (fun x => x.node == ρ "nodes") with
      | none => none
      | some x => varAt x.ds.vars p ρ := by
  rw [combine_at _ (P.l_nodup hs)]
  by_cases hi : P.l.any (fun x => x.indexed.contains p) = true
  · rw [if_pos hi]
    rcases P.l.find? (fun x => x.node == ρ "nodes") with _ | x <;> rfl
  · rw [if_neg hi]
    have hall : ∀ x ∈ P.l, varAt x.ds.vars p ρ = none := by
      intro x hx
      obtain ⟨A⟩ := P.atNode hx
      have hnm : p ∉ x.ds.names := by
        intro h
        apply hi
        rw [List.any_eq_true]
        refine ⟨x, hx, ?_⟩
        have := ((expand_ok A.ix_eq).2.1 p).2 (.inr ⟨hp, h⟩)
        simpa using this
      unfold varAt
      rcases hl : x.ds.vars.lookup p with _ | a
      · rfl
      · exact absurd (List.mem_map.2 ⟨_, mem_of_lookup hl, rfl⟩) hnm
    rw [List.findSome?_eq_none_iff.2 hall]
    rcases hf : P.l.find? (fun x => x.node == ρ "nodes") with _ | x
    · rw [hf]
    · rw [hf]
      exact (hall x (List.mem_of_find?_eq_some hf)).symm

/-- The data of a node at a link. -/
theorem Parts.link_at (hs : Sound m) (P : Parts ctx m ds0 ds) {t : Key} {d : Def V} {here : List (LinkAt V)}
    (hd : (t, d) ∈ P.techs) (hl : isLink d = true) (hp : placeLink ctx P.known t d = .ok (some here))
    (Q : Placed ctx P.known t d here) (hnt : ActiveNode ctx m Q.nt)
    {x : NodeData V} (hx : x ∈ P.l) (p : Key) (ρ : String → Label) (hρ : ρ "techs" = t) :
    varAt x.ds.vars p ρ = if x.node = Q.nt then saysAt ctx (Q.dt.get1 p) p ρ
      else if x.node = Q.nf then saysAt ctx (Q.df.get1 p) p ρ else none := by
  obtain ⟨A⟩ := P.atNode hx
  have hmem : ∀ n e, (t, e) ∈ linksAt here n → (t, e) ∈ linksAt P.links n := fun n e he =>
    ((placeLinks_ok P.h3).2.1 n t e).2 ⟨d, here, hd, hl, hp, he⟩
  have hnd : ∀ e, (t, e) ∉ A.defs := by
    intro e he
    apply A.not_link hs he Q.nt Q.dt
    apply hmem
    rw [placed_at Q, if_pos rfl]
    simp
  rw [A.at hs, hρ]
  by_cases h1 : x.node = Q.nt
  · rw [if_pos h1, A.lookup_link hs (d := Q.dt)]
    apply hmem
    rw [placed_at Q, if_pos h1]
    simp
  · rw [if_neg h1]
    by_cases h2 : x.node = Q.nf
    · rw [if_pos h2, A.lookup_link hs (d := Q.df)]
      apply hmem
      rw [placed_at Q, if_neg h1, if_pos h2]
      simp
    · rw [if_neg h2]
      rcases hlk : (A.defs ++ linksAt P.links x.node).lookup t with _ | e
      · rfl
      · exfalso
        rcases List.mem_append.1 (mem_of_lookup hlk) with he | he
        · exact hnd e he
        · obtain ⟨d', here', hd', _, hp', he'⟩ := ((placeLinks_ok P.h3).2.1 x.node t e).1 he
          have : d' = d := by
            have a1 := lookup_of_mem (P.techs_nodup hs) hd'
            have a2 := lookup_of_mem (P.techs_nodup hs) hd
            rw [a1] at a2
            exact Option.some.inj a2
          subst this
          have hp'' : placeLink ctx P.known t d' = .ok (some here') := hp'
          rw [hp''] at hp
          simp only [Except.ok.injEq, Option.some.injEq] at hp
          subst hp
          rw [placed_at Q, if_neg h1, if_neg h2] at he'
          cases he'

/-- Carriers come from technologies alone. -/
theorem Parts.carrier_value (hs : Sound m) (P : Parts ctx m ds0 ds) (hn : (ds0.vars.map Prod.fst).Nodup) {p : Key}
    (hp : p = "carrier_in" ∨ p = "carrier_out") (ρ : String → Label)
    (hown : (written (m.nodes.get1 (ρ "nodes"))).get1 p = none) (hds : valueOf ds0 p ρ = none) :
    valueOf ds p ρ = match P.l.find? (fun x => x.node == ρ "nodes") with
      | none => none
      | some x => varAt x.ds.vars p ρ := by
  obtain ⟨old, h1, h2⟩ := P.old_at hn p ρ
  have hold : old = none := by
    rw [h2]
    split
    · rfl
    · exact hds
  have hnd : varAt P.nds.vars p ρ = none := by
    by_cases ha : ActiveNode ctx m (ρ "nodes")
    · rw [P.own_at hs p ρ ha]
      unfold ownSetting
      rw [hown]
      simp [saysAt]
    · exact P.own_none hs p ρ ha
  rw [h1, hold, hnd, Option.or_none, Option.or_none, P.combine_carrier hs hp]

theorem Parts.carrier_link (hs : Sound m) (P : Parts ctx m ds0 ds) {t : Key} {d : Def V} {here : List (LinkAt V)}
    (hd : (t, d) ∈ P.techs) (hl : isLink d = true) (hp : placeLink ctx P.known t d = .ok (some here))
    (Q : Placed ctx P.known t d here) (hnf : ActiveNode ctx m Q.nf) (hnt : ActiveNode ctx m Q.nt)
    (p : Key) (ρ : String → Label) (hρ : ρ "techs" = t) :
    (match P.l.find? (fun x => x.node == ρ "nodes") with
      | none => none
      | some x => varAt x.ds.vars p ρ) = if ρ "nodes" = Q.nt then saysAt ctx (Q.dt.get1 p) p ρ
      else if ρ "nodes" = Q.nf then saysAt ctx (Q.df.get1 p) p ρ else none := by
  rcases hf : P.l.find? (fun x => x.node == ρ "nodes") with _ | x
  · rw [hf]
    have hno : ∀ n, ActiveNode ctx m n → ρ "nodes" ≠ n := by
      intro n hn he
      obtain ⟨y, hy, hyn⟩ := P.activeNode hs hn
      have := List.find?_eq_none.1 hf y hy
      simp [hyn, he] at this
    simp only []
    rw [if_neg (hno _ hnt), if_neg (hno _ hnf)]
  · rw [hf]
    have hx := List.mem_of_find?_eq_some hf
    have hxn : x.node = ρ "nodes" := by
      have := List.find?_some hf
      simpa using this
    simp only []
    rw [P.link_at hs hd hl hp Q hnt hx p ρ hρ, hxn]

/-! ### Checking a definition -/

omit [DecidableEq V] in
theorem mem_items_of_get {d : Dict (Datum V)} {k : Key} {v : Val (Datum V)} (h : d.get1 k = some v) :
    (k, v) ∈ items d := by
  obtain ⟨l1, l2, h1, _⟩ := items_del1 h
  rw [h1]; simp

/-- A condition on every dictionary of a dictionary. -/
def check (p : Dict (Datum V) → Bool) (d : Dict (Datum V)) : Bool :=
  (items d).all (fun x => match x.2 with
    | .dict e => p e
    | .leaf _ => true)

omit [DecidableEq V] in
theorem check_get {d : Dict (Datum V)} (p : Dict (Datum V) → Prop) [DecidablePred p]
    (hc : check (fun e => decide (p e)) d = true) {k : Key} {e : Dict (Datum V)} (h : d.get1 k = some (.dict e)) : p e := by
  have := List.all_eq_true.1 hc _ (mem_items_of_get h)
  simpa using this

def flatB (e : Dict (Datum V)) : Bool :=
  (items e).all (fun x => match x.2 with
    | .dict _ => false
    | .leaf _ => true)

def noDict : Option (Val (Datum V)) → Bool
  | some (.dict _) => false
  | _ => true

def plainB (e : Dict (Datum V)) : Bool := decide e.WF && check flatB e && noDict (e.get1 "active")

def checkPlain (d : Dict (Datum V)) : Bool := check plainB d

omit [DecidableEq V] in
theorem checkPlain_get {d : Dict (Datum V)} (hc : checkPlain d = true) {k : Key} {e : Dict (Datum V)}
    (h : d.get1 k = some (.dict e)) : Plain e := by
  have := List.all_eq_true.1 hc _ (mem_items_of_get h)
  simp only [plainB, Bool.and_eq_true, decide_eq_true_eq] at this
  obtain ⟨⟨h1, h2⟩, h3⟩ := this
  refine ⟨h1, ?_, ?_⟩
  · intro p s hs k w hw
    have h4 := List.all_eq_true.1 h2 _ (mem_items_of_get hs)
    have h5 := List.all_eq_true.1 h4 _ (mem_items_of_get hw)
    rcases w with a | z
    · exact ⟨a, rfl⟩
    · cases h5
  · intro s hs
    rw [hs] at h3
    cases h3

/-- A link at a node. -/
theorem Parts.link_of (hs : Sound m) (P : Parts ctx m ds0 ds) {x : NodeData V} {t : Key} {e : Def V}
    (he : (t, e) ∈ linksAt P.links x.node) :
    ∃ nf nt, Link ctx m t nf nt ∧ (x.node = nf ∨ x.node = nt) ∧
      (∀ p, e.get1 p ≠ none → techSetting m t p ≠ none) := by
  obtain ⟨d, here, hd, hi, hp, he'⟩ := ((placeLinks_ok P.h3).2.1 x.node _ e).1 he
  obtain ⟨Q⟩ := placeLink_ok hp
  obtain ⟨hw, hg, ha⟩ := P.mem_techs hs hd
  have hname : ∀ {v : Val (Datum V)} {l}, nodeName ctx v = some l →
      ∃ z, v = .leaf (some (.one z)) ∧ ctx.label z = l := by
    intro v l hn
    unfold nodeName at hn
    split at hn
    · rename_i z
      exact ⟨z, rfl, Option.some.inj hn⟩
    · cases hn
  have hL : Link ctx m t Q.nf Q.nt := by
    obtain ⟨v, hv, _⟩ := ((inheritLoop_ok P.h2).2.1 _ d).1 hd
    refine ⟨⟨v, (mem_items hs.techs).1 hv⟩, ha, by rw [← hg]; exact isLink_iff.1 hi, ?_, ?_⟩
    · obtain ⟨z, hz, hz'⟩ := hname Q.nf_eq
      exact ⟨z, by rw [← hg, Q.from_eq, hz], hz'⟩
    · obtain ⟨z, hz, hz'⟩ := hname Q.nt_eq
      exact ⟨z, by rw [← hg, Q.to_eq, hz], hz'⟩
  have hget : ∀ p, (Q.df.get1 p ≠ none → d.get1 p ≠ none) ∧ (Q.dt.get1 p ≠ none → d.get1 p ≠ none) := by
    intro p
    by_cases h12 : p = "link_from" ∨ p = "link_to"
    · obtain ⟨h1, h2⟩ := Q.end_none hw p h12
      exact ⟨fun h => absurd h1 h, fun h => absurd h2 h⟩
    · push Not at h12
      obtain ⟨h1, h2⟩ := Q.end_get hw p h12.1 h12.2
      rw [h1, h2]
      constructor
      · split
        · intro h; exact absurd rfl h
        · exact id
      · split
        · intro h; exact absurd rfl h
        · exact id
  rw [placed_at Q] at he'
  refine ⟨Q.nf, Q.nt, hL, ?_⟩
  split at he'
  · rename_i hn
    simp only [List.mem_singleton, Prod.mk.injEq] at he'
    refine ⟨.inr hn, fun p h => ?_⟩
    rw [he'.2] at h
    rw [← hg]
    exact (hget p).2 h
  · split at he'
    · rename_i hn
      simp only [List.mem_singleton, Prod.mk.injEq] at he'
      refine ⟨.inl hn, fun p h => ?_⟩
      rw [he'.2] at h
      rw [← hg]
      exact (hget p).1 h
    · cases he'

/-- Every value comes from a technology of a node or a link. -/
theorem Parts.combine_from (hs : Sound m) (P : Parts ctx m ds0 ds) {p : Key} {ρ : String → Label} {y : Scalar V}
    (h : varAt (combine P.l).vars p ρ = some y) :
    (∃ n, ActiveAt ctx m n (ρ "techs") ∧ saysAt ctx (nodeSetting m n (ρ "techs") p) p ρ = some y ∧
      (n = ρ "nodes" ∨ nodeSetting m n (ρ "techs") p = techSetting m (ρ "techs") p)) ∨
    (∃ n nf nt, ActiveNode ctx m n ∧ Link ctx m (ρ "techs") nf nt ∧ (n = nf ∨ n = nt) ∧
      Reaches ctx m ds0 nf ∧ Reaches ctx m ds0 nt ∧
      saysAt ctx (techSetting m (ρ "techs") p) p ρ = some y ∧
      (n = ρ "nodes" ∨ p ≠ "carrier_in" ∧ p ≠ "carrier_out")) := by
  have hx : ∃ x ∈ P.l, varAt x.ds.vars p ρ = some y ∧ (x.node = ρ "nodes" ∨
      P.l.any (fun x => x.indexed.contains p) = false) := by
    rw [combine_at _ (P.l_nodup hs)] at h
    split at h
    · rcases hf : P.l.find? (fun x => x.node == ρ "nodes") with _ | x
      · rw [hf] at h; cases h
      · rw [hf] at h
        refine ⟨x, List.mem_of_find?_eq_some hf, h, .inl ?_⟩
        have := List.find?_some hf
        simpa using this
    · rename_i hi
      obtain ⟨x, hx, hv⟩ := List.exists_of_findSome?_eq_some h
      exact ⟨x, hx, hv, .inr (by simpa using hi)⟩
  obtain ⟨x, hx, hv, hwhere⟩ := hx
  obtain ⟨A⟩ := P.atNode hx
  have hv0 := hv
  rw [A.at hs] at hv
  rcases hl : (A.defs ++ linksAt P.links x.node).lookup (ρ "techs") with _ | e
  · rw [hl] at hv; cases hv
  rw [hl] at hv
  simp only [] at hv
  rcases List.mem_append.1 (mem_of_lookup hl) with he | he
  · left
    obtain ⟨_, h2, h3, h4, _⟩ := A.mem_defs hs he
    refine ⟨x.node, ⟨P.active_of hs hx, h2, h4⟩, by rw [← h3]; exact hv, ?_⟩
    rcases hwhere with hw | hw
    · exact .inl hw
    · right
      apply nodeSetting_eq_tech
      intro hp
      have hix := ((expand_ok A.ix_eq).2.1 p).2 (.inl (A.mem_indexed hs h4 hp))
      have : P.l.any (fun x => x.indexed.contains p) = true := by
        rw [List.any_eq_true]
        exact ⟨x, hx, by simpa using hix⟩
      rw [this] at hw
      cases hw
  · right
    obtain ⟨d, here, hd, hi, hp, he'⟩ := ((placeLinks_ok P.h3).2.1 x.node _ e).1 he
    obtain ⟨Q⟩ := placeLink_ok hp
    obtain ⟨hw, hg, ha⟩ := P.mem_techs hs hd
    have hname : ∀ {v : Val (Datum V)} {l}, nodeName ctx v = some l →
        ∃ z, v = .leaf (some (.one z)) ∧ ctx.label z = l := by
      intro v l hn
      unfold nodeName at hn
      split at hn
      · rename_i z
        exact ⟨z, rfl, Option.some.inj hn⟩
      · cases hn
    have hL : Link ctx m (ρ "techs") Q.nf Q.nt := by
      obtain ⟨v, hv, _⟩ := ((inheritLoop_ok P.h2).2.1 _ d).1 hd
      refine ⟨⟨v, (mem_items hs.techs).1 hv⟩, ha, by rw [← hg]; exact isLink_iff.1 hi, ?_, ?_⟩
      · obtain ⟨z, hz, hz'⟩ := hname Q.nf_eq
        exact ⟨z, by rw [← hg, Q.from_eq, hz], hz'⟩
      · obtain ⟨z, hz, hz'⟩ := hname Q.nt_eq
        exact ⟨z, by rw [← hg, Q.to_eq, hz], hz'⟩
    have hend : (x.node = Q.nt ∧ e = Q.dt) ∨ (x.node = Q.nf ∧ e = Q.df) := by
      rw [placed_at Q] at he'
      split at he'
      · rename_i hn
        simp only [List.mem_singleton, Prod.mk.injEq] at he'
        exact .inl ⟨hn, he'.2⟩
      · split at he'
        · rename_i hn
          simp only [List.mem_singleton, Prod.mk.injEq] at he'
          exact .inr ⟨hn, he'.2⟩
        · cases he'
    have hsays : saysAt ctx (techSetting m (ρ "techs") p) p ρ = some y := by
      rw [← hg]
      have hne : ∀ {z : Option (Val (Datum V))}, z = none → saysAt ctx z p ρ ≠ some y := by
        rintro z rfl hz; cases hz
      have hve : (p = "link_from" ∨ p = "link_to") → False := by
        intro hp
        obtain ⟨h1, h2⟩ := Q.end_none hw p hp
        rcases hend with ⟨_, rfl⟩ | ⟨_, rfl⟩
        · exact hne h2 hv
        · exact hne h1 hv
      have h12 : p ≠ "link_from" ∧ p ≠ "link_to" := by
        constructor
        · intro hp; exact hve (.inl hp)
        · intro hp; exact hve (.inr hp)
      obtain ⟨h1, h2⟩ := Q.end_get hw p h12.1 h12.2
      rcases hend with ⟨_, rfl⟩ | ⟨_, rfl⟩
      · rw [h2] at hv
        split at hv
        · exact absurd hv (hne rfl)
        · exact hv
      · rw [h1] at hv
        split at hv
        · exact absurd hv (hne rfl)
        · exact hv
    refine ⟨x.node, Q.nf, Q.nt, P.active_of hs hx, hL, ?_, P.known_reaches hs Q.knownf, P.known_reaches hs Q.knownt,
      hsays, ?_⟩
    · rcases hend with ⟨h, _⟩ | ⟨h, _⟩
      · exact .inr h
      · exact .inl h
    · rcases hwhere with hw | hw
      · exact .inl hw
      · by_cases hc : p = "carrier_in" ∨ p = "carrier_out"
        · rw [P.combine_carrier hs hc] at h
          rcases hf : P.l.find? (fun x => x.node == ρ "nodes") with _ | z
          · rw [hf] at h; cases h
          · exfalso
            have hnm : p ∈ x.ds.names := by
              unfold varAt at hv0
              rcases hl : x.ds.vars.lookup p with _ | a
              · rw [hl] at hv0; cases hv0
              · exact List.mem_map.2 ⟨_, mem_of_lookup hl, rfl⟩
            have hix := ((expand_ok A.ix_eq).2.1 p).2 (.inr ⟨hc, hnm⟩)
            have : P.l.any (fun x => x.indexed.contains p) = true := by
              rw [List.any_eq_true]
              exact ⟨x, hx, by simpa using hix⟩
            rw [this] at hw
            cases hw
        · push Not at hc
          exact .inr hc

end ModelData
end Calliope
