import Verif.Props.ModelData

/-!
# Properties of building the model inputs (C52, C55)
-/

namespace Calliope
namespace ModelData

open Grid Dict

variable {V : Type} [DecidableEq V] {ctx : Ctx V} {m : Source V} {ds0 ds : DS V}

/-! ### C52: deactivated items -/

/-- The parts of the inputs make up the whole. -/
theorem Parts.run (P : Parts ctx m ds0 ds) : addNodeTechData ctx m ds0 = .ok ds := by
  unfold addNodeTechData
  rw [P.h1]
  simp only []
  rw [P.h2]
  simp only []
  rw [P.h3]
  simp only []
  rw [P.h4]
  simp only []
  rw [P.h5]
  simp only []
  rw [P.h6]
  simp only []
  rw [← P.h7]

/-- **C52.** A deactivated node: the inputs (or the error) are as if neither the node nor data of the data tables for
it had been written. -/
theorem C52_node {n : Key} {d : Def V} (hd : m.nodes.get1 n = some (.dict d)) (hoff : on ctx (d.get1 "active") = false) :
    addNodeTechData ctx m ds0 =
      addNodeTechData ctx { m with nodes := m.nodes.del1 n } (dropLabel "nodes" ds0 n) := by
  obtain ⟨l1, l2, i1, i2⟩ := items_del1 hd
  have hl := inheritLoop_erase (ctx := ctx) (f := inheritNode) (k := n) (v := .dict d) (d := d) rfl
    (by rw [active_eq]; exact hoff) l2 l1
  unfold addNodeTechData
  simp only [i1, i2]
  rcases hi : inheritLoop ctx inheritNode (l1 ++ l2) with e | ⟨on, off⟩
  · rw [hi] at hl
    simp only [] at hl
    rw [hl]
  · rw [hi] at hl
    simp only [] at hl
    obtain ⟨o1, o2, rfl, ho⟩ := hl
    rw [ho]
    simp only [foldl_insert]
    have e1 : inheritTech { m with nodes := m.nodes.del1 n } = inheritTech m := rfl
    have e2 : ∀ links, nodesData ctx { m with nodes := m.nodes.del1 n } links on = nodesData ctx m links on :=
      fun links => nodesData_congr e1 links on
    rw [e1]
    simp only [e2]

example : ∃ d, Demo.m.nodes.get1 "c" = some (.dict d) ∧ on Demo.ctx (d.get1 "active") = false :=
  ⟨_, rfl, by decide +kernel⟩

omit [DecidableEq V] in
theorem inheritLoop_congr {f g : Key → Val (Datum V) → Except Err (Def V)} : ∀ {l : List (Key × Val (Datum V))},
    (∀ x ∈ l, f x.1 x.2 = g x.1 x.2) → inheritLoop ctx f l = inheritLoop ctx g l
  | [], _ => rfl
  | (k, v) :: l, h => by
      have h1 := h (k, v) (by simp)
      simp only [] at h1
      simp only [inheritLoop, h1, inheritLoop_congr (l := l) (fun x hx => h x (by simp [hx]))]

omit [DecidableEq V] in
theorem nodesData_techs {m' : Source V} {links : List (LinkAt V)} : ∀ {nodes : List (Key × Def V)},
    (∀ x ∈ nodes, ∀ ts, techsOf x.2 = .ok ts → ∀ y ∈ items ts, inheritTech m y.1 y.2 = inheritTech m' y.1 y.2) →
    nodesData ctx m links nodes = nodesData ctx m' links nodes
  | [], _ => rfl
  | (n, d) :: nodes, h => by
      simp only [nodesData, nodesData_techs (nodes := nodes) (fun x hx => h x (by simp [hx]))]
      have : nodeData ctx m links n d = nodeData ctx m' links n d := by
        unfold nodeData
        rcases ht : techsOf d with e | ts
        · rfl
        · simp only []
          rw [inheritLoop_congr (h (n, d) (by simp) ts ht)]
      rw [this]

omit [DecidableEq V] in
theorem inheritTech_del {t : Key} {k : Key} (hk : k ≠ t) (v : Val (Datum V)) :
    inheritTech { m with techs := m.techs.del1 t } k v = inheritTech m k v := by
  unfold inheritTech baseDef
  simp only [get1_del1_ne _ hk]

/-- **C52.** A deactivated technology that no active node lists: the inputs are as if neither the technology nor data of
the data tables for it had been written.  Missing: a deactivated technology that active nodes list, which may make
building fail (`C52_not_erased`); see `C52_listed_partial` for its listings. -/
theorem C52_tech_partial (hs : Sound m) (h : addNodeTechData ctx m ds0 = .ok ds) {t : Key} {v : Val (Datum V)}
    (hv : m.techs.get1 t = some v) (hoff : on ctx (techSetting m t "active") = false)
    (hun : ∀ n, ActiveNode ctx m n → atNode m n t = none) :
    addNodeTechData ctx { m with techs := m.techs.del1 t } (dropLabel "techs" ds0 t) = .ok ds := by
  obtain ⟨P⟩ := addNodeTechData_ok h
  obtain ⟨l1, l2, i1, i2⟩ := items_del1 hv
  obtain ⟨d, hd⟩ := (inheritLoop_ok P.h2).2.2.2 t v ((mem_items hs.techs).2 hv)
  have ha : active ctx d = false := by
    rw [active_eq, (inheritTech_top hs hv hd).2.2]; exact hoff
  have hl := inheritLoop_erase hd ha l2 l1
  rw [← i1, P.h2] at hl
  have hwf : ∀ x ∈ l1 ++ l2, x.1 ≠ t := by
    intro x hx he
    have hnd := keys_nodup hs.techs
    rw [← items_fst, i1, List.map_append, List.map_cons, List.nodup_append] at hnd
    obtain ⟨n1, n2, n3⟩ := hnd
    rcases List.mem_append.1 hx with hx | hx
    · exact n3 x.1 (List.mem_map.2 ⟨x, hx, rfl⟩) t (by simp) he
    · rw [List.nodup_cons] at n2
      exact n2.1 (he ▸ List.mem_map.2 ⟨x, hx, rfl⟩)
  have hcong : inheritLoop ctx (inheritTech { m with techs := m.techs.del1 t }) (l1 ++ l2) =
      inheritLoop ctx (inheritTech m) (l1 ++ l2) :=
    inheritLoop_congr (fun x hx => inheritTech_del (hwf x hx) x.2)
  rcases hi : inheritLoop ctx (inheritTech m) (l1 ++ l2) with e | ⟨on', off⟩
  · rw [hi] at hl
    cases hl
  · rw [hi] at hl
    simp only [] at hl
    obtain ⟨o1, o2, ho, hr⟩ := hl
    simp only [Except.ok.injEq, Prod.mk.injEq] at hr
    obtain ⟨hr1, hr2⟩ := hr
    have hfold : ∀ ds1 : DS V, P.offTechs.foldl (dropLabel "techs") ds1 =
        off.foldl (dropLabel "techs") (dropLabel "techs" ds1 t) := by
      intro ds1
      rw [hr2, foldl_insert, ← ho]
    refine Parts.run ⟨P.nodes, P.offNodes, P.techs, off, P.links, P.missing, P.l, P.nds, P.new, P.h1, ?_, ?_, ?_, P.h5,
      P.h6, ?_⟩
    · simp only [i2]
      rw [hcong, hi, hr1]
    · rw [foldl_dropLabel, labelsOf_drop (by decide)]
      exact P.h3
    · rw [← P.h4]
      symm
      apply nodesData_techs
      rintro ⟨n, d'⟩ hx ts hts y hy
      symm
      apply inheritTech_del
      intro hyt
      obtain ⟨x, hxl, hxn⟩ := P.nodeData_mem hx
      obtain ⟨A⟩ := P.atNode hxl
      have hAd : A.d = d' := by
        have a1 := lookup_of_mem (P.nodes_nodup hs) A.mem
        have a2 := lookup_of_mem (P.nodes_nodup hs) hx
        rw [hxn, a2] at a1
        exact (Option.some.inj a1).symm
      have hAt : A.techs = ts := by
        have a1 := A.techs_eq
        rw [hAd, hts] at a1
        exact (Except.ok.inj a1).symm
      have hmem : ModelData.atNode m x.node t = some y.2 := by
        rw [← A.listed hs, hAt]
        refine (mem_items (hAt ▸ A.techs_wf hs)).1 ?_
        rw [← hyt]
        exact hy
      rw [hun _ (P.active_of hs hxl)] at hmem
      cases hmem
    · rw [foldl_dropLabel, ← hfold]
      exact P.h7

/-- A model with a deactivated technology that no node lists. -/
def Demo.offTech : Source Int :=
  ⟨.sub "old" (.leaf "base_tech" (Demo.str "supply") (.leaf "active" (Demo.bool false) .nil)) Demo.techs, Demo.nodes,
    .nil⟩

example : (∃ v, Demo.offTech.techs.get1 "old" = some v) ∧
    on Demo.ctx (techSetting Demo.offTech "old" "active") = false ∧
    (∀ n, atNode Demo.offTech n "old" = none) ∧
    (∃ ds, addNodeTechData Demo.ctx Demo.offTech Demo.ds0 = .ok ds) := by
  refine ⟨⟨_, rfl⟩, by decide +kernel, ?_, ?_⟩
  · intro n
    by_cases h1 : n = "a"
    · subst h1; decide +kernel
    by_cases h2 : n = "b"
    · subst h2; decide +kernel
    by_cases h3 : n = "c"
    · subst h3; decide +kernel
    · have : Demo.offTech.nodes.get1 n = none := by
        simp [Demo.offTech, Demo.nodes, get1, Ne.symm h1, Ne.symm h2, Ne.symm h3]
      unfold atNode
      rw [this]; rfl
  · have : (match addNodeTechData Demo.ctx Demo.offTech Demo.ds0 with
      | .ok _ => true
      | .error _ => false) = true := by decide +kernel
    rcases h : addNodeTechData Demo.ctx Demo.offTech Demo.ds0 with e | ds
    · rw [h] at this; cases this
    · exact ⟨ds, rfl⟩

omit [DecidableEq V] in
theorem del1_put1 : ∀ (d : Def V) (k : Key) (v : Val (Datum V)), d.get1 k ≠ none → (d.put1 k v).del1 k = d.del1 k
  | .nil, _, _, h => absurd rfl h
  | .leaf j a r, k, v, h => by
      simp only [put1, del1]
      by_cases hj : j = k
      · simp only [hj, if_true]
        rcases v with v | v <;> simp [del1]
      · simp only [hj, if_false, del1]
        rw [del1_put1 r k v (by simpa [get1, hj] using h)]
  | .sub j a r, k, v, h => by
      simp only [put1, del1]
      by_cases hj : j = k
      · simp only [hj, if_true]
        rcases v with v | v <;> simp [del1]
      · simp only [hj, if_false, del1]
        rw [del1_put1 r k v (by simpa [get1, hj] using h)]

/-- **C52.** A technology that is deactivated at a node, with no settings there or with `active: false` among them: the
inputs are as if the node did not list it.  Missing: other settings at the node (`C52_settings_left`). -/
theorem C52_listed_partial (hs : Sound m) (h : addNodeTechData ctx m ds0 = .ok ds) {n t : Key} {nd ts : Def V}
    {v : Val (Datum V)} (hnd : m.nodes.get1 n = some (.dict nd)) (hts : nd.get1 "techs" = some (.dict ts))
    (hv : ts.get1 t = some v) (hoff : on ctx (nodeSetting m n t "active") = false)
    (hself : written (some v) = .nil ∨ on ctx ((written (some v)).get1 "active") = false) :
    addNodeTechData ctx { m with nodes := m.nodes.put1 n (.dict (nd.put1 "techs" (.dict (ts.del1 t)))) } ds0 =
      .ok ds := by
  obtain ⟨P⟩ := addNodeTechData_ok h
  obtain ⟨l1, l2, i1, i2⟩ := items_put1 (w := .dict (nd.put1 "techs" (.dict (ts.del1 t)))) hnd
  have hact : active ctx nd = active ctx (nd.put1 "techs" (.dict (ts.del1 t))) := by
    rw [active_eq, active_eq, get1_put1_ne _ _ (by decide)]
  have hl := inheritLoop_map (ctx := ctx) (f := inheritNode) (k := n) (v := .dict nd)
    (w := .dict (nd.put1 "techs" (.dict (ts.del1 t)))) rfl rfl hact l2 l1
  rw [← i1, P.h1] at hl
  simp only [] at hl
  have e1 : inheritTech { m with nodes := m.nodes.put1 n (.dict (nd.put1 "techs" (.dict (ts.del1 t)))) } =
      inheritTech m := rfl
  rcases hl with ⟨ha, a, b, hab, hr⟩ | ⟨ha, hr⟩
  · have hmem : (n, nd) ∈ P.nodes := by rw [hab]; simp
    obtain ⟨x, hx, rfl⟩ := P.nodeData_mem hmem
    obtain ⟨A⟩ := P.atNode hx
    have hAd : A.d = nd := by
      have a1 := lookup_of_mem (P.nodes_nodup hs) A.mem
      have a2 := lookup_of_mem (P.nodes_nodup hs) hmem
      rw [a2] at a1
      exact (Option.some.inj a1).symm
    have hAt : A.techs = ts := by
      have := A.techs_eq
      rw [hAd] at this
      unfold techsOf at this
      rw [hts] at this
      exact (Except.ok.inj this).symm
    have hat : ModelData.atNode m x.node t = some v := by rw [← A.listed hs, hAt]; exact hv
    have hmv : (t, v) ∈ items A.techs := (mem_items (A.techs_wf hs)).2 (by rw [hAt]; exact hv)
    obtain ⟨u, hu⟩ := (inheritLoop_ok A.defs_eq).2.2.2 t v hmv
    obtain ⟨_, _, _, hnl, hgu⟩ := inheritTech_ok hs (fun y hy => hs.listed x.node t y (by rw [hat, hy])) hu
    have hau : active ctx u = false := by
      rw [active_eq, hgu]
      unfold nodeSetting at hoff
      rw [hat] at hoff
      exact hoff
    have hnode : nodeData ctx m P.links x.node nd =
        nodeData ctx m P.links x.node (nd.put1 "techs" (.dict (ts.del1 t))) := by
      unfold nodeData
      have t1 : techsOf nd = .ok ts := by unfold techsOf; rw [hts]
      have t2 : techsOf (nd.put1 "techs" (.dict (ts.del1 t))) = .ok (ts.del1 t) := by
        unfold techsOf; rw [get1_put1_self]
      rw [t1, t2]
      simp only []
      obtain ⟨k1, k2, j1, j2⟩ := items_del1 hv
      have hrefs : nodeRefs ctx (items ts) = nodeRefs ctx (items (ts.del1 t)) := by
        rw [j1, j2]
        apply nodeRefs_erase
        rcases v with (_ | w) | w
        · exact .inl rfl
        · exact absurd rfl (hnl w)
        · right
          refine ⟨w, rfl, ?_⟩
          rcases hself with hself | hself
          · exact .inr hself
          · left; rw [active_eq]; exact hself
      rw [hrefs]
      have hloop := inheritLoop_erase hu hau k2 k1
      rw [← j1] at hloop
      rw [j2]
      rcases nodeRefs ctx (k1 ++ k2) with e | refs
      · rfl
      simp only []
      rcases hj : inheritLoop ctx (inheritTech m) (k1 ++ k2) with e | ⟨on', off'⟩
      · rw [hj] at hloop
        simp only [] at hloop
        rw [hloop]
      · rw [hj] at hloop
        simp only [] at hloop
        obtain ⟨o1, o2, _, ho⟩ := hloop
        rw [ho]
    refine Parts.run ⟨a ++ (x.node, nd.put1 "techs" (.dict (ts.del1 t))) :: b, P.offNodes, P.techs, P.offTechs, P.links,
      P.missing, P.l, P.nds, P.new, ?_, P.h2, ?_, ?_, ?_, P.h6, P.h7⟩
    · simp only [i2]
      rw [hr]
    · have : (a ++ (x.node, nd.put1 "techs" (.dict (ts.del1 t))) :: b).map Prod.fst = P.nodes.map Prod.fst := by
        rw [hab]; simp
      rw [this]
      exact P.h3
    · rw [nodesData_congr (m' := m) e1, ← P.h4, hab]
      exact nodesData_append_error hnode.symm b a
    · rw [← P.h5, hab]
      simp only [List.map_append, List.map_cons]
      rw [del1_put1 _ _ _ (by rw [hts]; simp)]
  · refine Parts.run ⟨P.nodes, P.offNodes, P.techs, P.offTechs, P.links,
      P.missing, P.l, P.nds, P.new, ?_, P.h2, P.h3, ?_, P.h5, P.h6, P.h7⟩
    · simp only [i2]
      rw [hr]
    · rw [nodesData_congr (m' := m) e1]
      exact P.h4

/-- A model with a technology deactivated at one node. -/
def Demo.offAt : Source Int :=
  ⟨Demo.techs, .sub "d" (.sub "techs" (.sub "pv" (.leaf "active" (Demo.bool false) .nil) (.leaf "dem" none .nil)) .nil)
    Demo.nodes, .nil⟩

example : (∃ nd ts v, Demo.offAt.nodes.get1 "d" = some (.dict nd) ∧ nd.get1 "techs" = some (.dict ts) ∧
      ts.get1 "pv" = some v ∧ on Demo.ctx ((written (some v)).get1 "active") = false) ∧
    on Demo.ctx (nodeSetting Demo.offAt "d" "pv" "active") = false ∧
    (∃ ds, addNodeTechData Demo.ctx Demo.offAt Demo.ds0 = .ok ds) := by
  refine ⟨⟨_, _, _, rfl, rfl, rfl, by decide +kernel⟩, by decide +kernel, ?_⟩
  have : (match addNodeTechData Demo.ctx Demo.offAt Demo.ds0 with
    | .ok _ => true
    | .error _ => false) = true := by decide +kernel
  rcases h : addNodeTechData Demo.ctx Demo.offAt Demo.ds0 with e | ds
  · rw [h] at this; cases this
  · exact ⟨ds, rfl⟩

/-- **C52.** Every value of the inputs comes from an active item: from a technology active at a node, from an active
link at one of its nodes, from an active node, or from the data tables and then not for an inactive node or
technology. -/
theorem C52_origin (hs : Sound m) (hn : (ds0.vars.map Prod.fst).Nodup) (h : addNodeTechData ctx m ds0 = .ok ds)
    {p : Key} {ρ : String → Label} {y : Scalar V} (hv : valueOf ds p ρ = some y) :
    (∃ n, ActiveAt ctx m n (ρ "techs") ∧ saysAt ctx (nodeSetting m n (ρ "techs") p) p ρ = some y ∧
      (n = ρ "nodes" ∨ nodeSetting m n (ρ "techs") p = techSetting m (ρ "techs") p)) ∨
    (∃ n nf nt, ActiveNode ctx m n ∧ Link ctx m (ρ "techs") nf nt ∧ (n = nf ∨ n = nt) ∧
      Reaches ctx m ds0 nf ∧ Reaches ctx m ds0 nt ∧
      saysAt ctx (techSetting m (ρ "techs") p) p ρ = some y ∧
      (n = ρ "nodes" ∨ p ≠ "carrier_in" ∧ p ≠ "carrier_out")) ∨
    (ActiveNode ctx m (ρ "nodes") ∧ saysAt ctx (ownSetting m (ρ "nodes") p) p ρ = some y) ∨
    (valueOf ds0 p ρ = some y ∧
      (∀ a d, ds0.vars.lookup p = some a → "nodes" ∈ a.dims → m.nodes.get1 (ρ "nodes") = some (.dict d) →
        on ctx (d.get1 "active") = true) ∧
      (∀ a v, ds0.vars.lookup p = some a → "techs" ∈ a.dims → m.techs.get1 (ρ "techs") = some v →
        on ctx (techSetting m (ρ "techs") "active") = true)) := by
  obtain ⟨P⟩ := addNodeTechData_ok h
  obtain ⟨old, h1, h2⟩ := P.old_at hn p ρ
  rw [hv] at h1
  rcases hc : varAt (combine P.l).vars p ρ with _ | z
  · rw [hc, Option.none_or] at h1
    right; right
    rcases ho : varAt P.nds.vars p ρ with _ | z
    · rw [ho, Option.none_or] at h1
      right
      rw [← h1] at h2
      split at h2
      · cases h2
      · rename_i hno
        push Not at hno
        refine ⟨h2.symm, ?_, ?_⟩
        · intro a d ha hd hm
          rcases hon : on ctx (d.get1 "active") with _ | _
          · exact absurd ((P.mem_offNodes hs).2 ⟨d, hm, hon⟩) (hno.1 ⟨a, ha, hd⟩)
          · rfl
        · intro a v ha hd hm
          rcases hon : on ctx (techSetting m (ρ "techs") "active") with _ | _
          · exact absurd ((P.mem_offTechs hs).2 ⟨⟨v, hm⟩, hon⟩) (hno.2 ⟨a, ha, hd⟩).1
          · rfl
    · rw [ho] at h1
      have hzy : z = y := by simpa using h1.symm
      subst hzy
      left
      by_cases ha : ActiveNode ctx m (ρ "nodes")
      · refine ⟨ha, ?_⟩
        rw [P.own_at hs p ρ ha] at ho
        exact ho
      · rw [P.own_none hs p ρ ha] at ho
        cases ho
  · rw [hc] at h1
    have hzy : z = y := by simpa using h1.symm
    subst hzy
    rcases P.combine_from hs hc with hh | hh
    · exact .inl hh
    · exact .inr (.inl hh)

/-- **C52.** Inactive items contribute nothing: nothing at all is said about a technology that is not active at any
node and no active link, other than what nodes and data tables without technologies say. -/
theorem C52_nothing (hs : Sound m) (hn : (ds0.vars.map Prod.fst).Nodup) (h : addNodeTechData ctx m ds0 = .ok ds)
    {p : Key} {ρ : String → Label} {v : Val (Datum V)} (ht : m.techs.get1 (ρ "techs") = some v)
    (hoff : on ctx (techSetting m (ρ "techs") "active") = false)
    (hat : ∀ n, ¬ ActiveAt ctx m n (ρ "techs"))
    (hdim : ∀ a, ds0.vars.lookup p = some a → "techs" ∈ a.dims)
    (hown : saysAt ctx (ownSetting m (ρ "nodes") p) p ρ = none) : valueOf ds p ρ = none := by
  rcases hv : valueOf ds p ρ with _ | y
  · rfl
  exfalso
  rcases C52_origin hs hn h hv with ⟨n, h1, _⟩ | ⟨_, _, _, _, h1, _⟩ | ⟨_, h1⟩ | ⟨h1, _, h2⟩
  · exact hat n h1
  · exact absurd h1.on (by rw [hoff]; decide)
  · rw [hown] at h1; cases h1
  · unfold valueOf at h1
    rcases hl : ds0.vars.lookup p with _ | a
    · rw [hl] at h1; cases h1
    · have := h2 a v hl (hdim a hl) ht
      rw [hoff] at this
      cases this

example : (∃ v, Demo.offTech.techs.get1 "old" = some v) ∧
    on Demo.ctx (techSetting Demo.offTech "old" "active") = false ∧
    saysAt Demo.ctx (ownSetting Demo.offTech "a" "base_tech") "base_tech" (Demo.ρ "a" "old" "") = none :=
  ⟨⟨_, rfl⟩, by decide +kernel, by decide +kernel⟩

/-- **C52, a deviation.** A technology deactivated as such, with settings at an active node and no `active: false`
there: the inputs are only built if another technology or link at the node has the same settings. -/
theorem C52_settings_left (hs : Sound m) (h : addNodeTechData ctx m ds0 = .ok ds) {n t p : Key} {d : Def V}
    (hnode : ActiveNode ctx m n) (hd : atNode m n t = some (.dict d)) (hself : on ctx (d.get1 "active") = true)
    (hp : p ∈ d.keys) :
    (∃ t', ActiveAt ctx m n t' ∧ nodeSetting m n t' p ≠ none) ∨
    (∃ t' nf nt, Link ctx m t' nf nt ∧ (n = nf ∨ n = nt) ∧ techSetting m t' p ≠ none) := by
  obtain ⟨P⟩ := addNodeTechData_ok h
  obtain ⟨x, hx, rfl⟩ := P.activeNode hs hnode
  obtain ⟨A⟩ := P.atNode hx
  have hmem : (t, .dict d) ∈ items A.techs := (mem_items (A.techs_wf hs)).2 (by rw [A.listed hs]; exact hd)
  have href : p ∈ A.refs := ((nodeRefs_ok A.refs_eq).1 p).2 ⟨t, d, hmem, by rw [active_eq]; exact hself, hp⟩
  obtain ⟨⟨t', e⟩, hy, hk⟩ := (A.names p).1 ((expand_ok A.ix_eq).1 p href)
  have hne : e.get1 p ≠ none := fun hc => (get1_eq_none _ p).1 hc hk
  rcases List.mem_append.1 hy with hy | hy
  · left
    obtain ⟨_, h2, h3, h4, _⟩ := A.mem_defs hs hy
    exact ⟨t', ⟨hnode, h2, h4⟩, by rw [← h3]; exact hne⟩
  · right
    obtain ⟨nf, nt, hL, hend, hset⟩ := P.link_of hs hy
    exact ⟨t', nf, nt, hL, hend, hset p hne⟩

/-- `pv` is deactivated, but node `a` still has a setting for it. -/
def Demo.left : Source Int :=
  { Demo.m with techs := (Demo.techs.del1 "pv").put1 "pv" (.dict (.leaf "base_tech" (Demo.str "supply")
      (.leaf "carrier_out" (Demo.str "power") (.leaf "active" (Demo.bool false) .nil)))) }

example : ActiveNode Demo.ctx Demo.left "a" ∧ (∃ d, atNode Demo.left "a" "pv" = some (.dict d) ∧
    on Demo.ctx (d.get1 "active") = true ∧ "flow_cap_max" ∈ d.keys) :=
  ⟨⟨⟨_, rfl⟩, by decide +kernel⟩, _, rfl, by decide +kernel, by decide +kernel⟩

/-- **C52 fails** as stated: for this model no inputs are built, but they are when the deactivated technology is not
written at all. -/
theorem C52_not_erased :
    addNodeTechData Demo.ctx Demo.left Demo.ds0 = .error .keyError ∧
    on Demo.ctx (techSetting Demo.left "pv" "active") = false ∧
    ∃ ds, addNodeTechData Demo.ctx { Demo.left with
      techs := Demo.left.techs.del1 "pv"
      nodes := .sub "a" (.sub "techs" .nil .nil)
        (.sub "b" (.leaf "latitude" (Demo.num 3) (.sub "techs" (.leaf "dem" none .nil) .nil))
        (.sub "c" (.leaf "active" (Demo.bool false) (.sub "techs" .nil .nil)) .nil)) } Demo.ds0 = .ok ds := by
  refine ⟨?_, by decide +kernel, ?_⟩
  · have : (match addNodeTechData Demo.ctx Demo.left Demo.ds0 with
      | .ok _ => none
      | .error e => some e) = some Err.keyError := by decide +kernel
    rcases h : addNodeTechData Demo.ctx Demo.left Demo.ds0 with e | ds
    · rw [h] at this
      simp only [Option.some.injEq] at this
      rw [this]
    · rw [h] at this; cases this
  · have : (match addNodeTechData Demo.ctx { Demo.left with
      techs := Demo.left.techs.del1 "pv"
      nodes := .sub "a" (.sub "techs" .nil .nil)
        (.sub "b" (.leaf "latitude" (Demo.num 3) (.sub "techs" (.leaf "dem" none .nil) .nil))
        (.sub "c" (.leaf "active" (Demo.bool false) (.sub "techs" .nil .nil)) .nil)) } Demo.ds0 with
      | .ok _ => true
      | .error _ => false) = true := by decide +kernel
    split at this
    · rename_i ds h
      exact ⟨ds, h⟩
    · cases this

/-! ### C54: links that are not there -/

/-- **C54.** A transmission technology that is not active, or does not have both its nodes, has no values. -/
theorem C54_absent (hs : Sound m) (hn : (ds0.vars.map Prod.fst).Nodup) (h : addNodeTechData ctx m ds0 = .ok ds)
    {t : Key} {v : Val (Datum V)} (ht : m.techs.get1 t = some v)
    (hk : techSetting m t "base_tech" = some (.leaf (some (.one (.str "transmission")))))
    (hmiss : ∀ nf nt, Link ctx m t nf nt → ¬ (Reaches ctx m ds0 nf ∧ Reaches ctx m ds0 nt))
    {p : Key} {ρ : String → Label} (hρ : ρ "techs" = t) (hdim : ∀ a, ds0.vars.lookup p = some a → "techs" ∈ a.dims)
    (hown : saysAt ctx (ownSetting m (ρ "nodes") p) p ρ = none) : valueOf ds p ρ = none := by
  obtain ⟨P⟩ := addNodeTechData_ok h
  obtain ⟨old, h1, h2⟩ := P.old_at hn p ρ
  have hnd : varAt P.nds.vars p ρ = none := by
    by_cases ha : ActiveNode ctx m (ρ "nodes")
    · rw [P.own_at hs p ρ ha]; exact hown
    · exact P.own_none hs p ρ ha
  have hc : varAt (combine P.l).vars p ρ = none := by
    rcases hc : varAt (combine P.l).vars p ρ with _ | y
    · rfl
    exfalso
    rcases P.combine_from hs hc with ⟨n, hA, _⟩ | ⟨n, nf, nt, _, hL, _, r1, r2, _⟩
    · rw [hρ] at hA
      obtain ⟨hnode, ⟨w, hw⟩, ha⟩ := hA
      obtain ⟨x, hx, rfl⟩ := P.activeNode hs hnode
      obtain ⟨A⟩ := P.atNode hx
      obtain ⟨d, hd⟩ := A.defs_mem hs hw ha
      have e1 := A.noLink _ hd
      have e2 : isLink d = true := isLink_iff.2 (by
        rw [(A.mem_defs hs hd).2.2.1, nodeSetting_eq_tech (A.base_tech hs ha), hk])
      simp only [] at e1
      rw [e2] at e1
      cases e1
    · rw [hρ] at hL
      exact hmiss nf nt hL ⟨r1, r2⟩
  have hold : old = none := by
    rw [h2]
    split
    · rfl
    · rename_i hno
      unfold valueOf
      rcases hl : ds0.vars.lookup p with _ | a
      · rfl
      · exfalso
        apply hno
        refine .inr ⟨⟨a, hl, hdim a hl⟩, ?_⟩
        rw [hρ]
        rcases hon : on ctx (techSetting m t "active") with _ | _
        · exact .inl ((P.mem_offTechs hs).2 ⟨⟨v, ht⟩, hon⟩)
        · right
          obtain ⟨d, hd⟩ := P.tech_mem hs ht hon
          have hg := (P.mem_techs hs hd).2.1
          have hi : isLink d = true := isLink_iff.2 ((hg _).trans hk)
          obtain ⟨x, hx⟩ := (placeLinks_ok P.h3).2.2.2 t d hd hi
          rcases x with _ | here
          · exact ((placeLinks_ok P.h3).2.2.1 t).2 ⟨d, hd, hi, hx⟩
          · exfalso
            obtain ⟨Q⟩ := placeLink_ok hx
            have hname : ∀ {v : Val (Datum V)} {l}, nodeName ctx v = some l →
                ∃ z, v = .leaf (some (.one z)) ∧ ctx.label z = l := by
              intro v l hn
              unfold nodeName at hn
              split at hn
              · rename_i z
                exact ⟨z, rfl, Option.some.inj hn⟩
              · cases hn
            refine hmiss Q.nf Q.nt ⟨⟨v, ht⟩, hon, hk, ?_, ?_⟩
              ⟨P.known_reaches hs Q.knownf, P.known_reaches hs Q.knownt⟩
            · obtain ⟨z, hz, hz'⟩ := hname Q.nf_eq
              exact ⟨z, by rw [← hg, Q.from_eq, hz], hz'⟩
            · obtain ⟨z, hz, hz'⟩ := hname Q.nt_eq
              exact ⟨z, by rw [← hg, Q.to_eq, hz], hz'⟩
  rw [h1, hc, hnd, hold]
  rfl

/-- A link to a node that is not there. -/
def Demo.astray : Source Int :=
  ⟨.sub "far" (.leaf "base_tech" (Demo.str "transmission") (.leaf "carrier_in" (Demo.str "power")
    (.leaf "carrier_out" (Demo.str "power") (.leaf "link_from" (Demo.str "a") (.leaf "link_to" (Demo.str "z") .nil)))))
    Demo.techs, Demo.nodes, .nil⟩

example : (∃ v, Demo.astray.techs.get1 "far" = some v) ∧
    techSetting Demo.astray "far" "base_tech" = some (.leaf (some (.one (.str "transmission")))) ∧
    (∀ nf nt, Link Demo.ctx Demo.astray "far" nf nt →
      ¬ (Reaches Demo.ctx Demo.astray Demo.ds0 nf ∧ Reaches Demo.ctx Demo.astray Demo.ds0 nt)) ∧
    (∃ ds, addNodeTechData Demo.ctx Demo.astray Demo.ds0 = .ok ds) := by
  refine ⟨⟨_, rfl⟩, by decide +kernel, ?_, ?_⟩
  · rintro nf nt L ⟨_, hr⟩
    obtain ⟨x, hx, rfl⟩ := L.there
    have : techSetting Demo.astray "far" "link_to" = some (.leaf (Demo.str "z")) := by decide +kernel
    rw [this] at hx
    cases hx
    rcases hr with hr | hr
    · obtain ⟨⟨d, hd⟩, _⟩ := hr
      have : Demo.astray.nodes.get1 (Demo.ctx.label (.str "z")) = none := by decide +kernel
      rw [this] at hd
      cases hd
    · revert hr
      decide +kernel
  · have : (match addNodeTechData Demo.ctx Demo.astray Demo.ds0 with
      | .ok _ => true
      | .error _ => false) = true := by decide +kernel
    rcases h : addNodeTechData Demo.ctx Demo.astray Demo.ds0 with e | ds
    · rw [h] at this; cases this
    · exact ⟨ds, rfl⟩

/-- **C54, a deviation.** A one-way link from a node to itself does not take its carrier there. -/
theorem C54_loop (hs : Sound m) (hn : (ds0.vars.map Prod.fst).Nodup) (h : addNodeTechData ctx m ds0 = .ok ds)
    {t n : Key} (L : Link ctx m t n n) (hnode : ActiveNode ctx m n) (ho : OneWay ctx m t)
    (ρ : String → Label) (hρ : ρ "techs" = t) (hρn : ρ "nodes" = n)
    (hown : (written (m.nodes.get1 n)).get1 "carrier_in" = none) (hds : valueOf ds0 "carrier_in" ρ = none) :
    valueOf ds "carrier_in" ρ = none := by
  obtain ⟨P⟩ := addNodeTechData_ok h
  obtain ⟨d, here, hd, hl, hp, Q, h1, h2⟩ := P.link_placed hs L hnode hnode
  rw [P.carrier_value hs hn (.inl rfl) ρ (by rw [hρn]; exact hown) hds]
  obtain ⟨_, e2⟩ := Q.end_get (P.mem_techs hs hd).1 "carrier_in" (by decide) (by decide)
  rw [P.carrier_link hs hd hl hp Q (by rw [h1]; exact hnode) (by rw [h2]; exact hnode) "carrier_in" ρ hρ, e2,
    if_pos (by rw [hρn, h2])]
  simp [(oneWay_iff P hs hd).2 ho, saysAt]

/-- A one-way link from a node to itself. -/
def Demo.loop : Source Int :=
  ⟨.sub "ring" (.leaf "base_tech" (Demo.str "transmission") (.leaf "carrier_in" (Demo.str "power")
    (.leaf "carrier_out" (Demo.str "power") (.leaf "link_from" (Demo.str "a") (.leaf "link_to" (Demo.str "a")
      (.leaf "one_way" (Demo.bool true) .nil)))))) Demo.techs, Demo.nodes, .nil⟩

example : Link Demo.ctx Demo.loop "ring" "a" "a" ∧ ActiveNode Demo.ctx Demo.loop "a" ∧
    OneWay Demo.ctx Demo.loop "ring" :=
  ⟨⟨⟨_, rfl⟩, by decide +kernel, by decide +kernel, ⟨.str "a", by decide +kernel, rfl⟩, ⟨.str "a", by decide +kernel, rfl⟩⟩,
    ⟨⟨_, rfl⟩, by decide +kernel⟩, .leaf (Demo.bool true), by decide +kernel, by decide +kernel⟩

/-! ### C55: adding data -/

omit [DecidableEq V] in
/-- **C55.** After any sequence of additions, each item has the last value given for it, and the one it had before if
none is given. -/
theorem C55_history (news : List (DS V)) (hd : (ds0.vars.map Prod.fst).Nodup)
    (hn : ∀ new ∈ news, (new.vars.map Prod.fst).Nodup) (p : Key) (ρ : String → Label) :
    valueOf (news.foldl addToDataset ds0) p ρ =
      (news.reverse.findSome? (fun new => valueOf new p ρ)).or (valueOf ds0 p ρ) := by
  induction news generalizing ds0 with
  | nil => rfl
  | cons new news ih =>
    rw [List.foldl_cons, ih (addToDataset_nodup ds0 new (hn new (by simp))) (fun x hx => hn x (by simp [hx])),
      addToDataset_at _ _ hd, List.reverse_cons, List.findSome?_append]
    cases hr : news.reverse.findSome? (fun new => valueOf new p ρ) with
    | some x => simp
    | none =>
      simp only [Option.none_or]
      cases hx : valueOf new p ρ <;> simp [hx]

omit [DecidableEq V] in
/-- **C55.** The labels after an addition are those of both. -/
theorem C55_labels (ds new : DS V) (d : String) (l : Label) :
    (d, l) ∈ (addToDataset ds new).coords ↔ (d, l) ∈ new.coords ∨ (d, l) ∈ ds.coords := by
  simp [addToDataset]

/-- Two additions to the data of a table. -/
def Demo.news : List (DS Int) :=
  [⟨[("nodes", "a")], [("flow_cap_max", ⟨["nodes"], fun c => if c = ["a"] then some (.num 1) else none⟩)]⟩,
   ⟨[("nodes", "a"), ("nodes", "b")], [("flow_cap_max", ⟨["nodes"], fun c => if c = ["b"] then some (.num 2) else none⟩)]⟩]

example : (∀ new ∈ Demo.news, (new.vars.map Prod.fst).Nodup) := by decide +kernel

example : valueOf (Demo.news.foldl addToDataset Demo.ds0) "flow_cap_max" (Demo.ρ "a" "" "") = some (.num 1) ∧
    valueOf (Demo.news.foldl addToDataset Demo.ds0) "flow_cap_max" (Demo.ρ "b" "" "") = some (.num 2) ∧
    valueOf (Demo.news.foldl addToDataset Demo.ds0) "flow_cap_max" (Demo.ρ "c" "" "") = some (.num 9) ∧
    valueOf (Demo.news.foldl addToDataset Demo.ds0) "flow_cap_max" (Demo.ρ "x" "" "") = none := by decide +kernel

omit [DecidableEq V] in
/-- **C55.** The data definitions win over everything before them. -/
theorem C55_definitions {defs : Dict (Datum V)} (hw : defs.WF) (hd : (ds0.vars.map Prod.fst).Nodup)
    (h : addDefinitions ctx ds0 (items defs) = .ok ds) (p : Key) (ρ : String → Label) :
    valueOf ds p ρ = (saysAt ctx (defs.get1 p) p ρ).or (valueOf ds0 p ρ) := by
  have key : ∀ (l : List (Key × Val (Datum V))) (ds0 ds : DS V), (l.map Prod.fst).Nodup →
      (ds0.vars.map Prod.fst).Nodup → addDefinitions ctx ds0 l = .ok ds →
      valueOf ds p ρ = (saysAt ctx (l.lookup p) p ρ).or (valueOf ds0 p ρ) := by
    intro l
    induction l with
    | nil =>
      intro ds0 ds _ _ h
      simp only [addDefinitions, Except.ok.injEq] at h
      subst h; rfl
    | cons x l ih =>
      obtain ⟨k, v⟩ := x
      intro ds0 ds hl hd h
      simp only [List.map_cons, List.nodup_cons] at hl
      simp only [addDefinitions] at h
      rcases hq : prepare ctx k v with e | q
      · rw [hq] at h; cases h
      rw [hq] at h
      simp only [] at h
      rw [ih _ _ hl.2 (addToDataset_nodup _ _ (by simp)) h, addToDataset_at _ _ hd, List.lookup_cons]
      by_cases hk : p = k
      · subst hk
        have h0 : l.lookup p = none := by
          rcases hlk : l.lookup p with _ | z
          · rfl
          · exact absurd (List.mem_map.2 ⟨_, mem_of_lookup hlk, rfl⟩) hl.1
        rw [h0]
        simp only [beq_self_eq_true, saysAt, Option.none_or]
        rw [← prepare_at hq ρ]
        simp [valueOf]
      · rw [beq_false_of_ne hk]
        simp only []
        have : valueOf (⟨labels q, [(k, toArr q)]⟩ : DS V) p ρ = none := by
          simp [valueOf, List.lookup_cons, beq_false_of_ne hk]
        rw [this, Option.none_or]
  rw [key _ _ _ (by rw [items_fst]; exact keys_nodup hw) hd h, lookup_items]

example : ∃ ds, addDefinitions Demo.ctx Demo.ds0 (items (.leaf "bigM" (Demo.num 100) .nil)) = .ok ds ∧
    valueOf ds "bigM" (Demo.ρ "" "" "") = some (.num 100) ∧
    valueOf ds "flow_cap_max" (Demo.ρ "c" "" "") = some (.num 9) := ⟨_, rfl, by decide +kernel, by decide +kernel⟩

end ModelData
end Calliope
