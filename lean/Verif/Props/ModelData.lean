import Verif.Proofs.ModelData6

/-!
# Properties of building the model inputs (C52–C55)

`addNodeTechData ctx m ds0 = .ok ds`: from the definition `m` and the data of the data tables `ds0` the inputs `ds`
are built.  `valueOf ds p ρ` is the input `p` at the labels `ρ`.
-/

namespace Calliope
namespace ModelData

open Grid Dict

/-! ### A small model -/

namespace Demo

abbrev S : Type := Scalar Int

/-- Text as label. -/
def label : S → Label
  | .str s => s
  | _ => ""

def ctx : Ctx Int where
  pivot := fun p => if p = "carrier_in" ∨ p = "carrier_out" then some "carriers" else none
  broadcast := true
  label := label
  nonzero := fun v => v ≠ 0

def str (s : String) : Option (Datum Int) := some (.one (.str s))
def num (v : Int) : Option (Datum Int) := some (.one (.num v))
def bool (v : Bool) : Option (Datum Int) := some (.one (.bool v))

/-- A supply, a demand and a one-way link. -/
def techs : Dict (Datum Int) :=
  .sub "pv" (.leaf "base_tech" (str "supply") (.leaf "carrier_out" (str "power") (.leaf "flow_cap_max" (num 5) .nil)))
  (.sub "dem" (.leaf "base_tech" (str "demand") (.leaf "carrier_in" (str "power") .nil))
  (.sub "line" (.leaf "base_tech" (str "transmission") (.leaf "carrier_in" (str "power")
    (.leaf "carrier_out" (str "power") (.leaf "link_from" (str "a") (.leaf "link_to" (str "b")
    (.leaf "one_way" (bool true) .nil)))))) .nil))

/-- Two active nodes and one that is not. -/
def nodes : Dict (Datum Int) :=
  .sub "a" (.sub "techs" (.sub "pv" (.leaf "flow_cap_max" (num 7) .nil) .nil) .nil)
  (.sub "b" (.leaf "latitude" (num 3) (.sub "techs" (.leaf "dem" none (.leaf "pv" none .nil)) .nil))
  (.sub "c" (.leaf "active" (bool false) (.sub "techs" (.leaf "pv" none .nil) .nil)) .nil))

def m : Source Int := ⟨techs, nodes, .nil⟩

/-- The capacity of `pv` at `c` from a data table. -/
def ds0 : DS Int := ⟨[("nodes", "c")], [("flow_cap_max", ⟨["nodes"], fun c => if c = ["c"] then some (.num 9) else none⟩)]⟩

def ρ (n t c : String) : String → Label := fun d =>
  if d = "nodes" then n else if d = "techs" then t else if d = "carriers" then c else ""

def built (p : String) (ρ : String → Label) : Option (Option S) :=
  match addNodeTechData ctx m ds0 with
  | .ok ds => some (valueOf ds p ρ)
  | .error _ => none

end Demo

example : Demo.built "flow_cap_max" (Demo.ρ "a" "pv" "") = some (some (.num 7)) := by decide +kernel
example : Demo.built "flow_cap_max" (Demo.ρ "b" "pv" "") = some (some (.num 5)) := by decide +kernel
example : Demo.built "flow_cap_max" (Demo.ρ "c" "pv" "") = some none := by decide +kernel
example : Demo.built "latitude" (Demo.ρ "b" "" "") = some (some (.num 3)) := by decide +kernel
example : Demo.built "carrier_in" (Demo.ρ "a" "line" "power") = some (some (.bool true)) := by decide +kernel
example : Demo.built "carrier_in" (Demo.ρ "b" "line" "power") = some none := by decide +kernel
example : Demo.built "carrier_out" (Demo.ρ "b" "line" "power") = some (some (.bool true)) := by decide +kernel
example : Demo.built "carrier_out" (Demo.ρ "a" "line" "power") = some none := by decide +kernel

namespace Demo

theorem sound : Sound m := by
  refine ⟨by decide +kernel, by decide +kernel, by decide +kernel, ?_, ?_, ?_, ?_⟩
  · intro n d h
    exact check_get (fun d => d.WF) (by decide +kernel) h
  · intro n t d h
    unfold atNode at h
    have this : ∀ {n : Key} {e : Dict (Datum Int)}, m.nodes.get1 n = some (.dict e) →
        checkPlain (written (e.get1 "techs")) = true := fun hn =>
      check_get (d := m.nodes) (fun d => checkPlain (written (d.get1 "techs")) = true) (by decide +kernel) hn
    rcases hn : m.nodes.get1 n with _ | (a | e)
    · rw [hn] at h; cases h
    · rw [hn] at h; cases h
    · rw [hn] at h
      exact checkPlain_get (this hn) h
  · intro t d h
    exact checkPlain_get (by decide +kernel) h
  · intro t d h
    cases h

theorem active_a : ActiveNode ctx m "a" := ⟨⟨_, rfl⟩, by decide +kernel⟩
theorem active_b : ActiveNode ctx m "b" := ⟨⟨_, rfl⟩, by decide +kernel⟩
theorem pv_a : ActiveAt ctx m "a" "pv" := ⟨active_a, ⟨_, rfl⟩, by decide +kernel⟩
theorem pv_b : ActiveAt ctx m "b" "pv" := ⟨active_b, ⟨_, rfl⟩, by decide +kernel⟩
theorem names : (ds0.vars.map Prod.fst).Nodup := by decide +kernel
theorem ok : ∃ ds, addNodeTechData ctx m ds0 = .ok ds := by
  have : (match addNodeTechData ctx m ds0 with
    | .ok _ => true
    | .error _ => false) = true := by decide +kernel
  rcases h : addNodeTechData ctx m ds0 with e | ds
  · rw [h] at this; cases this
  · exact ⟨ds, rfl⟩
theorem line : Link ctx m "line" "a" "b" :=
  ⟨⟨_, rfl⟩, by decide +kernel, by decide +kernel, ⟨.str "a", by decide +kernel, rfl⟩,
    ⟨.str "b", by decide +kernel, rfl⟩⟩
theorem oneWay : OneWay ctx m "line" := ⟨.leaf (bool true), by decide +kernel, by decide +kernel⟩

end Demo

variable {V : Type} [DecidableEq V] {ctx : Ctx V} {m : Source V} {ds0 ds : DS V}

/-! ### C53: settings of a technology at a node -/

/-- **C53.** The value of an input for a technology at a node is what is written for the technology at the node, over
what is written for the technology, over the data tables (`nodeSetting`); if that says nothing, what the node itself
sets; and else what the data tables gave for the input. -/
theorem C53_value (hs : Sound m) (hn : (ds0.vars.map Prod.fst).Nodup) (h : addNodeTechData ctx m ds0 = .ok ds)
    {n t : Key} (hA : ActiveAt ctx m n t) (p : Key) (ρ : String → Label) (hρn : ρ "nodes" = n) (hρt : ρ "techs" = t) :
    ∃ old, valueOf ds p ρ =
        ((saysAt ctx (nodeSetting m n t p) p ρ).or (saysAt ctx (ownSetting m n p) p ρ)).or old ∧
      (old = none ∨ old = valueOf ds0 p ρ) ∧ (on ctx (techSetting m t "active") = true → old = valueOf ds0 p ρ) := by
  obtain ⟨P⟩ := addNodeTechData_ok h
  obtain ⟨hnode, ⟨v, hv⟩, ha⟩ := hA
  obtain ⟨x, hx, rfl⟩ := P.activeNode hs hnode
  obtain ⟨old, h1, h2⟩ := P.old_at hn p ρ
  rw [P.combine_tech hs hx hv ha p ρ hρn hρt, P.own_at hs p ρ (by rw [hρn]; exact hnode), hρn] at h1
  refine ⟨old, h1, ?_, ?_⟩
  · rw [h2]
    split
    · exact .inl rfl
    · exact .inr rfl
  · intro hon
    rw [h2, if_neg]
    rintro (⟨_, hoff⟩ | ⟨_, hoff | hmis⟩)
    · obtain ⟨d, hd, hd'⟩ := (P.mem_offNodes hs).1 hoff
      have := hnode.2
      rw [hρn] at hd
      rw [hd] at this
      exact absurd (this.symm.trans hd') (by decide)
    · rw [hρt] at hoff
      have := ((P.mem_offTechs hs).1 hoff).2
      rw [hon] at this
      cases this
    · rw [hρt] at hmis
      obtain ⟨A⟩ := P.atNode hx
      obtain ⟨d, hd⟩ := A.defs_mem hs hv ha
      obtain ⟨d', hd', hl, _⟩ := ((placeLinks_ok P.h3).2.2.1 t).1 hmis
      have e1 := A.noLink _ hd
      simp only [] at e1
      have e2 := isLink_iff.1 hl
      rw [(P.mem_techs hs hd').2.1, ← nodeSetting_eq_tech (A.base_tech hs ha), ← (A.mem_defs hs hd).2.2.1] at e2
      rw [isLink_iff.2 e2] at e1
      cases e1

example : ∃ ds, addNodeTechData Demo.ctx Demo.m Demo.ds0 = .ok ds ∧ Sound Demo.m ∧
    (Demo.ds0.vars.map Prod.fst).Nodup ∧ ActiveAt Demo.ctx Demo.m "a" "pv" ∧
    ActiveAt Demo.ctx Demo.m "b" "pv" :=
  ⟨_, Demo.ok.choose_spec, Demo.sound, Demo.names, Demo.pv_a, Demo.pv_b⟩

/-- **C53.** A single value written for a technology at a node is the value of the input there. -/
theorem C53_node_wins (hs : Sound m) (hn : (ds0.vars.map Prod.fst).Nodup) (h : addNodeTechData ctx m ds0 = .ok ds)
    {n t : Key} (hA : ActiveAt ctx m n t) {p : Key} (hp : ctx.pivot p = none) {x : Scalar V}
    (hx : (written (atNode m n t)).get1 p = some (.leaf (some (.one x))))
    (ρ : String → Label) (hρn : ρ "nodes" = n) (hρt : ρ "techs" = t) : valueOf ds p ρ = some x := by
  obtain ⟨old, h1, _⟩ := C53_value hs hn h hA p ρ hρn hρt
  rw [h1]
  unfold nodeSetting
  rw [hx]
  simp [over, saysAt, settingAt, hp]

example : (written (atNode Demo.m "a" "pv")).get1 "flow_cap_max" = some (.leaf (Demo.num 7)) ∧
    Demo.ctx.pivot "flow_cap_max" = none := by decide +kernel

/-- **C53.** A setting that is not written at a node has the value written for the technology. -/
theorem C53_tech_default (hs : Sound m) (hn : (ds0.vars.map Prod.fst).Nodup)
    (h : addNodeTechData ctx m ds0 = .ok ds) {n t : Key} (hA : ActiveAt ctx m n t) {p : Key}
    (hnone : (written (atNode m n t)).get1 p = none) {x : Scalar V}
    (ρ : String → Label) (hρn : ρ "nodes" = n) (hρt : ρ "techs" = t)
    (hx : saysAt ctx (techSetting m t p) p ρ = some x) : valueOf ds p ρ = some x := by
  obtain ⟨old, h1, _⟩ := C53_value hs hn h hA p ρ hρn hρt
  rw [h1]
  unfold nodeSetting
  rw [hnone]
  have : saysAt ctx (over ((written (m.tables.get1 t)).get1 p) (over ((written (m.techs.get1 t)).get1 p) none)) p ρ =
      some x := hx
  rw [this]
  rfl

example : (written (atNode Demo.m "b" "pv")).get1 "flow_cap_max" = none ∧
    saysAt Demo.ctx (techSetting Demo.m "pv" "flow_cap_max") "flow_cap_max" (Demo.ρ "b" "pv" "") = some (.num 5) := by
  decide +kernel

/-- **C53, what is refused.** Indexed data for a technology at a node where the technology itself has a single value:
no inputs are built. -/
theorem C53_indexed_over_single (hs : Sound m) {n t p : Key} (hnode : ActiveNode ctx m n)
    {b d s : Def V} {a : Datum V} (hb : m.techs.get1 t = some (.dict b)) (hd : atNode m n t = some (.dict d))
    (hpb : b.get1 p = some (.leaf (some a))) (hpd : d.get1 p = some (.dict s)) (hne : s ≠ .nil) :
    addNodeTechData ctx m ds0 ≠ .ok ds := by
  intro h
  obtain ⟨P⟩ := addNodeTechData_ok h
  obtain ⟨x, hx, rfl⟩ := P.activeNode hs hnode
  obtain ⟨A⟩ := P.atNode hx
  have hmem : (t, .dict d) ∈ items A.techs := (mem_items (A.techs_wf hs)).2 (by rw [A.listed hs]; exact hd)
  obtain ⟨u, hu⟩ := (inheritLoop_ok A.defs_eq).2.2.2 t _ hmem
  have hpl := hs.listed _ _ _ hd
  unfold inheritTech at hu
  simp only [itemDef, baseDef, hb] at hu
  rcases hun : b.union d true with e | w
  · rw [hun] at hu; cases hu
  · exact union_clash hpl.wf hpl.flat hpb hpd hne w hun

/-- A technology with a single value and indexed data at a node. -/
def Demo.clash : Source Int :=
  ⟨.sub "pv" (.leaf "base_tech" (Demo.str "supply") (.leaf "cap" (Demo.num 5) .nil)) .nil,
   .sub "a" (.sub "techs" (.sub "pv" (.sub "cap" (.leaf "data" (Demo.num 1) (.leaf "index" (Demo.str "x")
    (.leaf "dims" (Demo.str "costs") .nil))) .nil) .nil) .nil) .nil, .nil⟩

example : ActiveNode Demo.ctx Demo.clash "a" ∧ (∃ b a, Demo.clash.techs.get1 "pv" = some (.dict b) ∧
    b.get1 "cap" = some (.leaf (some a))) ∧ (∃ d s, atNode Demo.clash "a" "pv" = some (.dict d) ∧
    d.get1 "cap" = some (.dict s) ∧ s ≠ .nil) :=
  ⟨⟨⟨_, rfl⟩, by decide +kernel⟩, ⟨_, _, rfl, rfl⟩, _, _, rfl, rfl, by simp⟩

/-- **C53, what is refused.** A carrier written for a technology at a node: no inputs are built. -/
theorem C53_carrier_at_node (hs : Sound m) {n t p : Key} (hp : p = "carrier_in" ∨ p = "carrier_out")
    (hA : ActiveAt ctx m n t) (hg : p ∈ (written (atNode m n t)).keys) : addNodeTechData ctx m ds0 ≠ .ok ds := by
  intro h
  obtain ⟨P⟩ := addNodeTechData_ok h
  obtain ⟨hnode, _, ha⟩ := hA
  obtain ⟨x, hx, rfl⟩ := P.activeNode hs hnode
  obtain ⟨A⟩ := P.atNode hx
  have h1 := A.mem_indexed hs ha hg
  rcases hp with rfl | rfl
  · exact (expand_ok A.ix_eq).2.2.1 h1
  · exact (expand_ok A.ix_eq).2.2.2 h1

/-- A carrier set at a node. -/
def Demo.carrier : Source Int :=
  ⟨.sub "pv" (.leaf "base_tech" (Demo.str "supply") (.leaf "carrier_out" (Demo.str "power") .nil)) .nil,
   .sub "a" (.sub "techs" (.sub "pv" (.leaf "carrier_out" (Demo.str "heat") .nil) .nil) .nil) .nil, .nil⟩

example : ActiveAt Demo.ctx Demo.carrier "a" "pv" ∧
    "carrier_out" ∈ (written (atNode Demo.carrier "a" "pv")).keys :=
  ⟨⟨⟨⟨_, rfl⟩, by decide +kernel⟩, ⟨_, rfl⟩, by decide +kernel⟩, by decide +kernel⟩

/-! ### C54: links -/

/-- **C54.** A link between two nodes takes its carriers where it starts, and also where it ends unless it is one-way;
nowhere else. -/
theorem C54_carrier_in (hs : Sound m) (hn : (ds0.vars.map Prod.fst).Nodup) (h : addNodeTechData ctx m ds0 = .ok ds)
    {t nf nt : Key} (L : Link ctx m t nf nt) (hf : ActiveNode ctx m nf) (ht : ActiveNode ctx m nt) (hne : nf ≠ nt)
    (ρ : String → Label) (hρ : ρ "techs" = t)
    (hown : (written (m.nodes.get1 (ρ "nodes"))).get1 "carrier_in" = none) (hds : valueOf ds0 "carrier_in" ρ = none)
    [Decidable (OneWay ctx m t)] :
    valueOf ds "carrier_in" ρ = if ρ "nodes" = nf ∨ (ρ "nodes" = nt ∧ ¬ OneWay ctx m t) then
      saysAt ctx (techSetting m t "carrier_in") "carrier_in" ρ else none := by
  obtain ⟨P⟩ := addNodeTechData_ok h
  obtain ⟨d, here, hd, hl, hp, Q, rfl, rfl⟩ := P.link_placed hs L hf ht
  rw [P.carrier_value hs hn (.inl rfl) ρ hown hds]
  have hw := (P.mem_techs hs hd).1
  have hg := (P.mem_techs hs hd).2.1 "carrier_in"
  obtain ⟨e1, e2⟩ := Q.end_get hw "carrier_in" (by decide) (by decide)
  have ho := oneWay_iff P hs hd
  rw [P.carrier_link hs hd hl hp Q hf ht "carrier_in" ρ hρ, e1, e2, hg]
  by_cases h1 : ρ "nodes" = Q.nt
  · have h2 : ρ "nodes" ≠ Q.nf := by rw [h1]; exact Ne.symm hne
    by_cases h3 : OneWay ctx m t
    · simp [h1, h3, Ne.symm hne, saysAt, ho.2 h3]
    · simp [h1, h3, mt ho.1 h3]
  · by_cases h2 : ρ "nodes" = Q.nf
    · simp [h2, hne]
    · simp [h1, h2]

/-- **C54.** A link between two nodes gives its carriers where it ends, and also where it starts unless it is one-way;
nowhere else. -/
theorem C54_carrier_out (hs : Sound m) (hn : (ds0.vars.map Prod.fst).Nodup) (h : addNodeTechData ctx m ds0 = .ok ds)
    {t nf nt : Key} (L : Link ctx m t nf nt) (hf : ActiveNode ctx m nf) (ht : ActiveNode ctx m nt) (hne : nf ≠ nt)
    (ρ : String → Label) (hρ : ρ "techs" = t)
    (hown : (written (m.nodes.get1 (ρ "nodes"))).get1 "carrier_out" = none) (hds : valueOf ds0 "carrier_out" ρ = none)
    [Decidable (OneWay ctx m t)] :
    valueOf ds "carrier_out" ρ = if ρ "nodes" = nt ∨ (ρ "nodes" = nf ∧ ¬ OneWay ctx m t) then
      saysAt ctx (techSetting m t "carrier_out") "carrier_out" ρ else none := by
  obtain ⟨P⟩ := addNodeTechData_ok h
  obtain ⟨d, here, hd, hl, hp, Q, rfl, rfl⟩ := P.link_placed hs L hf ht
  rw [P.carrier_value hs hn (.inr rfl) ρ hown hds]
  have hw := (P.mem_techs hs hd).1
  have hg := (P.mem_techs hs hd).2.1 "carrier_out"
  obtain ⟨e1, e2⟩ := Q.end_get hw "carrier_out" (by decide) (by decide)
  have ho := oneWay_iff P hs hd
  rw [P.carrier_link hs hd hl hp Q hf ht "carrier_out" ρ hρ, e1, e2, hg]
  by_cases h1 : ρ "nodes" = Q.nt
  · simp [h1]
  · by_cases h2 : ρ "nodes" = Q.nf
    · by_cases h3 : OneWay ctx m t
      · simp [h2, h3, hne, saysAt, ho.2 h3]
      · simp [h2, h3, hne, mt ho.1 h3]
    · simp [h1, h2]

example : ∃ ds, addNodeTechData Demo.ctx Demo.m Demo.ds0 = .ok ds ∧ Link Demo.ctx Demo.m "line" "a" "b" ∧
    ActiveNode Demo.ctx Demo.m "a" ∧ ActiveNode Demo.ctx Demo.m "b" ∧ OneWay Demo.ctx Demo.m "line" ∧
    (∀ n, (written (Demo.m.nodes.get1 n)).get1 "carrier_in" = none) ∧
    (∀ ρ, valueOf Demo.ds0 "carrier_in" ρ = none) ∧
    saysAt Demo.ctx (techSetting Demo.m "line" "carrier_in") "carrier_in" (Demo.ρ "a" "line" "power") =
      some (.bool true) := by
  refine ⟨_, Demo.ok.choose_spec, Demo.line, Demo.active_a, Demo.active_b, Demo.oneWay, ?_, fun ρ => rfl,
    by decide +kernel⟩
  intro n
  by_cases h1 : n = "a"
  · subst h1; decide +kernel
  by_cases h2 : n = "b"
  · subst h2; decide +kernel
  by_cases h3 : n = "c"
  · subst h3; decide +kernel
  · have : Demo.m.nodes.get1 n = none := by
      simp [Demo.m, Demo.nodes, get1, Ne.symm h1, Ne.symm h2, Ne.symm h3]
    rw [this]; rfl

/-- **C54.** The other settings of a link hold at both its ends. -/
theorem C54_settings (hs : Sound m) (hn : (ds0.vars.map Prod.fst).Nodup) (h : addNodeTechData ctx m ds0 = .ok ds)
    {t nf nt : Key} (L : Link ctx m t nf nt) (hf : ActiveNode ctx m nf) (ht : ActiveNode ctx m nt)
    {p : Key} (h1 : p ≠ "link_from") (h2 : p ≠ "link_to") (h3 : p ≠ "carrier_in") (h4 : p ≠ "carrier_out")
    (ρ : String → Label) (hρ : ρ "techs" = t) (hend : ρ "nodes" = nf ∨ ρ "nodes" = nt) {x : Scalar V}
    (hx : saysAt ctx (techSetting m t p) p ρ = some x) : valueOf ds p ρ = some x := by
  obtain ⟨P⟩ := addNodeTechData_ok h
  obtain ⟨d, here, hd, hl, hp, Q, rfl, rfl⟩ := P.link_placed hs L hf ht
  obtain ⟨old, ho, _⟩ := P.old_at hn p ρ
  have hw := (P.mem_techs hs hd).1
  have hg := (P.mem_techs hs hd).2.1 p
  obtain ⟨e1, e2⟩ := Q.end_get hw p h1 h2
  rw [if_neg (fun z => h4 z.2), hg] at e1
  rw [if_neg (fun z => h3 z.2), hg] at e2
  have hat : ∀ y ∈ P.l, varAt y.ds.vars p ρ = if y.node = Q.nt ∨ y.node = Q.nf then some x else none := by
    intro y hy
    rw [P.link_at hs hd hl hp Q ht hy p ρ hρ, e1, e2, hx]
    by_cases c1 : y.node = Q.nt
    · simp [c1]
    · by_cases c2 : y.node = Q.nf <;> simp [c1, c2]
  have hc : varAt (combine P.l).vars p ρ = some x := by
    have hpl : ∃ y ∈ P.l, y.node = ρ "nodes" := by
      rcases hend with e | e
      · rw [e]; exact P.activeNode hs hf
      · rw [e]; exact P.activeNode hs ht
    obtain ⟨y, hy, hyn⟩ := hpl
    have hval : varAt y.ds.vars p ρ = some x := by
      rw [hat y hy, if_pos (by rw [hyn]; exact hend.symm)]
    rw [combine_at _ (P.l_nodup hs)]
    split
    · rw [← hyn, find_node (P.l_nodup hs) hy]
      exact hval
    · apply findSome_const _ _ _ _ ⟨y, hy, hval⟩
      intro z hz
      rw [hat z hz]
      split
      · exact .inr rfl
      · exact .inl rfl
  rw [ho, hc]
  rfl

example : saysAt Demo.ctx (techSetting Demo.m "line" "one_way") "one_way" (Demo.ρ "a" "line" "") =
    some (.bool true) := by decide +kernel

end ModelData
end Calliope
