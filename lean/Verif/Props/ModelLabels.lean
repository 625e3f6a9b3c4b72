import Verif.Props.ModelData2
import Verif.Proofs.Clean

/-!
# Properties of building the model inputs: labels (C52 to C55)

Every label that a setting uses is a label of the inputs, and every label of the inputs comes from an active item.
-/

namespace Calliope
namespace ModelData

open Grid Dict

variable {V : Type} {ctx : Ctx V}

/-- The dimensions of a setting: those named in `dims`, the dimension of its values if these are labels, else none. -/
def settingDims (ctx : Ctx V) (p : Key) : Val (Datum V) → List String
  | .dict d =>
    match d.get1 "dims" with
    | some (.leaf dims) => named ctx dims
    | _ => []
  | .leaf none => []
  | .leaf (some _) => (ctx.pivot p).toList

/-! ### Lemmas -/

theorem prepare_dims {p : Key} {v : Val (Datum V)} {q : Prepared V} (h : prepare ctx p v = .ok q) :
    q.dims = settingDims ctx p v := by
  rcases v with a | d
  · rcases a with _ | a
    · simp only [prepare, Except.ok.injEq] at h
      subst h; rfl
    · simp only [prepare] at h
      simp only [settingDims]
      rcases hp : ctx.pivot p with _ | dim
      · rw [hp] at h
        rcases a with x | xs | xs
        · simp only [Except.ok.injEq] at h
          subst h; rfl
        · cases h
        · cases h
      · rw [hp] at h
        simp only [preparePivot] at h
        split at h
        · simp only [Except.ok.injEq] at h
          subst h; rfl
        · cases h
  · simp only [prepare, prepareIndexed] at h
    simp only [settingDims]
    rcases h1 : leafOf d "data" with e | data
    · rw [h1] at h; cases h
    rcases h2 : leafOf d "index" with e | index
    · rw [h1, h2] at h; cases h
    rcases h3 : leafOf d "dims" with e | dims
    · rw [h1, h2, h3] at h; cases h
    rw [h1, h2, h3] at h
    simp only [] at h
    rw [leafOf_ok h3]
    split at h
    · cases h
    rcases hd : dataItems data (indexItems ctx index).length with _ | xs
    · rw [hd] at h; cases h
    rw [hd] at h
    simp only [] at h
    split at h
    · simp only [Except.ok.injEq] at h
      subst h
      exact dimNames_eq ctx dims
    · cases h

theorem mem_of_lookup' {c : List Label} {o : Option (Scalar V)} :
    ∀ {l : List (List Label × Option (Scalar V))}, l.lookup c = some o → (c, o) ∈ l
  | [], h => by simp at h
  | (r, y) :: l, h => by
      simp only [List.lookup_cons] at h
      by_cases hc : c = r
      · subst hc
        simp only [beq_self_eq_true, Option.some.injEq] at h
        simp [h]
      · rw [beq_false_of_ne hc] at h
        exact List.mem_cons_of_mem _ (mem_of_lookup' h)

theorem mem_zip_map (ρ : String → Label) {d : String} : ∀ {l : List String}, d ∈ l → (d, ρ d) ∈ l.zip (l.map ρ)
  | [], h => by cases h
  | e :: l, h => by
      rcases List.mem_cons.1 h with rfl | h
      · simp
      · simp [mem_zip_map ρ h]

/-- The labels of a value are labels of the array. -/
theorem prepare_labels {p : Key} {v : Val (Datum V)} {q : Prepared V} (h : prepare ctx p v = .ok q)
    {ρ : String → Label} {x : Scalar V} (hx : settingAt ctx p v ρ = some x) :
    ∃ c ∈ q.cells, c.1 = (settingDims ctx p v).map ρ := by
  have hd := prepare_dims h
  rw [← prepare_at h ρ] at hx
  simp only [toArr, Arr.at] at hx
  rcases hc : q.cells.lookup (q.dims.map ρ) with _ | o
  · rw [hc] at hx; cases hx
  · exact ⟨_, mem_of_lookup' hc, by rw [hd]⟩

theorem addSettings_keeps (dim : String) (item : Key) {y : String × Label} :
    ∀ (l : List (Key × Val (Datum V))) (ds out : DS V), addSettings ctx dim item ds l = .ok out →
      y ∈ ds.coords → y ∈ out.coords
  | [], ds, out, h, hy => by
      simp only [addSettings, Except.ok.injEq] at h
      subst h; exact hy
  | (n, v) :: l, ds, out, h, hy => by
      simp only [addSettings] at h
      rcases hq : prepare ctx n v with e | q
      · rw [hq] at h; cases h
      rw [hq] at h
      exact addSettings_keeps dim item l _ _ h (by simp [hy])

theorem addSettings_labels (dim : String) (item : Key) {p : Key} {v : Val (Datum V)} {ρ : String → Label}
    {x : Scalar V} (hx : settingAt ctx p v ρ = some x) :
    ∀ (l : List (Key × Val (Datum V))) (ds out : DS V), addSettings ctx dim item ds l = .ok out → (p, v) ∈ l →
      (dim, item) ∈ out.coords ∧ ∀ d ∈ settingDims ctx p v, (d, ρ d) ∈ out.coords
  | [], ds, out, _, hm => by cases hm
  | (n, w) :: l, ds, out, h, hm => by
      simp only [addSettings] at h
      rcases hq : prepare ctx n w with e | q
      · rw [hq] at h; cases h
      rw [hq] at h
      rcases List.mem_cons.1 hm with he | hm
      · simp only [Prod.mk.injEq] at he
        obtain ⟨rfl, rfl⟩ := he
        obtain ⟨c, hc, hc'⟩ := prepare_labels hq hx
        have hl : ∀ y ∈ (dim :: q.dims).zip (item :: c.1), y ∈ out.coords := by
          intro y hy
          refine addSettings_keeps dim item l _ _ h ?_
          simp only [List.mem_append]
          right
          simp only [labels, atItem, List.mem_flatMap, List.mem_map]
          exact ⟨_, ⟨c, hc, rfl⟩, hy⟩
        refine ⟨hl _ (by simp), fun d hd => hl _ ?_⟩
        rw [hc', prepare_dims hq]
        simp [mem_zip_map ρ hd]
      · exact addSettings_labels dim item hx l _ _ h hm

theorem defDs_keeps (dim : String) {y : String × Label} :
    ∀ (l : List (Key × Def V)) (ds out : DS V), defDs ctx dim ds l = .ok out → y ∈ ds.coords → y ∈ out.coords
  | [], ds, out, h, hy => by
      simp only [defDs, Except.ok.injEq] at h
      subst h; exact hy
  | (n, v) :: l, ds, out, h, hy => by
      simp only [defDs] at h
      rcases hq : addSettings ctx dim n ds (items v) with e | q
      · rw [hq] at h; cases h
      rw [hq] at h
      exact defDs_keeps dim l _ _ h (addSettings_keeps dim n _ _ _ hq hy)

theorem defDs_labels (dim : String) {item : Key} {e : Def V} {p : Key} {v : Val (Datum V)} (hv : e.get1 p = some v)
    {ρ : String → Label} {x : Scalar V} (hx : settingAt ctx p v ρ = some x) :
    ∀ (l : List (Key × Def V)) (ds out : DS V), defDs ctx dim ds l = .ok out → (item, e) ∈ l →
      (dim, item) ∈ out.coords ∧ ∀ d ∈ settingDims ctx p v, (d, ρ d) ∈ out.coords
  | [], ds, out, _, hm => by cases hm
  | (n, w) :: l, ds, out, h, hm => by
      simp only [defDs] at h
      rcases hq : addSettings ctx dim n ds (items w) with e' | q
      · rw [hq] at h; cases h
      rw [hq] at h
      rcases List.mem_cons.1 hm with he | hm
      · simp only [Prod.mk.injEq] at he
        obtain ⟨rfl, rfl⟩ := he
        obtain ⟨h1, h2⟩ := addSettings_labels dim item hx _ _ _ hq
          (mem_of_lookup (by rw [lookup_items]; exact hv))
        exact ⟨defDs_keeps dim l _ _ h h1, fun d hd => defDs_keeps dim l _ _ h (h2 d hd)⟩
      · exact defDs_labels dim hv hx l _ _ h hm

theorem mergeNodes_coords [DecidableEq V] {a b out : DS V} (h : mergeNodes a b = .ok out) :
    out.coords = a.coords ++ b.coords := by
  simp only [mergeNodes] at h
  split at h
  · cases h
  · simp only [Except.ok.injEq] at h
    subst h; rfl

variable [DecidableEq V] {m : Source V} {ds0 ds : DS V}

/-! ### C53: the labels of settings -/

/-- **C53.** Active nodes are labels of the inputs. -/
theorem C53_node_label (hs : Sound m) (h : addNodeTechData ctx m ds0 = .ok ds) {n : Key} (hn : ActiveNode ctx m n) :
    ("nodes", n) ∈ ds.coords := by
  obtain ⟨P⟩ := addNodeTechData_ok h
  obtain ⟨x, hx, rfl⟩ := P.activeNode hs hn
  rw [P.h7, C55_labels, mergeNodes_coords P.h6]
  simp only [combine, List.mem_append, List.mem_map]
  exact .inl (.inl (.inl ⟨x, hx, rfl⟩))

/-- **C53.** Where a setting of a technology at a node has a value, the technology and the labels of the setting are
labels of the inputs. -/
theorem C53_labels (hs : Sound m) (h : addNodeTechData ctx m ds0 = .ok ds) {n t : Key} (hA : ActiveAt ctx m n t)
    {p : Key} {v : Val (Datum V)} (hv : nodeSetting m n t p = some v) {ρ : String → Label} {x : Scalar V}
    (hx : settingAt ctx p v ρ = some x) :
    ("techs", t) ∈ ds.coords ∧ ∀ d ∈ settingDims ctx p v, (d, ρ d) ∈ ds.coords := by
  obtain ⟨P⟩ := addNodeTechData_ok h
  obtain ⟨hnode, ⟨w, hw⟩, ha⟩ := hA
  obtain ⟨y, hy, rfl⟩ := P.activeNode hs hnode
  obtain ⟨A⟩ := P.atNode hy
  obtain ⟨e, he⟩ := A.defs_mem hs hw ha
  have hin : ∀ z ∈ y.ds.coords, z ∈ ds.coords := by
    intro z hz
    obtain ⟨z1, z2⟩ := z
    rw [P.h7, C55_labels, mergeNodes_coords P.h6]
    simp only [combine, List.mem_append, List.mem_flatMap]
    exact .inl (.inl (.inr ⟨y, hy, hz⟩))
  obtain ⟨h1, h2⟩ := defDs_labels "techs" (by rw [(A.mem_defs hs he).2.2.1 p]; exact hv) hx _ _ _ A.ds_eq
    (List.mem_append_left _ he)
  exact ⟨hin _ h1, fun d hd => hin _ (h2 d hd)⟩

/-- **C53.** Where a setting of a node has a value, the labels of the setting are labels of the inputs. -/
theorem C53_own_labels (hs : Sound m) (h : addNodeTechData ctx m ds0 = .ok ds) {n : Key} (hn : ActiveNode ctx m n)
    {p : Key} {v : Val (Datum V)} (hv : ownSetting m n p = some v) {ρ : String → Label} {x : Scalar V}
    (hx : settingAt ctx p v ρ = some x) : ∀ d ∈ settingDims ctx p v, (d, ρ d) ∈ ds.coords := by
  obtain ⟨P⟩ := addNodeTechData_ok h
  obtain ⟨⟨e, he⟩, ha⟩ := hn
  rw [he] at ha
  have hm := (P.mem_nodes hs).2 ⟨.inl he, ha⟩
  unfold ownSetting at hv
  split at hv
  · cases hv
  rename_i hp
  rw [he] at hv
  have hg : (e.del1 "techs").get1 p = some v := by
    rw [get1_del1_ne _ hp]; exact hv
  obtain ⟨_, h2⟩ := defDs_labels "nodes" hg hx _ _ _ P.h5 (List.mem_map.2 ⟨_, hm, rfl⟩)
  intro d hd
  rw [P.h7, C55_labels, mergeNodes_coords P.h6]
  exact .inl (List.mem_append_right _ (h2 d hd))

/-! ### C54: the labels of links -/

/-- **C54.** Where a setting of a link between two active nodes has a value, the link and the labels of the setting are
labels of the inputs. -/
theorem C54_labels (hs : Sound m) (h : addNodeTechData ctx m ds0 = .ok ds) {t nf nt : Key} (L : Link ctx m t nf nt)
    (hf : ActiveNode ctx m nf) (ht : ActiveNode ctx m nt) (hne : nf ≠ nt) {p : Key} (h1 : p ≠ "link_from")
    (h2 : p ≠ "link_to") {v : Val (Datum V)} (hv : techSetting m t p = some v) {ρ : String → Label} {x : Scalar V}
    (hx : settingAt ctx p v ρ = some x) :
    ("techs", t) ∈ ds.coords ∧ ∀ d ∈ settingDims ctx p v, (d, ρ d) ∈ ds.coords := by
  obtain ⟨P⟩ := addNodeTechData_ok h
  obtain ⟨d, here, hd, hl, hp, Q, rfl, rfl⟩ := P.link_placed hs L hf ht
  obtain ⟨hw, hg, _⟩ := P.mem_techs hs hd
  obtain ⟨e1, e2⟩ := Q.end_get hw p h1 h2
  have key : ∀ {n : Key} {e : Def V}, ActiveNode ctx m n → (t, e) ∈ linksAt here n → e.get1 p = some v →
      ("techs", t) ∈ ds.coords ∧ ∀ d ∈ settingDims ctx p v, (d, ρ d) ∈ ds.coords := by
    intro n e hn he hev
    obtain ⟨y, hy, rfl⟩ := P.activeNode hs hn
    obtain ⟨A⟩ := P.atNode hy
    have hin : ∀ z ∈ y.ds.coords, z ∈ ds.coords := by
      intro z hz
      obtain ⟨z1, z2⟩ := z
      rw [P.h7, C55_labels, mergeNodes_coords P.h6]
      simp only [combine, List.mem_append, List.mem_flatMap]
      exact .inl (.inl (.inr ⟨y, hy, hz⟩))
    obtain ⟨h3, h4⟩ := defDs_labels "techs" hev hx _ _ _ A.ds_eq
      (List.mem_append_right _ (((placeLinks_ok P.h3).2.1 _ t e).2 ⟨d, here, hd, hl, hp, he⟩))
    exact ⟨hin _ h3, fun d hd => hin _ (h4 d hd)⟩
  by_cases hc : p = "carrier_out"
  · refine key ht (e := Q.dt) (by rw [placed_at Q]; simp) ?_
    rw [e2, if_neg (by rw [hc]; simp), hg, hv]
  · refine key hf (e := Q.df) (by rw [placed_at Q]; simp [hne]) ?_
    rw [e1, if_neg (fun hh => hc hh.2), hg, hv]

example : ∃ ds v, addNodeTechData Demo.ctx Demo.m Demo.ds0 = .ok ds ∧ Sound Demo.m ∧
    Link Demo.ctx Demo.m "line" "a" "b" ∧ ActiveNode Demo.ctx Demo.m "a" ∧ ActiveNode Demo.ctx Demo.m "b" ∧
    techSetting Demo.m "line" "carrier_in" = some v ∧ settingDims Demo.ctx "carrier_in" v = ["carriers"] ∧
    settingAt Demo.ctx "carrier_in" v (Demo.ρ "a" "line" "power") = some (.bool true) :=
  ⟨_, _, Demo.ok.choose_spec, Demo.sound, Demo.line, Demo.active_a, Demo.active_b, rfl, by decide +kernel,
    by decide +kernel⟩

/-! ### C55: the labels of data definitions -/

omit [DecidableEq V] in
theorem addDefinitions_keeps {y : String × Label} :
    ∀ (l : List (Key × Val (Datum V))) (ds out : DS V), addDefinitions ctx ds l = .ok out →
      y ∈ ds.coords → y ∈ out.coords
  | [], ds, out, h, hy => by
      simp only [addDefinitions, Except.ok.injEq] at h
      subst h; exact hy
  | (n, v) :: l, ds, out, h, hy => by
      simp only [addDefinitions] at h
      rcases hq : prepare ctx n v with e | q
      · rw [hq] at h; cases h
      rw [hq] at h
      exact addDefinitions_keeps l _ _ h (by simp [addToDataset, hy])

omit [DecidableEq V] in
/-- **C55.** The labels before the data definitions stay, and the labels of the values defined are added. -/
theorem C55_definition_labels {defs : Dict (Datum V)} (h : addDefinitions ctx ds0 (items defs) = .ok ds) :
    (∀ y ∈ ds0.coords, y ∈ ds.coords) ∧
      ∀ (p : Key) (v : Val (Datum V)) (ρ : String → Label) (x : Scalar V), defs.get1 p = some v →
        settingAt ctx p v ρ = some x → ∀ d ∈ settingDims ctx p v, (d, ρ d) ∈ ds.coords := by
  refine ⟨fun y hy => addDefinitions_keeps _ _ _ h hy, ?_⟩
  intro p v ρ x hv hx
  have key : ∀ (l : List (Key × Val (Datum V))) (ds1 out : DS V), addDefinitions ctx ds1 l = .ok out → (p, v) ∈ l →
      ∀ d ∈ settingDims ctx p v, (d, ρ d) ∈ out.coords := by
    intro l
    induction l with
    | nil => intro _ _ _ hm; cases hm
    | cons y l ih =>
      obtain ⟨n, w⟩ := y
      intro ds1 out h hm
      simp only [addDefinitions] at h
      rcases hq : prepare ctx n w with e | q
      · rw [hq] at h; cases h
      rw [hq] at h
      rcases List.mem_cons.1 hm with he | hm
      · simp only [Prod.mk.injEq] at he
        obtain ⟨rfl, rfl⟩ := he
        obtain ⟨c, hc, hc'⟩ := prepare_labels hq hx
        intro d hd
        refine addDefinitions_keeps l _ _ h ?_
        simp only [addToDataset, List.mem_append]
        left
        simp only [labels, List.mem_flatMap]
        refine ⟨c, hc, ?_⟩
        rw [hc', prepare_dims hq]
        exact mem_zip_map ρ hd
      · exact ih _ _ h hm
  exact key _ _ _ h (mem_of_lookup (by rw [lookup_items]; exact hv))

/-! ### C52: labels come from active items -/

/-- The labels that a setting is indexed by, with their dimensions. -/
def settingLabels (ctx : Ctx V) (p : Key) : Val (Datum V) → List (String × Label)
  | .dict d =>
    match d.get1 "index", d.get1 "dims" with
    | some (.leaf index), some (.leaf dims) => (rows ctx index).flatMap (fun r => (named ctx dims).zip r)
    | _, _ => []
  | .leaf none => []
  | .leaf (some a) =>
    match ctx.pivot p with
    | none => []
    | some dim => (named ctx (some a)).map (fun l => (dim, l))

omit [DecidableEq V] in
theorem labels_prepare {p : Key} {v : Val (Datum V)} {q : Prepared V} (h : prepare ctx p v = .ok q)
    {y : String × Label} (hy : y ∈ labels q) : y ∈ settingLabels ctx p v := by
  rcases v with a | d
  · rcases a with _ | a
    · simp only [prepare, Except.ok.injEq] at h
      subst h; simp [labels] at hy
    · simp only [prepare] at h
      simp only [settingLabels]
      rcases hp : ctx.pivot p with _ | dim
      · rw [hp] at h
        rcases a with x | xs | xs
        · simp only [Except.ok.injEq] at h
          subst h; simp [labels] at hy
        · cases h
        · cases h
      · rw [hp] at h
        simp only [preparePivot] at h
        split at h
        · simp only [Except.ok.injEq] at h
          subst h
          have hi : (listify (some a)).filterMap (fun x => x.map (fun y => [ctx.label y])) =
              (named ctx (some a)).map (fun l => [l]) := by
            rw [← dimNames_eq]
            simp only [dimNames]
            generalize listify (some a) = l
            induction l with
            | nil => rfl
            | cons x xs ih => rcases x with _ | x <;> simp [ih]
          simp only [labels, hi, List.mem_flatMap, List.mem_map] at hy
          obtain ⟨c, ⟨r, ⟨l, hl, rfl⟩, rfl⟩, hc⟩ := hy
          simp only [List.zip_cons_cons, List.zip_nil_right, List.mem_singleton] at hc
          exact List.mem_map.2 ⟨l, hl, hc.symm⟩
        · cases h
  · simp only [prepare, prepareIndexed] at h
    simp only [settingLabels]
    rcases h1 : leafOf d "data" with e | data
    · rw [h1] at h; cases h
    rcases h2 : leafOf d "index" with e | index
    · rw [h1, h2] at h; cases h
    rcases h3 : leafOf d "dims" with e | dims
    · rw [h1, h2, h3] at h; cases h
    rw [h1, h2, h3] at h
    simp only [] at h
    rw [leafOf_ok h2, leafOf_ok h3]
    split at h
    · cases h
    rcases hd : dataItems data (indexItems ctx index).length with _ | xs
    · rw [hd] at h; cases h
    rw [hd] at h
    simp only [] at h
    split at h
    · simp only [Except.ok.injEq] at h
      subst h
      simp only [labels, List.mem_flatMap, dimNames_eq, indexItems_eq] at hy
      obtain ⟨c, hc, hy⟩ := hy
      exact List.mem_flatMap.2 ⟨c.1, (List.of_mem_zip hc).1, hy⟩
    · cases h

omit [DecidableEq V] in
theorem addSettings_from (dim : String) (item : Key) {y : String × Label} :
    ∀ (l : List (Key × Val (Datum V))) (ds out : DS V), addSettings ctx dim item ds l = .ok out → y ∈ out.coords →
      y ∈ ds.coords ∨ y = (dim, item) ∨ ∃ x ∈ l, y ∈ settingLabels ctx x.1 x.2
  | [], ds, out, h, hy => by
      simp only [addSettings, Except.ok.injEq] at h
      subst h; exact .inl hy
  | (n, v) :: l, ds, out, h, hy => by
      simp only [addSettings] at h
      rcases hq : prepare ctx n v with e | q
      · rw [hq] at h; cases h
      rw [hq] at h
      rcases addSettings_from dim item l _ _ h hy with h1 | h1 | ⟨x, hx, h1⟩
      · rcases List.mem_append.1 h1 with h1 | h1
        · exact .inl h1
        · simp only [labels, atItem, List.mem_flatMap, List.mem_map] at h1
          obtain ⟨_, ⟨c, hc, rfl⟩, h1⟩ := h1
          simp only [List.zip_cons_cons, List.mem_cons] at h1
          rcases h1 with h1 | h1
          · exact .inr (.inl h1)
          · exact .inr (.inr ⟨(n, v), by simp, labels_prepare hq (List.mem_flatMap.2 ⟨c, hc, h1⟩)⟩)
      · exact .inr (.inl h1)
      · exact .inr (.inr ⟨x, by simp [hx], h1⟩)

omit [DecidableEq V] in
theorem defDs_from (dim : String) {y : String × Label} :
    ∀ (l : List (Key × Def V)) (ds out : DS V), (∀ x ∈ l, x.2.WF) → defDs ctx dim ds l = .ok out → y ∈ out.coords →
      y ∈ ds.coords ∨ ∃ x ∈ l, y = (dim, x.1) ∨ ∃ p v, x.2.get1 p = some v ∧ y ∈ settingLabels ctx p v
  | [], ds, out, _, h, hy => by
      simp only [defDs, Except.ok.injEq] at h
      subst h; exact .inl hy
  | (n, d) :: l, ds, out, hw, h, hy => by
      simp only [defDs] at h
      rcases hq : addSettings ctx dim n ds (items d) with e | q
      · rw [hq] at h; cases h
      rw [hq] at h
      rcases defDs_from dim l _ _ (fun x hx => hw x (by simp [hx])) h hy with h1 | ⟨x, hx, h1⟩
      · rcases addSettings_from dim n _ _ _ hq h1 with h2 | h2 | ⟨x, hx, h2⟩
        · exact .inl h2
        · exact .inr ⟨(n, d), by simp, .inl h2⟩
        · exact .inr ⟨(n, d), by simp, .inr ⟨x.1, x.2, (mem_items (hw (n, d) (by simp))).1 hx, h2⟩⟩
      · exact .inr ⟨x, by simp [hx], h1⟩

/-- A link at a node has no settings but those of the technology. -/
theorem Parts.link_set (hs : Sound m) (P : Parts ctx m ds0 ds) {x : NodeData V} {t : Key} {e : Def V}
    (he : (t, e) ∈ linksAt P.links x.node) {p : Key} {v : Val (Datum V)} (hv : e.get1 p = some v) :
    techSetting m t p = some v := by
  obtain ⟨d, here, hd, hi, hp, he'⟩ := ((placeLinks_ok P.h3).2.1 x.node _ e).1 he
  obtain ⟨Q⟩ := placeLink_ok hp
  obtain ⟨hw, hg, ha⟩ := P.mem_techs hs hd
  have hget : (Q.df.get1 p = some v → d.get1 p = some v) ∧ (Q.dt.get1 p = some v → d.get1 p = some v) := by
    by_cases h12 : p = "link_from" ∨ p = "link_to"
    · obtain ⟨h1, h2⟩ := Q.end_none hw p h12
      rw [h1, h2]
      exact ⟨fun h => (by cases h), fun h => (by cases h)⟩
    · push Not at h12
      obtain ⟨h1, h2⟩ := Q.end_get hw p h12.1 h12.2
      rw [h1, h2]
      constructor
      · split
        · intro h; cases h
        · exact id
      · split
        · intro h; cases h
        · exact id
  rw [placed_at Q] at he'
  rw [← hg]
  split at he'
  · simp only [List.mem_singleton, Prod.mk.injEq] at he'
    rw [he'.2] at hv
    exact hget.2 hv
  · split at he'
    · simp only [List.mem_singleton, Prod.mk.injEq] at he'
      rw [he'.2] at hv
      exact hget.1 hv
    · cases he'

/-- **C52.** Every label of the inputs comes from an active item: it is an active node, a technology active at a node,
an active link at an active node, a label that a setting of one of these is indexed by, or a label of the data tables
that is no inactive node or technology. -/
theorem C52_label_origin (hs : Sound m) (h : addNodeTechData ctx m ds0 = .ok ds) {d : String} {l : Label}
    (hl : (d, l) ∈ ds.coords) :
    (d = "nodes" ∧ ActiveNode ctx m l) ∨
    (∃ n, ActiveNode ctx m n ∧ ∃ p v, ownSetting m n p = some v ∧ (d, l) ∈ settingLabels ctx p v) ∨
    (∃ n t, ActiveAt ctx m n t ∧
      ((d = "techs" ∧ l = t) ∨ ∃ p v, nodeSetting m n t p = some v ∧ (d, l) ∈ settingLabels ctx p v)) ∨
    (∃ n t nf nt, ActiveNode ctx m n ∧ Link ctx m t nf nt ∧ (n = nf ∨ n = nt) ∧
      ((d = "techs" ∧ l = t) ∨ ∃ p v, techSetting m t p = some v ∧ (d, l) ∈ settingLabels ctx p v)) ∨
    ((d, l) ∈ ds0.coords ∧
      (d = "nodes" → ∀ e, m.nodes.get1 l = some (.dict e) → on ctx (e.get1 "active") = true) ∧
      (d = "techs" → ∀ v, m.techs.get1 l = some v → on ctx (techSetting m l "active") = true)) := by
  obtain ⟨P⟩ := addNodeTechData_ok h
  rw [P.h7, C55_labels, mergeNodes_coords P.h6] at hl
  simp only [combine, List.mem_append, List.mem_map, List.mem_flatMap, Prod.mk.injEq] at hl
  rcases hl with ((⟨x, hx, hd, hn⟩ | ⟨x, hx, hc⟩) | hc) | hc
  · exact .inl ⟨hd.symm, hn ▸ P.active_of hs hx⟩
  · obtain ⟨A⟩ := P.atNode hx
    have hn := P.active_of hs hx
    have hw : ∀ y ∈ A.defs ++ linksAt P.links x.node, y.2.WF := by
      rintro ⟨t, e⟩ hy
      rcases List.mem_append.1 hy with hy | hy
      · exact (A.mem_defs hs hy).1
      · exact AtNode.links_wf hs hy
    rcases defDs_from "techs" _ _ _ hw A.ds_eq hc with h0 | ⟨⟨t, e⟩, hy, h1⟩
    · cases h0
    right; right
    rcases List.mem_append.1 hy with hy | hy
    · obtain ⟨_, hv, hg, ha, _⟩ := A.mem_defs hs hy
      refine .inl ⟨x.node, t, ⟨hn, hv, ha⟩, ?_⟩
      rcases h1 with h1 | ⟨p, v, h1, h2⟩
      · simp only [Prod.mk.injEq] at h1
        exact .inl h1
      · exact .inr ⟨p, v, by rw [← hg]; exact h1, h2⟩
    · obtain ⟨nf, nt, hL, hend, _⟩ := P.link_of hs hy
      refine .inr (.inl ⟨x.node, t, nf, nt, hn, hL, hend, ?_⟩)
      rcases h1 with h1 | ⟨p, v, h1, h2⟩
      · simp only [Prod.mk.injEq] at h1
        exact .inl h1
      · exact .inr ⟨p, v, P.link_set hs hy h1, h2⟩
  · have hw : ∀ y ∈ P.nodes.map (fun x => (x.1, x.2.del1 "techs")), y.2.WF := by
      intro y hy
      obtain ⟨⟨n, e⟩, hx, rfl⟩ := List.mem_map.1 hy
      obtain ⟨y', hy', he⟩ := P.nodeData_mem hx
      rcases ((P.mem_nodes hs).1 hx).1 with h1 | ⟨_, h1⟩
      · exact WF_del1 (hs.node _ _ h1)
      · rw [h1]; trivial
    rcases defDs_from "nodes" _ _ _ hw P.h5 hc with h0 | ⟨y, hy, h1⟩
    · cases h0
    obtain ⟨⟨n, e⟩, hx, rfl⟩ := List.mem_map.1 hy
    obtain ⟨y', hy', he⟩ := P.nodeData_mem hx
    have hn : ActiveNode ctx m n := he ▸ P.active_of hs hy'
    rcases h1 with h1 | ⟨p, v, h1, h2⟩
    · simp only [Prod.mk.injEq] at h1
      exact .inl ⟨h1.1, h1.2 ▸ hn⟩
    · refine .inr (.inl ⟨n, hn, p, v, ?_, h2⟩)
      rcases ((P.mem_nodes hs).1 hx).1 with h3 | ⟨_, h3⟩
      · by_cases hp : p = "techs"
        · subst hp
          rw [get1_del1_self _ (hs.node _ _ h3)] at h1
          cases h1
        · rw [get1_del1_ne _ hp] at h1
          unfold ownSetting
          rw [if_neg hp, h3]
          exact h1
      · subst h3; cases h1
  · right; right; right; right
    simp only [Clean.dropLabels_coords] at hc
    refine ⟨hc.1.1.1, ?_, ?_⟩
    · intro hd e he
      rcases hon : on ctx (e.get1 "active") with _ | _
      · exact absurd ⟨hd, (P.mem_offNodes hs).2 ⟨e, he, hon⟩⟩ hc.1.1.2
      · rfl
    · intro hd v hv
      rcases hon : on ctx (techSetting m l "active") with _ | _
      · exact absurd ⟨hd, (P.mem_offTechs hs).2 ⟨⟨v, hv⟩, hon⟩⟩ hc.1.2
      · rfl

example : ∃ ds, addNodeTechData Demo.ctx Demo.m Demo.ds0 = .ok ds ∧ Sound Demo.m ∧ ("nodes", "a") ∈ ds.coords :=
  ⟨_, Demo.ok.choose_spec, Demo.sound, C53_node_label Demo.sound Demo.ok.choose_spec Demo.active_a⟩

/-! ### C55: merging the data of nodes and of their technologies -/

/-- No input has different values in both datasets at labels that these have. -/
def Agree (a b : DS V) : Prop :=
  ∀ p x y, a.vars.lookup p = some x → b.vars.lookup p = some y → ∀ ρ : String → Label,
    (∀ d, d ∈ x.dims ∨ d ∈ y.dims → (d, ρ d) ∈ a.coords ∨ (d, ρ d) ∈ b.coords) →
    ∀ u w, x.at ρ = some u → y.at ρ = some w → u = w

omit [DecidableEq V] in
theorem lookup_of_mem' {β : Type} {k : String} {b : β} :
    ∀ {l : List (String × β)}, (l.map Prod.fst).Nodup → (k, b) ∈ l → l.lookup k = some b
  | [], _, h => by cases h
  | (n, c) :: l, hn, h => by
      simp only [List.map_cons, List.nodup_cons] at hn
      simp only [List.lookup_cons]
      rcases List.mem_cons.1 h with h | h
      · simp only [Prod.mk.injEq] at h
        obtain ⟨rfl, rfl⟩ := h
        simp
      · have : k ≠ n := by
          intro e
          exact hn.1 (List.mem_map.2 ⟨_, h, e⟩)
        rw [beq_false_of_ne this]
        exact lookup_of_mem' hn.2 h

theorem disagree_iff (coords : List (String × Label)) (x y : Arr (Option (Scalar V))) :
    disagree (labelsOf coords) x y = true ↔ ∃ ρ : String → Label, (∀ d, d ∈ x.dims ∨ d ∈ y.dims → (d, ρ d) ∈ coords) ∧
      ∃ u w, x.at ρ = some u ∧ y.at ρ = some w ∧ u ≠ w := by
  have hl : ∀ d l, l ∈ labelsOf coords d ↔ (d, l) ∈ coords := by
    intro d l
    simp only [labelsOf, List.mem_map, List.mem_filter, beq_iff_eq]
    constructor
    · rintro ⟨⟨d', l'⟩, ⟨h, rfl⟩, rfl⟩; exact h
    · intro h; exact ⟨_, ⟨h, rfl⟩, rfl⟩
  unfold disagree
  rw [Clean.anyCell_iff']
  apply exists_congr
  intro ρ
  apply and_congr
  · simp only [hl]
    exact ⟨fun h d hd => h d (mem_joinDims.2 hd), fun h d hd => h d (mem_joinDims.1 hd)⟩
  · rw [at_zip]
    rcases x.at ρ with _ | u <;> rcases y.at ρ with _ | w <;> simp

/-- **C55.** The data of technologies at nodes and the data of nodes are merged exactly if they agree; every item then
has the value that either gives. -/
theorem C55_merged (a b : DS V) (hb : (b.vars.map Prod.fst).Nodup) :
    (Agree a b → ∃ out, mergeNodes a b = .ok out) ∧
      ∀ out, mergeNodes a b = .ok out → Agree a b ∧
        (∀ p ρ, valueOf out p ρ = (valueOf a p ρ).or (valueOf b p ρ)) ∧
        ∀ y, y ∈ out.coords ↔ y ∈ a.coords ∨ y ∈ b.coords := by
  constructor
  · intro hag
    simp only [mergeNodes]
    split
    · rename_i hc
      exfalso
      obtain ⟨y, hy, h⟩ := List.any_eq_true.1 hc
      obtain ⟨p, y⟩ := y
      simp only [DS.var] at h
      rcases hx : a.vars.lookup p with _ | x
      · rw [hx] at h; cases h
      rw [hx] at h
      obtain ⟨ρ, hρ, u, w, hu, hw, hne⟩ := (disagree_iff _ _ _).1 h
      exact hne (hag p x y hx (lookup_of_mem' hb hy) ρ (fun d hd => List.mem_append.1 (hρ d hd)) u w hu hw)
    · exact ⟨_, rfl⟩
  · intro out h
    refine ⟨?_, fun p ρ => mergeNodes_at h hb p ρ, fun y => by rw [mergeNodes_coords h, List.mem_append]⟩
    intro p x y hx hy ρ hρ u w hu hw
    by_contra hne
    simp only [mergeNodes] at h
    split at h
    · cases h
    · rename_i hc
      apply hc
      refine List.any_eq_true.2 ⟨(p, y), mem_of_lookup hy, ?_⟩
      simp only [DS.var, hx]
      exact (disagree_iff _ _ _).2 ⟨ρ, fun d hd => List.mem_append.2 (hρ d hd), u, w, hu, hw, hne⟩

/-! ### Examples -/

/-- The value `x` at the node `a`. -/
def Demo.atA (x : Int) : DS Int :=
  ⟨[("nodes", "a")], [("area", ⟨["nodes"], fun c => if c = ["a"] then some (.num x) else none⟩)]⟩

example : ((Demo.atA 1).vars.map Prod.fst).Nodup ∧ ¬ Agree (Demo.atA 1) (Demo.atA 2) := by
  refine ⟨by decide +kernel, fun h => ?_⟩
  have := h "area" _ _ rfl rfl (fun _ => "a") (fun d hd => by simp_all [Demo.atA]) (.num 1) (.num 2)
    (by decide +kernel) (by decide +kernel)
  cases this

example : Agree (Demo.atA 1) (Demo.atA 1) := by
  intro p x y hx hy ρ _ u w hu hw
  rw [hx] at hy
  cases hy
  rw [hu] at hw
  exact Option.some.inj hw

/-- A technology whose costs are indexed, at one node. -/
def Demo.costly : Source Int :=
  ⟨.sub "pv" (.leaf "base_tech" (Demo.str "supply") (.leaf "carrier_out" (Demo.str "power")
    (.sub "cost" (.leaf "data" (Demo.num 3) (.leaf "index" (Demo.str "money")
      (.leaf "dims" (Demo.str "costs") .nil))) .nil))) .nil,
   .sub "a" (.sub "techs" (.sub "pv" .nil .nil) .nil) .nil, .nil⟩

def Demo.money : String → Label := fun d => if d = "costs" then "money" else ""

example : ActiveAt Demo.ctx Demo.costly "a" "pv" ∧
    (∃ v, nodeSetting Demo.costly "a" "pv" "cost" = some v ∧ settingDims Demo.ctx "cost" v = ["costs"] ∧
      settingAt Demo.ctx "cost" v Demo.money = some (.num 3)) ∧
    (∃ v, nodeSetting Demo.costly "a" "pv" "carrier_out" = some v ∧
      settingDims Demo.ctx "carrier_out" v = ["carriers"]) :=
  ⟨⟨⟨⟨_, rfl⟩, by decide +kernel⟩, ⟨_, rfl⟩, by decide +kernel⟩, ⟨_, rfl, by decide +kernel, by decide +kernel⟩,
    _, rfl, by decide +kernel⟩

/-- The labels of inputs, if these are built. -/
def Demo.coords : Except Err (DS Int) → List (String × Label)
  | .ok ds => ds.coords
  | .error _ => []

example : ∀ y ∈ [("nodes", "a"), ("techs", "pv"), ("costs", "money"), ("carriers", "power")],
    y ∈ Demo.coords (addNodeTechData Demo.ctx Demo.costly ⟨[], []⟩) := by decide +kernel

example : ("nodes", "c") ∈ Demo.ds0.coords ∧ ("nodes", "c") ∉ Demo.coords (addNodeTechData Demo.ctx Demo.m Demo.ds0) ∧
    ("nodes", "b") ∈ Demo.coords (addNodeTechData Demo.ctx Demo.m Demo.ds0) ∧
    ("techs", "line") ∈ Demo.coords (addNodeTechData Demo.ctx Demo.m Demo.ds0) := by decide +kernel

example : ∃ v, ownSetting Demo.m "b" "latitude" = some v ∧
    settingAt Demo.ctx "latitude" v Demo.money = some (.num 3) := ⟨_, rfl, by decide +kernel⟩

/-- A data definition over costs. -/
def Demo.rates : Dict (Datum Int) :=
  .sub "rate" (.leaf "data" (Demo.num 2) (.leaf "index" (Demo.str "money") (.leaf "dims" (Demo.str "costs") .nil))) .nil

example : ("costs", "money") ∈ Demo.coords (addDefinitions Demo.ctx Demo.ds0 (items Demo.rates)) ∧
    (∃ v, Demo.rates.get1 "rate" = some v ∧ settingAt Demo.ctx "rate" v Demo.money = some (.num 2)) :=
  ⟨by decide +kernel, _, rfl, by decide +kernel⟩

end ModelData
end Calliope
