import Verif.Proofs.Clean4

/-!
# Properties of cleaning the inputs (C56, C57, C58, C72)

`cleanUndefined T ds = .ok ds'`: cleaning the inputs `ds` gives `ds'`.  `subsetDims ds sel = .ok out`: selecting labels
gives `out`.
-/

namespace Calliope
namespace Clean

open Grid ModelData

variable {V : Type}

/-! ### A small dataset -/

namespace Demo

def ρ (n t c : String) : String → Label := fun d =>
  if d = "nodes" then n else if d = "techs" then t else if d = "carriers" then c else ""

def T : Types Nat := ⟨fun p => p = "carrier_in" ∨ p = "carrier_out", fun v => v ≠ 0⟩

def yes (l : List (List Label)) : Arr (Option (ModelData.Scalar Nat)) :=
  ⟨["nodes", "techs", "carriers"], fun c => if c ∈ l then some (.bool true) else none⟩

/-- A supply at `a`, a link from `a` to `b`; node `c`, technology `ghost` and carrier `heat` are not defined
anywhere. -/
def ds : DS Nat :=
  ⟨[("nodes", "a"), ("nodes", "b"), ("nodes", "c"), ("techs", "pv"), ("techs", "line"), ("techs", "ghost"),
    ("carriers", "power"), ("carriers", "heat"), ("timesteps", "1")],
   [("carrier_in", yes [["a", "line", "power"], ["b", "line", "power"]]),
    ("carrier_out", yes [["a", "pv", "power"], ["a", "line", "power"], ["b", "line", "power"]]),
    ("flow_cap_max", ⟨["nodes", "techs"], fun c =>
      if c = ["a", "pv"] then some (.num 5) else if c = ["b", "pv"] then some (.num 9) else none⟩),
    ("ghosts", ⟨["techs"], fun c => if c = ["ghost"] then some (.num 1) else none⟩),
    ("base_tech", ⟨["techs"], fun c => if c = ["line"] then some (.str "transmission") else some (.str "supply")⟩)]⟩

/-- What is left after cleaning. -/
def out : Option (DS Nat) :=
  match cleanUndefined T ds with
  | .ok d => some d
  | .error _ => none

/-- The link is one-way and gives out another carrier. -/
def ds2 : DS Nat :=
  ⟨[("nodes", "a"), ("nodes", "b"), ("techs", "pipe"), ("carriers", "gas"), ("carriers", "heat"), ("timesteps", "1")],
   [("definition_matrix", ⟨["nodes", "techs", "carriers"], fun c =>
      some (.bool (decide (c = ["a", "pipe", "gas"] ∨ c = ["b", "pipe", "heat"])))⟩),
    ("base_tech", ⟨["techs"], fun _ => some (.str "transmission")⟩)]⟩

/-- A cleaned dataset with three links: `a`–`b`, `b`–`c`, `a`–`c`. -/
def ds3 : DS Nat :=
  ⟨[("nodes", "a"), ("nodes", "b"), ("nodes", "c"), ("techs", "ab"), ("techs", "bc"), ("techs", "pv"),
    ("carriers", "power")],
   [("definition_matrix", ⟨["nodes", "techs", "carriers"], fun c =>
      some (.bool (decide (c ∈ [["a", "ab", "power"], ["b", "ab", "power"], ["b", "bc", "power"], ["c", "bc", "power"],
        ["a", "pv", "power"]])))⟩),
    ("base_tech", ⟨["techs"], fun c => if c = ["pv"] then some (.str "supply") else some (.str "transmission")⟩)]⟩

end Demo

/-! ### C56: undefined members -/

/-- **C56** Cleaning raises unless both carrier inputs are there. -/
theorem C56_runs (T : Types V) (ds : DS V) :
    (∃ ds', cleanUndefined T ds = .ok ds') ↔
      (∃ a, ds.vars.lookup "carrier_in" = some a) ∧ ∃ b, ds.vars.lookup "carrier_out" = some b := clean_ok

/-- **C56** A label remains after cleaning if and only if it was there and, for the dimensions of the carriers, it occurs
in some defined combination. -/
theorem C56_labels {T : Types V} {ds ds' : DS V} (h : cleanUndefined T ds = .ok ds') (d : String) (l : Label) :
    (d, l) ∈ ds'.coords ↔ (d, l) ∈ ds.coords ∧ (Index ds d → ∃ ρ, Combination T ds ρ ∧ ρ d = l) :=
  clean_coords h (d, l)

open Classical in
/-- **C56** Values at remaining labels: those that matter to some defined combination are kept, all others are removed
(`False` for booleans). -/
theorem C56_values {T : Types V} {ds ds' : DS V} (h : cleanUndefined T ds = .ok ds')
    (hn : (ds.vars.map Prod.fst).Nodup) {p : String} (hp : p ≠ "definition_matrix")
    (hv : ∃ a, ds.vars.lookup p = some a) {ρ : String → Label} (hi : Inside ds'.coords ds p ρ) :
    valueOf ds' p ρ = if Matters T ds p ρ then typed T p (valueOf ds p ρ) else typed T p none := by
  rw [clean_value h hn hp hv hi]
  by_cases hm : Matters T ds p ρ
  · rw [if_pos hm, if_pos hm]
  · rw [if_neg hm, if_neg hm]

/-- **C56** Every defined combination remains, with its values. -/
theorem C56_kept {T : Types V} {ds ds' : DS V} (h : cleanUndefined T ds = .ok ds')
    (hn : (ds.vars.map Prod.fst).Nodup) {ρ : String → Label} (hc : Combination T ds ρ) :
    (∀ d, Index ds d → (d, ρ d) ∈ ds'.coords) ∧
    (∀ p, p ≠ "definition_matrix" → (∃ a, ds.vars.lookup p = some a) → Inside ds.coords ds p ρ →
      valueOf ds' p ρ = typed T p (valueOf ds p ρ)) ∧
    valueOf ds' "definition_matrix" ρ = some (.bool true) := by
  have hin : ∀ d, (d, ρ d) ∈ ds.coords → (d, ρ d) ∈ ds'.coords := fun d hd =>
    (clean_coords h _).2 ⟨hd, fun _ => ⟨ρ, hc, rfl⟩⟩
  refine ⟨fun d hd => hin d (hc.1 d hd), fun p hp hv hi => ?_, ?_⟩
  · rw [clean_value h hn hp hv (fun d hd => hin d (hi d hd)), if_pos ⟨ρ, hc, fun _ _ _ => rfl⟩]
  · exact (clean_matrix h hn (fun d hd => hin d (hc.1 d hd))).1.2 hc.2

/-- **C56** The definition matrix that is stored says which combinations are defined. -/
theorem C56_matrix {T : Types V} {ds ds' : DS V} (h : cleanUndefined T ds = .ok ds')
    (hn : (ds.vars.map Prod.fst).Nodup) {ρ : String → Label} (hi : ∀ d, Index ds d → (d, ρ d) ∈ ds'.coords) :
    (Defines T ds ρ → valueOf ds' "definition_matrix" ρ = some (.bool true)) ∧
    (¬ Defines T ds ρ → valueOf ds' "definition_matrix" ρ = some (.bool false)) := by
  obtain ⟨h1, b, h2⟩ := clean_matrix h hn hi
  refine ⟨h1.2, fun hnd => ?_⟩
  rcases b
  · exact h2
  · exact absurd (h1.1 h2) hnd

/-- **C56** An input remains if and only if it has a value at remaining labels. -/
theorem C56_inputs {T : Types V} {ds ds' : DS V} (h : cleanUndefined T ds = .ok ds')
    (hn : (ds.vars.map Prod.fst).Nodup) {p : String} (hp : p ≠ "definition_matrix") :
    (∃ a, ds'.vars.lookup p = some a) ↔
      (∃ a, ds.vars.lookup p = some a) ∧ ∃ ρ, Inside ds'.coords ds p ρ ∧ valueOf ds' p ρ ≠ none :=
  clean_var h hn hp

section again

variable {T : Types V} {ds ds' : DS V}

/-- Both carrier inputs remain. -/
theorem carriers_left (h : cleanUndefined T ds = .ok ds') (hn : (ds.vars.map Prod.fst).Nodup)
    {ρ : String → Label} (hc : Combination T ds ρ) {p : String} (hp : p = "carrier_in" ∨ p = "carrier_out")
    (hb : T.isBool p = true) : ∃ a, ds'.vars.lookup p = some a := by
  have hne : p ≠ "definition_matrix" := by rcases hp with rfl | rfl <;> decide
  have hv : ∃ a, ds.vars.lookup p = some a := by
    have := (clean_ok (T := T) (ds := ds)).1 ⟨ds', h⟩
    rcases hp with rfl | rfl
    · exact this.1
    · exact this.2
  have hi : Inside ds'.coords ds p ρ := by
    intro d hd
    refine (C56_kept h hn hc).1 d ?_
    rcases hp with rfl | rfl
    · exact .inl hd
    · exact .inr hd
  refine (clean_var h hn hne).2 ⟨hv, ρ, hi, ?_⟩
  rw [clean_value h hn hne hv hi]
  unfold typed
  simp [hb]

theorem combination_again (h : cleanUndefined T ds = .ok ds') (hn : (ds.vars.map Prod.fst).Nodup)
    {ρ₀ : String → Label} (hc : Combination T ds ρ₀) (hin : T.isBool "carrier_in" = true)
    (hout : T.isBool "carrier_out" = true) :
    (∀ d, Index ds' d ↔ Index ds d) ∧ ∀ ρ, Combination T ds' ρ ↔ Combination T ds ρ := by
  have v1 := carriers_left h hn hc (.inl rfl) hin
  have v2 := carriers_left h hn hc (.inr rfl) hout
  have w1 := ((clean_ok (T := T) (ds := ds)).1 ⟨ds', h⟩).1
  have w2 := ((clean_ok (T := T) (ds := ds)).1 ⟨ds', h⟩).2
  have hidx : ∀ d, Index ds' d ↔ Index ds d := by
    intro d
    unfold Index
    rw [clean_over h hn (by decide) v1, clean_over h hn (by decide) v2]
  refine ⟨hidx, fun ρ => ⟨?_, ?_⟩⟩
  · rintro ⟨h1, h2⟩
    refine ⟨fun d hd => ((clean_coords h _).1 (h1 d ((hidx d).2 hd))).1, ?_⟩
    have i1 : Inside ds'.coords ds "carrier_in" ρ := fun d hd => h1 d ((hidx d).2 (.inl hd))
    have i2 : Inside ds'.coords ds "carrier_out" ρ := fun d hd => h1 d ((hidx d).2 (.inr hd))
    unfold Defines at h2 ⊢
    rw [clean_value h hn (by decide) w1 i1, clean_value h hn (by decide) w2 i2, truth_typed, truth_typed] at h2
    rcases h2 with h2 | h2
    · left
      split at h2
      · exact h2
      · exact absurd h2 (truth_none _)
    · right
      split at h2
      · exact h2
      · exact absurd h2 (truth_none _)
  · intro hρ
    obtain ⟨k1, k2, _⟩ := C56_kept h hn hρ
    refine ⟨fun d hd => k1 d ((hidx d).1 hd), ?_⟩
    unfold Defines
    rw [k2 _ (by decide) w1 (fun d hd => hρ.1 d (.inl hd)), k2 _ (by decide) w2 (fun d hd => hρ.1 d (.inr hd)),
      truth_typed, truth_typed]
    exact hρ.2

/-- **C56** Cleaning again changes nothing: not the labels, not the values, not which inputs there are.  (If nothing at all
is defined the carrier inputs are removed, and cleaning again raises by `C56_runs`.) -/
theorem C56_again (h : cleanUndefined T ds = .ok ds') (hn : (ds.vars.map Prod.fst).Nodup)
    {ρ₀ : String → Label} (hc : Combination T ds ρ₀) (hin : T.isBool "carrier_in" = true)
    (hout : T.isBool "carrier_out" = true) :
    ∃ ds'', cleanUndefined T ds' = .ok ds'' ∧ (∀ x, x ∈ ds''.coords ↔ x ∈ ds'.coords) ∧
      (∀ p, (∃ a, ds''.vars.lookup p = some a) ↔ ∃ a, ds'.vars.lookup p = some a) ∧
      ∀ p ρ, Inside ds'.coords ds' p ρ → valueOf ds'' p ρ = valueOf ds' p ρ := by
  obtain ⟨hidx, hcomb⟩ := combination_again h hn hc hin hout
  have v1 := carriers_left h hn hc (.inl rfl) hin
  have v2 := carriers_left h hn hc (.inr rfl) hout
  obtain ⟨ds'', h'⟩ := (clean_ok (T := T) (ds := ds')).2 ⟨v1, v2⟩
  have hn' := clean_nodup h hn
  have hco : ∀ x, x ∈ ds''.coords ↔ x ∈ ds'.coords := by
    intro x
    rw [clean_coords h']
    constructor
    · exact fun hx => hx.1
    · intro hx
      refine ⟨hx, fun hi => ?_⟩
      obtain ⟨ρ, h1, h2⟩ := ((clean_coords h x).1 hx).2 ((hidx _).1 hi)
      exact ⟨ρ, (hcomb ρ).2 h1, h2⟩
  have hval : ∀ p ρ, Inside ds'.coords ds' p ρ → valueOf ds'' p ρ = valueOf ds' p ρ := by
    intro p ρ hi
    by_cases hp : p = "definition_matrix"
    · subst hp
      have hvar := clean_matrix_var h hn hc
      have hov := clean_over_matrix h hn hvar
      have hi1 : ∀ d, Index ds d → (d, ρ d) ∈ ds'.coords := fun d hd => hi d ((hov d).2 hd)
      have hi2 : ∀ d, Index ds' d → (d, ρ d) ∈ ds''.coords := fun d hd =>
        (hco _).2 (hi1 d ((hidx d).1 hd))
      obtain ⟨a1, b1, e1⟩ := clean_matrix h hn hi1
      obtain ⟨a2, b2, e2⟩ := clean_matrix h' hn' hi2
      have hdef : Defines T ds' ρ ↔ Defines T ds ρ := by
        constructor
        · intro hd
          exact ((hcomb ρ).1 ⟨fun d hdd => hi1 d ((hidx d).1 hdd), hd⟩).2
        · intro hd
          exact ((hcomb ρ).2 ⟨fun d hdd => ((clean_coords h _).1 (hi1 d hdd)).1, hd⟩).2
      rw [e2] at a2
      rw [e1] at a1
      rw [hdef, ← a1] at a2
      simp only [Option.some.injEq, ModelData.Scalar.bool.injEq] at a2
      rw [e1, e2, Bool.eq_iff_iff.2 a2]
    · rcases hv : ds'.vars.lookup p with _ | a
      · have h2 : ds''.vars.lookup p = none := by
          by_contra hne
          obtain ⟨b, hb⟩ := Option.ne_none_iff_exists'.1 hne
          obtain ⟨⟨c, hc'⟩, _⟩ := (clean_var h' hn' hp).1 ⟨b, hb⟩
          rw [hv] at hc'; cases hc'
        unfold valueOf
        rw [hv, h2]
      · have hp' : ∃ a, ds'.vars.lookup p = some a := ⟨a, hv⟩
        have hp0 : ∃ a, ds.vars.lookup p = some a := ((clean_var h hn hp).1 hp').1
        have hov := clean_over h hn hp hp'
        have hi0 : Inside ds'.coords ds p ρ := fun d hd => hi d ((hov d).2 hd)
        rw [clean_value h' hn' hp hp' (fun d hd => (hco _).2 (hi d hd)), clean_value h hn hp hp0 hi0]
        have hm : Matters T ds' p ρ ↔ Matters T ds p ρ := by
          unfold Matters
          simp only [hcomb, hidx, hov]
        by_cases hmm : Matters T ds p ρ
        · rw [if_pos (hm.2 hmm), if_pos hmm, typed_typed]
        · rw [if_neg (fun h' => hmm (hm.1 h')), if_neg hmm]
  refine ⟨ds'', h', hco, fun p => ?_, hval⟩
  by_cases hp : p = "definition_matrix"
  · subst hp
    exact ⟨fun _ => clean_matrix_var h hn hc, fun _ => clean_matrix_var h' hn' ((hcomb ρ₀).2 hc)⟩
  · rw [clean_var h' hn' hp]
    constructor
    · exact fun hh => hh.1
    · intro hh
      obtain ⟨_, ρ, hi, hne⟩ := (clean_var h hn hp).1 hh
      have hov := clean_over h hn hp hh
      have hi' : Inside ds'.coords ds' p ρ := fun d hd => hi d ((hov d).1 hd)
      exact ⟨hh, ρ, fun d hd => (hco _).2 (hi' d hd), by rw [hval p ρ hi']; exact hne⟩

end again

open Demo in
/-- The small dataset is cleaned of `c`, `ghost` and `heat`. -/
example : out.map DS.coords = some [("nodes", "a"), ("nodes", "b"), ("techs", "pv"), ("techs", "line"),
    ("carriers", "power"), ("timesteps", "1")] ∧
    out.map DS.names = some ["carrier_in", "carrier_out", "flow_cap_max", "base_tech", "definition_matrix"] := by
  decide +kernel

open Demo in
/-- A value at a node where the technology is not defined is removed, others stay. -/
example : out.map (fun d => (valueOf d "flow_cap_max" (Demo.ρ "a" "pv" ""), valueOf d "flow_cap_max" (Demo.ρ "b" "pv" ""),
    valueOf d "definition_matrix" (Demo.ρ "b" "pv" "power"), valueOf d "carrier_in" (Demo.ρ "a" "pv" "power"))) =
    some (some (.num 5), none, some (.bool false), some (.bool false)) := by decide +kernel

open Demo in
example : (ds.vars.map Prod.fst).Nodup ∧ T.isBool "carrier_in" = true ∧ T.isBool "carrier_out" = true := by decide

open Demo in
example : Combination T ds (Demo.ρ "a" "pv" "power") := by
  refine ⟨?_, .inr (.inl (by decide))⟩
  intro d hd
  have : d ∈ ["nodes", "techs", "carriers"] := by
    rcases hd with ⟨a, ha, hd⟩ | ⟨a, ha, hd⟩
    · cases ha; exact hd
    · cases ha; exact hd
  simp only [List.mem_cons, List.not_mem_nil, or_false] at this
  rcases this with rfl | rfl | rfl <;> decide

/-! ### C57: subsets -/

section subset

variable {ds out : DS V} {sel : List (String × List Label)}

/-- **C57** Which labels remain after selecting: those selected which, for the dimensions of the definition matrix, still
occur in some marked combination whose technology is not a hanging link. -/
theorem C57_labels (hr : Ready ds) (h : subsetDims ds sel = .ok out) (d : String) (l : Label) :
    (d, l) ∈ out.coords ↔ (d, l) ∈ ds.coords ∧ Selected sel (d, l) ∧ (Over ds "definition_matrix" d →
      ∃ ρ, Marked ds sel ρ ∧ ¬ Hanging ds sel (ρ "techs") ∧ ρ d = l) :=
  subset_coords hr h (d, l)

/-- **C57** Values at remaining labels are unchanged. -/
theorem C57_values (hr : Ready ds) (h : subsetDims ds sel = .ok out) {p : String} (hp : p ≠ "definition_matrix")
    {ρ : String → Label} (hi : Inside out.coords ds p ρ) : valueOf out p ρ = valueOf ds p ρ :=
  subset_value hr h hp hi

/-- **C57** What is marked in the definition matrix at remaining labels is unchanged. -/
theorem C57_matrix (hr : Ready ds) (h : subsetDims ds sel = .ok out) {ρ : String → Label}
    (hi : Inside out.coords ds "definition_matrix" ρ) :
    valueOf out "definition_matrix" ρ = some (.bool true) ↔ valueOf ds "definition_matrix" ρ = some (.bool true) :=
  subset_matrix hr h hi

/-- **C57** A combination of selected labels remains unless its technology is a hanging link. -/
theorem C57_marked (hr : Ready ds) (h : subsetDims ds sel = .ok out) {ρ : String → Label} (hm : Marked ds sel ρ)
    (hh : ¬ Hanging ds sel (ρ "techs")) :
    (∀ d, Over ds "definition_matrix" d → (d, ρ d) ∈ out.coords) ∧
      valueOf out "definition_matrix" ρ = some (.bool true) := by
  have hi : Inside out.coords ds "definition_matrix" ρ := fun d hd =>
    (subset_coords hr h _).2 ⟨(hm.2 d hd).1, (hm.2 d hd).2, fun _ => ⟨ρ, hm, hh, rfl⟩⟩
  exact ⟨hi, (subset_matrix hr h hi).2 hm.1⟩

/-- **C57** No link that remains is left at just one node: there are two nodes, both remaining, at which it is defined, and
for the same carrier. -/
theorem C57_two_nodes (hr : Ready ds) (h : subsetDims ds sel = .ok out) {t : Label} (hl : IsLink ds t)
    (ht : ("techs", t) ∈ out.coords) :
    ∃ ρ n n', n ≠ n' ∧ ρ "techs" = t ∧ ∀ k ∈ [n, n'],
      ("nodes", k) ∈ out.coords ∧ valueOf out "definition_matrix" (withNode ρ k) = some (.bool true) := by
  obtain ⟨_, _, hx⟩ := (subset_coords hr h _).1 ht
  obtain ⟨ρ, hm, hh, he⟩ := hx hr.techs
  simp only at he
  have : ∃ n, Marked ds sel (withNode ρ n) ∧ n ≠ ρ "nodes" := by
    by_contra hc
    push Not at hc
    apply hh
    rw [he]
    exact ⟨hl, ρ, hm, he, hc⟩
  obtain ⟨n, hmn, hne⟩ := this
  have hwt : withNode ρ n "techs" = t := by simp [withNode, he]
  have k1 := C57_marked hr h hm hh
  have k2 := C57_marked hr h hmn (by rw [hwt, ← he]; exact hh)
  refine ⟨ρ, n, ρ "nodes", hne, he, fun k hk => ?_⟩
  simp only [List.mem_cons, List.not_mem_nil, or_false] at hk
  rcases hk with rfl | rfl
  · exact ⟨by simpa [withNode] using k2.1 "nodes" hr.nodes, k2.2⟩
  · exact ⟨k1.1 "nodes" hr.nodes, by rw [withNode_self]; exact k1.2⟩

/-- **C57** (partial: for links that have the same carriers at both ends; see `C57_other_carriers`) A link remains, with
everything that is defined for it, if it is selected and so are both nodes `m` and `n` it connects. -/
theorem C57_kept_partial (hr : Ready ds) (h : subsetDims ds sel = .ok out) {t m n : Label} (hmn : m ≠ n)
    (hm : ("nodes", m) ∈ ds.coords ∧ Selected sel ("nodes", m))
    (hn : ("nodes", n) ∈ ds.coords ∧ Selected sel ("nodes", n))
    (hsame : ∀ ρ, ρ "techs" = t → (valueOf ds "definition_matrix" (withNode ρ m) = some (.bool true) ↔
      valueOf ds "definition_matrix" (withNode ρ n) = some (.bool true)))
    (honly : ∀ ρ, ρ "techs" = t → Marked ds [] ρ → ρ "nodes" = m ∨ ρ "nodes" = n)
    {ρ : String → Label} (hρ : Marked ds sel ρ) (ht : ρ "techs" = t) :
    (∀ d, Over ds "definition_matrix" d → (d, ρ d) ∈ out.coords) ∧
      valueOf out "definition_matrix" ρ = some (.bool true) := by
  apply C57_marked hr h hρ
  rintro ⟨_, σ, hσ, hst, hone⟩
  rw [ht] at hst
  have hno : ∀ x, Marked ds sel x → Marked ds [] x := fun x hx =>
    ⟨hx.1, fun d hd => ⟨(hx.2 d hd).1, fun _ hk => by cases hk⟩⟩
  have hmove : ∀ k, ("nodes", k) ∈ ds.coords ∧ Selected sel ("nodes", k) →
      valueOf ds "definition_matrix" (withNode σ k) = some (.bool true) → Marked ds sel (withNode σ k) := by
    intro k hk hv
    refine ⟨hv, fun d hd => ?_⟩
    by_cases hdn : d = "nodes"
    · subst hdn
      simpa [withNode] using hk
    · simpa [withNode, hdn] using hσ.2 d hd
  rcases honly σ hst (hno σ hσ) with hk | hk
  · have h1 : valueOf ds "definition_matrix" (withNode σ m) = some (.bool true) := by
      rw [← hk, withNode_self]; exact hσ.1
    have := hone n (hmove n hn ((hsame σ hst).1 h1))
    exact hmn (hk.symm.trans this.symm)
  · have h1 : valueOf ds "definition_matrix" (withNode σ n) = some (.bool true) := by
      rw [← hk, withNode_self]; exact hσ.1
    have := hone m (hmove m hm ((hsame σ hst).2 h1))
    exact hmn (this.trans hk)

/-- **C57** Technologies that are not links remain wherever their labels are selected. -/
theorem C57_others (hr : Ready ds) (h : subsetDims ds sel = .ok out) {ρ : String → Label} (hρ : Marked ds sel ρ)
    (hl : ¬ IsLink ds (ρ "techs")) :
    (∀ d, Over ds "definition_matrix" d → (d, ρ d) ∈ out.coords) ∧
      valueOf out "definition_matrix" ρ = some (.bool true) :=
  C57_marked hr h hρ (fun hh => hl hh.1)

/-- **C57 does not hold** for links with different carriers at their ends: a link that has a carrier at one node only is
removed by every selection, even one that leaves both nodes, such as one of timesteps only. -/
theorem C57_other_carriers (hr : Ready ds) (h : subsetDims ds sel = .ok out) {ρ : String → Label}
    (hρ : Marked ds sel ρ) (hl : IsLink ds (ρ "techs"))
    (hone : ∀ n, valueOf ds "definition_matrix" (withNode ρ n) = some (.bool true) → n = ρ "nodes") :
    ("techs", ρ "techs") ∉ out.coords := by
  intro hc
  obtain ⟨_, _, hx⟩ := (subset_coords hr h _).1 hc
  obtain ⟨σ, _, hh, he⟩ := hx hr.techs
  apply hh
  simp only at he
  rw [he]
  exact ⟨hl, ρ, hρ, rfl, fun n hn => hone n hn.1⟩

end subset

/-- Coordinates after a selection. -/
def Demo.left (ds : DS Nat) (sel : List (String × List Label)) : Option (List (String × Label)) :=
  match subsetDims ds sel with
  | .ok d => some d.coords
  | .error _ => none

open Demo in
/-- Without node `c` the link `bc` is removed, and `ab` and `pv` remain; without `b` both links are removed. -/
example : left ds3 [("nodes", ["a", "b"])] =
      some [("nodes", "a"), ("nodes", "b"), ("techs", "ab"), ("techs", "pv"), ("carriers", "power")] ∧
    left ds3 [("nodes", ["a", "c"])] = some [("nodes", "a"), ("techs", "pv"), ("carriers", "power")] := by
  decide +kernel

open Demo in
/-- A one-way link from gas to heat is removed when timesteps are selected, and with it everything. -/
example : left ds2 [("timesteps", ["1"])] = some [("timesteps", "1")] := by decide +kernel

open Demo in
example : Ready ds3 := by
  refine ⟨by decide, ?_, ⟨_, rfl, by decide⟩, ⟨_, rfl, by decide⟩, ⟨_, rfl, by decide⟩, ?_⟩
  · intro a ha; cases ha; decide
  · rintro d ⟨a, ha, hd⟩; cases ha; simpa using hd

open Demo in
example : Ready ds2 := by
  refine ⟨by decide, ?_, ⟨_, rfl, by decide⟩, ⟨_, rfl, by decide⟩, ⟨_, rfl, by decide⟩, ?_⟩
  · intro a ha; cases ha; decide
  · rintro d ⟨a, ha, hd⟩; cases ha; simpa using hd

open Demo in
/-- The hypotheses of `C57_other_carriers` hold for the gas pipe. -/
example : Marked ds2 [("timesteps", ["1"])] (Demo.ρ "a" "pipe" "gas") ∧ IsLink ds2 "pipe" ∧
    ∀ n, valueOf ds2 "definition_matrix" (withNode (Demo.ρ "a" "pipe" "gas") n) = some (.bool true) → n = "a" := by
  refine ⟨⟨by decide, ?_⟩, rfl, ?_⟩
  · rintro d ⟨a, ha, hd⟩
    cases ha
    simp only [List.mem_cons, List.not_mem_nil, or_false] at hd
    refine ⟨by rcases hd with rfl | rfl | rfl <;> decide, ?_⟩
    intro keep hk
    simp only [List.mem_singleton, Prod.mk.injEq] at hk
    rw [hk.1] at hd
    exact absurd hd (by decide)
  · intro n hn
    have : valueOf ds2 "definition_matrix" (withNode (Demo.ρ "a" "pipe" "gas") n) =
        some (.bool (decide ([n, "pipe", "gas"] = ["a", "pipe", "gas"] ∨ [n, "pipe", "gas"] = ["b", "pipe", "heat"]))) :=
      rfl
    rw [this] at hn
    simpa using hn

open Demo in
/-- The hypotheses of `C57_kept_partial` hold for the link `ab` when `c` is removed. -/
example : (∀ ρ : String → Label, ρ "techs" = "ab" →
    (valueOf ds3 "definition_matrix" (withNode ρ "a") = some (.bool true) ↔
      valueOf ds3 "definition_matrix" (withNode ρ "b") = some (.bool true))) ∧
    ∀ ρ : String → Label, ρ "techs" = "ab" → Marked ds3 [] ρ → ρ "nodes" = "a" ∨ ρ "nodes" = "b" := by
  have hv : ∀ ρ : String → Label, valueOf ds3 "definition_matrix" ρ =
      some (.bool (decide ([ρ "nodes", ρ "techs", ρ "carriers"] ∈ [["a", "ab", "power"], ["b", "ab", "power"],
        ["b", "bc", "power"], ["c", "bc", "power"], ["a", "pv", "power"]]))) := fun _ => rfl
  refine ⟨fun ρ hρ => ?_, fun ρ hρ hm => ?_⟩
  · rw [hv, hv]
    simp [withNode, hρ]
  · have := hm.1
    rw [hv, hρ] at this
    simp at this
    tauto

/-! ### C58: colours -/

/-- **C58** After colours are filled in, a technology has the colour given by the user, if any, and otherwise the palette
entry of its position among all technologies, the palette being repeated. -/
theorem C58_colour {techs : List Label} (hn : techs.Nodup) (color : Option (Arr (Option (ModelData.Scalar V))))
    {i : Nat} {ρ : String → Label} (h : techs[i]? = some (ρ "techs")) :
    (addColors palette techs color).at ρ =
      match color.bind (fun a => a.at ρ) with
      | some c => some c
      | none => some (.str (palette[i % 10]'(Nat.mod_lt _ (by decide)))) := by
  have hlen : palette.length = 10 := rfl
  have hi : i % palette.length < palette.length := Nat.mod_lt _ (by decide)
  rw [addColors_at hn color h, List.getElem?_eq_getElem hi]
  rcases color.bind (fun a => a.at ρ) with _ | c <;> rfl

/-- **C58** Every technology has a colour. -/
theorem C58_all {techs : List Label} (hn : techs.Nodup) (color : Option (Arr (Option (ModelData.Scalar V))))
    {ρ : String → Label} (h : ρ "techs" ∈ techs) : (addColors palette techs color).at ρ ≠ none := by
  obtain ⟨i, hi⟩ := List.getElem?_of_mem h
  rw [C58_colour hn color hi]
  rcases color.bind (fun a => a.at ρ) with _ | c <;> simp

/-- **C58** Colours given by the user are unchanged. -/
theorem C58_user {techs : List Label} (hn : techs.Nodup) {color : Arr (Option (ModelData.Scalar V))}
    {ρ : String → Label} (h : ρ "techs" ∈ techs) {c : ModelData.Scalar V} (hc : color.at ρ = some c) :
    (addColors palette techs (some color)).at ρ = some c := by
  obtain ⟨i, hi⟩ := List.getElem?_of_mem h
  rw [C58_colour hn _ hi]
  simp [hc]

/-- The second of three technologies has a colour of its own. -/
example : let color : Arr (Option (ModelData.Scalar Nat)) := ⟨["techs"], fun c => if c = ["b"] then some (.str "red") else none⟩
    ["a", "b", "c"].map (fun t => (addColors palette ["a", "b", "c"] (some color)).at (fun _ => t)) =
      [some (.str "#19122b"), some (.str "red"), some (.str "#185b48")] := by decide

/-! ### C72: distances -/

/-- Technology `t` is defined at node `n` for some carrier, in a matrix over nodes, technologies and carriers. -/
def DefinedAt (coords : String → List Label) (dm : Arr Bool) (t n : Label) : Prop :=
  n ∈ coords "nodes" ∧ ∃ c ∈ coords "carriers", dm.at (Demo.ρ n t c) = true

/-- The matrix is over nodes, technologies and carriers. -/
def Three (dm : Arr Bool) : Prop := "carriers" ∈ dm.dims ∧ ∀ d ∈ dm.dims, d = "nodes" ∨ d = "techs" ∨ d = "carriers"

theorem nodesOf_iff {coords : String → List Label} {dm : Arr Bool} (hd : Three dm) {t n : Label} :
    n ∈ nodesOf coords dm t ↔ DefinedAt coords dm t n := by
  rw [mem_nodesOf]
  unfold DefinedAt
  refine and_congr_right (fun _ => ?_)
  have hg : ∀ d, d ∈ dm.dims.filter (fun d => ["carriers"].contains d) ↔ d = "carriers" := by
    intro d
    simp only [List.mem_filter, List.contains_cons, List.contains_nil, Bool.or_false, beq_iff_eq]
    constructor
    · exact fun h => h.2
    · rintro rfl; exact ⟨hd.1, rfl⟩
  constructor
  · rintro ⟨σ, ha, hs⟩
    refine ⟨σ "carriers", ha.2 _ ((hg _).2 rfl), ?_⟩
    rw [← hs]
    apply at_congr
    intro d hdd
    rcases hd.2 d hdd with rfl | rfl | rfl
    · rw [ha.1 "nodes" (fun h => absurd ((hg _).1 h) (by decide))]; simp [Demo.ρ]
    · rw [ha.1 "techs" (fun h => absurd ((hg _).1 h) (by decide))]; simp [Demo.ρ]
    · simp [Demo.ρ]
  · rintro ⟨c, hc, hs⟩
    refine ⟨fun d => if d = "carriers" then c else if d = "techs" then t else n, ⟨?_, ?_⟩, ?_⟩
    · intro d hdd
      rw [hg] at hdd
      simp [hdd]
    · intro d hdd
      rw [hg] at hdd
      subst hdd
      simpa using hc
    · rw [← hs]
      apply at_congr
      intro d hdd
      rcases hd.2 d hdd with rfl | rfl | rfl <;> simp [Demo.ρ]

theorem length_two {l : List Label} (h : l.Nodup) : l.length = 2 ↔ ∃ a b, a ≠ b ∧ ∀ n, n ∈ l ↔ n = a ∨ n = b := by
  constructor
  · intro hl
    obtain ⟨a, b, rfl⟩ := List.length_eq_two.1 hl
    exact ⟨a, b, by simpa using h, fun n => by simp⟩
  · rintro ⟨a, b, hab, hm⟩
    have : l.Perm [a, b] := by
      rw [List.perm_ext_iff_of_nodup h (by simpa using hab)]
      intro n
      rw [hm]; simp
    rw [this.length_eq]; rfl

/-- **C72** When coordinates of nodes are given, every link gets the distance between the two nodes at which it is defined,
unless the user gives one; other technologies keep what is given. -/
theorem C72_distance {coords : String → List Label} {dm : Arr Bool} (hd : Three dm) (hnd : (coords "nodes").Nodup)
    {dist : Label → Label → V} {link : Label → Bool} {given out : Option (Arr (Option (ModelData.Scalar V)))}
    (h : addDistances coords dm dist link true given = .ok out) {ρ : String → Label}
    (ht : ρ "techs" ∈ coords "techs") :
    (link (ρ "techs") = true → ∃ a b, a ≠ b ∧ (∀ n, DefinedAt coords dm (ρ "techs") n ↔ n = a ∨ n = b) ∧
      out.bind (fun x => x.at ρ) = (given.bind (fun x => x.at ρ)).or (some (.num (dist a b)))) ∧
    (link (ρ "techs") = false → out.bind (fun x => x.at ρ) = given.bind (fun x => x.at ρ)) := by
  unfold addDistances at h
  simp only [Bool.true_and] at h
  split at h
  · rcases hl : linkDistances coords dm dist link (coords "techs") with e | l
    · rw [hl] at h; cases h
    · rw [hl] at h
      obtain ⟨h1, h2⟩ := linkDistances_ok hl (ρ "techs")
      have hout : out.bind (fun x => x.at ρ) =
          (given.bind (fun x => x.at ρ)).or ((l.lookup (ρ "techs")).map (fun v => .num v)) := by
        cases h
        rcases given with _ | g
        · simp only [Option.bind_some, Option.bind_none, Option.none_or]; rfl
        · simp only [Option.bind_some, at_zip]; rfl
      refine ⟨fun hlk => ?_, fun hlk => ?_⟩
      · obtain ⟨a, b, hab, hlo⟩ := h1 ht hlk
        have hnn : (nodesOf coords dm (ρ "techs")).Nodup := hnd.filter _
        refine ⟨a, b, ?_, fun n => ?_, by rw [hout, hlo]; rfl⟩
        · rw [hab] at hnn
          simpa using hnn
        · rw [← nodesOf_iff hd, hab]
          simp
      · rw [hout, h2 (fun hc => by rw [hlk] at hc; exact absurd hc.2 (by decide))]
        simp
  · rename_i hno
    cases h
    refine ⟨fun hlk => ?_, fun _ => rfl⟩
    exact absurd (List.any_eq_true.2 ⟨_, ht, hlk⟩) hno

/-- **C72** Filling in distances fails if and only if some link is not defined at exactly two nodes, such as a link from a
node to itself; distances given by the user do not prevent this. -/
theorem C72_fails {coords : String → List Label} {dm : Arr Bool} (hd : Three dm) (hnd : (coords "nodes").Nodup)
    {dist : Label → Label → V} {link : Label → Bool} {given : Option (Arr (Option (ModelData.Scalar V)))} :
    (∃ e, addDistances coords dm dist link true given = .error e) ↔
      ∃ t ∈ coords "techs", link t = true ∧ ¬ ∃ a b, a ≠ b ∧ ∀ n, DefinedAt coords dm t n ↔ n = a ∨ n = b := by
  have h2 : ∀ t, (∃ a b, a ≠ b ∧ ∀ n, DefinedAt coords dm t n ↔ n = a ∨ n = b) ↔ (nodesOf coords dm t).length = 2 := by
    intro t
    rw [length_two (l := nodesOf coords dm t) (hnd.filter _)]
    simp only [nodesOf_iff hd]
  simp only [h2]
  have hl := linkDistances_error (coords := coords) (dm := dm) (dist := dist) (link := link) (coords "techs")
  unfold addDistances
  simp only [Bool.true_and]
  split
  · rcases hr : linkDistances coords dm dist link (coords "techs") with e | l
    · rw [hr] at hl
      simp only [reduceCtorEq, exists_false, false_iff] at hl
      push Not at hl
      simpa using hl
    · rw [hr] at hl
      simp only [Except.ok.injEq, exists_eq', true_iff] at hl
      constructor
      · rintro ⟨e, h⟩; cases h
      · rintro ⟨t, h1, h2, h3⟩; exact absurd (hl t h1 h2) h3
  · rename_i hno
    constructor
    · rintro ⟨e, h⟩; cases h
    · rintro ⟨t, h1, h2, _⟩
      exact absurd (List.any_eq_true.2 ⟨t, h1, h2⟩) hno

/-- **C72** Without coordinates of nodes, nothing changes. -/
theorem C72_unknown {coords : String → List Label} {dm : Arr Bool} {dist : Label → Label → V} {link : Label → Bool}
    {given : Option (Arr (Option (ModelData.Scalar V)))} :
    addDistances coords dm dist link false given = .ok given := by simp [addDistances]

/-- Coordinates and matrix of the third small dataset; the distance is that of the given kind. -/
example :
    let coords := labelsU Demo.ds3.coords
    let dm : Arr Bool := ⟨["nodes", "techs", "carriers"], fun c =>
      decide (c ∈ [["a", "ab", "power"], ["b", "ab", "power"], ["b", "bc", "power"], ["c", "bc", "power"]])⟩
    let given : Arr (Option (ModelData.Scalar Nat)) := ⟨["techs"], fun c => if c = ["bc"] then some (.num 7) else none⟩
    (match addDistances coords dm (fun x y => x.length + y.length + 10) (fun t => t ≠ "pv") true (some given) with
      | .ok (some out) => ["ab", "bc", "pv"].map (fun t => out.at (fun _ => t))
      | _ => []) = [some (.num 12), some (.num 7), none] := by decide +kernel

end Clean
end Calliope
