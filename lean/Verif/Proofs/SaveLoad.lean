import Verif.Spec.SaveLoad
import Verif.Props.Clean

/-!
# Lemmas about cleaning a dataset that is clean
-/

namespace Calliope
namespace SaveLoad

open Grid ModelData Clean

variable {V : Type} {T : Types V} {a b c ds : DS V}

theorem Same.refl (a : DS V) : Same a a :=
  ⟨fun _ => Iff.rfl, fun _ => Iff.rfl, fun _ _ => Iff.rfl, fun _ _ _ => rfl⟩

theorem Same.inside (h : Same a b) (p : String) (ρ : String → Label) :
    Inside a.coords a p ρ ↔ Inside b.coords b p ρ := by
  unfold Inside
  exact forall_congr' fun d => imp_congr (h.over p d) (h.labels _)

theorem Same.symm (h : Same a b) : Same b a :=
  ⟨fun x => (h.labels x).symm, fun p => (h.inputs p).symm, fun p d => (h.over p d).symm,
    fun p ρ hi => (h.values p ρ ((h.inside p ρ).2 hi)).symm⟩

theorem Same.trans (h : Same a b) (k : Same b c) : Same a c :=
  ⟨fun x => (h.labels x).trans (k.labels x), fun p => (h.inputs p).trans (k.inputs p),
    fun p d => (h.over p d).trans (k.over p d),
    fun p ρ hi => (h.values p ρ hi).trans (k.values p ρ ((h.inside p ρ).1 hi))⟩

theorem Same.index (h : Same a b) (d : String) : Index a d ↔ Index b d := or_congr (h.over _ d) (h.over _ d)

theorem Same.defines (h : Same a b) {ρ : String → Label} (hi : ∀ d, Index a d → (d, ρ d) ∈ a.coords) :
    Defines T a ρ ↔ Defines T b ρ := by
  unfold Defines
  rw [h.values "carrier_in" ρ (fun d hd => hi d (.inl hd)), h.values "carrier_out" ρ (fun d hd => hi d (.inr hd))]

theorem Same.combination (h : Same a b) (ρ : String → Label) : Combination T a ρ ↔ Combination T b ρ := by
  constructor
  · rintro ⟨h1, h2⟩
    exact ⟨fun d hd => (h.labels _).1 (h1 d ((h.index d).2 hd)), (h.defines h1).1 h2⟩
  · rintro ⟨h1, h2⟩
    have h1' : ∀ d, Index a d → (d, ρ d) ∈ a.coords := fun d hd => (h.labels _).2 (h1 d ((h.index d).1 hd))
    exact ⟨h1', (h.defines h1').2 h2⟩

theorem Same.matters (h : Same a b) (p : String) (ρ : String → Label) : Matters T a p ρ ↔ Matters T b p ρ := by
  unfold Matters
  simp only [h.combination, h.index, h.over]

theorem Same.has (h : Same a b) (t n : Label) : Has T a t n ↔ Has T b t n := by
  unfold Has
  simp only [h.combination]

/-- What is said of one dataset holds for one that says the same. -/
theorem Same.tidy (h : Same a b) (hn : (a.vars.map Prod.fst).Nodup) (k : Tidy T b) : Tidy T a where
  names := hn
  index d := (h.index d).trans (k.index d)
  something := let ⟨ρ, hρ⟩ := k.something; ⟨ρ, (h.combination ρ).2 hρ⟩
  carriers p hp := (h.inputs p).2 (k.carriers p hp)
  used d l hl hd :=
    let ⟨ρ, h1, h2⟩ := k.used d l ((h.labels _).1 hl) ((h.index d).1 hd)
    ⟨ρ, (h.combination ρ).2 h1, h2⟩
  values p hp hv ρ hi := by
    rw [h.values p ρ hi, h.matters]
    exact k.values p hp ((h.inputs p).1 hv) ρ ((h.inside p ρ).1 hi)
  present p hp hv := by
    obtain ⟨ρ, h1, h2⟩ := k.present p hp ((h.inputs p).1 hv)
    have h1' := (h.inside p ρ).2 h1
    exact ⟨ρ, h1', by rw [h.values p ρ h1']; exact h2⟩
  matrix := (h.inputs _).2 k.matrix
  matrixOver d := (h.over _ d).trans ((k.matrixOver d).trans (h.index d).symm)
  matrixValue ρ hi := by
    have hi' : ∀ d, Index b d → (d, ρ d) ∈ b.coords := fun d hd => (h.labels _).1 (hi d ((h.index d).2 hd))
    rw [h.values _ ρ (fun d hd => hi d ((h.index d).2 ((k.matrixOver d).1 ((h.over _ d).1 hd)))), h.defines hi]
    exact k.matrixValue ρ hi'

theorem Same.coloured (h : Same a b) (k : Coloured b) : Coloured a :=
  ⟨(h.over _ _).2 k.1, fun ρ hi => by rw [h.values _ ρ hi]; exact k.2 ρ ((h.inside _ ρ).1 hi)⟩

theorem Same.perTech (h : Same a b) (k : PerTech b) : PerTech a := fun p hp d hd => k p hp d ((h.over p d).1 hd)

theorem Same.isLink (h : Same a b) (k : PerTech b) {t : Label} (ht : ("techs", t) ∈ a.coords) :
    IsLink a t ↔ IsLink b t := by
  unfold IsLink
  rw [h.values "base_tech" (fun _ => t)]
  intro d hd
  rw [k "base_tech" (.inr (.inr rfl)) d ((h.over _ d).1 hd)]
  exact ht

theorem Same.measured (h : Same a b) (hp : PerTech b) (k : Measured T b) : Measured T a := by
  intro h1 h2
  obtain ⟨k1, k2⟩ := k ((h.inputs _).1 h1) ((h.inputs _).1 h2)
  refine ⟨(h.inputs _).2 k1, fun t ht hl => ?_⟩
  obtain ⟨l1, l2, l3⟩ := k2 t ((h.labels _).1 ht) ((h.isLink hp ht).1 hl)
  refine ⟨?_, (h.over _ _).2 l2, fun ρ hρ hi => ?_⟩
  · simp only [h.has]
    exact l1
  · rw [h.values _ ρ hi]
    exact l3 ρ hρ ((h.inside _ ρ).1 hi)

theorem Same.settled (h : Same a b) (hn : (a.vars.map Prod.fst).Nodup) (k : Settled T b) : Settled T a :=
  ⟨h.tidy hn k.tidy, h.coloured k.coloured, h.measured k.perTech k.measured, h.perTech k.perTech⟩

/-! ### Removing what is not defined -/

theorem undefined_same (k : Tidy T ds) : ∃ ds', cleanUndefined T ds = .ok ds' ∧ Same ds' ds ∧
    (ds'.vars.map Prod.fst).Nodup := by
  obtain ⟨ds', h⟩ := (clean_ok (T := T) (ds := ds)).2 ⟨k.carriers _ (.inl rfl), k.carriers _ (.inr rfl)⟩
  obtain ⟨ρ₀, hρ₀⟩ := k.something
  have hco : ∀ x, x ∈ ds'.coords ↔ x ∈ ds.coords := by
    intro x
    rw [clean_coords h]
    exact ⟨fun hx => hx.1, fun hx => ⟨hx, fun hd => k.used x.1 x.2 hx hd⟩⟩
  have hm := clean_matrix_var h k.names hρ₀
  have hval : ∀ p, p ≠ "definition_matrix" → (∃ a, ds.vars.lookup p = some a) → ∀ ρ, Inside ds.coords ds p ρ →
      valueOf ds' p ρ = valueOf ds p ρ := by
    intro p hp hv ρ hi
    rw [clean_value h k.names hp hv (fun d hd => (hco _).2 (hi d hd))]
    obtain ⟨k1, k2⟩ := k.values p hp hv ρ hi
    by_cases hmm : Matters T ds p ρ
    · rw [if_pos hmm, k1]
    · rw [if_neg hmm, k2 hmm]
  have hin : ∀ p, (∃ a, ds'.vars.lookup p = some a) ↔ ∃ a, ds.vars.lookup p = some a := by
    intro p
    by_cases hp : p = "definition_matrix"
    · subst hp
      exact ⟨fun _ => k.matrix, fun _ => hm⟩
    · rw [clean_var h k.names hp]
      refine ⟨fun hh => hh.1, fun hv => ⟨hv, ?_⟩⟩
      obtain ⟨ρ, h1, h2⟩ := k.present p hp hv
      exact ⟨ρ, fun d hd => (hco _).2 (h1 d hd), by rw [hval p hp hv ρ h1]; exact h2⟩
  have hov : ∀ p d, Over ds' p d ↔ Over ds p d := by
    intro p d
    by_cases hp : p = "definition_matrix"
    · subst hp
      rw [clean_over_matrix h k.names hm, k.matrixOver]
    · by_cases hv : ∃ a, ds'.vars.lookup p = some a
      · exact clean_over h k.names hp hv d
      · refine ⟨fun ⟨x, hx, _⟩ => absurd ⟨x, hx⟩ hv, fun ⟨x, hx, _⟩ => absurd ((hin p).2 ⟨x, hx⟩) hv⟩
  refine ⟨ds', h, ⟨hco, hin, hov, ?_⟩, clean_nodup h k.names⟩
  intro p ρ hi
  have hi' : Inside ds.coords ds p ρ := fun d hd => (hco _).1 (hi d ((hov p d).2 hd))
  by_cases hp : p = "definition_matrix"
  · subst hp
    have hi1 : ∀ d, Index ds d → (d, ρ d) ∈ ds.coords := fun d hd => hi' d ((k.matrixOver d).2 hd)
    obtain ⟨m1, b, m2⟩ := clean_matrix h k.names (ρ := ρ) (fun d hd => (hco _).2 (hi1 d hd))
    obtain ⟨n1, n2⟩ := k.matrixValue ρ hi1
    by_cases hd : Defines T ds ρ
    · rw [m1.2 hd, n1 hd]
    · rw [n2 hd, m2]
      cases b with
      | true => exact absurd (m1.1 m2) hd
      | false => rfl
  · by_cases hv : ∃ x, ds.vars.lookup p = some x
    · exact hval p hp hv ρ hi'
    · have e1 : ds.vars.lookup p = none := by
        by_contra hne
        exact hv (Option.ne_none_iff_exists'.1 hne)
      have e2 : ds'.vars.lookup p = none := by
        by_contra hne
        exact hv ((hin p).1 (Option.ne_none_iff_exists'.1 hne))
      unfold valueOf
      rw [e1, e2]

/-- Removing what is not defined leaves nothing to be removed. -/
theorem undefined_tidy (hT : Typing T) (hn : (ds.vars.map Prod.fst).Nodup)
    (hx : ∀ d, Index ds d ↔ d = "nodes" ∨ d = "techs" ∨ d = "carriers") {ρ₀ : String → Label}
    (hc : Combination T ds ρ₀) {ds' : DS V} (h : cleanUndefined T ds = .ok ds') : Tidy T ds' := by
  obtain ⟨hidx, hcomb⟩ := combination_again h hn hc hT.carrierIn hT.carrierOut
  have hm := clean_matrix_var h hn hc
  have hcar : ∀ p, p = "carrier_in" ∨ p = "carrier_out" → ∃ a, ds'.vars.lookup p = some a := by
    intro p hp
    exact carriers_left h hn hc hp (by rcases hp with rfl | rfl; exacts [hT.carrierIn, hT.carrierOut])
  have hov : ∀ p, p ≠ "definition_matrix" → (∃ a, ds'.vars.lookup p = some a) → ∀ d, Over ds' p d ↔ Over ds p d :=
    fun p hp hv d => clean_over h hn hp hv d
  refine ⟨clean_nodup h hn, fun d => (hidx d).trans (hx d), ⟨ρ₀, (hcomb ρ₀).2 hc⟩, hcar, ?_, ?_, ?_, hm, ?_, ?_⟩
  · intro d l hl hd
    obtain ⟨ρ, h1, h2⟩ := ((clean_coords h _).1 hl).2 ((hidx d).1 hd)
    exact ⟨ρ, (hcomb ρ).2 h1, h2⟩
  · intro p hp hv ρ hi
    have hv0 := ((clean_var h hn hp).1 hv).1
    have hi0 : Inside ds'.coords ds p ρ := fun d hd => hi d ((hov p hp hv d).2 hd)
    have hmat : Matters T ds' p ρ ↔ Matters T ds p ρ := by
      unfold Matters
      simp only [hcomb, hidx, hov p hp hv]
    rw [clean_value h hn hp hv0 hi0, typed_typed, hmat]
    exact ⟨rfl, fun hnm => by rw [if_neg hnm]⟩
  · intro p hp hv
    obtain ⟨_, ρ, h1, h2⟩ := (clean_var h hn hp).1 hv
    exact ⟨ρ, fun d hd => h1 d ((hov p hp hv d).1 hd), h2⟩
  · intro d
    rw [clean_over_matrix h hn hm, hidx]
  · intro ρ hi
    have hi1 : ∀ d, Index ds d → (d, ρ d) ∈ ds'.coords := fun d hd => hi d ((hidx d).2 hd)
    have hdef : Defines T ds' ρ ↔ Defines T ds ρ := by
      constructor
      · intro hd
        exact ((hcomb ρ).1 ⟨hi, hd⟩).2
      · intro hd
        exact ((hcomb ρ).2 ⟨fun d hdd => ((clean_coords h _).1 (hi1 d hdd)).1, hd⟩).2
    rw [hdef]
    exact C56_matrix h hn hi1

/-! ### Assigning an input -/

/-- The dataset with an input assigned. -/
def put (ds : DS V) (q : String) (x : Arr (Option (ModelData.Scalar V))) : DS V := ⟨ds.coords, putVar ds.vars q x⟩

theorem put_lookup (ds : DS V) (q p : String) (x : Arr (Option (ModelData.Scalar V))) :
    (put ds q x).vars.lookup p = if p = q then some x else ds.vars.lookup p := by
  simp only [put]
  rw [lookup_putVar]

theorem put_names (hn : (ds.vars.map Prod.fst).Nodup) (q : String) (x : Arr (Option (ModelData.Scalar V))) :
    ((put ds q x).vars.map Prod.fst).Nodup := by
  simp only [put, putVar, List.map_append, List.map_cons, List.map_nil]
  rw [List.nodup_append]
  refine ⟨List.Nodup.sublist (List.Sublist.map _ List.filter_sublist) hn, by simp, ?_⟩
  intro y hy z hz
  simp only [List.mem_singleton] at hz
  subst hz
  simp only [List.mem_map, List.mem_filter] at hy
  obtain ⟨e, ⟨_, he⟩, rfl⟩ := hy
  simpa using he

theorem put_value (ds : DS V) (q p : String) (x : Arr (Option (ModelData.Scalar V))) (ρ : String → Label) :
    valueOf (put ds q x) p ρ = if p = q then x.at ρ else valueOf ds p ρ := by
  unfold valueOf
  rw [put_lookup]
  by_cases h : p = q
  · rw [if_pos h, if_pos h]
  · rw [if_neg h, if_neg h]

theorem put_over (ds : DS V) (q p d : String) (x : Arr (Option (ModelData.Scalar V))) :
    Over (put ds q x) p d ↔ if p = q then d ∈ x.dims else Over ds p d := by
  unfold Over
  rw [put_lookup]
  split
  · simp
  · rfl

/-- An input that is assigned the values it has. -/
theorem put_same {q : String} {x y : Arr (Option (ModelData.Scalar V))} (hy : ds.vars.lookup q = some y)
    (hd : ∀ d, d ∈ x.dims ↔ d ∈ y.dims) (hv : ∀ ρ, Inside ds.coords ds q ρ → x.at ρ = y.at ρ) : Same (put ds q x) ds := by
  have hov : ∀ p d, Over (put ds q x) p d ↔ Over ds p d := by
    intro p d
    rw [put_over]
    split
    · rename_i h
      subst h
      unfold Over
      rw [hy]
      simpa using hd d
    · rfl
  refine ⟨fun _ => Iff.rfl, fun p => ?_, hov, fun p ρ hi => ?_⟩
  · rw [put_lookup]
    split
    · rename_i h
      subst h
      simp [hy]
    · rfl
  · rw [put_value]
    split
    · rename_i h
      subst h
      rw [hv ρ (fun d hd => hi d ((hov _ d).2 hd))]
      unfold valueOf
      rw [hy]
    · rfl

/-- An input may be assigned that is over technologies and dimensions that carriers do not have. -/
theorem put_tidy' (k : Tidy T ds) {q : String} (hq : q ≠ "definition_matrix" ∧ q ≠ "carrier_in" ∧ q ≠ "carrier_out")
    (hb : T.isBool q = false) {x : Arr (Option (ModelData.Scalar V))} (hd : ∀ d ∈ x.dims, Index ds d → d = "techs")
    {ρ₀ : String → Label} (ht : ∀ d ∈ x.dims, (d, ρ₀ d) ∈ ds.coords) (hs : x.at ρ₀ ≠ none) : Tidy T (put ds q x) := by
  have hov : ∀ p, p ≠ q → ∀ d, Over (put ds q x) p d ↔ Over ds p d := by
    intro p hp d
    rw [put_over, if_neg hp]
  have hva : ∀ p, p ≠ q → ∀ ρ, valueOf (put ds q x) p ρ = valueOf ds p ρ := by
    intro p hp ρ
    rw [put_value, if_neg hp]
  have hlk : ∀ p, p ≠ q → (put ds q x).vars.lookup p = ds.vars.lookup p := by
    intro p hp
    rw [put_lookup, if_neg hp]
  have hix : ∀ d, Index (put ds q x) d ↔ Index ds d := fun d =>
    or_congr (hov _ hq.2.1.symm d) (hov _ hq.2.2.symm d)
  have hdf : ∀ ρ, Defines T (put ds q x) ρ ↔ Defines T ds ρ := by
    intro ρ
    unfold Defines
    rw [hva _ hq.2.1.symm, hva _ hq.2.2.symm]
  have hcb : ∀ ρ, Combination T (put ds q x) ρ ↔ Combination T ds ρ := by
    intro ρ
    unfold Combination
    simp only [hix, hdf]
    rfl
  have hox : ∀ d, Over (put ds q x) q d → d ∈ x.dims := by
    intro d h
    rw [put_over, if_pos rfl] at h
    exact h
  have hoq : ∀ d, Index (put ds q x) d → Over (put ds q x) q d → d = "techs" :=
    fun d hi h => hd d (hox d h) ((hix d).1 hi)
  refine ⟨put_names k.names q x, fun d => (hix d).trans (k.index d), ?_, ?_, ?_, ?_, ?_, ?_, ?_, ?_⟩
  · obtain ⟨ρ, h⟩ := k.something
    exact ⟨ρ, (hcb ρ).2 h⟩
  · intro p hp
    rw [hlk p (by rcases hp with rfl | rfl; exacts [hq.2.1.symm, hq.2.2.symm])]
    exact k.carriers p hp
  · intro d l hl hd
    obtain ⟨ρ, h1, h2⟩ := k.used d l hl ((hix d).1 hd)
    exact ⟨ρ, (hcb ρ).2 h1, h2⟩
  · intro p hp hv ρ hi
    by_cases hpq : p = q
    · subst hpq
      have hty : ∀ v, typed T p v = v := by
        intro v
        simp [typed, hb]
      refine ⟨hty _, fun hnm => ?_⟩
      rw [hty]
      by_contra hne
      apply hnm
      by_cases hdt : Over (put ds p x) p "techs"
      · obtain ⟨σ, h1, h2⟩ := k.used "techs" (ρ "techs") (hi _ hdt) ((k.index _).2 (.inr (.inl rfl)))
        refine ⟨σ, (hcb σ).2 h1, fun d hx hd' => ?_⟩
        rw [hoq d hx hd', h2]
      · obtain ⟨σ, h1⟩ := k.something
        exact ⟨σ, (hcb σ).2 h1, fun d hx hd' => absurd (hoq d hx hd' ▸ hd') hdt⟩
    · rw [hlk p hpq] at hv
      have hi' : Inside ds.coords ds p ρ := fun d hd => hi d ((hov p hpq d).2 hd)
      have hmat : Matters T (put ds q x) p ρ ↔ Matters T ds p ρ := by
        unfold Matters
        simp only [hcb, hix, hov p hpq]
      rw [hva p hpq, hmat]
      exact k.values p hp hv ρ hi'
  · intro p hp hv
    by_cases hpq : p = q
    · subst hpq
      refine ⟨ρ₀, fun d hd' => ht d (hox d hd'), ?_⟩
      · rw [put_value, if_pos rfl]
        exact hs
    · rw [hlk p hpq] at hv
      obtain ⟨ρ, h1, h2⟩ := k.present p hp hv
      exact ⟨ρ, fun d hd => h1 d ((hov p hpq d).1 hd), by rw [hva p hpq]; exact h2⟩
  · rw [hlk _ hq.1.symm]
    exact k.matrix
  · intro d
    rw [hov _ hq.1.symm, hix]
    exact k.matrixOver d
  · intro ρ hi
    rw [hva _ hq.1.symm, hdf]
    exact k.matrixValue ρ (fun d hd => hi d ((hix d).2 hd))

/-- An input over technologies may be assigned. -/
theorem put_tidy (k : Tidy T ds) {q : String} (hq : q ≠ "definition_matrix" ∧ q ≠ "carrier_in" ∧ q ≠ "carrier_out")
    (hb : T.isBool q = false) {x : Arr (Option (ModelData.Scalar V))} (hd : ∀ d ∈ x.dims, d = "techs")
    {t₀ : Label} (ht : ("techs", t₀) ∈ ds.coords) (hs : x.at (fun _ => t₀) ≠ none) : Tidy T (put ds q x) :=
  put_tidy' k hq hb (fun d h _ => hd d h) (ρ₀ := fun _ => t₀) (fun d h => by rw [hd d h]; exact ht) hs

/-! ### Colours -/

theorem mem_labelsU {coords : List (String × Label)} {d : String} {l : Label} : l ∈ labelsU coords d ↔ (d, l) ∈ coords := by
  simp [labelsU, labelsOf]

theorem labelsU_nodup (coords : List (String × Label)) (d : String) : (labelsU coords d).Nodup := List.nodup_dedup _

theorem addColors_dims (pal : List String) (techs : List Label) (color : Option (Arr (Option (ModelData.Scalar V))))
    (d : String) : d ∈ (addColors pal techs color).dims ↔ d = "techs" ∨ ∃ x, color = some x ∧ d ∈ x.dims := by
  unfold addColors
  cases color with
  | none => simp
  | some x =>
    simp only [zip, joinDims, List.mem_append, List.mem_filter, List.mem_singleton, Option.some.injEq,
      exists_eq_left']
    constructor
    · rintro (h | h)
      · exact .inr h
      · exact .inl h.1
    · rintro (h | h)
      · by_cases hx : d ∈ x.dims
        · exact .inl hx
        · exact .inr ⟨h, by simpa using hx⟩
      · exact .inl h

theorem color_value (ds : DS V) {ρ : String → Label} (h : ("techs", ρ "techs") ∈ ds.coords) :
    (addColors palette (labelsU ds.coords "techs") (ds.var "color")).at ρ ≠ none ∧
    ∀ v, valueOf ds "color" ρ = some v →
      (addColors palette (labelsU ds.coords "techs") (ds.var "color")).at ρ = some v := by
  have ht := mem_labelsU.2 h
  refine ⟨C58_all (labelsU_nodup _ _) _ ht, fun v hv => ?_⟩
  unfold DS.var
  unfold valueOf at hv
  cases hc : ds.vars.lookup "color" with
  | none => rw [hc] at hv; cases hv
  | some x =>
    rw [hc] at hv
    exact C58_user (labelsU_nodup _ _) ht hv

theorem colour_same (k : Coloured ds) : Same (colourStep ds) ds := by
  obtain ⟨⟨y, hy, hyt⟩, k2⟩ := k
  have : colourStep ds = put ds "color" (addColors palette (labelsU ds.coords "techs") (ds.var "color")) := rfl
  rw [this]
  refine put_same hy (fun d => ?_) (fun ρ hi => ?_)
  · rw [addColors_dims]
    constructor
    · rintro (rfl | ⟨x, hx, hd⟩)
      · exact hyt
      · rw [DS.var, hy] at hx
        cases hx
        exact hd
    · intro hd
      exact .inr ⟨y, hy, hd⟩
  · have ht := hi "techs" ⟨y, hy, hyt⟩
    obtain ⟨v, hv⟩ := Option.ne_none_iff_exists'.1 (k2 ρ hi)
    rw [(color_value ds ht).2 v hv]
    unfold valueOf at hv
    rw [hy] at hv
    exact hv.symm

theorem tidy_tech (k : Tidy T ds) : ∃ t, ("techs", t) ∈ ds.coords := by
  obtain ⟨ρ, h1, _⟩ := k.something
  exact ⟨_, h1 "techs" ((k.index _).2 (.inr (.inl rfl)))⟩

theorem colour_tidy (hT : Typing T) (k : Tidy T ds) (hp : PerTech ds) :
    Tidy T (colourStep ds) ∧ Coloured (colourStep ds) ∧ PerTech (colourStep ds) := by
  have he : colourStep ds = put ds "color" (addColors palette (labelsU ds.coords "techs") (ds.var "color")) := rfl
  have hd : ∀ d ∈ (addColors palette (labelsU ds.coords "techs") (ds.var "color")).dims, d = "techs" := by
    intro d hd
    rcases (addColors_dims _ _ _ d).1 hd with h | ⟨x, hx, h⟩
    · exact h
    · exact hp "color" (.inl rfl) d ⟨x, hx, h⟩
  obtain ⟨t, ht⟩ := tidy_tech k
  rw [he]
  refine ⟨put_tidy k (by decide) hT.color hd ht (color_value ds (ρ := fun _ => t) ht).1, ⟨?_, ?_⟩, ?_⟩
  · rw [put_over, if_pos rfl, addColors_dims]
    exact .inl rfl
  · intro ρ hi
    rw [put_value, if_pos rfl]
    refine (color_value ds (hi "techs" ?_)).1
    rw [put_over, if_pos rfl, addColors_dims]
    exact .inl rfl
  · intro p hpp d hov
    rw [put_over] at hov
    split at hov
    · exact hd d hov
    · exact hp p hpp d hov

/-! ### Types -/

theorem types_same (k : Tidy T ds) : Same (updateTypes T ds) ds := by
  have hov : ∀ p d, Over (updateTypes T ds) p d ↔ Over ds p d := by
    intro p d
    unfold Over
    rw [lookup_types]
    cases ds.vars.lookup p with
    | none => simp
    | some x =>
      simp only [Option.map_some, Option.some.injEq, exists_eq_left']
      split <;> rfl
  have hval : ∀ p ρ, valueOf (updateTypes T ds) p ρ = match ds.vars.lookup p with
      | none => none
      | some _ => typed T p (valueOf ds p ρ) := by
    intro p ρ
    unfold valueOf
    rw [lookup_types]
    cases ds.vars.lookup p with
    | none => rfl
    | some x => exact types_at T p x ρ
  refine ⟨fun _ => Iff.rfl, fun p => ?_, hov, fun p ρ hi => ?_⟩
  · rw [lookup_types]
    cases ds.vars.lookup p <;> simp
  · rw [hval]
    have hi' : Inside ds.coords ds p ρ := fun d hd => hi d ((hov p d).2 hd)
    cases hl : ds.vars.lookup p with
    | none => simp only [valueOf, hl]
    | some x =>
      simp only
      by_cases hp : p = "definition_matrix"
      · subst hp
        have hm := k.matrixValue ρ (fun d hd => hi' d ((k.matrixOver d).2 hd))
        by_cases hd : Defines T ds ρ
        · rw [hm.1 hd]
          simp [typed, truth_bool]
        · rw [hm.2 hd]
          simp [typed, truth_bool]
      · exact (k.values p hp ⟨x, hl⟩ ρ hi').1

theorem types_names (T : Types V) (ds : DS V) (hn : (ds.vars.map Prod.fst).Nodup) :
    ((updateTypes T ds).vars.map Prod.fst).Nodup := by
  have : (updateTypes T ds).vars.map Prod.fst = ds.vars.map Prod.fst := by
    simp only [updateTypes, List.map_map]
    rfl
  rw [this]
  exact hn

/-! ### Distances -/

theorem stored_some (k : Tidy T ds) : ∃ dm, storedMatrix ds = .ok dm := by
  obtain ⟨a, ha⟩ := k.matrix
  exact ⟨_, by unfold storedMatrix DS.var; rw [ha]⟩

theorem stored_three (k : Tidy T ds) {dm : Arr Bool} (h : storedMatrix ds = .ok dm) : Three dm := by
  have h1 := (stored_ok h).1
  refine ⟨(h1 _).2 ((k.matrixOver _).2 ((k.index _).2 (.inr (.inr rfl)))), fun d hd => ?_⟩
  exact (k.index d).1 ((k.matrixOver d).1 ((h1 d).1 hd))

theorem defined_has (k : Tidy T ds) {dm : Arr Bool} (h : storedMatrix ds = .ok dm) {t : Label}
    (ht : ("techs", t) ∈ ds.coords) (n : Label) : DefinedAt (labelsU ds.coords) dm t n ↔ Has T ds t n := by
  obtain ⟨h1, h2, _⟩ := stored_ok h
  unfold DefinedAt Has
  constructor
  · rintro ⟨hn, c, hc, hd⟩
    have hi : ∀ d, Index ds d → (d, Demo.ρ n t c d) ∈ ds.coords := by
      intro d hd'
      rcases (k.index d).1 hd' with rfl | rfl | rfl
      · exact mem_labelsU.1 hn
      · exact ht
      · exact mem_labelsU.1 hc
    refine ⟨Demo.ρ n t c, ⟨hi, ?_⟩, rfl, rfl⟩
    by_contra hnd
    have := (k.matrixValue _ hi).2 hnd
    rw [(h2 _).1 hd] at this
    cases this
  · rintro ⟨ρ, ⟨hi, hd⟩, rfl, rfl⟩
    have hx : ∀ d, d = "nodes" ∨ d = "techs" ∨ d = "carriers" → (d, ρ d) ∈ ds.coords := fun d hd => hi d ((k.index d).2 hd)
    refine ⟨mem_labelsU.2 (hx _ (.inl rfl)), ρ "carriers", mem_labelsU.2 (hx _ (.inr (.inr rfl))), ?_⟩
    rw [← (h2 ρ).2 ((k.matrixValue ρ hi).1 hd)]
    apply at_congr
    intro d hdd
    rcases (stored_three k h).2 d hdd with rfl | rfl | rfl <;> rfl

/-- With coordinates: no links and what is given, or links and distances for them. -/
theorem addDistances_cases {coords : String → List Label} {dm : Arr Bool} {dist : Label → Label → V}
    {link : Label → Bool} {given out : Option (Arr (Option (ModelData.Scalar V)))}
    (h : addDistances coords dm dist link true given = .ok out) :
    ((∀ t ∈ coords "techs", link t = false) ∧ out = given) ∨
    ((∃ t ∈ coords "techs", link t = true) ∧ ∃ x, out = some x ∧
      ∀ d, d ∈ x.dims ↔ d = "techs" ∨ ∃ y, given = some y ∧ d ∈ y.dims) := by
  unfold addDistances at h
  simp only [Bool.true_and] at h
  split at h
  · rename_i hany
    right
    refine ⟨by simpa using hany, ?_⟩
    cases hl : linkDistances coords dm dist link (coords "techs") with
    | error e => rw [hl] at h; cases h
    | ok l =>
      rw [hl] at h
      cases h
      refine ⟨_, rfl, fun d => ?_⟩
      cases given with
      | none => simp
      | some y =>
        simp only [zip, joinDims, List.mem_append, List.mem_filter, List.mem_singleton, Option.some.injEq,
          exists_eq_left']
        constructor
        · rintro (h | h)
          · exact .inr h
          · exact .inl h.1
        · rintro (h | h)
          · by_cases hx : d ∈ y.dims
            · exact .inl hx
            · exact .inr ⟨h, by simpa using hx⟩
          · exact .inl h
  · rename_i hany
    left
    cases h
    exact ⟨by simpa using hany, rfl⟩

theorem var_value (ds : DS V) (p : String) (ρ : String → Label) :
    (ds.var p).bind (fun x => x.at ρ) = valueOf ds p ρ := by
  unfold DS.var valueOf
  cases ds.vars.lookup p <;> rfl

theorem distance_coords {dist : DS V → Label → Label → V} {ds' : DS V} (h : distanceStep dist ds = .ok ds') :
    ds'.coords = ds.coords := by
  unfold distanceStep at h
  split at h
  · split at h
    · cases h
    · split at h
      · cases h
      · split at h
        · cases h
        · rename_i out _
          cases h
          cases out <;> rfl
  · cases h
    rfl

theorem distance_same (dist : DS V → Label → Label → V) (k : Settled T ds) :
    ∃ ds', distanceStep dist ds = .ok ds' ∧ Same ds' ds ∧ (ds'.vars.map Prod.fst).Nodup := by
  unfold distanceStep
  by_cases hk : (ds.var "latitude").isSome && (ds.var "longitude").isSome
  · rw [if_pos hk]
    simp only [Bool.and_eq_true, Option.isSome_iff_exists] at hk
    obtain ⟨⟨b, hb⟩, hm⟩ := k.measured hk.1 hk.2
    have hb' : ds.var "base_tech" = some b := hb
    obtain ⟨dm, hdm⟩ := stored_some k.tidy
    have h3 := stored_three k.tidy hdm
    simp only [hb', Option.isNone_some, Bool.false_eq_true, if_false, hdm]
    have hnoerr : ¬ ∃ e, addDistances (labelsU ds.coords) dm (dist ds) (isTransmission ds) true (ds.var "distance") =
        .error e := by
      rw [C72_fails h3 (labelsU_nodup _ _)]
      rintro ⟨t, ht, hl, hno⟩
      have ht' := mem_labelsU.1 ht
      apply hno
      obtain ⟨⟨x, y, hxy, hall⟩, _⟩ := hm t ht' ((isTransmission_iff ds t).1 hl)
      exact ⟨x, y, hxy, fun n => (defined_has k.tidy hdm ht' n).trans (hall n)⟩
    cases ha : addDistances (labelsU ds.coords) dm (dist ds) (isTransmission ds) true (ds.var "distance") with
    | error e => exact absurd ⟨e, ha⟩ hnoerr
    | ok out =>
      simp only
      rcases addDistances_cases ha with ⟨_, ho⟩ | ⟨⟨t, ht, hl⟩, x, hx, hdims⟩
      · cases hg : ds.var "distance" with
        | none =>
          rw [hg] at ho
          subst ho
          exact ⟨_, rfl, Same.refl _, k.tidy.names⟩
        | some y =>
          rw [hg] at ho
          subst ho
          exact ⟨_, rfl, put_same hg (fun _ => Iff.rfl) (fun _ _ => rfl), put_names k.tidy.names _ _⟩
      · subst hx
        obtain ⟨_, ⟨y, hy, hyt⟩, _⟩ := hm t (mem_labelsU.1 ht) ((isTransmission_iff ds t).1 hl)
        refine ⟨_, rfl, put_same hy (fun d => ?_) (fun ρ hi => ?_), put_names k.tidy.names _ _⟩
        · rw [hdims]
          constructor
          · rintro (rfl | ⟨z, hz, hd⟩)
            · exact hyt
            · rw [DS.var, hy] at hz
              cases hz
              exact hd
          · exact fun hd => .inr ⟨y, hy, hd⟩
        · have htc := hi "techs" ⟨y, hy, hyt⟩
          obtain ⟨c1, c2⟩ := C72_distance h3 (labelsU_nodup _ _) ha (ρ := ρ) (mem_labelsU.2 htc)
          have hyv : valueOf ds "distance" ρ = y.at ρ := by
            unfold valueOf
            rw [hy]
          rw [var_value, hyv] at c1 c2
          simp only [Option.bind_some] at c1 c2
          cases hlt : isTransmission ds (ρ "techs") with
          | false => exact c2 hlt
          | true =>
            obtain ⟨_, _, _, _, hv⟩ := c1 hlt
            have hne := (hm _ htc ((isTransmission_iff ds _).1 hlt)).2.2 ρ rfl hi
            rw [hyv] at hne
            obtain ⟨v, hv'⟩ := Option.ne_none_iff_exists'.1 hne
            rw [hv, hv']
            rfl
  · rw [if_neg hk]
    exact ⟨ds, rfl, Same.refl _, k.tidy.names⟩

theorem distance_settled (hT : Typing T) (dist : DS V → Label → Label → V) (k : Tidy T ds) (hc : Coloured ds)
    (hp : PerTech ds) {ds' : DS V} (h : distanceStep dist ds = .ok ds') : Settled T ds' := by
  unfold distanceStep at h
  by_cases hk : (ds.var "latitude").isSome && (ds.var "longitude").isSome
  · rw [if_pos hk] at h
    cases hb : ds.var "base_tech" with
    | none => rw [hb] at h; cases h
    | some b =>
      obtain ⟨dm, hdm⟩ := stored_some k
      have h3 := stored_three k hdm
      simp only [hb, Option.isNone_some, Bool.false_eq_true, if_false, hdm] at h
      cases ha : addDistances (labelsU ds.coords) dm (dist ds) (isTransmission ds) true (ds.var "distance") with
      | error e => rw [ha] at h; cases h
      | ok out =>
        rw [ha] at h
        cases h
        rcases addDistances_cases ha with ⟨hno, ho⟩ | ⟨⟨t, ht, hl⟩, x, hx, hdims⟩
        · have hs : Same (putDistance ds out) ds ∧ ((putDistance ds out).vars.map Prod.fst).Nodup := by
            subst ho
            cases hg : ds.var "distance" with
            | none => exact ⟨Same.refl _, k.names⟩
            | some y => exact ⟨put_same hg (fun _ => Iff.rfl) (fun _ _ => rfl), put_names k.names _ _⟩
          refine hs.1.settled hs.2 ⟨k, hc, fun _ _ => ⟨⟨b, hb⟩, fun t ht hl => ?_⟩, hp⟩
          have := hno t (mem_labelsU.2 ht)
          rw [(isTransmission_iff ds t).2 hl] at this
          cases this
        · subst hx
          have hxd : ∀ d ∈ x.dims, d = "techs" := by
            intro d hd
            rcases (hdims d).1 hd with h | ⟨y, hy, h⟩
            · exact h
            · exact hp "distance" (.inr (.inl rfl)) d ⟨y, hy, h⟩
          have hval : ∀ ρ : String → Label, ("techs", ρ "techs") ∈ ds.coords → IsLink ds (ρ "techs") →
              (∃ a b, a ≠ b ∧ ∀ n, Has T ds (ρ "techs") n ↔ n = a ∨ n = b) ∧ x.at ρ ≠ none := by
            intro ρ hρ hlk
            obtain ⟨a, b, hab, hall, hv⟩ := (C72_distance h3 (labelsU_nodup _ _) ha (ρ := ρ) (mem_labelsU.2 hρ)).1
              ((isTransmission_iff ds _).2 hlk)
            refine ⟨⟨a, b, hab, fun n => (defined_has k hdm hρ n).symm.trans (hall n)⟩, ?_⟩
            simp only [Option.bind_some] at hv
            rw [hv]
            cases (ds.var "distance").bind (fun x => x.at ρ) <;> simp
          have hts := mem_labelsU.1 ht
          have hli := (isTransmission_iff ds t).1 hl
          have htidy : Tidy T (put ds "distance" x) :=
            put_tidy k (by decide) hT.distance hxd hts (hval (fun _ => t) hts hli).2
          have hov : ∀ p, p ≠ "distance" → ∀ d, Over (put ds "distance" x) p d ↔ Over ds p d := by
            intro p hp d
            rw [put_over, if_neg hp]
          have hva : ∀ p, p ≠ "distance" → ∀ ρ, valueOf (put ds "distance" x) p ρ = valueOf ds p ρ := by
            intro p hp ρ
            rw [put_value, if_neg hp]
          have hhas : ∀ t n, Has T (put ds "distance" x) t n ↔ Has T ds t n := by
            intro t n
            unfold Has Combination Defines Index
            simp only [hov "carrier_in" (by decide), hov "carrier_out" (by decide), hva "carrier_in" (by decide),
              hva "carrier_out" (by decide)]
            rfl
          refine ⟨htidy, ⟨(hov _ (by decide) _).2 hc.1, fun ρ hi => ?_⟩, ?_, ?_⟩
          · show valueOf (put ds "distance" x) "color" ρ ≠ none
            rw [hva "color" (by decide)]
            exact hc.2 ρ (fun d hd => hi d ((hov _ (by decide) d).2 hd))
          · intro _ _
            refine ⟨⟨b, ?_⟩, fun t' ht' hl' => ?_⟩
            · show (put ds "distance" x).vars.lookup "base_tech" = some b
              rw [put_lookup, if_neg (by decide)]
              exact hb
            · have hl0 : IsLink ds t' := by
                unfold IsLink at hl' ⊢
                rw [← hl']
                exact (hva "base_tech" (by decide) _).symm
              refine ⟨?_, ?_, fun ρ hρ hi => ?_⟩
              · obtain ⟨a, b, hab, hall⟩ := (hval (fun _ => t') ht' hl0).1
                exact ⟨a, b, hab, fun n => (hhas t' n).trans (hall n)⟩
              · show Over (put ds "distance" x) "distance" "techs"
                rw [put_over, if_pos rfl, hdims]
                exact .inl rfl
              · show valueOf (put ds "distance" x) "distance" ρ ≠ none
                rw [put_value, if_pos rfl]
                subst hρ
                exact (hval ρ ht' hl0).2
          · intro p hpp d hd
            change Over (put ds "distance" x) p d at hd
            rw [put_over] at hd
            split at hd
            · exact hxd d hd
            · exact hp p hpp d hd
  · rw [if_neg hk] at h
    cases h
    refine ⟨k, hc, fun h1 h2 => ?_, hp⟩
    exfalso
    apply hk
    simp only [Bool.and_eq_true, Option.isSome_iff_exists]
    exact ⟨h1, h2⟩

/-! ### Time -/

/-- An input over time steps may be assigned, unless initialisation looks at it. -/
theorem put_settled (k : Settled T ds) {q : String} (hq : q ≠ "definition_matrix" ∧ q ≠ "carrier_in" ∧ q ≠ "carrier_out")
    (hq' : q ≠ "color" ∧ q ≠ "distance" ∧ q ≠ "base_tech" ∧ q ≠ "latitude" ∧ q ≠ "longitude")
    (hb : T.isBool q = false) {f : Label → V} {l : Label} (hl : ("timesteps", l) ∈ ds.coords) :
    Settled T (put ds q (timed f)) := by
  have hov : ∀ p, p ≠ q → ∀ d, Over (put ds q (timed f)) p d ↔ Over ds p d := by
    intro p hp d
    rw [put_over, if_neg hp]
  have hva : ∀ p, p ≠ q → ∀ ρ, valueOf (put ds q (timed f)) p ρ = valueOf ds p ρ := by
    intro p hp ρ
    rw [put_value, if_neg hp]
  have hlk : ∀ p, p ≠ q → (put ds q (timed f)).vars.lookup p = ds.vars.lookup p := by
    intro p hp
    rw [put_lookup, if_neg hp]
  have hhas : ∀ t n, Has T (put ds q (timed f)) t n ↔ Has T ds t n := by
    intro t n
    unfold Has Combination Defines Index
    simp only [hov "carrier_in" hq.2.1.symm, hov "carrier_out" hq.2.2.symm, hva "carrier_in" hq.2.1.symm,
      hva "carrier_out" hq.2.2.symm]
    rfl
  refine ⟨put_tidy' k.tidy hq hb (fun d hd hi => ?_) (ρ₀ := fun _ => l) (fun d hd => ?_) (by simp [timed, Arr.at]),
    ⟨(hov _ hq'.1.symm _).2 k.coloured.1, fun ρ hi => ?_⟩, fun h1 h2 => ?_, fun p hp d hd => ?_⟩
  · have : d = "timesteps" := by simpa [timed] using hd
    subst this
    rcases (k.tidy.index _).1 hi with h | h | h <;> exact absurd h (by decide)
  · have : d = "timesteps" := by simpa [timed] using hd
    subst this
    exact hl
  · rw [hva _ hq'.1.symm]
    exact k.coloured.2 ρ (fun d hd => hi d ((hov _ hq'.1.symm d).2 hd))
  · rw [hlk _ hq'.2.2.2.1.symm] at h1
    rw [hlk _ hq'.2.2.2.2.symm] at h2
    obtain ⟨h3, h4⟩ := k.measured h1 h2
    refine ⟨by rw [hlk _ hq'.2.2.1.symm]; exact h3, fun t ht hlt => ?_⟩
    have hl0 : IsLink ds t := by
      unfold IsLink at hlt ⊢
      rw [hva _ hq'.2.2.1.symm] at hlt
      exact hlt
    obtain ⟨h5, h6, h7⟩ := h4 t ht hl0
    refine ⟨by simp only [hhas]; exact h5, (hov _ hq'.2.1.symm _).2 h6, fun ρ hρ hi => ?_⟩
    rw [hva _ hq'.2.1.symm]
    exact h7 ρ hρ (fun d hd => hi d ((hov _ hq'.2.1.symm d).2 hd))
  · have hpq : p ≠ q := by
      rcases hp with rfl | rfl | rfl
      · exact hq'.1.symm
      · exact hq'.2.1.symm
      · exact hq'.2.2.1.symm
    exact k.perTech p hp d ((hov p hpq d).1 hd)

theorem infer_settled (hT : Typing T) (res : DS V → Label → V) (one : V) (k : Settled T ds) {l : Label}
    (hl : ("timesteps", l) ∈ ds.coords) : Settled T (inferStep res one ds) := by
  have h1 := put_settled k (q := "timestep_resolution") (by decide) (by decide) hT.resolution (f := res ds) hl
  exact put_settled h1 (q := "timestep_weights") (by decide) (by decide) hT.weights (f := fun _ => one) hl

/-! ### All steps -/

/-- Cleaning what is settled changes nothing. -/
theorem again (dist : DS V → Label → Label → V) (k : Settled T ds) :
    ∃ d1 d2, cleanUndefined T ds = .ok d1 ∧ distanceStep dist (colourStep d1) = .ok d2 ∧ Settled T d2 ∧ Same d2 ds ∧
      Same (updateTypes T d2) ds := by
  obtain ⟨d1, h1, s1, n1⟩ := undefined_same k.tidy
  have k1 := s1.settled n1 k
  have s2 := colour_same k1.coloured
  have n2 : ((colourStep d1).vars.map Prod.fst).Nodup := put_names (ds := d1) n1 _ _
  have k2 := s2.settled n2 k1
  obtain ⟨d2, h3, s3, n3⟩ := distance_same dist k2
  have k3 := s3.settled n3 k2
  exact ⟨d1, d2, h1, h3, k3, s3.trans (s2.trans s1), (types_same k3.tidy).trans (s3.trans (s2.trans s1))⟩

/-- What cleaning first gives is settled. -/
theorem first (hT : Typing T) (dist : DS V → Label → Label → V) (k : Given T ds) {d1 d2 : DS V}
    (h1 : cleanUndefined T ds = .ok d1) (h2 : distanceStep dist (colourStep d1) = .ok d2) :
    Settled T d2 ∧ ∃ l, ("timesteps", l) ∈ d2.coords := by
  obtain ⟨ρ, hρ⟩ := k.something
  have k1 := undefined_tidy hT k.names k.index hρ h1
  have hp : PerTech d1 := by
    intro p hp d hd
    have hpm : p ≠ "definition_matrix" := by rcases hp with rfl | rfl | rfl <;> decide
    refine k.perTech p hp d ((clean_over h1 k.names hpm ?_ d).1 hd)
    obtain ⟨x, hx, _⟩ := hd
    exact ⟨x, hx⟩
  obtain ⟨t1, t2, t3⟩ := colour_tidy hT k1 hp
  refine ⟨distance_settled hT dist t1 t2 t3 h2, ?_⟩
  obtain ⟨l, hl⟩ := k.time
  refine ⟨l, ?_⟩
  rw [distance_coords h2]
  refine (clean_coords h1 _).2 ⟨hl, fun hi => ?_⟩
  rcases (k.index _).1 hi with h | h | h <;> simp at h

end SaveLoad
end Calliope
