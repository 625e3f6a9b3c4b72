import Verif.Model.BaseMath
import Verif.Spec.BaseMath
import Verif.Props.Build
import Verif.Props.Expand

namespace Calliope
namespace BaseMath

open Grid Infix Expr Expand Build Where

variable {V : Type}

/-! ### Traversals -/

theorem enum_nil {enum : List String → List String} (h : Traverses enum) : enum [] = [] := by
  cases he : enum [] with
  | nil => rfl
  | cons a l =>
    have := ((h []).2 a).1 (by rw [he]; exact List.mem_cons_self ..)
    cases this

theorem enum_singleton {enum : List String → List String} (h : Traverses enum) (n : String) :
    enum [n] = [n] := by
  have hn := (h [n]).1
  have hm := (h [n]).2
  cases he : enum [n] with
  | nil =>
    have := (hm n).2 (by simp)
    rw [he] at this
    cases this
  | cons a l =>
    rw [he] at hn hm
    have ha : a = n := by simpa using (hm a).1 (by simp)
    subst ha
    cases l with
    | nil => rfl
    | cons b l =>
      have hb : b = a := by simpa using (hm b).1 (by simp)
      subst hb
      simp at hn

theorem enum_same {enum : List String → List String} (h : Traverses enum) {l : List String} {n : String}
    (hn : n ∈ l) (hl : ∀ x ∈ l, x = n) : enum l = [n] := by
  have h1 := (h l).1
  have hm := (h l).2
  cases he : enum l with
  | nil =>
    have := (hm n).2 hn
    rw [he] at this
    cases this
  | cons a k =>
    rw [he] at h1 hm
    have ha : a = n := hl a ((hm a).1 (by simp))
    subst ha
    cases k with
    | nil => rfl
    | cons b k =>
      have hb : b = a := hl b ((hm b).1 (by simp))
      subst hb
      simp at h1

/-! ### Conditions -/

theorem truth_first {W : Where.Env} (hd : "timesteps" ∈ W.dims) (ρ : Point) :
    Truth W ρ firstStep ↔ First W ρ := by
  simp only [firstStep, Truth, LeafTruth, Compares, lhsValue, rhsValue, Where.labelOf, labelAt, if_pos hd, First,
    asNumber, Where.Same]
  rw [if_neg (by decide)]
  simp only [Int.toNat_zero, List.head?_eq_getElem?]
  cases (W.coords "timesteps")[0]? with
  | none => simp [asNumber]
  | some l => simp [asNumber, eq_comm]

theorem truth_isTrue {W : Where.Env} (n : String) (ρ : Point) :
    Truth W ρ (isTrue n) ↔ Flag W n ρ := by
  simp only [isTrue, Truth, LeafTruth, Compares, lhsValue, rhsValue, Flag, Where.Same]
  cases valueOf (W.input n) ρ with
  | bool b => cases b <;> simp [asNumber]
  | num q => simp [asNumber]
  | _ => simp [asNumber]

theorem truth_isText {W : Where.Env} (n s : String) (ρ : Point) :
    Truth W ρ (isText n s) ↔ Text W n s ρ := by
  simp only [isText, Truth, LeafTruth, Compares, lhsValue, rhsValue, Text, Where.Same]
  cases valueOf (W.input n) ρ with
  | bool b => cases b <;> simp [asNumber]
  | _ => simp [asNumber]

@[simp] theorem truth_no {W : Where.Env} (t : Cond) (ρ : Point) : Truth W ρ (no t) ↔ ¬ Truth W ρ t := by
  simp only [no, Truth]
@[simp] theorem truth_both {W : Where.Env} (s t : Cond) (ρ : Point) :
    Truth W ρ (both s t) ↔ Truth W ρ s ∧ Truth W ρ t := by
  simp only [both, Truth, RestTruth, connect]
@[simp] theorem truth_either {W : Where.Env} (s t : Cond) (ρ : Point) :
    Truth W ρ (either s t) ↔ Truth W ρ s ∨ Truth W ρ t := by
  simp only [either, Truth, RestTruth, connect]
@[simp] theorem truth_always {W : Where.Env} (ρ : Point) : Truth W ρ always ↔ True := by
  simp [always, Truth, LeafTruth]

@[simp] theorem truth_given {W : Where.Env} (n : String) (ρ : Point) :
    Truth W ρ (given n) ↔ Where.Given (W.input n).kind ((W.input n).arr.at ρ) := by
  simp [given, Truth, LeafTruth]
@[simp] theorem truth_built {W : Where.Env} (n : String) (ρ : Point) :
    Truth W ρ (built n) ↔ ∃ a, W.result n = some a ∧ a.at ρ = true := by
  simp [built, Truth, LeafTruth]

/-- Inputs over the dimensions of the component have one value at an item of the component. -/
theorem valueOf_same {W : Where.Env} {sets : List String} {ρ σ : Point} (h : SameAlong sets ρ σ) {n : String}
    (hd : ∀ d ∈ (W.input n).arr.dims, d ∈ sets) : valueOf (W.input n) σ = valueOf (W.input n) ρ := by
  unfold valueOf
  rw [at_congr (W.input n).arr (ρ := ρ) (fun d hdd => h d (hd d hdd))]

theorem flag_same {W : Where.Env} {sets : List String} {ρ σ : Point} (h : SameAlong sets ρ σ) {n : String}
    (hd : ∀ d ∈ (W.input n).arr.dims, d ∈ sets) : Flag W n σ ↔ Flag W n ρ := by
  unfold Flag
  rw [valueOf_same h hd]

theorem text_same {W : Where.Env} {sets : List String} {ρ σ : Point} (h : SameAlong sets ρ σ) {n s : String}
    (hd : ∀ d ∈ (W.input n).arr.dims, d ∈ sets) : Text W n s σ ↔ Text W n s ρ := by
  unfold Text
  rw [valueOf_same h hd]

theorem first_same {W : Where.Env} {sets : List String} {ρ σ : Point} (h : SameAlong sets ρ σ)
    (hd : "timesteps" ∈ sets) : First W σ ↔ First W ρ := by
  unfold First
  rw [h _ hd]

/-- If conditions have the same truth at all items of the model with the labels of `ρ`. -/
theorem applies_iff {W : Where.Env} {c : Component V} {ρ : Point} (hρ : Valid W ρ) {e : Equation V Cond}
    (htop : ∀ σ, SameAlong c.foreach ρ σ → (Truth W σ c.top ↔ Truth W ρ c.top))
    (hw : ∀ w ∈ e.wheres, ∀ σ, SameAlong c.foreach ρ σ → (Truth W σ w ↔ Truth W ρ w)) :
    Applies W c ρ e ↔ InModel W c.foreach ρ ∧ Truth W ρ c.top ∧ ∀ w ∈ e.wheres, Truth W ρ w := by
  unfold Applies InModel
  constructor
  · rintro ⟨hk, ⟨σ, h1, h2, h3, h4⟩, τ, g1, g2, g3⟩
    exact ⟨⟨hk, σ, h1, h2, h3⟩, (htop σ h2).1 h4, fun w hm => (hw w hm τ g2).1 (g3 w hm)⟩
  · rintro ⟨⟨hk, σ, h1, h2, h3⟩, ht, hall⟩
    exact ⟨hk, ⟨σ, h1, h2, h3, (htop σ h2).2 ht⟩, ρ, hρ, fun _ _ => rfl, hall⟩

/-- The conditions of a component have the same truth at all items with the labels of `ρ`. -/
def Steady (W : Where.Env) (c : Component V) (es : List (Equation V Cond)) (ρ : Point) : Prop :=
  ∀ σ, SameAlong c.foreach ρ σ → (Truth W σ c.top ↔ Truth W ρ c.top) ∧
    ∀ e ∈ es, ∀ w ∈ e.wheres, (Truth W σ w ↔ Truth W ρ w)

theorem constraint_at [AddCommMonoid V] {W : Where.Env} {E : Expr.Env V} (hE : WellFormed E)
    {enum : List String → List String} {c : Component V} (hn : c.foreach.Nodup)
    {b : Arr (Option (Cell V))} (hb : buildConstraint W E enum c = .ok b)
    {es : List (Equation V Cond)} (hes : parseEquations enum c.defn = .ok es)
    {ρ : Point} (hρ : Valid W ρ) (hs : Steady W c es ρ) :
    (b.at ρ ≠ none ↔ InModel W c.foreach ρ ∧ Truth W ρ c.top ∧ ∃ e ∈ es, ∀ w ∈ e.wheres, Truth W ρ w) ∧
    ∀ e ∈ es, InModel W c.foreach ρ → Truth W ρ c.top → (∀ w ∈ e.wheres, Truth W ρ w) →
      ∀ l o r, e.body = .cmp l o r → Simple c e l → Simple c e r →
        b.at ρ = some ⟨value E e l ρ, o, value E e r ρ⟩ := by
  obtain ⟨h1, _, h3⟩ := C71_constraint hE hn hb hes hρ
  have hap : ∀ e ∈ es, (Applies W c ρ e ↔ InModel W c.foreach ρ ∧ Truth W ρ c.top ∧ ∀ w ∈ e.wheres, Truth W ρ w) :=
    fun e he => applies_iff hρ (fun σ h => (hs σ h).1) (fun w hw σ h => (hs σ h).2 e he w hw)
  refine ⟨?_, ?_⟩
  · rw [ne_eq, h1]
    push Not
    constructor
    · rintro ⟨e, he, ha⟩
      obtain ⟨g1, g2, g3⟩ := (hap e he).1 ha
      exact ⟨g1, g2, e, he, g3⟩
    · rintro ⟨g1, g2, e, he, g3⟩
      exact ⟨e, he, (hap e he).2 ⟨g1, g2, g3⟩⟩
  · intro e he g1 g2 g3 l o r hbody hl hr
    obtain ⟨l', o', r', hbody', hval⟩ := h3 e he ((hap e he).2 ⟨g1, g2, g3⟩)
    rw [hbody] at hbody'
    cases hbody'
    exact hval hl hr

theorem expression_at [AddCommMonoid V] {W : Where.Env} {E : Expr.Env V} (hE : WellFormed E)
    (hco : E.coords = W.coords)
    {enum : List String → List String} {c : Component V} (hn : c.foreach.Nodup)
    {b : Arr (Option V)} (hb : buildExpression W E enum c = .ok b)
    {es : List (Equation V Cond)} (hes : parseEquations enum c.defn = .ok es)
    {ρ : Point} (hρ : Valid W ρ) (hs : Steady W c es ρ) :
    (b.at ρ ≠ none ↔ InModel W c.foreach ρ ∧ Truth W ρ c.top ∧ ∃ e ∈ es, ∀ w ∈ e.wheres, Truth W ρ w) ∧
    ∀ e ∈ es, InModel W c.foreach ρ → Truth W ρ c.top → (∀ w ∈ e.wheres, Truth W ρ w) →
      ∀ t, e.body = .arith t → Simple c e t → b.at ρ = value E e t ρ := by
  obtain ⟨h1, _, h3⟩ := C71_expression hE hco hn hb hes hρ
  have hap : ∀ e ∈ es, (Applies W c ρ e ↔ InModel W c.foreach ρ ∧ Truth W ρ c.top ∧ ∀ w ∈ e.wheres, Truth W ρ w) :=
    fun e he => applies_iff hρ (fun σ h => (hs σ h).1) (fun w hw σ h => (hs σ h).2 e he w hw)
  refine ⟨?_, ?_⟩
  · rw [ne_eq, h1]
    push Not
    constructor
    · rintro ⟨e, he, ha⟩
      obtain ⟨g1, g2, g3⟩ := (hap e he).1 ha
      exact ⟨g1, g2, e, he, g3⟩
    · rintro ⟨g1, g2, e, he, g3⟩
      exact ⟨e, he, (hap e he).2 ⟨g1, g2, g3⟩⟩
  · intro e he g1 g2 g3 t hbody ht
    obtain ⟨t', hbody', hval⟩ := h3 e he ((hap e he).2 ⟨g1, g2, g3⟩)
    rw [hbody] at hbody'
    cases hbody'
    exact (hval ht).1

/-! ### Values -/

section
variable [AddCommMonoid V] {E : Expr.Env V} {slices : String → Option SliceDef}

omit [AddCommMonoid V] in
@[simp] theorem mask_true (x : Fn V) (ρ : Point) : (x.mask (fun _ => true) []).val ρ = x.val ρ := by
  simp [Fn.mask]

theorem mean_comp {n : String} {ds : List String} {f : Point → V} (h : Is E n ds f) (ρ : Point) :
    (mean E slices (fun _ => true) [] (.comp n)).val ρ = some (f ρ) := by
  obtain ⟨c, hc, hv, _⟩ := h
  simp only [mean, hc]
  exact hv ρ

theorem total_some (l : List V) (hl : l ≠ []) : total (l.map some) = some l.sum := by
  unfold total
  rw [if_neg]
  · rw [List.map_map]
    congr 2
    exact List.map_id _
  · intro h
    cases l with
    | nil => exact hl rfl
    | cons a l => have := h (some a) (by simp); cases this

theorem points_ne_nil {coords : String → List Label} : ∀ {ds : List String} {ρ : Point},
    (∀ d ∈ ds, coords d ≠ []) → points coords ds ρ ≠ []
  | [], ρ, _ => by simp [points]
  | d :: ds, ρ, h => by
      simp only [points, ne_eq, List.flatMap_eq_nil_iff, not_forall]
      obtain ⟨l, hl⟩ := List.exists_mem_of_ne_nil _ (h d (by simp))
      exact ⟨l, hl, points_ne_nil (fun x hx => h x (by simp [hx]))⟩

/-- The sum over some dimensions. -/
theorem mean_sum {n : String} {ds over : List String} {f : Point → V} (hE : WellFormed E) (h : Is E n ds f)
    (ho : ∀ d ∈ over, d ∈ ds) (hn : over.Nodup) (hc : ∀ d ∈ over, E.coords d ≠ []) (ρ : Point) :
    (mean E slices (fun _ => true) [] (.sum (.comp n) over)).val ρ =
      some ((points E.coords over ρ).map f).sum := by
  obtain ⟨c, hcomp, hv, hd⟩ := h
  have hnod : (c.arr.dims.filter (fun d => decide (d ∈ over))).Nodup := (hE.comp n c hcomp).filter _
  have hval : ∀ l : List Point, l.map (fun ρ => (c.arr.at ρ).or c.default) = (l.map f).map some := by
    intro l
    rw [List.map_map]
    apply List.map_congr_left
    intro σ _
    exact hv σ
  have hne : ∀ d ∈ c.arr.dims.filter (fun d => decide (d ∈ over)), E.coords d ≠ [] := by
    intro d hdm
    exact hc d (by simpa using (List.mem_filter.1 hdm).2)
  simp only [mean, hcomp, Fn.sumOver]
  rw [hnod.dedup, hval]
  rcases hd with hd | hz
  · have hperm : (c.arr.dims.filter (fun d => decide (d ∈ over))).Perm over := by
      rw [List.perm_ext_iff_of_nodup hnod hn]
      intro d
      simp only [List.mem_filter, decide_eq_true_eq]
      exact ⟨fun h => h.2, fun h => ⟨hd d (ho d h), h⟩⟩
    rw [total_some _ (by simpa using points_ne_nil hne)]
    congr 1
    exact ((points_perm E.coords hperm hnod ρ).map f).sum_eq
  · have hf : f = fun _ => 0 := funext hz
    rw [total_some _ (by simpa using points_ne_nil hne), hf]
    simp

theorem points_one {coords : String → List Label} (d : String) (f : Point → V) (ρ : Point) :
    ((points coords [d] ρ).map f).sum = ((coords d).map (fun l => f (set ρ d l))).sum := by
  have : points coords [d] ρ = (coords d).map (fun l => set ρ d l) := by
    simp only [points]
    induction coords d with
    | nil => rfl
    | cons a l ih => simp [List.flatMap_cons, ih]
  rw [this, List.map_map]
  rfl

theorem mean_sum_one {n d : String} {ds : List String} {f : Point → V} (hE : WellFormed E) (h : Is E n ds f)
    (ho : d ∈ ds) (hc : E.coords d ≠ []) (ρ : Point) :
    (mean E slices (fun _ => true) [] (.sum (.comp n) [d])).val ρ = some (sumOver E d f ρ) := by
  rw [mean_sum hE h (by simpa using ho) (by simp) (by simpa using hc), points_one]
  rfl

theorem mean_roll {n : String} {ds : List String} {f : Point → V} (h : Is E n ds f) (k : Int) (d : String)
    (ρ : Point) :
    (mean E slices (fun _ => true) [] (.roll (.comp n) [(d, k)])).val ρ =
      some (f (set ρ d (rolled (E.coords d) k (ρ d)))) := by
  have := mean_comp (slices := slices) h (set ρ d (rolled (E.coords d) k (ρ d)))
  simp only [mean, Fn.rolled] at this ⊢
  exact this

theorem mean_select {n g : String} {ds : List String} {f : Point → V} {arr : Arr (Option Label)}
    (h : Is E n ds f) (hg : E.lookup g = some arr) (d : String) (ρ : Point) {l : Label} (hl : arr.at ρ = some l)
    (hm : l ∈ E.coords d) :
    (mean E slices (fun _ => true) [] (.select (.comp n) [(d, g)])).val ρ = some (f (set ρ d l)) := by
  have := mean_comp (slices := slices) h (set ρ d l)
  simp only [mean, Fn.select, hg, List.filterMap_cons, List.filterMap_nil, Option.map_some, looked, hl,
    if_pos hm] at this ⊢
  exact this

end

theorem inline_bin (f : String → Option (Ex V)) (a b : Ex V) (o : Arith.Op) :
    Expr.inline f (bin a o b) = bin (Expr.inline f a) o (Expr.inline f b) := by
  simp only [bin, Expr.inline, Expr.inlineRest]

theorem inline_bin3 (f : String → Option (Ex V)) (a b c : Ex V) (o p : Arith.Op) :
    Expr.inline f (bin3 a o b p c) = bin3 (Expr.inline f a) o (Expr.inline f b) p (Expr.inline f c) := by
  simp only [bin3, Expr.inline, Expr.inlineRest]

theorem mean_sliced [AddCommMonoid V] {E : Expr.Env V} {slices : String → Option SliceDef} {n : String}
    {ds : List String} {f : Point → V} (h : Is E n ds f) {d : String} {s : Slicer} {l : Label}
    {ρ : Point} (hl : Expr.labelOf E slices ρ s = some l) (hm : l ∈ E.coords d) :
    (mean E slices (fun _ => true) [] (.sliced n [(d, s)])).val ρ = some (f (set ρ d l)) := by
  obtain ⟨c, hc, hv, _⟩ := h
  simp only [mean, hc, sliced, hl, if_pos hm, Option.map_some]
  exact hv _

theorem mean_bin [AddCommMonoid V] {E : Expr.Env V} {slices : String → Option SliceDef} (a b : Ex V)
    (o : Arith.Op) (ρ : Point) :
    (mean E slices (fun _ => true) [] (bin a o b)).val ρ =
      E.op o ((mean E slices (fun _ => true) [] a).val ρ) ((mean E slices (fun _ => true) [] b).val ρ) := by
  simp only [bin, mean, meanRest, mask_true]

theorem mean_bin3 [AddCommMonoid V] {E : Expr.Env V} {slices : String → Option SliceDef} (a b c : Ex V)
    (o p : Arith.Op) (ρ : Point) :
    (mean E slices (fun _ => true) [] (bin3 a o b p c)).val ρ =
      E.op p (E.op o ((mean E slices (fun _ => true) [] a).val ρ) ((mean E slices (fun _ => true) [] b).val ρ))
        ((mean E slices (fun _ => true) [] c).val ρ) := by
  simp only [bin3, mean, meanRest, mask_true]

theorem mean_num [AddCommMonoid V] {E : Expr.Env V} {slices : String → Option SliceDef} (v : V) (ρ : Point) :
    (mean E slices (fun _ => true) [] (.num v)).val ρ = some v := by
  simp only [mean]

/-- The sum of an expression along some dimensions. -/
theorem mean_sum_exprs [AddCommMonoid V] {E : Expr.Env V} {slices : String → Option SliceDef} {t : Ex V}
    {over : List String} {f : Point → V} (hv : ∀ σ, (mean E slices (fun _ => true) [] t).val σ = some (f σ))
    (hd : (∀ d ∈ over, d ∈ (mean E slices (fun _ => true) [] t).dims) ∨ ∀ σ, f σ = 0)
    (hn : over.Nodup) (hc : ∀ d ∈ over, E.coords d ≠ []) (ρ : Point) :
    (mean E slices (fun _ => true) [] (.sum t over)).val ρ = some ((points E.coords over ρ).map f).sum := by
  simp only [mean, Fn.sumOver]
  have hval : ∀ l : List Point, l.map (mean E slices (fun _ => true) [] t).val = (l.map f).map some := by
    intro l
    rw [List.map_map]
    apply List.map_congr_left
    intro σ _
    exact hv σ
  rw [hval]
  have hne : ∀ d ∈ ((mean E slices (fun _ => true) [] t).dims.filter (fun x => decide (x ∈ over))).dedup,
      E.coords d ≠ [] := by
    intro d hdm
    exact hc d (by simpa using (List.mem_filter.1 (List.mem_dedup.1 hdm)).2)
  rw [total_some _ (by simpa using points_ne_nil hne)]
  congr 1
  rcases hd with hd | hz
  · have hnod := List.nodup_dedup ((mean E slices (fun _ => true) [] t).dims.filter (fun x => decide (x ∈ over)))
    have hperm : (((mean E slices (fun _ => true) [] t).dims.filter (fun x => decide (x ∈ over))).dedup).Perm over := by
      rw [List.perm_ext_iff_of_nodup hnod hn]
      intro d
      simp only [List.mem_dedup, List.mem_filter, decide_eq_true_eq]
      exact ⟨fun h => h.2, fun h => ⟨hd d h, h⟩⟩
    exact ((points_perm E.coords hperm hnod ρ).map f).sum_eq
  · rw [show f = fun _ => 0 from funext hz]
    simp

/-- The sum of an expression along one dimension. -/
theorem mean_sum_expr [AddCommMonoid V] {E : Expr.Env V} {slices : String → Option SliceDef} {t : Ex V} {d : String}
    {f : Point → V} (hv : ∀ σ, (mean E slices (fun _ => true) [] t).val σ = some (f σ))
    (hd : d ∈ (mean E slices (fun _ => true) [] t).dims ∨ ∀ σ, f σ = 0) (hc : E.coords d ≠ []) (ρ : Point) :
    (mean E slices (fun _ => true) [] (.sum t [d])).val ρ = some (sumOver E d f ρ) := by
  rw [mean_sum_exprs hv (by simpa using hd) (by simp) (by simpa using hc), points_one]
  rfl

theorem points_two [AddCommMonoid V] {E : Expr.Env V} (d e : String) (f : Point → V) (ρ : Point) :
    ((points E.coords [d, e] ρ).map f).sum = sumOver E d (sumOver E e f) ρ := by
  unfold sumOver
  rw [show points E.coords [d, e] ρ = (E.coords d).flatMap (fun l => points E.coords [e] (set ρ d l)) from rfl,
    List.map_flatMap]
  induction E.coords d with
  | nil => rfl
  | cons a l ih =>
    rw [List.flatMap_cons, List.sum_append, ih, points_one, List.map_cons, List.sum_cons]

mutual
theorem inline_none {f : String → Option (Ex V)} (hf : ∀ n, f n = none) : ∀ t : Ex V, Expr.inline f t = t
  | .num _ | .comp _ | .sliced _ _ => by simp only [Expr.inline]
  | .sub n => by simp [Expr.inline, hf]
  | .sign _ t | .sum t _ | .reduceCarrier t _ | .roll t _ | .groupSum t _ _ | .groupDatetime t _ _
  | .sumNextN t _ _ | .select t _ => by simp only [Expr.inline, inline_none hf t]
  | .chain t r => by simp only [Expr.inline, inline_none hf t, inlineRest_none hf r]
  | .cond t c => by simp only [Expr.inline, inline_none hf t, inline_none hf c]
theorem inlineRest_none {f : String → Option (Ex V)} (hf : ∀ n, f n = none) :
    ∀ r : ExRest V, Expr.inlineRest f r = r
  | .one _ t => by simp only [Expr.inlineRest, inline_none hf t]
  | .more _ t r => by simp only [Expr.inlineRest, inline_none hf t, inlineRest_none hf r]
end

/-- The value of an expression without sub-expressions and slices. -/
def plain [AddCommMonoid V] (E : Expr.Env V) (t : Ex V) (ρ : Point) : Option V :=
  (mean E (fun n => List.lookup n []) (fun _ => true) [] t).val ρ

theorem parse_single {enum : List String → List String} (henum : Traverses enum) (name : String)
    (foreach : List String) (top : Cond) (body : Body V) (h1 : findSubs body = [])
    (h2 : findSlices (⟨[(name, 0)], [always], body, [], []⟩ : Equation V Cond) = []) :
    parseEquations enum (single name foreach top body).defn = .ok [⟨[(name, 0)], [always], body, [], []⟩] := by
  simp only [single, parseEquations, initial, List.zipIdx_cons, List.zipIdx_nil, List.map_cons, List.map_nil,
    extendAll, h1, extend, enum_nil henum, List.append_nil, h2]

theorem value_plain [AddCommMonoid V] {E : Expr.Env V} (parts : List (String × Nat)) (ws : List Cond) (body : Body V)
    (t : Ex V) (ρ : Point) : value E ⟨parts, ws, body, [], []⟩ t ρ = plain E t ρ := by
  unfold value plain
  rw [inline_none]
  intro n
  rfl

theorem simple_plain {c : Component V} (parts : List (String × Nat)) (ws : List Cond) (body : Body V)
    {t : Ex V} (h : Ok t ∧ Apart c.foreach t) : Simple c ⟨parts, ws, body, [], []⟩ t := by
  unfold Simple
  rw [inline_none]
  · exact h
  · intro n
    rfl

/-- A constraint of one equation without references. -/
theorem single_at [AddCommMonoid V] {W : Where.Env} {E : Expr.Env V} (hE : WellFormed E)
    {enum : List String → List String} (henum : Traverses enum) {name : String} {sets : List String} {top : Cond}
    {l r : Ex V} {o : String} (hn : sets.Nodup)
    {b : Arr (Option (Cell V))} (hb : buildConstraint W E enum (single name sets top (.cmp l o r)) = .ok b)
    (hsub : subRefs l = [] ∧ subRefs r = []) (hsl : sliceRefs l = [] ∧ sliceRefs r = [])
    (hl : Ok l ∧ Apart sets l) (hr : Ok r ∧ Apart sets r)
    {ρ : Point} (hρ : Valid W ρ) (hs : ∀ σ, SameAlong sets ρ σ → (Truth W σ top ↔ Truth W ρ top)) :
    (b.at ρ ≠ none ↔ InModel W sets ρ ∧ Truth W ρ top) ∧
    (b.at ρ ≠ none → b.at ρ = some ⟨plain E l ρ, o, plain E r ρ⟩) := by
  have hes := parse_single (V := V) henum name sets top (.cmp l o r)
    (by simp [findSubs, hsub]) (by simp [findSlices, hsl])
  obtain ⟨h1, h2⟩ := constraint_at hE (by simpa [single] using hn) hb hes hρ (by
    intro σ h
    exact ⟨hs σ h, by simp⟩)
  have hiff : b.at ρ ≠ none ↔ InModel W sets ρ ∧ Truth W ρ top := by
    rw [h1]
    simp [single]
  refine ⟨hiff, ?_⟩
  intro hne
  rw [h2 _ (List.mem_singleton.2 rfl) (hiff.1 hne).1 (hiff.1 hne).2 (by simp) l o r rfl
    (simple_plain _ _ _ hl) (simple_plain _ _ _ hr), value_plain, value_plain]

end BaseMath
end Calliope
