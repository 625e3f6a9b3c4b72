import Verif.Proofs.BaseValue

/-!
Components whose own condition depends on other dimensions too, and values of sums.
-/

namespace Calliope
namespace BaseMath

open Grid Infix Expr Expand Build Where

variable {V : Type}

/-- An item of the component: for some labels of the other dimensions it is in the model and meets the condition of the
component. -/
def Present (W : Where.Env) (sets : List String) (top : Cond) (ρ : Point) : Prop :=
  (∀ d ∈ sets, d ∈ W.matrix.dims ∨ d ∈ W.dims) ∧
    ∃ σ, Valid W σ ∧ SameAlong sets ρ σ ∧ W.matrix.at σ = true ∧ Truth W σ top

theorem present_local {W : Where.Env} {sets : List String} {top : Cond} (h : Local W sets top) {ρ : Point} :
    Present W sets top ρ ↔ InModel W sets ρ ∧ Truth W ρ top := by
  constructor
  · rintro ⟨hd, σ, h1, h2, h3, h4⟩
    exact ⟨⟨hd, σ, h1, h2, h3⟩, (truth_local h2 _ h).1 h4⟩
  · rintro ⟨⟨hd, σ, h1, h2, h3⟩, h4⟩
    exact ⟨hd, σ, h1, h2, h3, (truth_local h2 _ h).2 h4⟩

/-- The conditions of the equations, sub-expressions and slices of a component depend on its dimensions only. -/
structure LocalCases (W : Where.Env) (c : Component V) : Prop where
  equations : ∀ p ∈ c.defn.equations, Local W c.foreach p.1
  subs : ∀ s ∈ c.defn.subs, ∀ p ∈ s.2, Local W c.foreach p.1
  slices : ∀ s ∈ c.defn.slices, ∀ p ∈ s.2, Local W c.foreach p.1

theorem LocalDef.cases {W : Where.Env} {c : Component V} (h : LocalDef W c) : LocalCases W c :=
  ⟨h.equations, h.subs, h.slices⟩

theorem wheres_local {W : Where.Env} {c : Component V} (h : LocalCases W c) {enum : List String → List String}
    {es : List (Equation V Cond)} (hes : parseEquations enum c.defn = .ok es) :
    ∀ e ∈ es, ∀ w ∈ e.wheres, Local W c.foreach w := by
  have := localAll_of_def (W := W) (c := ⟨c.foreach, always, c.defn⟩)
    ⟨trivial, h.equations, h.subs, h.slices⟩ hes
  exact this.2

theorem applies_present {W : Where.Env} {c : Component V} {ρ : Point} (hρ : Valid W ρ) {e : Equation V Cond}
    (hw : ∀ w ∈ e.wheres, Local W c.foreach w) :
    Applies W c ρ e ↔ Present W c.foreach c.top ρ ∧ ∀ w ∈ e.wheres, Truth W ρ w := by
  constructor
  · rintro ⟨hd, hσ, τ, _, g2, g3⟩
    exact ⟨⟨hd, hσ⟩, fun w hm => (truth_local g2 _ (hw w hm)).1 (g3 w hm)⟩
  · rintro ⟨⟨hd, hσ⟩, hall⟩
    exact ⟨hd, hσ, ρ, hρ, fun _ _ => rfl, hall⟩

/-- What a constraint says at an item. -/
theorem constraint_present [AddCommMonoid V] {W : Where.Env} {E : Expr.Env V} (hE : WellFormed E)
    {enum : List String → List String} (henum : Traverses enum) {c : Component V} (hn : c.foreach.Nodup)
    (hres : resolved c.defn = true) {b : Arr (Option (Cell V))} (hb : buildConstraint W E enum c = .ok b)
    (hloc : LocalCases W c) {ρ : Point} (hρ : Valid W ρ) :
    (b.at ρ ≠ none ↔ Present W c.foreach c.top ρ ∧ ∃ body subs slices, Reads W c ρ body subs slices) ∧
    ∀ l o r subs slices, Present W c.foreach c.top ρ → Reads W c ρ (.cmp l o r) subs slices →
      Ok (inline (fun n => subs.lookup n) l) → Apart c.foreach (inline (fun n => subs.lookup n) l) →
      Ok (inline (fun n => subs.lookup n) r) → Apart c.foreach (inline (fun n => subs.lookup n) r) →
      b.at ρ = some ⟨readAs E subs slices l ρ, o, readAs E subs slices r ρ⟩ := by
  obtain ⟨es, hes⟩ := parse_total henum hres
  obtain ⟨h1, _, h3⟩ := C71_constraint hE hn hb hes hρ
  have hap := fun e he => applies_present (c := c) hρ (wheres_local hloc hes e he)
  refine ⟨?_, ?_⟩
  · rw [ne_eq, h1]
    push Not
    constructor
    · rintro ⟨e, he, ha⟩
      obtain ⟨g1, g2⟩ := (hap e he).1 ha
      exact ⟨g1, _, _, _, equation_reads henum hes he g2⟩
    · rintro ⟨g1, body, subs, slices, hr⟩
      obtain ⟨e, he, _, ht, _⟩ := reads_equation henum hes hr
      exact ⟨e, he, (hap e he).2 ⟨g1, ht⟩⟩
  · intro l o r subs slices g1 hr hl hl' hr1 hr2
    obtain ⟨e, he, hbody, ht, hs, hsl⟩ := reads_equation henum hes hr
    obtain ⟨l', o', r', hbody', hval⟩ := h3 e he ((hap e he).2 ⟨g1, ht⟩)
    rw [hbody] at hbody'
    cases hbody'
    rw [hval (by unfold Simple; rw [hs]; exact ⟨hl, hl'⟩) (by unfold Simple; rw [hs]; exact ⟨hr1, hr2⟩)]
    unfold value readAs
    rw [hs, hsl]

/-- What a global expression says at an item. -/
theorem expression_present [AddCommMonoid V] {W : Where.Env} {E : Expr.Env V} (hE : WellFormed E)
    (hco : E.coords = W.coords)
    {enum : List String → List String} (henum : Traverses enum) {c : Component V} (hn : c.foreach.Nodup)
    (hres : resolved c.defn = true) {b : Arr (Option V)} (hb : buildExpression W E enum c = .ok b)
    (hloc : LocalCases W c) {ρ : Point} (hρ : Valid W ρ) :
    (b.at ρ ≠ none ↔ Present W c.foreach c.top ρ ∧ ∃ body subs slices, Reads W c ρ body subs slices) ∧
    ∀ t subs slices, Present W c.foreach c.top ρ → Reads W c ρ (.arith t) subs slices →
      Ok (inline (fun n => subs.lookup n) t) → Apart c.foreach (inline (fun n => subs.lookup n) t) →
      b.at ρ = readAs E subs slices t ρ := by
  obtain ⟨es, hes⟩ := parse_total henum hres
  obtain ⟨h1, _, h3⟩ := C71_expression hE hco hn hb hes hρ
  have hap := fun e he => applies_present (c := c) hρ (wheres_local hloc hes e he)
  refine ⟨?_, ?_⟩
  · rw [ne_eq, h1]
    push Not
    constructor
    · rintro ⟨e, he, ha⟩
      obtain ⟨g1, g2⟩ := (hap e he).1 ha
      exact ⟨g1, _, _, _, equation_reads henum hes he g2⟩
    · rintro ⟨g1, body, subs, slices, hr⟩
      obtain ⟨e, he, _, ht, _⟩ := reads_equation henum hes hr
      exact ⟨e, he, (hap e he).2 ⟨g1, ht⟩⟩
  · intro t subs slices g1 hr hl hl'
    obtain ⟨e, he, hbody, ht, hs, hsl⟩ := reads_equation henum hes hr
    obtain ⟨t', hbody', hval⟩ := h3 e he ((hap e he).2 ⟨g1, ht⟩)
    rw [hbody] at hbody'
    cases hbody'
    rw [(hval (by unfold Simple; rw [hs]; exact ⟨hl, hl'⟩)).1]
    unfold value readAs
    rw [hs, hsl]

theorem picks_nil {α : Type} {W : Where.Env} {ρ : Point} {defs : List (String × List (Cond × α))} :
    Picks W ρ defs [] [] := ⟨List.nodup_nil, by simp, by simp⟩

/-- One name. -/
theorem picks_one {α : Type} {W : Where.Env} {ρ : Point} {defs : List (String × List (Cond × α))} {n : String}
    {names : List String} (hn : n ∈ names) (hall : ∀ m ∈ names, m = n) {l : List (Cond × α)} {w : Cond} {t : α}
    (hl : defs.lookup n = some l) (hm : (w, t) ∈ l) (hw : Truth W ρ w) : Picks W ρ defs names [(n, t)] := by
  refine ⟨by simp, ?_, ?_⟩
  · intro m
    simp only [List.map_cons, List.map_nil, List.mem_singleton]
    exact ⟨fun h => h ▸ hn, hall m⟩
  · intro p hp
    rw [List.mem_singleton] at hp
    subst hp
    exact ⟨l, w, hl, hm, hw⟩

theorem reads_nil {W : Where.Env} {c : Component V} {ρ : Point} {body : Body V} {w : Cond}
    (hm : (w, body) ∈ c.defn.equations) (hw : Truth W ρ w) (hs : findSubs body = []) (hsl : bodySlices body = []) :
    Reads W c ρ body [] [] := by
  refine ⟨⟨w, hm, hw⟩, ?_, ?_⟩
  · rw [hs]; exact picks_nil
  · rw [hsl]; exact picks_nil

theorem readAs_nil [AddCommMonoid V] {E : Expr.Env V} (t : Ex V) (ρ : Point) : readAs E [] [] t ρ = plain E t ρ := by
  unfold readAs plain
  rw [inline_none]
  intro n
  rfl

/-- An equation of an expression without references. -/
theorem arith_at [AddCommMonoid V] {W : Where.Env} {E : Expr.Env V} (hE : WellFormed E)
    (hco : E.coords = W.coords)
    {enum : List String → List String} (henum : Traverses enum) {c : Component V} (hn : c.foreach.Nodup)
    (hres : resolved c.defn = true) {b : Arr (Option V)} (hb : buildExpression W E enum c = .ok b)
    (hloc : LocalCases W c) {ρ : Point} (hρ : Valid W ρ) (hp : Present W c.foreach c.top ρ) {w : Cond} {t : Ex V}
    (hm : (w, .arith t) ∈ c.defn.equations) (hw : Truth W ρ w)
    (h : subRefs t = [] ∧ sliceRefs t = [] ∧ Ok t ∧ Apart c.foreach t)
    (hu : findSubs (.arith t) = [] ∧ bodySlices (.arith t) = []) :
    b.at ρ = plain E t ρ := by
  have hi : inline (fun n => List.lookup n ([] : List (String × Ex V))) t = t := inline_none (fun _ => rfl) t
  rw [(expression_present hE hco henum hn hres hb hloc hρ).2 t [] [] hp (reads_nil hm hw hu.1 hu.2)
    (by rw [hi]; exact h.2.2.1) (by rw [hi]; exact h.2.2.2), readAs_nil]

/-- An equation of a constraint without references. -/
theorem cmp_at [AddCommMonoid V] {W : Where.Env} {E : Expr.Env V} (hE : WellFormed E)
    {enum : List String → List String} (henum : Traverses enum) {c : Component V} (hn : c.foreach.Nodup)
    (hres : resolved c.defn = true) {b : Arr (Option (Cell V))} (hb : buildConstraint W E enum c = .ok b)
    (hloc : LocalCases W c) {ρ : Point} (hρ : Valid W ρ) (hp : Present W c.foreach c.top ρ) {w : Cond} {l r : Ex V}
    {o : String} (hm : (w, .cmp l o r) ∈ c.defn.equations) (hw : Truth W ρ w)
    (hl : Ok l ∧ Apart c.foreach l) (hr : Ok r ∧ Apart c.foreach r)
    (hu : findSubs (.cmp l o r) = [] ∧ bodySlices (.cmp l o r) = []) :
    b.at ρ = some ⟨plain E l ρ, o, plain E r ρ⟩ := by
  have hi : ∀ t : Ex V, inline (fun n => List.lookup n ([] : List (String × Ex V))) t = t :=
    inline_none (fun _ => rfl)
  rw [(constraint_present hE henum hn hres hb hloc hρ).2 l o r [] [] hp (reads_nil hm hw hu.1 hu.2)
    (by rw [hi]; exact hl.1) (by rw [hi]; exact hl.2) (by rw [hi]; exact hr.1) (by rw [hi]; exact hr.2),
    readAs_nil, readAs_nil]

/-! ### Values and dimensions -/

/-- An expression stands for a quantity, which varies along the dimensions `ds` or is zero. -/
def Den [AddCommMonoid V] (E : Expr.Env V) (sl : String → Option SliceDef) (t : Ex V) (ds : List String)
    (f : Point → V) : Prop :=
  (∀ ρ, val E sl t ρ = some (f ρ)) ∧
    ((∀ d ∈ ds, d ∈ (mean E sl (fun _ => true) [] t).dims) ∨ ∀ ρ, f ρ = 0)

section
variable [Field V] {E : Expr.Env V} {sl : String → Option SliceDef} {pw : V → V → V} {a b : Ex V}
  {ds es : List String} {f g : Point → V}

theorem Den.less (h : Den E sl a ds f) (hd : ∀ d ∈ es, d ∈ ds) : Den E sl a es f :=
  ⟨h.1, h.2.imp_left fun h d hm => h d (hd d hm)⟩

theorem den_num (v : V) : Den E sl (.num v) [] (fun _ => v) := ⟨fun _ => val_num .., .inl (by simp)⟩

theorem den_comp {n : String} (h : Is E n ds f) : Den E sl (.comp n) ds f := by
  refine ⟨fun ρ => by rw [val_comp]; exact h.at ρ, ?_⟩
  obtain ⟨c, hc, _, hd⟩ := h
  simp only [mean, hc]
  exact hd

theorem bin_dims (o : Arith.Op) : (mean E sl (fun _ => true) [] (bin a o b)).dims =
    (mean E sl (fun _ => true) [] a).dims ++ (mean E sl (fun _ => true) [] b).dims := by
  simp [bin, mean, meanRest, Fn.mask]

theorem den_times_left (N : Numbers E pw) (ha : Den E sl a ds f) (hb : Den E sl b es g) :
    Den E sl (bin a .times b) ds (fun ρ => f ρ * g ρ) := by
  refine ⟨fun ρ => by rw [val_bin, ha.1, hb.1, N.times], ?_⟩
  rcases ha.2 with h | h
  · exact .inl fun d hd => by rw [bin_dims]; exact List.mem_append_left _ (h d hd)
  · exact .inr fun ρ => by simp only [h, zero_mul]

theorem den_times_right (N : Numbers E pw) (ha : Den E sl a es f) (hb : Den E sl b ds g) :
    Den E sl (bin a .times b) ds (fun ρ => f ρ * g ρ) := by
  refine ⟨fun ρ => by rw [val_bin, ha.1, hb.1, N.times], ?_⟩
  rcases hb.2 with h | h
  · exact .inl fun d hd => by rw [bin_dims]; exact List.mem_append_right _ (h d hd)
  · exact .inr fun ρ => by simp only [h, mul_zero]

theorem den_plus (N : Numbers E pw) (ha : Den E sl a ds f) (hb : Den E sl b ds g) :
    Den E sl (bin a .plus b) ds (fun ρ => f ρ + g ρ) := by
  refine ⟨fun ρ => by rw [val_bin, ha.1, hb.1, N.plus], ?_⟩
  rcases ha.2 with h | h
  · exact .inl fun d hd => by rw [bin_dims]; exact List.mem_append_left _ (h d hd)
  · rcases hb.2 with h' | h'
    · exact .inl fun d hd => by rw [bin_dims]; exact List.mem_append_right _ (h' d hd)
    · exact .inr fun ρ => by simp only [h, h', add_zero]

theorem den_minus (N : Numbers E pw) (ha : Den E sl a ds f) (hb : Den E sl b ds g) :
    Den E sl (bin a .minus b) ds (fun ρ => f ρ - g ρ) := by
  refine ⟨fun ρ => by rw [val_bin, ha.1, hb.1, N.minus], ?_⟩
  rcases ha.2 with h | h
  · exact .inl fun d hd => by rw [bin_dims]; exact List.mem_append_left _ (h d hd)
  · rcases hb.2 with h' | h'
    · exact .inl fun d hd => by rw [bin_dims]; exact List.mem_append_right _ (h' d hd)
    · exact .inr fun ρ => by simp only [h, h', sub_zero]

theorem den_div (N : Numbers E pw) (ha : Den E sl a ds f) (hb : Den E sl b es g) (h0 : ∀ ρ, g ρ ≠ 0) :
    Den E sl (bin a .div b) ds (fun ρ => f ρ / g ρ) := by
  refine ⟨fun ρ => by rw [val_bin, ha.1, hb.1, N.div _ _ (h0 ρ)], ?_⟩
  rcases ha.2 with h | h
  · exact .inl fun d hd => by rw [bin_dims]; exact List.mem_append_left _ (h d hd)
  · exact .inr fun ρ => by simp only [h, zero_div]

theorem sumOver_eq_zero {d : String} (h : ∀ ρ, f ρ = 0) (ρ : Point) : sumOver E d f ρ = 0 := by
  unfold sumOver
  simp [h]

theorem sum_dims {over : List String} (hd : ∀ d ∈ es, d ∈ (mean E sl (fun _ => true) [] a).dims)
    (ho : ∀ d ∈ es, d ∉ over) : ∀ d ∈ es, d ∈ (mean E sl (fun _ => true) [] (.sum a over)).dims := by
  intro d hm
  simp only [mean, Fn.sumOver, List.mem_filter]
  exact ⟨hd d hm, by simpa using ho d hm⟩

/-- The sum along one dimension. -/
theorem den_sum {d : String} (ha : Den E sl a ds f) (hd : d ∈ ds) (hc : E.coords d ≠ [])
    (he : ∀ x ∈ es, x ∈ ds ∧ x ≠ d) : Den E sl (.sum a [d]) es (sumOver E d f) := by
  refine ⟨fun ρ => mean_sum_expr ha.1 (ha.2.imp_left fun h => h d hd) hc ρ, ?_⟩
  rcases ha.2 with h | h
  · exact .inl (sum_dims (fun x hx => h x (he x hx).1) (fun x hx => by simpa using (he x hx).2))
  · exact .inr (sumOver_eq_zero h)

/-- The sum along two dimensions. -/
theorem den_sum2 {d e : String} (hne : d ≠ e) (ha : Den E sl a ds f) (hd : d ∈ ds) (hd' : e ∈ ds)
    (hc : E.coords d ≠ []) (hc' : E.coords e ≠ []) (he : ∀ x ∈ es, x ∈ ds ∧ x ≠ d ∧ x ≠ e) :
    Den E sl (.sum a [d, e]) es (sumOver E d (sumOver E e f)) := by
  refine ⟨fun ρ => ?_, ?_⟩
  · have := mean_sum_exprs (over := [d, e]) ha.1
      (ha.2.imp_left fun h x hx => by
        rcases List.mem_cons.1 hx with rfl | hx
        · exact h _ hd
        · rw [List.mem_singleton] at hx
          subst hx
          exact h _ hd')
      (by simp [hne]) (by simp [hc, hc']) ρ
    rw [points_two] at this
    exact this
  · rcases ha.2 with h | h
    · exact .inl (sum_dims (fun x hx => h x (he x hx).1) (fun x hx => by simpa using (he x hx).2))
    · exact .inr (sumOver_eq_zero (sumOver_eq_zero h))

end

end BaseMath
end Calliope
