import Mathlib.Tactic.Linarith
import Mathlib.Tactic.Ring
import Mathlib.Tactic.FieldSimp
import Mathlib.Algebra.Order.Ring.Rat
import Verif.Props.Build
import Verif.Proofs.BaseMath
import Verif.Spec.Piecewise

/-!
# C91: piecewise constraints
-/

namespace Calliope
namespace Piecewise

open Grid Infix Expr Expand Build Where

section
variable {V : Type}

theorem set_same (ρ : Point) (d : String) (l : Label) : set ρ d l d = l := by simp [Expr.set]

theorem set_other (ρ : Point) {d e : String} (l : Label) (h : e ≠ d) : set ρ d l e = ρ e := by simp [Expr.set, h]

theorem column_at {E : Expr.Env V} {sets : List String} {v : Arr (Option V)} (ρ : Point)
    (hb : "breakpoints" ∉ sets) (hd : ∀ d ∈ v.dims, d = "breakpoints" ∨ d ∈ sets) :
    column E sets (sets.map ρ) v = (E.coords "breakpoints").filterMap (fun l => v.at (set ρ "breakpoints" l)) := by
  unfold column
  congr 1
  funext l
  have : l :: sets.map ρ = ("breakpoints" :: sets).map (set ρ "breakpoints" l) := by
    rw [List.map_cons, set_same]
    congr 1
    apply List.map_congr_left
    intro d hd
    rw [set_other]
    rintro rfl
    exact hb hd
  rw [this, pick_map]
  · rfl
  · intro d hd'
    rcases hd d hd' with rfl | h
    · simp
    · simp [h]

/-- What building an axis gives. -/
theorem axis_ok [AddCommMonoid V] {E : Expr.Env V} {m : Arr Bool} {t : Ex V} {n : String} {a v : Arr (Option V)}
    (h : axis E m t n = .ok (a, v)) :
    evalExpression E (fun _ => none) (fun _ => none) m t = .ok a ∧ (∃ c, E.comp n = some c ∧ c.arr = v) ∧
      "breakpoints" ∈ v.dims := by
  unfold axis at h
  split at h
  · cases h
  · rename_i a' ha
    split at h
    · cases h
    · rename_i c hc
      split at h
      · rename_i hb
        cases h
        exact ⟨ha, ⟨c, hc, rfl⟩, by simpa using hb⟩
      · cases h

theorem axis_value [AddCommMonoid V] {E : Expr.Env V} (hE : WellFormed E) {m : Arr Bool} {t : Ex V}
    {a : Arr (Option V)} (hn : m.dims.Nodup) (hok : Ok t) (hap : Apart m.dims t)
    (h : evalExpression E (fun _ => none) (fun _ => none) m t = .ok a) {ρ : Point} (ht : m.at ρ = true) :
    a.at ρ = valueOf E t ρ := by
  have hi : Expr.inline (fun _ => none) t = t := BaseMath.inline_none (fun _ => rfl) t
  have hside : evalSide E (fun _ => none) (fun _ => none) m t = .ok a := by
    unfold evalExpression at h
    split at h
    · cases h
    · split at h
      · cases h
      · cases h; assumption
  rw [(C68_meaning hE hn (by rw [hi]; exact hok) hside).2 ρ, hi]
  exact (apart_same (fun x y hxy => at_congr m (fun d hd => hxy d hd)) _ hap).2 ρ ht

theorem given_of {E : Expr.Env V} {n : String} {c : Comp V} (h : E.comp n = some c) (ρ : Point) :
    given E n ρ = fun l => c.arr.at (set ρ "breakpoints" l) := by
  funext l
  simp [given, h]

/-- An active definition that was built: its mask, and what is built. -/
theorem build_ok [AddCommMonoid V] {W : Where.Env} {E : Expr.Env V} {accepts : List V → List V → Bool}
    {d : Definition V} {b : Arr (Option (Item V))} (hE : WellFormed E) (hco : E.coords = W.coords)
    (hn : d.foreach.Nodup)
    (hx : Ok d.x ∧ Apart d.foreach d.x) (hy : Ok d.y ∧ Apart d.foreach d.y)
    (hb : build W E accepts d = .ok (some b)) {ρ : Point} (hρ : Valid W ρ) :
    (¬ HasItem W d ρ → b.at ρ = none) ∧
    (HasItem W d ρ → ∃ x y, valueOf E d.x ρ = some x ∧ valueOf E d.y ρ = some y ∧
      accepts ((E.coords "breakpoints").filterMap (given E d.xValues ρ))
        ((E.coords "breakpoints").filterMap (given E d.yValues ρ)) = true ∧
      b.at ρ = some ⟨some x, some y, ((E.coords "breakpoints").filterMap (given E d.xValues ρ)).zip
        ((E.coords "breakpoints").filterMap (given E d.yValues ρ))⟩) := by
  unfold build at hb
  split at hb
  · cases hb
  · rename_i hbp
    have hbp' : "breakpoints" ∉ d.foreach := by simpa using hbp
    split at hb
    · split at hb
      · cases hb
      · rename_i m hm
        rcases topLevel_ok hm hρ with ⟨h1, h2⟩ | ⟨h1, hk, hdims, h2⟩
        · rw [if_neg (by simp [h1])] at hb
          cases hb
          refine ⟨fun _ => rfl, ?_⟩
          rintro ⟨g1, σ, g2, _, g4, g5⟩
          exact absurd ⟨σ, g2, g1, g4, g5⟩ h2
        · rw [if_pos h1] at hb
          split at hb
          · cases hb
          · rename_i x xs hax
            split at hb
            · cases hb
            · rename_i y ys hay
              split at hb
              · cases hb
              · rename_i a ha
                cases hb
                have hiff : m.at ρ = true ↔ HasItem W d ρ := by
                  rw [h2 ρ hρ]
                  exact ⟨fun h => ⟨hk, h⟩, fun h => h.2⟩
                obtain ⟨hex, ⟨cx, hcx, rfl⟩, _⟩ := axis_ok hax
                obtain ⟨hey, ⟨cy, hcy, rfl⟩, _⟩ := axis_ok hay
                unfold items at ha
                split at ha
                · rename_i hall
                  split at ha
                  · cases ha
                  · rename_i href
                    cases ha
                    have hm' : m.val (m.dims.map ρ) = m.at ρ := rfl
                    refine ⟨?_, ?_⟩
                    · intro hno
                      show (if m.val (m.dims.map ρ) then _ else none) = none
                      rw [hm', if_neg (fun h => hno (hiff.1 h))]
                    · intro hit
                      have ht := hiff.2 hit
                      have hvalid : ∀ e ∈ m.dims, ρ e ∈ E.coords e := by
                        intro e _
                        rw [hco]
                        exact hρ e
                      have hdim : ∀ v ∈ [cx.arr, cy.arr], ∀ e ∈ v.dims, e = "breakpoints" ∨ e ∈ m.dims := by
                        intro v hv e he
                        have := List.all_eq_true.1 hall e (by
                          simp only [List.mem_cons, List.not_mem_nil, or_false] at hv
                          rcases hv with rfl | rfl <;> simp [he])
                        simpa using this
                      have hbm : "breakpoints" ∉ m.dims := by rw [hdims]; exact hbp'
                      obtain ⟨hdx, hsx⟩ := C70_expression hex
                      obtain ⟨hdy, hsy⟩ := C70_expression hey
                      have hvx := axis_value hE (by rw [hdims]; exact hn) hx.1 (by rw [hdims]; exact hx.2) hex ht
                      have hvy := axis_value hE (by rw [hdims]; exact hn) hy.1 (by rw [hdims]; exact hy.2) hey ht
                      obtain ⟨vx, hvx'⟩ := Option.ne_none_iff_exists'.1 (hsx ρ hvalid ht)
                      obtain ⟨vy, hvy'⟩ := Option.ne_none_iff_exists'.1 (hsy ρ hvalid ht)
                      have hcolx := column_at (E := E) ρ hbm (hdim cx.arr (by simp))
                      have hcoly := column_at (E := E) ρ hbm (hdim cy.arr (by simp))
                      rw [given_of hcx, given_of hcy]
                      refine ⟨vx, vy, by rw [← hvx, hvx'], by rw [← hvy, hvy'], ?_, ?_⟩
                      · by_contra hno
                        apply href
                        refine anyCell_of (ρ := ρ) hvalid ?_
                        show (m.val (m.dims.map ρ) && !accepts (column E m.dims (m.dims.map ρ) cx.arr)
                          (column E m.dims (m.dims.map ρ) cy.arr)) = true
                        rw [hm', ht, hcolx, hcoly]
                        simpa using hno
                      · show (if m.val (m.dims.map ρ) then _ else none) = _
                        rw [hm', if_pos ht, hcolx, hcoly, pick_map _ _ _ hdx, pick_map _ _ _ hdy]
                        show some (Item.mk (x.at ρ) (y.at ρ) _) = _
                        rw [hvx', hvy']
                · cases ha
    · cases hb

/-- The pairs of two lists of values that are missing at the same places. -/
theorem zip_given {f g : Label → Option V} : ∀ (ls : List Label), (∀ l ∈ ls, f l = none ↔ g l = none) →
    (ls.filterMap f).zip (ls.filterMap g) = ls.filterMap (fun l => (f l).bind (fun x => (g l).map (fun y => (x, y))))
  | [], _ => rfl
  | l :: ls, h => by
    have ih := zip_given ls (fun k hk => h k (by simp [hk]))
    have hl := h l (by simp)
    cases hf : f l with
    | none =>
      have hg := hl.1 hf
      simp only [List.filterMap_cons, hf, hg, Option.bind_none]
      exact ih
    | some x =>
      cases hg : g l with
      | none => rw [hl.2 hg] at hf; cases hf
      | some y =>
        simp only [List.filterMap_cons, hf, hg, Option.bind_some, Option.map_some, List.zip_cons_cons]
        rw [ih]

/-! ### The line through the points -/

variable [Field V] [LinearOrder V] [IsStrictOrderedRing V]

theorem between_range {p q : V × V} {x y : V} (hpq : p.1 < q.1) (h : Between p q x y) : p.1 ≤ x ∧ x ≤ q.1 := by
  obtain ⟨s, h0, h1, hx, _⟩ := h
  constructor <;> nlinarith

theorem between_left {p q : V × V} {y : V} (hpq : p.1 < q.1) (h : Between p q p.1 y) : y = p.2 := by
  obtain ⟨s, h0, h1, hx, hy⟩ := h
  have hs : s = 0 := by
    have : s * (q.1 - p.1) = 0 := by linarith
    rcases mul_eq_zero.1 this with h | h
    · exact h
    · linarith
  rw [hy, hs]; ring

theorem between_right {p q : V × V} {y : V} (hpq : p.1 < q.1) (h : Between p q q.1 y) : y = q.2 := by
  obtain ⟨s, h0, h1, hx, hy⟩ := h
  have hs : s = 1 := by
    have : (s - 1) * (q.1 - p.1) = 0 := by linarith
    rcases mul_eq_zero.1 this with h | h
    · linarith
    · linarith
  rw [hy, hs]; ring

theorem onLine_range : ∀ {p : V × V} {ps : List (V × V)} {x y : V}, (p :: ps).Pairwise (fun a b => a.1 < b.1) →
    OnLine (p :: ps) x y → p.1 ≤ x ∧ ∃ q ∈ p :: ps, x ≤ q.1
  | p, [], x, y, _, h => by simp [OnLine] at h
  | p, q :: r, x, y, hs, h => by
    have hpq : p.1 < q.1 := (List.pairwise_cons.1 hs).1 q (by simp)
    rcases h with h | h
    · have := between_range hpq h
      exact ⟨this.1, q, by simp, this.2⟩
    · obtain ⟨h1, t, ht, h2⟩ := onLine_range (List.pairwise_cons.1 hs).2 h
      exact ⟨le_trans hpq.le h1, t, List.mem_cons_of_mem _ ht, h2⟩

theorem onLine_point : ∀ {ps : List (V × V)} {p : V × V} {y : V}, ps.Pairwise (fun a b => a.1 < b.1) → p ∈ ps →
    OnLine ps p.1 y → y = p.2
  | [], p, y, _, hp, _ => by cases hp
  | [a], p, y, _, _, h => by simp [OnLine] at h
  | a :: q :: r, p, y, hs, hp, h => by
    have haq : a.1 < q.1 := (List.pairwise_cons.1 hs).1 q (by simp)
    have hs' := (List.pairwise_cons.1 hs).2
    rcases h with h | h
    · rcases List.mem_cons.1 hp with rfl | hp
      · exact between_left haq h
      · have hle := (between_range haq h).2
        rcases List.mem_cons.1 hp with rfl | hp
        · exact between_right haq h
        · have := (List.pairwise_cons.1 hs').1 p hp
          exact absurd hle (not_le.2 this)
    · rcases List.mem_cons.1 hp with rfl | hp
      · have := (onLine_range hs' h).1
        exact absurd haq (not_lt.2 this)
      · exact onLine_point hs' hp h

/-! ### C91 -/

variable {W : Where.Env} {E : Expr.Env V} {accepts : List V → List V → Bool} {d : Definition V}
  {b : Arr (Option (Item V))} {ρ : Point}

omit [LinearOrder V] [IsStrictOrderedRing V] in
/-- C91, items: a piecewise constraint is built exactly at its items, where neither expression is missing. -/
theorem C91_items (hE : WellFormed E) (hco : E.coords = W.coords) (hn : d.foreach.Nodup)
    (hx : Ok d.x ∧ Apart d.foreach d.x) (hy : Ok d.y ∧ Apart d.foreach d.y)
    (hb : build W E accepts d = .ok (some b)) (hρ : Valid W ρ) :
    (b.at ρ ≠ none ↔ HasItem W d ρ) ∧
      (HasItem W d ρ → ∃ x y ps, valueOf E d.x ρ = some x ∧ valueOf E d.y ρ = some y ∧
        b.at ρ = some ⟨some x, some y, ps⟩) := by
  obtain ⟨h1, h2⟩ := build_ok hE hco hn hx hy hb hρ
  refine ⟨⟨fun h => ?_, fun h => ?_⟩, fun h => ?_⟩
  · by_contra hno
    exact h (h1 hno)
  · obtain ⟨x, y, _, _, _, h3⟩ := h2 h
    rw [h3]
    simp
  · obtain ⟨x, y, hx', hy', _, h3⟩ := h2 h
    exact ⟨x, y, _, hx', hy', h3⟩

omit [IsStrictOrderedRing V] in
/-- C91, meaning: if at each breakpoint both values are given or none, then the constraint holds at an item exactly
if the value of the one expression and the value of the other are on the line through the given points. -/
theorem C91_meaning_partial (hE : WellFormed E) (hco : E.coords = W.coords) (hn : d.foreach.Nodup)
    (hx : Ok d.x ∧ Apart d.foreach d.x) (hy : Ok d.y ∧ Apart d.foreach d.y)
    (hb : build W E accepts d = .ok (some b)) (hρ : Valid W ρ) (hi : HasItem W d ρ) (ha : Aligned E d ρ)
    {x y : V} (hvx : valueOf E d.x ρ = some x) (hvy : valueOf E d.y ρ = some y) :
    Holds b ρ ↔ OnLine (pairs E d ρ) x y := by
  obtain ⟨_, h2⟩ := build_ok hE hco hn hx hy hb hρ
  obtain ⟨x', y', hx', hy', _, h3⟩ := h2 hi
  rw [hvx] at hx'
  rw [hvy] at hy'
  cases hx'
  cases hy'
  rw [zip_given _ ha] at h3
  unfold Holds pairs
  rw [h3]
  constructor
  · intro h
    exact h _ _ _ rfl
  · rintro h x' y' ps he
    cases he
    exact h

/-- C91, breakpoints: a solution with the first expression at a breakpoint has the second at the value given there,
if the breakpoints increase. -/
theorem C91_breakpoint_partial (hE : WellFormed E) (hco : E.coords = W.coords) (hn : d.foreach.Nodup)
    (hx : Ok d.x ∧ Apart d.foreach d.x) (hy : Ok d.y ∧ Apart d.foreach d.y)
    (hb : build W E accepts d = .ok (some b)) (hρ : Valid W ρ) (hi : HasItem W d ρ) (ha : Aligned E d ρ)
    (hs : (pairs E d ρ).Pairwise (fun p q => p.1 < q.1)) (hh : Holds b ρ)
    {x y u v : V} (hvx : valueOf E d.x ρ = some x) (hvy : valueOf E d.y ρ = some y) {l : Label}
    (hl : l ∈ E.coords "breakpoints") (hu : given E d.xValues ρ l = some u) (hv : given E d.yValues ρ l = some v)
    (hxu : x = u) : y = v := by
  have h := (C91_meaning_partial hE hco hn hx hy hb hρ hi ha hvx hvy).1 hh
  have hm : (u, v) ∈ pairs E d ρ := by
    unfold pairs
    rw [List.mem_filterMap]
    exact ⟨l, hl, by rw [hu, hv]; rfl⟩
  subst hxu
  exact onLine_point hs hm h

/-- C91, range: the first expression is not below the first breakpoint nor above all. -/
theorem C91_range_partial (hE : WellFormed E) (hco : E.coords = W.coords) (hn : d.foreach.Nodup)
    (hx : Ok d.x ∧ Apart d.foreach d.x) (hy : Ok d.y ∧ Apart d.foreach d.y)
    (hb : build W E accepts d = .ok (some b)) (hρ : Valid W ρ) (hi : HasItem W d ρ) (ha : Aligned E d ρ)
    (hs : (pairs E d ρ).Pairwise (fun p q => p.1 < q.1)) (hh : Holds b ρ)
    {x y : V} (hvx : valueOf E d.x ρ = some x) (hvy : valueOf E d.y ρ = some y) :
    (∃ p ∈ pairs E d ρ, p.1 ≤ x) ∧ ∃ p ∈ pairs E d ρ, x ≤ p.1 := by
  have h := (C91_meaning_partial hE hco hn hx hy hb hρ hi ha hvx hvy).1 hh
  revert hs h
  cases pairs E d ρ with
  | nil => intro _ h; cases h
  | cons p ps =>
    intro hs h
    have := onLine_range hs h
    exact ⟨⟨p, by simp, this.1⟩, this.2⟩

omit [LinearOrder V] [IsStrictOrderedRing V] in
/-- C91: the solver interface has accepted the points of every item. -/
theorem C91_accepted (hE : WellFormed E) (hco : E.coords = W.coords) (hn : d.foreach.Nodup)
    (hx : Ok d.x ∧ Apart d.foreach d.x) (hy : Ok d.y ∧ Apart d.foreach d.y) (hacc : Sound accepts)
    (hb : build W E accepts d = .ok (some b)) (hρ : Valid W ρ) (hi : HasItem W d ρ) :
    ((E.coords "breakpoints").filter (fun l => (given E d.xValues ρ l).isSome)).length =
      ((E.coords "breakpoints").filter (fun l => (given E d.yValues ρ l).isSome)).length := by
  obtain ⟨_, _, _, _, h, _⟩ := (build_ok hE hco hn hx hy hb hρ).2 hi
  have := hacc _ _ h
  rwa [List.length_filterMap_eq_countP, List.length_filterMap_eq_countP, List.countP_eq_length_filter,
    List.countP_eq_length_filter] at this

omit [LinearOrder V] [IsStrictOrderedRing V] in
/-- C91: a definition over `breakpoints` is an error, also if it is not active. -/
theorem C91_breakpoints_dimension (h : "breakpoints" ∈ d.foreach) : build W E accepts d = .error .backendError := by
  unfold build
  rw [if_pos (by simpa using h)]

omit [LinearOrder V] [IsStrictOrderedRing V] in
/-- C91: nothing is added for any other definition that is not active. -/
theorem C91_inactive (h : "breakpoints" ∉ d.foreach) (ha : d.active = false) : build W E accepts d = .ok none := by
  unfold build
  rw [if_neg (by simpa using h), ha]
  rfl

end

/-! ### Examples -/

namespace Demo

def coords (d : String) : List Label :=
  if d = "techs" then ["pv", "wind", "gas"] else if d = "breakpoints" then ["0", "1", "2", "3"] else ["only"]

def table (l : List (List Label × Rat)) (c : List Label) : Option Rat := l.lookup c

/-- `pv` has the points (0, 0), (1, 2), (3, 3), and no third breakpoint.  `gas` has the point (0, 0), a value of x at
the breakpoint `2` and a value of y at the breakpoint `1`. -/
def comp : String → Option (Comp Rat)
  | "cap" => some ⟨⟨["techs"], table [(["pv"], 2), (["wind"], 7), (["gas"], 2)]⟩, none⟩
  | "area" => some ⟨⟨["techs"], table [(["pv"], 5/2), (["wind"], 7), (["gas"], 1)]⟩, none⟩
  | "xs" => some ⟨⟨["breakpoints", "techs"], table [(["0", "pv"], 0), (["1", "pv"], 1), (["3", "pv"], 3),
      (["0", "gas"], 0), (["2", "gas"], 2)]⟩, none⟩
  | "ys" => some ⟨⟨["techs", "breakpoints"], table [(["pv", "0"], 0), (["pv", "1"], 2), (["pv", "3"], 3),
      (["gas", "0"], 0), (["gas", "1"], 1)]⟩, none⟩
  | _ => none

def E : Expr.Env Rat where
  coords := coords
  comp := comp
  isDim _ := false
  lookup _ := none
  carrier _ := none
  period _ l := l
  op _ _ _ := none
  neg := Option.map (fun x => -x)
  truthy x := x != 0

def W : Where.Env where
  dims := ["techs", "breakpoints"]
  coords := coords
  input n := if n = "curved" then ⟨.boolean, ⟨["techs"], fun c => .bool (c != ["wind"])⟩, .bool false⟩
    else ⟨.number, scalar .nan, .nan⟩
  result _ := none
  config _ := none
  matrix := ⟨["techs"], fun _ => true⟩
  arith _ _ _ := .nan
  sums _ _ := none

def curve : Definition Rat := ⟨["techs"], BaseMath.given "curved", true, .comp "cap", .comp "area", "xs", "ys"⟩

/-- As many values as breakpoints, which increase. -/
def accepts (xs ys : List Rat) : Bool :=
  decide (xs.length = ys.length) && decide (2 ≤ xs.length) && decide (xs.Pairwise (· < ·))

def built : Arr (Option (Item Rat)) :=
  match build W E accepts curve with
  | .ok (some b) => b
  | _ => scalar none

def at_ (t : Label) : Point := fun d => if d = "techs" then t else (coords d).headD ""

theorem build_eq : build W E accepts curve = .ok (some built) := by
  unfold built
  have : ∃ b, build W E accepts curve = .ok (some b) := by
    have h : (match build W E accepts curve with | .ok (some _) => true | _ => false) = true := by decide +kernel
    revert h
    cases build W E accepts curve with
    | error e => intro h; cases h
    | ok o =>
      cases o with
      | none => intro h; cases h
      | some b => intro _; exact ⟨b, rfl⟩
  obtain ⟨b, hb⟩ := this
  rw [hb]

theorem wf : WellFormed E := by
  refine ⟨?_, (fun n g h => by cases h), (fun n g h => by cases h)⟩
  intro n c h
  simp only [E, comp] at h
  split at h <;> cases h <;> decide

theorem valid (t : Label) (ht : t ∈ coords "techs") : Valid W (at_ t) := by
  intro d
  show at_ t d ∈ coords d
  unfold at_
  by_cases h : d = "techs"
  · subst h; simpa using ht
  · rw [if_neg h]
    unfold coords
    rw [if_neg h]
    split <;> simp

theorem simple : (Ok curve.x ∧ Apart curve.foreach curve.x) ∧ Ok curve.y ∧ Apart curve.foreach curve.y := by
  simp [curve, Ok, Apart]

theorem sound : Sound accepts := by
  intro xs ys h
  simp only [accepts, Bool.and_eq_true, decide_eq_true_eq] at h
  exact h.1.1

theorem built_pv : built.at (at_ "pv") = some ⟨some 2, some (5/2), [(0, 0), (1, 2), (3, 3)]⟩ := by
  have h : (match built.at (at_ "pv") with
    | some i => decide (i.x = some 2 ∧ i.y = some (5/2) ∧ i.points = [(0, 0), (1, 2), (3, 3)])
    | none => false) = true := by decide +kernel
  revert h
  cases built.at (at_ "pv") with
  | none => intro h; cases h
  | some i =>
    obtain ⟨x, y, ps⟩ := i
    intro h
    simp only [decide_eq_true_eq] at h
    obtain ⟨rfl, rfl, rfl⟩ := h
    rfl

theorem built_gas : built.at (at_ "gas") = some ⟨some 2, some 1, [(0, 0), (2, 1)]⟩ := by
  have h : (match built.at (at_ "gas") with
    | some i => decide (i.x = some 2 ∧ i.y = some 1 ∧ i.points = [(0, 0), (2, 1)])
    | none => false) = true := by decide +kernel
  revert h
  cases built.at (at_ "gas") with
  | none => intro h; cases h
  | some i =>
    obtain ⟨x, y, ps⟩ := i
    intro h
    simp only [decide_eq_true_eq] at h
    obtain ⟨rfl, rfl, rfl⟩ := h
    rfl

theorem has_pv : HasItem W curve (at_ "pv") :=
  ((C91_items wf rfl (by decide) simple.1 simple.2 build_eq (valid "pv" (by decide))).1).1 (by
    rw [built_pv]; simp)

theorem has_gas : HasItem W curve (at_ "gas") :=
  ((C91_items wf rfl (by decide) simple.1 simple.2 build_eq (valid "gas" (by decide))).1).1 (by
    rw [built_gas]; simp)

theorem aligned_pv : Aligned E curve (at_ "pv") := by
  unfold Aligned
  decide +kernel

theorem holds_pv : Holds built (at_ "pv") := by
  intro x y ps h
  rw [built_pv] at h
  cases h
  refine .inr (.inl ⟨1/2, ?_, ?_, ?_, ?_⟩) <;> norm_num

/-- The values of `pv` are on the line through its three points. -/
example : OnLine (pairs E curve (at_ "pv")) 2 (5/2) :=
  (C91_meaning_partial wf rfl (by decide) simple.1 simple.2 build_eq (valid "pv" (by decide)) has_pv aligned_pv
    (x := 2) (y := 5/2) (by decide +kernel) (by decide +kernel)).1 holds_pv

example : pairs E curve (at_ "pv") = [(0, 0), (1, 2), (3, 3)] := by decide +kernel

/-- They are between its first and last breakpoint. -/
example : (∃ p ∈ pairs E curve (at_ "pv"), p.1 ≤ 2) ∧ ∃ p ∈ pairs E curve (at_ "pv"), (2 : Rat) ≤ p.1 :=
  C91_range_partial wf rfl (by decide) simple.1 simple.2 build_eq (valid "pv" (by decide)) has_pv aligned_pv
    (by decide +kernel) holds_pv (x := 2) (y := 5/2) (by decide +kernel) (by decide +kernel)

/-- `wind` has no curve. -/
example : built.at (at_ "wind") = none := by
  cases h : built.at (at_ "wind") with
  | none => rfl
  | some i =>
    have hc : (built.at (at_ "wind")).isSome = false := by decide +kernel
    rw [h] at hc
    cases hc

/-- With the capacity at a breakpoint, the area is the one given there. -/
def E' : Expr.Env Rat :=
  { E with comp := fun n => if n = "cap" then some ⟨⟨["techs"], table [(["pv"], 1), (["gas"], 2)]⟩, none⟩
    else if n = "area" then some ⟨⟨["techs"], table [(["pv"], 2), (["gas"], 1)]⟩, none⟩ else comp n }

theorem wf' : WellFormed E' := by
  refine ⟨?_, (fun n g h => by cases h), (fun n g h => by cases h)⟩
  intro n c h
  simp only [E'] at h
  split at h
  · cases h; decide
  · split at h
    · cases h; decide
    · exact wf.comp n c h

theorem build_eq' : ∃ b, build W E' accepts curve = .ok (some b) ∧
    b.at (at_ "pv") = some ⟨some 1, some 2, [(0, 0), (1, 2), (3, 3)]⟩ := by
  have h : (match build W E' accepts curve with
    | .ok (some b) => (match b.at (at_ "pv") with
      | some i => decide (i.x = some 1 ∧ i.y = some 2 ∧ i.points = [(0, 0), (1, 2), (3, 3)])
      | none => false)
    | _ => false) = true := by decide +kernel
  revert h
  cases build W E' accepts curve with
  | error e => intro h; cases h
  | ok o =>
    cases o with
    | none => intro h; cases h
    | some b =>
      intro h
      refine ⟨b, rfl, ?_⟩
      revert h
      simp only []
      cases b.at (at_ "pv") with
      | none => intro h; cases h
      | some i =>
        obtain ⟨x, y, ps⟩ := i
        intro h
        simp only [decide_eq_true_eq] at h
        obtain ⟨rfl, rfl, rfl⟩ := h
        rfl

example : ∃ b, build W E' accepts curve = .ok (some b) ∧ Holds b (at_ "pv") ∧
    (∀ y : Rat, valueOf E' curve.y (at_ "pv") = some y → y = 2) := by
  obtain ⟨b, hb, hat⟩ := build_eq'
  have hv := valid "pv" (by decide)
  have hh : Holds b (at_ "pv") := by
    intro x y ps h
    rw [hat] at h
    cases h
    exact .inl ⟨1, by norm_num, by norm_num, by norm_num, by norm_num⟩
  refine ⟨b, hb, hh, ?_⟩
  intro y hy
  exact C91_breakpoint_partial wf' rfl (by decide) simple.1 simple.2 hb hv
    (((C91_items wf' rfl (by decide) simple.1 simple.2 hb hv).1).1 (by rw [hat]; simp))
    (by unfold Aligned; decide +kernel) (by decide +kernel) hh
    (x := 1) (u := 1) (v := 2) (l := "1") (by decide +kernel) hy (by decide +kernel) (by decide +kernel)
    (by decide +kernel) rfl

/-- As many breakpoints of `gas` have a value of x as have a value of y. -/
example : ((E.coords "breakpoints").filter (fun l => (given E curve.xValues (at_ "gas") l).isSome)).length =
    ((E.coords "breakpoints").filter (fun l => (given E curve.yValues (at_ "gas") l).isSome)).length :=
  C91_accepted wf rfl (by decide) simple.1 simple.2 sound build_eq (valid "gas" (by decide)) has_gas

/-- C91 is false without `Aligned`: the data of `gas` give only the point (0, 0), but it is built with the point
(2, 1), made of the value of x at one breakpoint and the value of y at another. -/
theorem C91_mispaired : pairs E curve (at_ "gas") = [(0, 0)] ∧ HasItem W curve (at_ "gas") ∧
    given E curve.xValues (at_ "gas") "1" = none ∧ given E curve.yValues (at_ "gas") "1" = some 1 ∧
    given E curve.xValues (at_ "gas") "2" = some 2 ∧ given E curve.yValues (at_ "gas") "2" = none ∧
    built.at (at_ "gas") = some ⟨some 2, some 1, [(0, 0), (2, 1)]⟩ ∧ Holds built (at_ "gas") := by
  refine ⟨by decide +kernel, has_gas, by decide +kernel, by decide +kernel, by decide +kernel, by decide +kernel,
    built_gas, ?_⟩
  intro x y ps h
  rw [built_gas] at h
  cases h
  exact .inl ⟨1, by norm_num, by norm_num, by norm_num, by norm_num⟩

/-- A definition over `breakpoints` that is not active. -/
example : build W E accepts { curve with foreach := ["techs", "breakpoints"], active := false } =
    .error .backendError :=
  C91_breakpoints_dimension (by decide)

example : build W E accepts { curve with active := false } = .ok none := C91_inactive (by decide) rfl

end Demo

end Piecewise
end Calliope
