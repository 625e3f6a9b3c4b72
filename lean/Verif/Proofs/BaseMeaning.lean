import Verif.Proofs.BaseRule
import Verif.Props.Expand

/-!
What a component with sub-expressions and slices stands for, whatever the order in which sets are traversed.
-/

namespace Calliope
namespace BaseMath

open Grid Infix Expr Expand Build Where

variable {V : Type}

/-- The slice references of the expression of an equation. -/
def bodySlices : Body V → List String
  | .arith t => sliceRefs (under t)
  | .cmp l _ r => sliceRefs l ++ sliceRefs r

theorem findSlices_eq (e : Equation V Cond) :
    findSlices e = bodySlices e.body ++ e.subs.flatMap (fun p => sliceRefs p.2) := by
  unfold findSlices bodySlices
  cases e.body <;> rfl

/-- Every reference is defined. -/
def resolved (d : Definition V Cond) : Bool :=
  d.equations.all (fun p => (findSubs p.2).all (fun n => (d.subs.lookup n).isSome)) &&
  d.equations.all (fun p => (bodySlices p.2).all (fun n => (d.slices.lookup n).isSome)) &&
  d.subs.all (fun s => s.2.all (fun q => (sliceRefs q.2).all (fun n => (d.slices.lookup n).isSome)))

/-- One true case for each of the names. -/
structure Picks {α : Type} (W : Where.Env) (ρ : Point) (defs : List (String × List (Cond × α))) (names : List String)
    (cs : List (String × α)) : Prop where
  nodup : (cs.map Prod.fst).Nodup
  names : ∀ n, n ∈ cs.map Prod.fst ↔ n ∈ names
  true' : ∀ p ∈ cs, ∃ l w, defs.lookup p.1 = some l ∧ (w, p.2) ∈ l ∧ Truth W ρ w

theorem gather_total {α : Type} (defs : List (String × List (Cond × α))) : ∀ ns : List String,
    (∀ n ∈ ns, (defs.lookup n).isSome) →
    ∃ ls, gather (defs.map (fun p => (p.1, cases p.1 p.2))) ns = some ls
  | [], _ => ⟨[], rfl⟩
  | n :: ns, h => by
      obtain ⟨ls, hls⟩ := gather_total defs ns (fun m hm => h m (List.mem_cons_of_mem _ hm))
      obtain ⟨l, hl⟩ := Option.isSome_iff_exists.1 (h n (List.mem_cons_self ..))
      exact ⟨cases n l :: ls, by simp only [gather, lookup_cases, hl, Option.map_some, hls]⟩

theorem extend_total {α : Type} {enum : List String → List String} (henum : Traverses enum) {refs : List String}
    {defs : List (String × List (Cond × α))} {add : Equation V Cond → List (Case Cond α) → Equation V Cond}
    {e : Equation V Cond} (h : ∀ n ∈ refs, (defs.lookup n).isSome) :
    ∃ es, extend enum refs (defs.map (fun p => (p.1, cases p.1 p.2))) add e = .ok es := by
  unfold extend
  split
  · exact ⟨_, rfl⟩
  · rename_i n ns hn
    obtain ⟨ls, hls⟩ := gather_total defs (n :: ns) (fun m hm => h m (((henum refs).2 m).1 (hn ▸ hm)))
    rw [hls]
    exact ⟨_, rfl⟩

theorem extendAll_total {f : Equation V Cond → Except Err (List (Equation V Cond))} :
    ∀ es : List (Equation V Cond), (∀ e ∈ es, ∃ l, f e = .ok l) → ∃ l, extendAll f es = .ok l
  | [], _ => ⟨[], rfl⟩
  | e :: es, h => by
      obtain ⟨l, hl⟩ := h e (List.mem_cons_self ..)
      obtain ⟨ls, hls⟩ := extendAll_total es (fun x hx => h x (List.mem_cons_of_mem _ hx))
      exact ⟨l ++ ls, by simp only [extendAll, hl, hls]⟩

theorem parse_total {enum : List String → List String} (henum : Traverses enum) {d : Definition V Cond}
    (h : resolved d = true) : ∃ es, parseEquations enum d = .ok es := by
  simp only [resolved, Bool.and_eq_true, List.all_eq_true] at h
  obtain ⟨⟨h1, h2⟩, h3⟩ := h
  have hinit : ∀ e ∈ initial d.name d.equations, ∃ p ∈ d.equations, e.body = p.2 := by
    intro e he
    simp only [initial, List.mem_map, List.mem_zipIdx_iff_getElem?] at he
    obtain ⟨⟨p, i⟩, hi, rfl⟩ := he
    exact ⟨p, List.mem_of_getElem? hi, rfl⟩
  obtain ⟨es, hes⟩ := extendAll_total (f := fun e => extend enum (findSubs e.body)
    (d.subs.map (fun p => (p.1, cases p.1 p.2))) addSubs e) (initial d.name d.equations) (by
    intro e he
    obtain ⟨p, hp, hb⟩ := hinit e he
    rw [hb]
    exact extend_total henum (h1 p hp))
  simp only [parseEquations, hes]
  apply extendAll_total
  intro e he
  apply extend_total henum
  intro n hn
  rw [(extendAll_mem hes).2] at he
  obtain ⟨e0, he0, m, hm, hem⟩ := he
  obtain ⟨p, hp, hb⟩ := hinit e0 he0
  rw [extend_mem (by
    simp only [initial, List.mem_map] at he0
    obtain ⟨q, _, rfl⟩ := he0
    simp [addSubs]) hm] at hem
  obtain ⟨cs, hcs, rfl⟩ := hem
  rw [findSlices_eq, List.mem_append] at hn
  rcases hn with hn | hn
  · have : (addSubs e0 cs).body = p.2 := hb
    rw [this] at hn
    exact h2 p hp n hn
  · simp only [addSubs, List.mem_flatMap, List.mem_map] at hn
    obtain ⟨q, ⟨c, hc, rfl⟩, hn⟩ := hn
    obtain ⟨l, w, hl, hi, _⟩ := hcs.2 c hc
    have hmem : (c.name, l) ∈ d.subs := by
      have : ∀ s : List (String × List (Cond × Ex V)), s.lookup c.name = some l → (c.name, l) ∈ s := by
        intro s
        induction s with
        | nil => simp
        | cons a s ih =>
          obtain ⟨k, v⟩ := a
          rw [List.lookup_cons]
          split
          · rename_i heq
            intro h
            have hk : c.name = k := by simpa using heq
            cases h
            rw [hk]
            exact List.mem_cons_self ..
          · intro h
            exact List.mem_cons_of_mem _ (ih h)
      exact this _ hl
    exact h3 _ hmem _ (List.mem_of_getElem? hi) n hn

theorem lookup_pairs {α : Type} {cs : List (String × α)} (hn : (cs.map Prod.fst).Nodup) {n : String} {t : α} :
    cs.lookup n = some t ↔ (n, t) ∈ cs := by
  induction cs with
  | nil => simp
  | cons a s ih =>
    obtain ⟨k, v⟩ := a
    simp only [List.map_cons, List.nodup_cons] at hn
    rw [List.lookup_cons]
    by_cases h : n = k
    · subst h
      simp only [beq_self_eq_true, Option.some.injEq, List.mem_cons, Prod.mk.injEq, true_and]
      constructor
      · rintro rfl; exact .inl rfl
      · rintro (h | h)
        · exact h.symm
        · exact absurd (List.mem_map.2 ⟨_, h, rfl⟩) hn.1
    · rw [beq_false_of_ne h]
      simp only [ih hn.2, List.mem_cons, Prod.mk.injEq, h, false_and, false_or]

theorem lookup_perm {α : Type} {cs ds : List (String × α)} (hc : (cs.map Prod.fst).Nodup)
    (hd : (ds.map Prod.fst).Nodup) (h : ∀ p, p ∈ cs ↔ p ∈ ds) :
    (fun n => cs.lookup n) = fun n => ds.lookup n := by
  funext n
  apply Option.ext
  intro t
  rw [lookup_pairs hc, lookup_pairs hd, h]

/-- Cases in another order. -/
theorem choice_of_picks {α : Type} {W : Where.Env} {ρ : Point} {defs : List (String × List (Cond × α))}
    {names order : List String} {cs : List (String × α)} (h : Picks W ρ defs names cs)
    (hmem : ∀ n, n ∈ order ↔ n ∈ names) :
    ∃ ds : List (Case Cond α), Choice defs order ds ∧ (∀ c ∈ ds, ∀ w ∈ c.wheres, Truth W ρ w) ∧
      (∀ p, p ∈ ds.map (fun c => (c.name, c.expr)) ↔ p ∈ cs) := by
  have key : ∀ n ∈ order, ∃ c : Case Cond α, c.name = n ∧ (n, c.expr) ∈ cs ∧
      (∃ l w, defs.lookup n = some l ∧ l[c.idx]? = some (w, c.expr) ∧ c.wheres = [w]) ∧
      ∀ w ∈ c.wheres, Truth W ρ w := by
    intro n hn
    have hn' := (h.names n).2 ((hmem n).1 hn)
    rw [List.mem_map] at hn'
    obtain ⟨⟨n', t⟩, hp, rfl⟩ := hn'
    obtain ⟨l, w, hl, hw, ht⟩ := h.true' _ hp
    obtain ⟨i, hi⟩ := List.mem_iff_getElem?.1 hw
    exact ⟨⟨n', i, [w], t⟩, rfl, hp, ⟨l, w, hl, hi, rfl⟩, by simpa using ht⟩
  have build : ∀ o : List String, (∀ n ∈ o, n ∈ order) → ∃ ds : List (Case Cond α), Choice defs o ds ∧
      (∀ c ∈ ds, ∀ w ∈ c.wheres, Truth W ρ w) ∧ (∀ c ∈ ds, (c.name, c.expr) ∈ cs) := by
    intro o
    induction o with
    | nil => intro _; exact ⟨[], ⟨rfl, by simp⟩, by simp, by simp⟩
    | cons n o ih =>
      intro ho
      obtain ⟨ds, h1, h2, h3⟩ := ih (fun m hm => ho m (List.mem_cons_of_mem _ hm))
      obtain ⟨c, rfl, hc1, hc2, hc3⟩ := key n (ho n (List.mem_cons_self ..))
      refine ⟨c :: ds, ⟨by simp [h1.1], ?_⟩, ?_, ?_⟩
      · intro x hx
        rcases List.mem_cons.1 hx with rfl | hx
        · exact hc2
        · exact h1.2 x hx
      · intro x hx
        rcases List.mem_cons.1 hx with rfl | hx
        · exact hc3
        · exact h2 x hx
      · intro x hx
        rcases List.mem_cons.1 hx with rfl | hx
        · exact hc1
        · exact h3 x hx
  obtain ⟨ds, h1, h2, h3⟩ := build order (fun _ h => h)
  refine ⟨ds, h1, h2, ?_⟩
  rintro ⟨n, t⟩
  constructor
  · rw [List.mem_map]
    rintro ⟨c, hc, heq⟩
    rw [← heq]
    exact h3 c hc
  · intro hp
    have hn : n ∈ order := (hmem n).2 ((h.names n).1 (List.mem_map.2 ⟨_, hp, rfl⟩))
    rw [← h1.1, List.mem_map] at hn
    obtain ⟨c, hc, rfl⟩ := hn
    have := (lookup_pairs h.nodup).2 (h3 c hc)
    have hp' := (lookup_pairs h.nodup).2 hp
    rw [this] at hp'
    cases hp'
    exact List.mem_map.2 ⟨c, hc, rfl⟩

theorem picks_of_choice {α : Type} {W : Where.Env} {ρ : Point} {defs : List (String × List (Cond × α))}
    {names order : List String} {ds : List (Case Cond α)} (h : Choice defs order ds) (ho : order.Nodup)
    (hmem : ∀ n, n ∈ order ↔ n ∈ names) (ht : ∀ c ∈ ds, ∀ w ∈ c.wheres, Truth W ρ w) :
    Picks W ρ defs names (ds.map (fun c => (c.name, c.expr))) := by
  have hk : (ds.map (fun c => (c.name, c.expr))).map Prod.fst = order := by
    rw [← h.1, List.map_map]
    rfl
  refine ⟨hk ▸ ho, fun n => by rw [hk]; exact hmem n, ?_⟩
  intro p hp
  obtain ⟨c, hc, rfl⟩ := List.mem_map.1 hp
  obtain ⟨l, w, hl, hi, hw⟩ := h.2 c hc
  exact ⟨l, w, hl, List.mem_of_getElem? hi, ht c hc w (by rw [hw]; exact List.mem_singleton.2 rfl)⟩

/-- All conditions of a component depend on its dimensions only. -/
structure LocalDef (W : Where.Env) (c : Component V) : Prop where
  top : Local W c.foreach c.top
  equations : ∀ p ∈ c.defn.equations, Local W c.foreach p.1
  subs : ∀ s ∈ c.defn.subs, ∀ p ∈ s.2, Local W c.foreach p.1
  slices : ∀ s ∈ c.defn.slices, ∀ p ∈ s.2, Local W c.foreach p.1

theorem mem_of_lookup {α : Type} {n : String} {l : α} : ∀ {s : List (String × α)}, s.lookup n = some l → (n, l) ∈ s
  | [], h => by simp at h
  | (k, v) :: s, h => by
      rw [List.lookup_cons] at h
      split at h
      · rename_i heq
        have hk : n = k := by simpa using heq
        cases h
        rw [hk]
        exact List.mem_cons_self ..
      · exact List.mem_cons_of_mem _ (mem_of_lookup h)

theorem localAll_of_def {W : Where.Env} {c : Component V} (h : LocalDef W c) {enum : List String → List String}
    {es : List (Equation V Cond)} (hes : parseEquations enum c.defn = .ok es) : LocalAll W c es := by
  refine ⟨h.top, ?_⟩
  intro e he w hw
  obtain ⟨i, w0, body, hi, cs, hcs, ss, hss, _, _, hws, _, _⟩ := (C44_product hes e).1 he
  rw [hws] at hw
  have hcase : ∀ {α : Type} {defs : List (String × List (Cond × α))} {order : List String} {ds : List (Case Cond α)},
      (∀ s ∈ defs, ∀ p ∈ s.2, Local W c.foreach p.1) → Choice defs order ds →
      w ∈ ds.flatMap (fun c => c.wheres) → Local W c.foreach w := by
    intro α defs order ds hd hch hw
    obtain ⟨x, hx, hwx⟩ := List.mem_flatMap.1 hw
    obtain ⟨l, w', hl, hi, hw'⟩ := hch.2 x hx
    rw [hw', List.mem_singleton] at hwx
    subst hwx
    exact hd _ (mem_of_lookup hl) _ (List.mem_of_getElem? hi)
  rcases List.mem_cons.1 hw with rfl | hw
  · exact h.equations _ (List.mem_of_getElem? hi)
  · rcases List.mem_append.1 hw with hw | hw
    · exact hcase h.subs hcs hw
    · exact hcase h.slices hss hw

mutual
/-- The parts of a condition. -/
def leaves : Cond → List Leaf
  | .atom l => [l]
  | .pre _ t => leaves t
  | .chain t r => leaves t ++ leavesRest r
def leavesRest : Rest Where.Op Leaf → List Leaf
  | .one _ t => leaves t
  | .more _ t r => leaves t ++ leavesRest r
end

mutual
theorem local_leaves {W : Where.Env} {sets : List String} : ∀ {t : Cond},
    (∀ l ∈ leaves t, LocalLeaf W sets l) → Local W sets t
  | .atom l, h => h l (by simp [leaves])
  | .pre _ t, h => local_leaves (t := t) h
  | .chain t r, h => ⟨local_leaves (fun l hl => h l (by simp [leaves, hl])),
      localRest_leaves (fun l hl => h l (by simp [leaves, hl]))⟩
theorem localRest_leaves {W : Where.Env} {sets : List String} : ∀ {r : Rest Where.Op Leaf},
    (∀ l ∈ leavesRest r, LocalLeaf W sets l) → LocalRest W sets r
  | .one _ t, h => local_leaves (t := t) h
  | .more _ t r, h => ⟨local_leaves (fun l hl => h l (by simp [leavesRest, hl])),
      localRest_leaves (fun l hl => h l (by simp [leavesRest, hl]))⟩
end

/-- The parts of all conditions of a component. -/
def allLeaves (c : Component V) : List Leaf :=
  leaves c.top ++ c.defn.equations.flatMap (fun p => leaves p.1) ++
    c.defn.subs.flatMap (fun s => s.2.flatMap (fun p => leaves p.1)) ++
    c.defn.slices.flatMap (fun s => s.2.flatMap (fun p => leaves p.1))

theorem localDef_leaves {W : Where.Env} {c : Component V} (h : ∀ l ∈ allLeaves c, LocalLeaf W c.foreach l) :
    LocalDef W c := by
  refine ⟨local_leaves fun l hl => h l ?_, fun p hp => local_leaves fun l hl => h l ?_,
    fun s hs p hp => local_leaves fun l hl => h l ?_, fun s hs p hp => local_leaves fun l hl => h l ?_⟩ <;>
    simp only [allLeaves, List.mem_append, List.mem_flatMap]
  · exact .inl (.inl (.inl hl))
  · exact .inl (.inl (.inr ⟨p, hp, hl⟩))
  · exact .inl (.inr ⟨s, hs, p, hp, hl⟩)
  · exact .inr ⟨s, hs, p, hp, hl⟩

/-- An equation of a component, with cases for its sub-expressions and slices, all of whose conditions are true. -/
def Reads (W : Where.Env) (c : Component V) (ρ : Point) (body : Body V) (subs : List (String × Ex V))
    (slices : List (String × SliceDef)) : Prop :=
  (∃ w, (w, body) ∈ c.defn.equations ∧ Truth W ρ w) ∧ Picks W ρ c.defn.subs (findSubs body) subs ∧
    Picks W ρ c.defn.slices (bodySlices body ++ subs.flatMap (fun p => sliceRefs p.2)) slices

/-- The value of an expression with given sub-expressions and slices. -/
def readAs [AddCommMonoid V] (E : Expr.Env V) (subs : List (String × Ex V)) (slices : List (String × SliceDef))
    (t : Ex V) (ρ : Point) : Option V :=
  (mean E (fun n => slices.lookup n) (fun _ => true) [] (inline (fun n => subs.lookup n) t)).val ρ

theorem reads_equation {W : Where.Env} {c : Component V} {ρ : Point} {enum : List String → List String}
    (henum : Traverses enum) {es : List (Equation V Cond)} (hes : parseEquations enum c.defn = .ok es)
    {body : Body V} {subs : List (String × Ex V)} {slices : List (String × SliceDef)}
    (h : Reads W c ρ body subs slices) :
    ∃ e ∈ es, e.body = body ∧ (∀ w ∈ e.wheres, Truth W ρ w) ∧
      ((fun n => e.subs.lookup n) = fun n => subs.lookup n) ∧
      ((fun n => e.slices.lookup n) = fun n => slices.lookup n) := by
  obtain ⟨⟨w, hw, htw⟩, hsub, hsl⟩ := h
  obtain ⟨i, hi⟩ := List.mem_iff_getElem?.1 hw
  obtain ⟨cs, hcs, hct, hcp⟩ := choice_of_picks hsub (henum (findSubs body)).2
  let e1 : Equation V Cond := addSubs ⟨[(c.defn.name, i)], [w], body, [], []⟩ cs
  have hrefs : ∀ n, n ∈ enum (findSlices e1) ↔ n ∈ bodySlices body ++ subs.flatMap (fun p => sliceRefs p.2) := by
    intro n
    rw [(henum _).2, findSlices_eq]
    simp only [e1, addSubs, List.mem_append, List.mem_flatMap]
    constructor
    · rintro (h | ⟨p, hp, hn⟩)
      · exact .inl h
      · exact .inr ⟨p, (hcp p).1 hp, hn⟩
    · rintro (h | ⟨p, hp, hn⟩)
      · exact .inl h
      · exact .inr ⟨p, (hcp p).2 hp, hn⟩
  obtain ⟨ss, hss, hst, hsp⟩ := choice_of_picks hsl hrefs
  refine ⟨addSlices e1 ss, ?_, rfl, ?_, ?_, ?_⟩
  · rw [C44_product hes]
    refine ⟨i, w, body, hi, cs, hcs, ss, hss, rfl, ?_, ?_, rfl, rfl⟩ <;> simp [e1, addSubs, addSlices]
  · intro x hx
    simp only [addSlices, e1, addSubs, List.mem_append, List.mem_singleton, List.mem_flatMap] at hx
    rcases hx with (rfl | ⟨y, hy, hx⟩) | ⟨y, hy, hx⟩
    · exact htw
    · exact hct y hy x hx
    · exact hst y hy x hx
  · apply lookup_perm _ hsub.nodup hcp
    show ((cs.map (fun c => (c.name, c.expr))).map Prod.fst).Nodup
    rw [List.map_map]
    have : (cs.map (Prod.fst ∘ fun c => (c.name, c.expr))) = cs.map Case.name := rfl
    rw [this, hcs.1]
    exact (henum _).1
  · apply lookup_perm _ hsl.nodup hsp
    show ((ss.map (fun c => (c.name, c.expr))).map Prod.fst).Nodup
    rw [List.map_map]
    have : (ss.map (Prod.fst ∘ fun c => (c.name, c.expr))) = ss.map Case.name := rfl
    rw [this, hss.1]
    exact (henum _).1

theorem equation_reads {W : Where.Env} {c : Component V} {ρ : Point} {enum : List String → List String}
    (henum : Traverses enum) {es : List (Equation V Cond)} (hes : parseEquations enum c.defn = .ok es)
    {e : Equation V Cond} (he : e ∈ es) (ht : ∀ w ∈ e.wheres, Truth W ρ w) :
    Reads W c ρ e.body e.subs e.slices := by
  obtain ⟨i, w, body, hi, cs, hcs, ss, hss, hb, _, hw, hs, hl⟩ := (C44_product hes e).1 he
  rw [hb, hs, hl]
  rw [hw] at ht
  have h1 := picks_of_choice (W := W) (ρ := ρ) hcs (henum _).1 (henum _).2 (fun c hc x hx => ht x (by
    rw [List.mem_cons, List.mem_append]
    exact .inr (.inl (List.mem_flatMap.2 ⟨c, hc, hx⟩))))
  refine ⟨⟨w, List.mem_of_getElem? hi, ht w (List.mem_cons_self ..)⟩, h1, ?_⟩
  apply picks_of_choice hss (henum _).1 _ (fun c hc x hx => ht x (by
    rw [List.mem_cons, List.mem_append]
    exact .inr (.inr (List.mem_flatMap.2 ⟨c, hc, hx⟩))))
  intro n
  rw [(henum _).2, findSlices_eq]
  rfl

/-- What a constraint says at an item. -/
theorem constraint_reads [AddCommMonoid V] {W : Where.Env} {E : Expr.Env V} (hE : WellFormed E)
    {enum : List String → List String} (henum : Traverses enum) {c : Component V} (hn : c.foreach.Nodup)
    (hres : resolved c.defn = true) {b : Arr (Option (Cell V))} (hb : buildConstraint W E enum c = .ok b)
    (hloc : LocalDef W c) {ρ : Point} (hρ : Valid W ρ) :
    (b.at ρ ≠ none ↔ InModel W c.foreach ρ ∧ Truth W ρ c.top ∧ ∃ body subs slices, Reads W c ρ body subs slices) ∧
    ∀ l o r subs slices, InModel W c.foreach ρ → Truth W ρ c.top → Reads W c ρ (.cmp l o r) subs slices →
      Ok (inline (fun n => subs.lookup n) l) → Apart c.foreach (inline (fun n => subs.lookup n) l) →
      Ok (inline (fun n => subs.lookup n) r) → Apart c.foreach (inline (fun n => subs.lookup n) r) →
      b.at ρ = some ⟨readAs E subs slices l ρ, o, readAs E subs slices r ρ⟩ := by
  obtain ⟨es, hes⟩ := parse_total henum hres
  obtain ⟨h1, h2⟩ := constraint_at hE hn hb hes hρ (steady_local (localAll_of_def hloc hes) ρ)
  refine ⟨?_, ?_⟩
  · rw [h1]
    constructor
    · rintro ⟨g1, g2, e, he, ht⟩
      exact ⟨g1, g2, _, _, _, equation_reads henum hes he ht⟩
    · rintro ⟨g1, g2, body, subs, slices, hr⟩
      obtain ⟨e, he, _, ht, _⟩ := reads_equation henum hes hr
      exact ⟨g1, g2, e, he, ht⟩
  · intro l o r subs slices g1 g2 hr hl hl' hr1 hr2
    obtain ⟨e, he, hbody, ht, hs, hsl⟩ := reads_equation henum hes hr
    rw [h2 e he g1 g2 ht l o r hbody (by unfold Simple; rw [hs]; exact ⟨hl, hl'⟩)
      (by unfold Simple; rw [hs]; exact ⟨hr1, hr2⟩)]
    unfold value readAs
    rw [hs, hsl]

/-- What a global expression says at an item. -/
theorem expression_reads [AddCommMonoid V] {W : Where.Env} {E : Expr.Env V} (hE : WellFormed E)
    (hco : E.coords = W.coords)
    {enum : List String → List String} (henum : Traverses enum) {c : Component V} (hn : c.foreach.Nodup)
    (hres : resolved c.defn = true) {b : Arr (Option V)} (hb : buildExpression W E enum c = .ok b)
    (hloc : LocalDef W c) {ρ : Point} (hρ : Valid W ρ) :
    (b.at ρ ≠ none ↔ InModel W c.foreach ρ ∧ Truth W ρ c.top ∧ ∃ body subs slices, Reads W c ρ body subs slices) ∧
    ∀ t subs slices, InModel W c.foreach ρ → Truth W ρ c.top → Reads W c ρ (.arith t) subs slices →
      Ok (inline (fun n => subs.lookup n) t) → Apart c.foreach (inline (fun n => subs.lookup n) t) →
      b.at ρ = readAs E subs slices t ρ := by
  obtain ⟨es, hes⟩ := parse_total henum hres
  obtain ⟨h1, h2⟩ := expression_at hE hco hn hb hes hρ (steady_local (localAll_of_def hloc hes) ρ)
  refine ⟨?_, ?_⟩
  · rw [h1]
    constructor
    · rintro ⟨g1, g2, e, he, ht⟩
      exact ⟨g1, g2, _, _, _, equation_reads henum hes he ht⟩
    · rintro ⟨g1, g2, body, subs, slices, hr⟩
      obtain ⟨e, he, _, ht, _⟩ := reads_equation henum hes hr
      exact ⟨g1, g2, e, he, ht⟩
  · intro t subs slices g1 g2 hr hl hl'
    obtain ⟨e, he, hbody, ht, hs, hsl⟩ := reads_equation henum hes hr
    rw [h2 e he g1 g2 ht t hbody (by unfold Simple; rw [hs]; exact ⟨hl, hl'⟩)]
    unfold value readAs
    rw [hs, hsl]

end BaseMath
end Calliope
