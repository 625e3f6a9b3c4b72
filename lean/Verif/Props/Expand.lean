import Verif.Proofs.Expand
import Verif.Proofs.ExprMean

/-!
# Sub-expressions and slices of an equation (C44, C69)
-/

namespace Calliope
namespace Expand

open Expr Grid

variable {V C : Type}

/-- C44: the expanded equations are exactly the combinations: an equation of the definition, one entry for
each sub-expression referred to in it, and one entry for each slice referred to in it or in the chosen
sub-expressions. -/
theorem C44_product {enum : List String → List String}
    {d : Definition V C} {es : List (Equation V C)} (h : parseEquations enum d = .ok es)
    (e' : Equation V C) :
    e' ∈ es ↔ ∃ i w body, d.equations[i]? = some (w, body) ∧
      ∃ cs, Choice d.subs (enum (findSubs body)) cs ∧
      ∃ ss, Choice d.slices (enum (findSlices (addSubs ⟨[(d.name, i)], [w], body, [], []⟩ cs))) ss ∧
      e'.body = body ∧
      e'.parts = (d.name, i) :: (cs.map (fun c => (c.name, c.idx)) ++ ss.map (fun c => (c.name, c.idx))) ∧
      e'.wheres = w :: (cs.flatMap Case.wheres ++ ss.flatMap Case.wheres) ∧
      e'.subs = cs.map (fun c => (c.name, c.expr)) ∧
      e'.slices = ss.map (fun c => (c.name, c.expr)) := by
  unfold parseEquations at h
  simp only [] at h
  split at h
  · cases h
  · rename_i es1 hes1
    have h1 := extendAll_mem hes1
    have h2 := extendAll_mem h
    rw [h2.2]
    constructor
    · rintro ⟨e1, he1, m, hm, hme⟩
      rw [h1.2] at he1
      obtain ⟨e0, he0, m0, hm0, hme0⟩ := he1
      simp only [initial, List.mem_map, List.mem_zipIdx_iff_getElem?] at he0
      obtain ⟨⟨⟨w, body⟩, i⟩, hi, rfl⟩ := he0
      have hi : d.equations[i]? = some (w, body) := hi
      rw [extend_mem (by simp [addSubs]) hm0] at hme0
      obtain ⟨cs, hcs, rfl⟩ := hme0
      rw [extend_mem (by simp [addSubs, addSlices]) hm] at hme
      obtain ⟨ss, hss, rfl⟩ := hme
      refine ⟨i, w, body, hi, cs, hcs, ss, hss, rfl, ?_, ?_, rfl, rfl⟩ <;>
        simp [addSubs, addSlices]
    · rintro ⟨i, w, body, hi, cs, hcs, ss, hss, hb, hp, hw, hs, hl⟩
      have hmem : (⟨[(d.name, i)], [w], body, [], []⟩ : Equation V C) ∈ initial d.name d.equations := by
        simp only [initial, List.mem_map, List.mem_zipIdx_iff_getElem?]
        exact ⟨((w, body), i), hi, rfl⟩
      obtain ⟨m0, hm0⟩ := h1.1 _ hmem
      have hc : addSubs (⟨[(d.name, i)], [w], body, [], []⟩ : Equation V C) cs ∈ m0 := by
        rw [extend_mem (by simp [addSubs]) hm0]
        exact ⟨cs, hcs, rfl⟩
      have hc1 : addSubs (⟨[(d.name, i)], [w], body, [], []⟩ : Equation V C) cs ∈ es1 := by
        rw [h1.2]
        exact ⟨_, hmem, m0, hm0, hc⟩
      obtain ⟨m, hm⟩ := h2.1 _ hc1
      refine ⟨_, hc1, m, hm, ?_⟩
      rw [extend_mem (by simp [addSubs, addSlices]) hm]
      refine ⟨ss, hss, ?_⟩
      cases e'
      simp_all [addSubs, addSlices]

/-- C44: there is one equation for every combination. -/
theorem C44_once {enum : List String → List String}
    {d : Definition V C} {es : List (Equation V C)} (h : parseEquations enum d = .ok es) :
    (es.map Equation.parts).Nodup := by
  unfold parseEquations at h
  simp only [] at h
  split at h
  · cases h
  · rename_i es1 hes1
    have hinit : ∀ e ∈ initial d.name d.equations, ∃ i w b, d.equations[i]? = some (w, b) ∧
        e = ⟨[(d.name, i)], [w], b, [], []⟩ := by
      intro e he
      simp only [initial, List.mem_map, List.mem_zipIdx_iff_getElem?] at he
      obtain ⟨⟨⟨w, b⟩, i⟩, hi, rfl⟩ := he
      exact ⟨i, w, b, hi, rfl⟩
    have hpw : (initial d.name d.equations).Pairwise (fun e e' => e.parts ≠ e'.parts) := by
      have hz : (d.equations.zipIdx).Pairwise (fun p q => p.2 ≠ q.2) := by
        have : (d.equations.zipIdx.map Prod.snd).Nodup := by
          rw [List.zipIdx_map_snd]
          exact List.nodup_range'
        exact (List.pairwise_map.1 this)
      unfold initial
      rw [List.pairwise_map]
      refine hz.imp ?_
      intro p q hpq he
      simp only [List.cons.injEq, Prod.mk.injEq, true_and, and_true] at he
      exact hpq he
    have hstep : ∀ e ∈ initial d.name d.equations, ∀ m,
        extend enum (findSubs e.body) (d.subs.map (fun p => (p.1, cases p.1 p.2))) addSubs e = .ok m →
        (m.map Equation.parts).Nodup := fun e _ m hm => (extend_parts (fun _ _ => rfl) hm).1
    have hn1 : (es1.map Equation.parts).Nodup := by
      refine extendAll_nodup hstep ?_ hes1
      refine hpw.imp_of_mem ?_
      intro e e' he he' hne m m' hm hm' x hx y hy hxy
      obtain ⟨i, w, b, _, rfl⟩ := hinit e he
      obtain ⟨i', w', b', _, rfl⟩ := hinit e' he'
      obtain ⟨s, hs, _⟩ := (extend_parts (fun _ _ => rfl) hm).2 x hx
      obtain ⟨s', hs', _⟩ := (extend_parts (fun _ _ => rfl) hm').2 y hy
      rw [hs, hs'] at hxy
      simp only [List.singleton_append, List.cons.injEq] at hxy
      exact hne (by simp only [hxy.1])
    have hshape : ∀ e ∈ es1, ∃ i w b s, d.equations[i]? = some (w, b) ∧
        e.parts = (d.name, i) :: s ∧ s.length = (enum (findSubs b)).length := by
      intro e he
      obtain ⟨e0, he0, m, hm, hem⟩ := ((extendAll_mem hes1).2 e).1 he
      obtain ⟨i, w, b, hi, rfl⟩ := hinit e0 he0
      obtain ⟨s, hs, hsl⟩ := (extend_parts (fun _ _ => rfl) hm).2 e hem
      exact ⟨i, w, b, s, hi, hs, hsl⟩
    refine extendAll_nodup (fun e _ m hm => (extend_parts (fun _ _ => rfl) hm).1) ?_ h
    have hpw1 : es1.Pairwise (fun e e' => e.parts ≠ e'.parts) := List.pairwise_map.1 hn1
    refine hpw1.imp_of_mem ?_
    intro e e' he he' hne m m' hm hm' x hx y hy hxy
    obtain ⟨i, w, b, s, hi, hp, hsl⟩ := hshape e he
    obtain ⟨i', w', b', s', hi', hp', hsl'⟩ := hshape e' he'
    obtain ⟨u, hu, _⟩ := (extend_parts (fun _ _ => rfl) hm).2 x hx
    obtain ⟨u', hu', _⟩ := (extend_parts (fun _ _ => rfl) hm').2 y hy
    rw [hu, hu', hp, hp'] at hxy
    simp only [List.cons_append, List.cons.injEq, Prod.mk.injEq, true_and] at hxy
    have hii := hxy.1
    subst hii
    rw [hi] at hi'
    cases hi'
    have := List.append_inj_left hxy.2 (by rw [hsl, hsl'])
    exact hne (by rw [hp, hp', this])

theorem mem_nodup_countName {α : Type} (h : C → Bool) (defs : List (String × List (C × α)))
    {names : List String} {P : Nat → Prop} (hP : ∀ p ∈ defs, P (count h p.2)) (hP0 : P 0) :
    ∀ k ∈ names.map (countName h defs), P k := by
  intro k hk
  obtain ⟨n, _, rfl⟩ := List.mem_map.1 hk
  unfold countName
  cases hl : defs.lookup n with
  | none => exact hP0
  | some l => exact hP (n, l) (lookup_mem hl)

/-- C44: if at an item (`h` says which conditions hold there) at most one equation holds, and of every
sub-expression and every slice at most one entry does, then at most one expanded equation holds. -/
theorem C44_exclusive {enum : List String → List String}
    {d : Definition V C} {es : List (Equation V C)} (hx : parseEquations enum d = .ok es) (h : C → Bool)
    (he : count h d.equations ≤ 1) (hs : ∀ p ∈ d.subs, count h p.2 ≤ 1)
    (hl : ∀ p ∈ d.slices, count h p.2 ≤ 1) : countEq h es ≤ 1 := by
  unfold parseEquations at hx
  simp only [] at hx
  split at hx
  · cases hx
  · rename_i es1 hes1
    have h1 := extendAll_count h (fun e => ((enum (findSubs e.body)).map (countName h d.subs)).prod)
      (fun e _ m hm => extend_count h (fun _ _ => rfl) hm) hes1
    have h2 := extendAll_count h (fun e => ((enum (findSlices e)).map (countName h d.slices)).prod)
      (fun e _ m hm => extend_count h (fun _ _ => rfl) hm) hx
    rw [h2]
    refine Nat.le_trans (sum_le_length ?_) ?_
    · intro n hn
      obtain ⟨e, _, rfl⟩ := List.mem_map.1 hn
      exact prod_le_one (mem_nodup_countName h d.slices (P := (· ≤ 1)) hl (by simp))
    · rw [List.length_map]
      show countEq h es1 ≤ 1
      rw [h1]
      refine Nat.le_trans (sum_le_length ?_) ?_
      · intro n hn
        obtain ⟨e, _, rfl⟩ := List.mem_map.1 hn
        exact prod_le_one (mem_nodup_countName h d.subs (P := (· ≤ 1)) hs (by simp))
      · rw [List.length_map, initial_count]
        exact he

theorem extendAll_ok_mem {f : Equation V C → Except Err (List (Equation V C))}
    {l es : List (Equation V C)} (h : extendAll f l = .ok es) : ∀ e ∈ l, ∃ m, f e = .ok m :=
  (extendAll_mem h).1

theorem one_le_countName {α : Type} (h : C → Bool) {defs : List (String × List (C × α))}
    {enum : List String → List String} {refs : List String}
    {add : Equation V C → List (Case C α) → Equation V C} {e : Equation V C} {m : List (Equation V C)}
    (hx : extend enum refs (defs.map (fun p => (p.1, cases p.1 p.2))) add e = .ok m)
    (hP : ∀ p ∈ defs, 1 ≤ count h p.2) :
    1 ≤ ((enum refs).map (countName h defs)).prod := by
  apply one_le_prod
  intro k hk
  obtain ⟨n, hn, rfl⟩ := List.mem_map.1 hk
  unfold extend at hx
  split at hx
  · rename_i h0
    rw [h0] at hn
    cases hn
  · rename_i n0 ns h0
    split at hx
    · cases hx
    · rename_i ls hg
      rw [h0] at hn
      have : ∀ (ns : List String) (ls : List (List (Case C α))),
          gather (defs.map (fun p => (p.1, cases p.1 p.2))) ns = some ls → n ∈ ns →
          ∃ l, defs.lookup n = some l := by
        intro ns
        induction ns with
        | nil => intro ls _ hm; cases hm
        | cons a ns ih =>
          intro ls hg hm
          simp only [gather, lookup_cases] at hg
          cases hl : defs.lookup a with
          | none => rw [hl] at hg; simp at hg
          | some l =>
            rcases List.mem_cons.1 hm with rfl | hm
            · exact ⟨l, hl⟩
            · cases hg' : gather (defs.map (fun p => (p.1, cases p.1 p.2))) ns with
              | none => rw [hl, hg'] at hg; simp at hg
              | some ms => exact ih ms hg' hm
      obtain ⟨l, hl⟩ := this _ _ hg hn
      unfold countName
      rw [hl]
      exact hP (n, l) (lookup_mem hl)

/-- C44: if at an item an equation holds, and of every sub-expression and every slice an entry does, then
an expanded equation holds: no item is lost. -/
theorem C44_exhaustive {enum : List String → List String}
    {d : Definition V C} {es : List (Equation V C)} (hx : parseEquations enum d = .ok es) (h : C → Bool)
    (he : 1 ≤ count h d.equations) (hs : ∀ p ∈ d.subs, 1 ≤ count h p.2)
    (hl : ∀ p ∈ d.slices, 1 ≤ count h p.2) : 1 ≤ countEq h es := by
  unfold parseEquations at hx
  simp only [] at hx
  split at hx
  · cases hx
  · rename_i es1 hes1
    have h1 := extendAll_count h (fun e => ((enum (findSubs e.body)).map (countName h d.subs)).prod)
      (fun e _ m hm => extend_count h (fun _ _ => rfl) hm) hes1
    have h2 := extendAll_count h (fun e => ((enum (findSlices e)).map (countName h d.slices)).prod)
      (fun e _ m hm => extend_count h (fun _ _ => rfl) hm) hx
    rw [h2]
    refine Nat.le_trans ?_ (length_le_sum ?_)
    · rw [List.length_map]
      show 1 ≤ countEq h es1
      rw [h1]
      refine Nat.le_trans ?_ (length_le_sum ?_)
      · rw [List.length_map, initial_count]
        exact he
      · intro n hn
        obtain ⟨e, hem, rfl⟩ := List.mem_map.1 hn
        obtain ⟨m, hm⟩ := extendAll_ok_mem hes1 e (List.mem_of_mem_filter hem)
        exact one_le_countName h hm hs
    · intro n hn
      obtain ⟨e, hem, rfl⟩ := List.mem_map.1 hn
      obtain ⟨m, hm⟩ := extendAll_ok_mem hx e (List.mem_of_mem_filter hem)
      exact one_le_countName h hm hl

/-! ### References -/

/-- C69 (partial): if no reference stands under a sign, every reference of an expanded equation is
defined: those to sub-expressions in its sides, those to slices in its sides and its sub-expressions. -/
theorem C69_resolved_partial {enum : List String → List String} (henum : Traverses enum)
    {d : Definition V C} {es : List (Equation V C)} (h : parseEquations enum d = .ok es)
    {e : Equation V C} (he : e ∈ es) (hb : ∀ t ∈ e.body.sides, NoSignedRef t)
    (hs : ∀ p ∈ e.subs, NoSignedRef p.2) :
    (∀ t ∈ e.body.sides, ∀ n ∈ AllSubs t, n ∈ e.subs.map Prod.fst) ∧
    (∀ t ∈ e.body.sides, ∀ n ∈ AllSlices t, n ∈ e.slices.map Prod.fst) ∧
    (∀ p ∈ e.subs, ∀ n ∈ AllSlices p.2, n ∈ e.slices.map Prod.fst) := by
  obtain ⟨i, w, body, _, cs, hcs, ss, hss, hbody, _, _, hsubs, hslices⟩ := (C44_product h e).1 he
  subst hbody
  have hsn : e.subs.map Prod.fst = enum (findSubs e.body) := by
    rw [hsubs, List.map_map, ← hcs.1]
    rfl
  have hln : e.slices.map Prod.fst = enum (findSlices
      (addSubs ⟨[(d.name, i)], [w], e.body, [], []⟩ cs)) := by
    rw [hslices, List.map_map, ← hss.1]
    rfl
  have hfs : ∀ t ∈ e.body.sides, ∀ n ∈ AllSubs t, n ∈ findSubs e.body := by
    intro t ht n hn
    rw [← subRefs_all t (hb t ht)] at hn
    cases hbd : e.body with
    | arith u =>
      rw [hbd] at ht
      simp only [Body.sides, List.mem_singleton] at ht
      subst ht
      cases t with
      | sign o t => simp [subRefs] at hn
      | _ => exact hn
    | cmp l o r =>
      rw [hbd] at ht
      simp only [Body.sides, List.mem_cons, List.not_mem_nil, or_false] at ht
      simp only [findSubs, List.mem_append]
      rcases ht with rfl | rfl
      · exact .inl hn
      · exact .inr hn
  refine ⟨?_, ?_, ?_⟩
  · intro t ht n hn
    rw [hsn, (henum _).2]
    exact hfs t ht n hn
  · intro t ht n hn
    rw [hln, (henum _).2]
    rw [← sliceRefs_all t (hb t ht)] at hn
    simp only [findSlices, List.mem_append]
    left
    simp only [addSubs]
    cases hbd : e.body with
    | arith u =>
      rw [hbd] at ht
      simp only [Body.sides, List.mem_singleton] at ht
      subst ht
      cases t with
      | sign o t => simp [sliceRefs] at hn
      | _ => exact hn
    | cmp l o r =>
      rw [hbd] at ht
      simp only [Body.sides, List.mem_cons, List.not_mem_nil, or_false] at ht
      simp only [List.mem_append]
      rcases ht with rfl | rfl
      · exact .inl hn
      · exact .inr hn
  · intro p hp n hn
    rw [hln, (henum _).2]
    rw [← sliceRefs_all p.2 (hs p hp)] at hn
    simp only [findSlices, List.mem_append, List.mem_flatMap]
    right
    rw [hsubs] at hp
    exact ⟨p, hp, hn⟩

/-- C69 fails for references under a sign: a constraint `-$n <= x` (on either side of any comparison, in any
component) is parsed without complaint, and evaluating it raises `KeyError` although `n` is defined. -/
theorem C69_signed_reference [AddCommMonoid V] {enum : List String → List String}
    (henum : Traverses enum) (d : Definition V C) (w : C) (n : String) (o : Arith.Op) (c : String)
    (name : String) (hd : d.equations = [(w, .cmp (.sign o (.sub n)) c (.comp name))]) :
    ∃ e, parseEquations enum d = .ok [e] ∧ e.body = .cmp (.sign o (.sub n)) c (.comp name) ∧
      ∀ (E : Env V) (m : Arr Bool),
        evalSide E (fun k => e.slices.lookup k) (fun k => e.subs.lookup k) m (.sign o (.sub n)) =
          .error .keyError := by
  have hnil : enum [] = [] := by
    cases h : enum [] with
    | nil => rfl
    | cons a l =>
      have := ((henum []).2 a).1 (by rw [h]; exact List.mem_cons_self ..)
      cases this
  refine ⟨⟨[(d.name, 0)], [w], .cmp (.sign o (.sub n)) c (.comp name), [], []⟩, ?_, rfl, ?_⟩
  · unfold parseEquations
    rw [hd]
    simp only [initial, List.zipIdx_cons, List.zipIdx_nil, List.map_cons, List.map_nil, extendAll,
      findSubs, subRefs, List.append_nil, extend, hnil, findSlices, sliceRefs, List.flatMap_nil]
  · intro E m
    simp [evalSide, evalEx, evalSub]

/-- C69: the same for slices under a sign in a sub-expression. -/
theorem C69_signed_slice [AddCommMonoid V] {enum : List String → List String}
    (henum : Traverses enum) (d : Definition V C) (w w' : C) (n s x dim : String) (o : Arith.Op)
    (hd : d.equations = [(w, .arith (.sub n))])
    (hs : d.subs = [(n, [(w', .sign o (.sliced x [(dim, .ref s)]))])]) :
    ∃ e, parseEquations enum d = .ok [e] ∧ e.body = .arith (.sub n) ∧
      ∀ (E : Env V) (m : Arr Bool) (a : Arr (Option V)), compArr E x = .ok a →
        evalSide E (fun k => e.slices.lookup k) (fun k => e.subs.lookup k) m (.sub n) =
          .error .keyError := by
  have hnil : enum [] = [] := by
    cases h : enum [] with
    | nil => rfl
    | cons a l =>
      have := ((henum []).2 a).1 (by rw [h]; exact List.mem_cons_self ..)
      cases this
  have hone : enum [n] = [n] := by
    have h1 := henum [n]
    cases h : enum [n] with
    | nil =>
      have := (h1.2 n).2 (List.mem_cons_self ..)
      rw [h] at this
      cases this
    | cons a l =>
      rw [h] at h1
      have ha : a = n := by simpa using (h1.2 a).1 (List.mem_cons_self ..)
      subst ha
      cases l with
      | nil => rfl
      | cons b l =>
        have hb : b = a := by
          simpa using (h1.2 b).1 (List.mem_cons_of_mem _ (List.mem_cons_self ..))
        subst hb
        have := h1.1
        simp at this
  refine ⟨⟨[(d.name, 0), (n, 0)], [w, w'], .arith (.sub n),
    [(n, .sign o (.sliced x [(dim, .ref s)]))], []⟩, ?_, rfl, ?_⟩
  · unfold parseEquations
    rw [hd, hs]
    simp [initial, extendAll, findSubs, under, subRefs, extend, hone, gather, cases, product, addSubs,
      findSlices, sliceRefs, hnil]
  · intro E m a ha
    simp [evalSide, evalEx, evalSub, ha, selAll, sliceArrs, sliceArr]

/-! ### Examples -/

/-- A constraint with two equations, a sub-expression of two entries and a slice. -/
def demo : Definition Nat String where
  name := "balance"
  equations := [("a", .cmp (.chain (.sub "s") (.one .plus (.comp "x"))) "==" (.num 0)),
    ("not a", .cmp (.comp "x") "==" (.num 0))]
  subs := [("s", [("b", .sliced "x" [("techs", .ref "t")]), ("not b", .num 1)])]
  slices := [("t", [("True", .label "pv")])]

example : parseEquations List.eraseDups demo = .ok [
    ⟨[("balance", 0), ("s", 0), ("t", 0)], ["a", "b", "True"],
      .cmp (.chain (.sub "s") (.one .plus (.comp "x"))) "==" (.num 0),
      [("s", .sliced "x" [("techs", .ref "t")])], [("t", .label "pv")]⟩,
    ⟨[("balance", 0), ("s", 1)], ["a", "not b"],
      .cmp (.chain (.sub "s") (.one .plus (.comp "x"))) "==" (.num 0), [("s", .num 1)], []⟩,
    ⟨[("balance", 1)], ["not a"], .cmp (.comp "x") "==" (.num 0), [], []⟩] := by rfl

example : Traverses List.dedup := fun l => ⟨List.nodup_dedup l, fun _ => List.mem_dedup⟩

end Expand
end Calliope
