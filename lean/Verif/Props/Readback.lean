import Verif.Spec.Readback

/-!
# C100: results are the values of the solution
-/

namespace Calliope
namespace Readback

/-- The values, zero where there are none. -/
def total (σ : Values) (v : Nat) : Rat := (σ v).getD 0

theorem linear_some (σ : Values) (l : List (Rat × Nat)) :
    (∀ t ∈ l, ∃ x, σ t.2 = some x) → linear σ l = some ((l.map (fun t => t.1 * total σ t.2)).sum) := by
  induction l with
  | nil => intro _; rfl
  | cons t r ih =>
    obtain ⟨q, v⟩ := t
    intro h
    obtain ⟨x, hx⟩ := h (q, v) (by simp)
    simp only at hx
    simp only [linear, hx, ih (fun t ht => h t (by simp [ht])), List.map_cons, List.sum_cons, total,
      Option.getD_some]

theorem linear_none (σ : Values) (l : List (Rat × Nat)) (x : Rat) (h : linear σ l = some x) :
    ∀ t ∈ l, ∃ y, σ t.2 = some y := by
  induction l generalizing x with
  | nil => intro t ht; cases ht
  | cons t r ih =>
    obtain ⟨q, v⟩ := t
    simp only [linear] at h
    split at h
    · rename_i y z hy hz
      intro t ht
      rcases List.mem_cons.1 ht with rfl | ht
      · exact ⟨y, hy⟩
      · exact ih z hz t ht
    · cases h

theorem quadratic_some (σ : Values) (l : List (Rat × Nat × Nat)) :
    (∀ t ∈ l, (∃ x, σ t.2.1 = some x) ∧ ∃ x, σ t.2.2 = some x) →
    quadratic σ l = some ((l.map (fun t => t.1 * total σ t.2.1 * total σ t.2.2)).sum) := by
  induction l with
  | nil => intro _; rfl
  | cons t r ih =>
    obtain ⟨q, v, w⟩ := t
    intro h
    obtain ⟨⟨x, hx⟩, ⟨y, hy⟩⟩ := h (q, v, w) (by simp)
    simp only at hx hy
    simp only [quadratic, hx, hy, ih (fun t ht => h t (by simp [ht])), List.map_cons, List.sum_cons, total,
      Option.getD_some]

theorem quadratic_none (σ : Values) (l : List (Rat × Nat × Nat)) (x : Rat) (h : quadratic σ l = some x) :
    ∀ t ∈ l, (∃ y, σ t.2.1 = some y) ∧ ∃ y, σ t.2.2 = some y := by
  induction l generalizing x with
  | nil => intro t ht; cases ht
  | cons t r ih =>
    obtain ⟨q, v, w⟩ := t
    simp only [quadratic] at h
    split at h
    · rename_i y z u hy hz hu
      intro t ht
      rcases List.mem_cons.1 ht with rfl | ht
      · exact ⟨⟨y, hy⟩, ⟨z, hz⟩⟩
      · exact ih u hu t ht
    · cases h

/-- A Pyomo object has a value exactly if its variables have, and it is the number it stands for. -/
theorem pyomoValue_iff (σ : Values) (o : Obj) (x : Rat) :
    pyomoValue σ o = some x ↔ (∀ v, Occurs v o → ∃ y, σ v = some y) ∧ x = meaning (total σ) o := by
  cases o with
  | num q =>
    simp only [pyomoValue, Occurs, meaning, Option.some.injEq]
    constructor
    · rintro rfl; exact ⟨fun _ h => h.elim, rfl⟩
    · rintro ⟨_, rfl⟩; rfl
  | var w =>
    simp only [pyomoValue, Occurs, meaning, total]
    constructor
    · intro h; exact ⟨fun v hv => ⟨x, hv ▸ h⟩, by rw [h]; rfl⟩
    · rintro ⟨h, rfl⟩
      obtain ⟨y, hy⟩ := h w rfl
      rw [hy]; rfl
  | sum c l q =>
    constructor
    · intro h
      simp only [pyomoValue] at h
      split at h
      · rename_i y z hy hz
        have h1 := linear_none σ l y hy
        have h2 := quadratic_none σ q z hz
        refine ⟨?_, ?_⟩
        · rintro v (⟨t, ht, rfl⟩ | ⟨t, ht, rfl | rfl⟩)
          · exact h1 t ht
          · exact (h2 t ht).1
          · exact (h2 t ht).2
        · rw [linear_some σ l h1] at hy
          rw [quadratic_some σ q h2] at hz
          rw [← Option.some.inj h, ← Option.some.inj hy, ← Option.some.inj hz]
          rfl
      · cases h
    · rintro ⟨h, rfl⟩
      have h1 : ∀ t ∈ l, ∃ y, σ t.2 = some y := fun t ht => h _ (Or.inl ⟨t, ht, rfl⟩)
      have h2 : ∀ t ∈ q, (∃ y, σ t.2.1 = some y) ∧ ∃ y, σ t.2.2 = some y := fun t ht =>
        ⟨h _ (Or.inr ⟨t, ht, Or.inl rfl⟩), h _ (Or.inr ⟨t, ht, Or.inr rfl⟩)⟩
      simp only [pyomoValue, linear_some σ l h1, quadratic_some σ q h2, meaning]

theorem pyomoValue_none (σ : Values) (o : Obj) :
    pyomoValue σ o = none ↔ ∃ v, Occurs v o ∧ σ v = none := by
  constructor
  · intro h
    by_contra hc
    have : pyomoValue σ o = some (meaning (total σ) o) := by
      rw [pyomoValue_iff]
      refine ⟨?_, rfl⟩
      intro v hv
      cases hs : σ v with
      | none => exact absurd ⟨v, hv, hs⟩ hc
      | some y => exact ⟨y, rfl⟩
    rw [h] at this
    cases this
  · rintro ⟨v, hv, hs⟩
    cases h : pyomoValue σ o with
    | none => rfl
    | some x =>
      obtain ⟨y, hy⟩ := ((pyomoValue_iff σ o x).1 h).1 v hv
      rw [hs] at hy
      cases hy

/-- On objects without products the two backends agree. -/
theorem gurobiValue_linear (σ : Values) (o : Obj) (h : Linear o) : gurobiValue σ o = pyomoValue σ o := by
  cases o with
  | num q => rfl
  | var v => rfl
  | sum c l q =>
    simp only [Linear] at h
    subst h
    simp only [gurobiValue, pyomoValue, quadratic]
    cases linear σ l with
    | none => rfl
    | some x => simp

variable {ι : Type}

theorem applyFunc_some (f : Obj → Option Rat) (a : ι → Option Obj) (is : List ι) :
    (∃ l, applyFunc f a is = some l) ↔ ∀ i ∈ is, ∀ o, a i = some o → ∃ x, f o = some x := by
  induction is with
  | nil => exact ⟨fun _ i hi => (by cases hi), fun _ => ⟨[], rfl⟩⟩
  | cons i is ih =>
    cases ha : a i with
    | none =>
      have e : applyFunc f a (i :: is) = applyFunc f a is := by simp only [applyFunc, ha]
      rw [e, ih]
      constructor
      · intro h j hj o ho
        rcases List.mem_cons.1 hj with rfl | hj
        · rw [ha] at ho; cases ho
        · exact h j hj o ho
      · intro h j hj; exact h j (List.mem_cons_of_mem _ hj)
    | some o =>
      cases hf : f o with
      | none =>
        have e : applyFunc f a (i :: is) = none := by simp only [applyFunc, ha, hf]
        rw [e]
        constructor
        · rintro ⟨l, hl⟩; cases hl
        · intro h
          obtain ⟨x, hx⟩ := h i (by simp) o ha
          rw [hf] at hx; cases hx
      | some x =>
        constructor
        · rintro ⟨l, hl⟩ j hj o' ho'
          simp only [applyFunc, ha, hf] at hl
          cases hr : applyFunc f a is with
          | none => rw [hr] at hl; cases hl
          | some r =>
            rcases List.mem_cons.1 hj with rfl | hj
            · rw [ha] at ho'
              rw [← Option.some.inj ho']
              exact ⟨x, hf⟩
            · exact ih.1 ⟨r, hr⟩ j hj o' ho'
        · intro h
          obtain ⟨r, hr⟩ := ih.2 (fun j hj => h j (List.mem_cons_of_mem _ hj))
          exact ⟨(i, x) :: r, by simp only [applyFunc, ha, hf, hr]⟩

theorem applyFunc_mem (f : Obj → Option Rat) (a : ι → Option Obj) (is : List ι) (l : List (ι × Rat))
    (h : applyFunc f a is = some l) (i : ι) (x : Rat) :
    (i, x) ∈ l ↔ i ∈ is ∧ ∃ o, a i = some o ∧ f o = some x := by
  induction is generalizing l with
  | nil =>
    simp only [applyFunc, Option.some.injEq] at h
    subst h
    simp
  | cons j is ih =>
    cases ha : a j with
    | none =>
      simp only [applyFunc, ha] at h
      rw [ih l h]
      constructor
      · rintro ⟨h1, h2⟩; exact ⟨List.mem_cons_of_mem _ h1, h2⟩
      · rintro ⟨h1, o, ho, hx⟩
        rcases List.mem_cons.1 h1 with rfl | h1
        · rw [ha] at ho; cases ho
        · exact ⟨h1, o, ho, hx⟩
    | some o =>
      simp only [applyFunc, ha] at h
      cases hf : f o with
      | none => rw [hf] at h; cases h
      | some y =>
        cases hr : applyFunc f a is with
        | none => rw [hf, hr] at h; cases h
        | some r =>
          rw [hf, hr] at h
          simp only [Option.some.injEq] at h
          subst h
          rw [List.mem_cons, ih r hr]
          constructor
          · rintro (h | ⟨h1, h2⟩)
            · obtain ⟨rfl, rfl⟩ := Prod.mk.inj h
              exact ⟨by simp, o, ha, hf⟩
            · exact ⟨List.mem_cons_of_mem _ h1, h2⟩
          · rintro ⟨h1, o', ho', hx⟩
            rcases List.mem_cons.1 h1 with rfl | h1
            · left
              rw [ha] at ho'
              obtain rfl := Option.some.inj ho'
              rw [hf] at hx
              rw [Option.some.inj hx]
            · exact Or.inr ⟨h1, o', ho', hx⟩

theorem textsAsNumbers_none (l : List (ι × Obj)) (i : ι) (o : Obj) (h : (i, o) ∈ l)
    (ho : textAsNumber o = none) : textsAsNumbers l = none := by
  induction l with
  | nil => cases h
  | cons p r ih =>
    obtain ⟨j, o'⟩ := p
    simp only [textsAsNumbers]
    rcases List.mem_cons.1 h with h | h
    · obtain ⟨rfl, rfl⟩ := Prod.mk.inj h
      rw [ho]
    · rw [ih h]
      cases textAsNumber o' <;> rfl

/-- Reading an array of expressions: all or nothing. -/
theorem asFloat_getExpression (f : Obj → Option Rat) (hnum : ∀ q, f (.num q) = some q) (is : List ι)
    (a : ι → Option Obj) :
    asFloat (getExpression f is a) = applyFunc f a is := by
  unfold getExpression
  cases h : applyFunc f a is with
  | some l => rfl
  | none =>
    have hn : ¬ ∀ i ∈ is, ∀ o, a i = some o → ∃ x, f o = some x := by
      intro hc
      obtain ⟨l, hl⟩ := (applyFunc_some f a is).2 hc
      rw [h] at hl; cases hl
    simp only [asFloat]
    simp only [not_forall] at hn
    obtain ⟨i, hi, o, ho, hx⟩ := hn
    refine textsAsNumbers_none _ i o ?_ ?_
    · unfold objects
      exact List.mem_filterMap.2 ⟨i, hi, by rw [ho]; rfl⟩
    · cases o with
      | num q => exact absurd ⟨q, hnum q⟩ hx
      | var v => rfl
      | sum c l q => rfl

theorem load_some (f : Obj → Option Rat) (σ : Values) (is : List ι) (cs : List (String × Array ι)) :
    (∃ r, loadResults f σ is cs = some r) ↔ ∀ c ∈ cs, ∃ l, readOne f σ is c.2 = some l := by
  induction cs with
  | nil => exact ⟨fun _ c hc => (by cases hc), fun _ => ⟨[], rfl⟩⟩
  | cons c cs ih =>
    obtain ⟨n, a⟩ := c
    constructor
    · rintro ⟨r, hr⟩ c hc
      simp only [loadResults] at hr
      cases h1 : readOne f σ is a with
      | none => rw [h1] at hr; cases hr
      | some l =>
        cases h2 : loadResults f σ is cs with
        | none => rw [h1, h2] at hr; cases hr
        | some rest =>
          rcases List.mem_cons.1 hc with rfl | hc
          · exact ⟨l, h1⟩
          · exact ih.1 ⟨rest, h2⟩ c hc
    · intro h
      obtain ⟨l, hl⟩ := h (n, a) (by simp)
      obtain ⟨r, hr⟩ := ih.2 (fun c hc => h c (List.mem_cons_of_mem _ hc))
      simp only at hl
      exact ⟨(n, l) :: r, by simp only [loadResults, hl, hr]⟩

theorem load_get (f : Obj → Option Rat) (σ : Values) (is : List ι) (cs : List (String × Array ι))
    (r : List (String × List (ι × Rat))) (h : loadResults f σ is cs = some r) :
    r.map Prod.fst = cs.map Prod.fst ∧
      ∀ (k : Nat) n a, cs[k]? = some (n, a) → ∃ l, r[k]? = some (n, l) ∧ readOne f σ is a = some l := by
  induction cs generalizing r with
  | nil =>
    simp only [loadResults, Option.some.injEq] at h
    subst h
    exact ⟨rfl, fun k n a hk => by simp at hk⟩
  | cons c cs ih =>
    obtain ⟨n, a⟩ := c
    simp only [loadResults] at h
    cases h1 : readOne f σ is a with
    | none => rw [h1] at h; cases h
    | some l =>
      cases h2 : loadResults f σ is cs with
      | none => rw [h1, h2] at h; cases h
      | some rest =>
        rw [h1, h2] at h
        simp only [Option.some.injEq] at h
        subst h
        obtain ⟨e1, e2⟩ := ih rest h2
        refine ⟨by simp [e1], ?_⟩
        intro k m b hk
        cases k with
        | zero =>
          simp only [List.getElem?_cons_zero, Option.some.injEq, Prod.mk.injEq] at hk
          obtain ⟨rfl, rfl⟩ := hk
          exact ⟨l, rfl, h1⟩
        | succ k =>
          rw [List.getElem?_cons_succ] at hk ⊢
          exact e2 k m b hk

section Theorems
variable (σ : Values) (is : List ι) (cs : List (String × Array ι))

/-- **C100 (when results load).** With Pyomo, results can be loaded exactly if every variable in every item of every
global expression and objective has a value. -/
theorem C100_loads_iff : (∃ r, loadResults (pyomoValue σ) σ is cs = some r) ↔
    ∀ n a, (n, Array.expressions a) ∈ cs → Known σ is a := by
  rw [load_some]
  constructor
  · intro h n a hm i hi o ho v hv
    obtain ⟨l, hl⟩ := h _ hm
    simp only [readOne] at hl
    rw [asFloat_getExpression _ (fun _ => rfl)] at hl
    obtain ⟨x, hx⟩ := (applyFunc_some _ a is).1 ⟨l, hl⟩ i hi o ho
    exact ((pyomoValue_iff σ o x).1 hx).1 v hv
  · rintro h ⟨n, a⟩ hm
    cases a with
    | «variables» a => exact ⟨_, rfl⟩
    | expressions a =>
      simp only [readOne]
      rw [asFloat_getExpression _ (fun _ => rfl)]
      refine (applyFunc_some _ a is).2 ?_
      intro i hi o ho
      exact ⟨meaning (total σ) o, (pyomoValue_iff σ o _).2 ⟨h n a hm i hi o ho, rfl⟩⟩

/-- **C100 (values).** Loaded results have the components of the problem in their order.  An expression has, at every
item, the number that its definition gives with the values of the solution; a variable has its value; there is nothing
where the component is not defined. -/
theorem C100_values (f : Nat → Rat) (hf : ∀ v x, σ v = some x → f v = x)
    (r : List (String × List (ι × Rat))) (h : loadResults (pyomoValue σ) σ is cs = some r) :
    r.map Prod.fst = cs.map Prod.fst ∧
    (∀ (k : Nat) n a, cs[k]? = some (n, Array.expressions a) → ∃ l, r[k]? = some (n, l) ∧
      ∀ i x, (i, x) ∈ l ↔ i ∈ is ∧ ∃ o, a i = some o ∧ x = meaning f o) ∧
    (∀ (k : Nat) n a, cs[k]? = some (n, Array.variables a) → ∃ l, r[k]? = some (n, l) ∧
      ∀ i x, (i, x) ∈ l ↔ i ∈ is ∧ ∃ v, a i = some v ∧ σ v = some x) := by
  obtain ⟨e1, e2⟩ := load_get _ σ is cs r h
  have hk := (C100_loads_iff σ is cs).1 ⟨r, h⟩
  refine ⟨e1, ?_, ?_⟩
  · intro k n a hc
    obtain ⟨l, hl, hr⟩ := e2 k n _ hc
    refine ⟨l, hl, ?_⟩
    simp only [readOne] at hr
    rw [asFloat_getExpression _ (fun _ => rfl)] at hr
    have hm : ∀ o, (∀ v, Occurs v o → ∃ y, σ v = some y) → meaning (total σ) o = meaning f o := by
      intro o ho
      have hv : ∀ v, Occurs v o → total σ v = f v := by
        intro v hv
        obtain ⟨y, hy⟩ := ho v hv
        rw [hf v y hy, total, hy]
        rfl
      cases o with
      | num q => rfl
      | var v => exact hv v rfl
      | sum c l q =>
        simp only [meaning]
        congr 1
        · congr 2
          apply List.map_congr_left
          intro t ht
          rw [hv t.2 (Or.inl ⟨t, ht, rfl⟩)]
        · congr 1
          apply List.map_congr_left
          intro t ht
          rw [hv t.2.1 (Or.inr ⟨t, ht, Or.inl rfl⟩), hv t.2.2 (Or.inr ⟨t, ht, Or.inr rfl⟩)]
    intro i x
    rw [applyFunc_mem _ a is l hr]
    constructor
    · rintro ⟨hi, o, ho, hx⟩
      obtain ⟨h1, h2⟩ := (pyomoValue_iff σ o x).1 hx
      exact ⟨hi, o, ho, by rw [h2, hm o h1]⟩
    · rintro ⟨hi, o, ho, rfl⟩
      have h1 := hk n a (List.mem_of_getElem? hc) i hi o ho
      exact ⟨hi, o, ho, (pyomoValue_iff σ o _).2 ⟨h1, (hm o h1).symm⟩⟩
  · intro k n a hc
    obtain ⟨l, hl, hr⟩ := e2 k n _ hc
    refine ⟨l, hl, ?_⟩
    simp only [readOne, Option.some.injEq] at hr
    subst hr
    intro i x
    unfold getVariable
    rw [List.mem_filterMap]
    constructor
    · rintro ⟨j, hj, hx⟩
      cases ha : a j with
      | none => rw [ha] at hx; cases hx
      | some v =>
        rw [ha] at hx
        simp only [Option.map_eq_some_iff] at hx
        obtain ⟨y, hy, he⟩ := hx
        obtain ⟨rfl, rfl⟩ := Prod.mk.inj he
        exact ⟨hj, v, ha, hy⟩
    · rintro ⟨hi, v, ha, hx⟩
      exact ⟨i, hi, by rw [ha]; simp only [hx, Option.map_some]⟩

/-- **C100 (negative).** If a single variable without a value occurs in a single item of an expression, there are no
results at all: `ValueError`. -/
theorem C100_one_unknown (n : String) (a : ι → Option Obj) (hm : (n, Array.expressions a) ∈ cs) (i : ι) (hi : i ∈ is)
    (o : Obj) (ho : a i = some o) (v : Nat) (hv : Occurs v o) (hs : σ v = none) :
    loadResults (pyomoValue σ) σ is cs = none := by
  cases h : loadResults (pyomoValue σ) σ is cs with
  | none => rfl
  | some r =>
    obtain ⟨y, hy⟩ := (C100_loads_iff σ is cs).1 ⟨r, h⟩ n a hm i hi o ho v hv
    rw [hs] at hy
    cases hy

/-- **C100 (expressions before a solve).** Asked for values of an expression some of whose variables have none,
`get_global_expression` gives texts for all items, also for those whose value is known. -/
theorem C100_texts_for_all (a : ι → Option Obj) :
    (Known σ is a → ∃ l, getExpression (pyomoValue σ) is a = .numbers l) ∧
    (¬ Known σ is a → getExpression (pyomoValue σ) is a = .texts (objects a is) ∧
      ∀ i o, (i, o) ∈ objects a is ↔ i ∈ is ∧ a i = some o) := by
  refine ⟨?_, ?_⟩
  · intro h
    obtain ⟨l, hl⟩ := (applyFunc_some (pyomoValue σ) a is).2 (fun i hi o ho =>
      ⟨meaning (total σ) o, (pyomoValue_iff σ o _).2 ⟨h i hi o ho, rfl⟩⟩)
    exact ⟨l, by unfold getExpression; rw [hl]⟩
  · intro h
    refine ⟨?_, ?_⟩
    · unfold getExpression
      cases hl : applyFunc (pyomoValue σ) a is with
      | none => rfl
      | some l =>
        exfalso
        apply h
        intro i hi o ho
        obtain ⟨x, hx⟩ := (applyFunc_some _ a is).1 ⟨l, hl⟩ i hi o ho
        exact ((pyomoValue_iff σ o x).1 hx).1
    · intro i o
      unfold objects
      rw [List.mem_filterMap]
      constructor
      · rintro ⟨j, hj, he⟩
        simp only [Option.map_eq_some_iff] at he
        obtain ⟨o', ho', he⟩ := he
        obtain ⟨rfl, rfl⟩ := Prod.mk.inj he
        exact ⟨hj, ho'⟩
      · rintro ⟨hi, ho⟩
        exact ⟨i, hi, by rw [ho]; rfl⟩

/-- **C100 (Gurobi).** For problems without products of variables in expressions and objectives, results with Gurobi
are those with Pyomo for the same values of the variables.  Missing: products (`C100_gurobi_products`). -/
theorem C100_gurobi_partial (h : ∀ n a, (n, Array.expressions a) ∈ cs → ∀ i o, a i = some o → Linear o) :
    loadResults (gurobiValue σ) σ is cs = loadResults (pyomoValue σ) σ is cs := by
  induction cs with
  | nil => rfl
  | cons c cs ih =>
    obtain ⟨n, a⟩ := c
    simp only [loadResults]
    rw [ih (fun m b hm => h m b (List.mem_cons_of_mem _ hm))]
    have : readOne (gurobiValue σ) σ is a = readOne (pyomoValue σ) σ is a := by
      cases a with
      | «variables» a => rfl
      | expressions a =>
        simp only [readOne]
        rw [asFloat_getExpression _ (fun _ => rfl), asFloat_getExpression _ (fun _ => rfl)]
        have hl := h n a (by simp)
        clear ih h
        induction is with
        | nil => rfl
        | cons i is ih =>
          simp only [applyFunc]
          cases ha : a i with
          | none => exact ih
          | some o => simp only [ih, gurobiValue_linear σ o (hl i o ha)]
    rw [this]

/-- **C100 (negative).** With Gurobi, a product of variables in an item of a global expression or objective makes
loading the results of a solved problem fail, whatever the values. -/
theorem C100_gurobi_products (n : String) (a : ι → Option Obj) (hm : (n, Array.expressions a) ∈ cs) (i : ι)
    (hi : i ∈ is) (o : Obj) (ho : a i = some o) (hq : ¬ Linear o) :
    loadResults (gurobiValue σ) σ is cs = none := by
  cases h : loadResults (gurobiValue σ) σ is cs with
  | none => rfl
  | some r =>
    obtain ⟨l, hl⟩ := (load_some _ σ is cs).1 ⟨r, h⟩ _ hm
    simp only [readOne] at hl
    rw [asFloat_getExpression _ (fun _ => rfl)] at hl
    obtain ⟨x, hx⟩ := (applyFunc_some _ a is).1 ⟨l, hl⟩ i hi o ho
    cases o with
    | num q => exact absurd trivial hq
    | var v => exact absurd trivial hq
    | sum c l q =>
      cases q with
      | nil => exact absurd rfl hq
      | cons t q => simp [gurobiValue] at hx

end Theorems

section Demo

/-- Two items; `flow` is defined at both, `cost` is `3 * flow + 1`. -/
def flow : Nat → Option Nat := fun i => if i < 2 then some i else none
def cost : Nat → Option Obj := fun i => if i < 2 then some (.sum 1 [(3, i)] []) else none
def found : Values := fun v => if v = 0 then some 5 else if v = 1 then some 7 else none

example : loadResults (pyomoValue found) found [0, 1, 2]
    [("flow", .variables flow), ("cost", .expressions cost)] =
    some [("flow", [(0, 5), (1, 7)]), ("cost", [(0, 16), (1, 22)])] := by decide +kernel

/-- The second variable got no value: nothing can be loaded, although the first item is known. -/
example : loadResults (pyomoValue (fun v => if v = 0 then some 5 else none)) (fun v => if v = 0 then some 5 else none)
    [0, 1, 2] [("flow", .variables flow), ("cost", .expressions cost)] = none := by decide +kernel

/-- A squared flow can be read with Pyomo and not with Gurobi. -/
example : loadResults (pyomoValue found) found [0]
      [("square", .expressions (fun _ => some (.sum 0 [] [(1, 0, 0)])))] = some [("square", [(0, 25)])] ∧
    loadResults (gurobiValue found) found [0]
      [("square", .expressions (fun _ => some (.sum 0 [] [(1, 0, 0)])))] = none ∧
    ¬ Linear (.sum 0 [] [(1, 0, 0)]) := by
  refine ⟨by decide +kernel, by decide +kernel, by simp [Linear]⟩

example : ∀ i o, cost i = some o → Linear o := by
  intro i o h
  unfold cost at h
  split at h
  · rw [← Option.some.inj h]; rfl
  · cases h

end Demo

end Readback
end Calliope
