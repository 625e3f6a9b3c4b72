import Verif.Model.Equations

/-!
# C34: at most one equation applies to any index item
-/

namespace Calliope
namespace Equations

variable {ι κ V : Type}

/-- An equation applies to an item: the component's and its own condition hold there together. -/
def Applies (ks : List κ) (top : ι → κ → Bool) (e : Eqn ι κ V) (i : ι) : Prop :=
  ∃ k ∈ ks, top i k = true ∧ e.cond i k = true

theorem eqWhere_iff {ks : List κ} {top : ι → κ → Bool} {e : Eqn ι κ V} {i : ι} :
    eqWhere ks top e i = true ↔ Applies ks top e i := by
  simp [eqWhere, dropDims, Applies, List.any_eq_true]

/-- No two equations of the list apply to a common item. -/
def Exclusive (is : List ι) (ks : List κ) (top : ι → κ → Bool) (es : List (Eqn ι κ V)) : Prop :=
  es.Pairwise (fun e e' => ∀ i ∈ is, ¬ (Applies ks top e i ∧ Applies ks top e' i))

/-- Every equation has an expression wherever it applies. -/
def Complete (is : List ι) (ks : List κ) (top : ι → κ → Bool) (es : List (Eqn ι κ V)) : Prop :=
  ∀ e ∈ es, ∀ i ∈ is, Applies ks top e i → (e.expr i).isSome = true

theorem any_false {is : List ι} {p : ι → Bool} :
    (¬ is.any p = true) ↔ ∀ i ∈ is, p i = false := by
  simp [List.any_eq_true]

/-- The loop from any point: it succeeds exactly when the remaining equations are complete, mutually
exclusive and do not apply where something is set; then each item gets what applies to it. -/
theorem loop_spec (is : List ι) (ks : List κ) (top : ι → κ → Bool) (es : List (Eqn ι κ V)) :
    ∀ comp : ι → Option V,
    ((∃ f, loop is ks top es comp = .ok f) ↔
      (Exclusive is ks top es ∧ Complete is ks top es ∧
        ∀ e ∈ es, ∀ i ∈ is, Applies ks top e i → comp i = none)) ∧
    ∀ f, loop is ks top es comp = .ok f → ∀ i ∈ is,
      (∀ e ∈ es, Applies ks top e i → f i = e.expr i) ∧
      ((∀ e ∈ es, ¬ Applies ks top e i) → f i = comp i) := by
  induction es with
  | nil =>
    intro comp
    refine ⟨⟨fun _ => ⟨List.Pairwise.nil, (by intro e he; cases he), (by intro e he; cases he)⟩,
      fun _ => ⟨comp, rfl⟩⟩, ?_⟩
    intro f hf i _
    cases hf
    exact ⟨(by intro e he; cases he), fun _ => rfl⟩
  | cons e es ih =>
    intro comp
    unfold loop
    by_cases h1 : is.any (eqWhere ks top e) = true
    · rw [if_pos h1]
      by_cases h2 : is.any (fun i => eqWhere ks top e i && (comp i).isSome) = true
      · rw [if_pos h2]
        refine ⟨⟨fun ⟨f, hf⟩ => (by cases hf), ?_⟩, fun f hf => by cases hf⟩
        rintro ⟨_, _, h⟩
        obtain ⟨i, hi, hx⟩ := List.any_eq_true.1 h2
        rw [Bool.and_eq_true] at hx
        have := h e List.mem_cons_self i hi (eqWhere_iff.1 hx.1)
        rw [this] at hx
        cases hx.2
      · rw [if_neg h2]
        by_cases h3 : is.any (fun i => eqWhere ks top e i && (e.expr i).isNone) = true
        · rw [if_pos h3]
          refine ⟨⟨fun ⟨f, hf⟩ => (by cases hf), ?_⟩, fun f hf => by cases hf⟩
          rintro ⟨_, h, _⟩
          obtain ⟨i, hi, hx⟩ := List.any_eq_true.1 h3
          rw [Bool.and_eq_true] at hx
          have := h e List.mem_cons_self i hi (eqWhere_iff.1 hx.1)
          cases hh : e.expr i with
          | none => rw [hh] at this; cases this
          | some v => rw [hh] at hx; cases hx.2
        · rw [if_neg h3]
          have h2' := any_false.1 h2
          have h3' := any_false.1 h3
          have hfree : ∀ i ∈ is, Applies ks top e i → comp i = none := by
            intro i hi ha
            have := h2' i hi
            rw [eqWhere_iff.2 ha, Bool.true_and] at this
            simpa using this
          have hsome : ∀ i ∈ is, Applies ks top e i → (e.expr i).isSome = true := by
            intro i hi ha
            have := h3' i hi
            rw [eqWhere_iff.2 ha, Bool.true_and] at this
            cases hh : e.expr i with
            | none => rw [hh] at this; cases this
            | some v => rfl
          have hfill1 : ∀ i ∈ is, Applies ks top e i →
              fill (eqWhere ks top e) e.expr comp i = e.expr i := by
            intro i hi ha
            unfold fill
            rw [hfree i hi ha]
            simp [eqWhere_iff.2 ha]
          have hfill2 : ∀ i, ¬ Applies ks top e i →
              fill (eqWhere ks top e) e.expr comp i = comp i := by
            intro i ha
            unfold fill
            have : eqWhere ks top e i = false := by
              cases hh : eqWhere ks top e i with
              | false => rfl
              | true => exact absurd (eqWhere_iff.1 hh) ha
            rw [this]
            cases comp i <;> rfl
          obtain ⟨ih1, ih2⟩ := ih (fill (eqWhere ks top e) e.expr comp)
          constructor
          · rw [ih1]
            constructor
            · rintro ⟨hx, hc, hf⟩
              refine ⟨List.pairwise_cons.2 ⟨?_, hx⟩, ?_, ?_⟩
              · intro e' he' i hi ⟨ha, ha'⟩
                have hn := hf e' he' i hi ha'
                rw [hfill1 i hi ha] at hn
                have := hsome i hi ha
                rw [hn] at this
                cases this
              · intro e' he' i hi ha
                rcases List.mem_cons.1 he' with rfl | he'
                · exact hsome i hi ha
                · exact hc e' he' i hi ha
              · intro e' he' i hi ha
                rcases List.mem_cons.1 he' with rfl | he'
                · exact hfree i hi ha
                · have hn := hf e' he' i hi ha
                  by_cases hae : Applies ks top e i
                  · exact hfree i hi hae
                  · rw [hfill2 i hae] at hn; exact hn
            · rintro ⟨hx, hc, hf⟩
              have hx' := List.pairwise_cons.1 hx
              refine ⟨hx'.2, fun e' he' => hc e' (List.mem_cons_of_mem _ he'), ?_⟩
              intro e' he' i hi ha
              have hae : ¬ Applies ks top e i := fun hh => hx'.1 e' he' i hi ⟨hh, ha⟩
              rw [hfill2 i hae]
              exact hf e' (List.mem_cons_of_mem _ he') i hi ha
          · intro f hf i hi
            obtain ⟨g1, g2⟩ := ih2 f hf i hi
            obtain ⟨hx, _, hn⟩ := ih1.1 ⟨f, hf⟩
            constructor
            · intro e' he' ha
              rcases List.mem_cons.1 he' with rfl | he'
              · have hno : ∀ e'' ∈ es, ¬ Applies ks top e'' i := by
                  intro e'' he'' ha''
                  have h := hn e'' he'' i hi ha''
                  rw [hfill1 i hi ha] at h
                  have h' := hsome i hi ha
                  rw [h] at h'
                  cases h'
                rw [g2 hno, hfill1 i hi ha]
              · exact g1 e' he' ha
            · intro hno
              rw [g2 (fun e' he' => hno e' (List.mem_cons_of_mem _ he')),
                hfill2 i (hno e List.mem_cons_self)]
    · rw [if_neg h1]
      have h1' := any_false.1 h1
      have hno : ∀ i ∈ is, ¬ Applies ks top e i := by
        intro i hi ha
        have := h1' i hi
        rw [eqWhere_iff.2 ha] at this
        cases this
      obtain ⟨ih1, ih2⟩ := ih comp
      constructor
      · rw [ih1]
        constructor
        · rintro ⟨hx, hc, hf⟩
          refine ⟨List.pairwise_cons.2 ⟨fun e' _ i hi hh => hno i hi hh.1, hx⟩, ?_, ?_⟩
          · intro e' he' i hi ha
            rcases List.mem_cons.1 he' with rfl | he'
            · exact absurd ha (hno i hi)
            · exact hc e' he' i hi ha
          · intro e' he' i hi ha
            rcases List.mem_cons.1 he' with rfl | he'
            · exact absurd ha (hno i hi)
            · exact hf e' he' i hi ha
        · rintro ⟨hx, hc, hf⟩
          exact ⟨(List.pairwise_cons.1 hx).2, fun e' he' => hc e' (List.mem_cons_of_mem _ he'),
            fun e' he' => hf e' (List.mem_cons_of_mem _ he')⟩
      · intro f hf i hi
        obtain ⟨g1, g2⟩ := ih2 f hf i hi
        refine ⟨?_, fun h => g2 (fun e' he' => h e' (List.mem_cons_of_mem _ he'))⟩
        intro e' he' ha
        rcases List.mem_cons.1 he' with rfl | he'
        · exact absurd ha (hno i hi)
        · exact g1 e' he' ha

/-- C34: evaluation succeeds exactly when no two equations apply to a common item and every equation has
a value where it applies; otherwise `BackendError` is raised.  On success each item holds the expression
of the single equation that applies to it, and nothing if none does. -/
theorem C34_single_equation (is : List ι) (ks : List κ) (top : ι → κ → Bool)
    (es : List (Eqn ι κ V)) :
    ((∃ f, evalEquations is ks top es = .ok f) ↔
      (Exclusive is ks top es ∧ Complete is ks top es)) ∧
    ∀ f, evalEquations is ks top es = .ok f → ∀ i ∈ is,
      (∀ e ∈ es, Applies ks top e i → f i = e.expr i ∧ (f i).isSome = true) ∧
      ((∀ e ∈ es, ¬ Applies ks top e i) → f i = none) := by
  obtain ⟨h1, h2⟩ := loop_spec is ks top es (fun _ => (none : Option V))
  have h1' : (∃ f, evalEquations is ks top es = .ok f) ↔
      (Exclusive is ks top es ∧ Complete is ks top es) := by
    unfold evalEquations
    rw [h1]
    exact ⟨fun h => ⟨h.1, h.2.1⟩, fun h => ⟨h.1, h.2, fun _ _ _ _ _ => rfl⟩⟩
  refine ⟨h1', ?_⟩
  intro f hf i hi
  obtain ⟨g1, g2⟩ := h2 f hf i hi
  refine ⟨?_, g2⟩
  intro e he ha
  refine ⟨g1 e he ha, ?_⟩
  rw [g1 e he ha]
  exact (h1'.1 ⟨f, hf⟩).2 e he i hi ha

/-- C34: an overlap is always reported: if two equations (at different places of the list) apply to a
common item, the call raises, wherever in the list they are. -/
theorem C34_overlap_raises (is : List ι) (ks : List κ) (top : ι → κ → Bool)
    (pre mid post : List (Eqn ι κ V)) (e e' : Eqn ι κ V) (i : ι) (hi : i ∈ is)
    (h : Applies ks top e i) (h' : Applies ks top e' i) :
    ∃ err, evalEquations is ks top (pre ++ e :: (mid ++ e' :: post)) = .error err := by
  cases hr : evalEquations is ks top (pre ++ e :: (mid ++ e' :: post)) with
  | error err => exact ⟨err, rfl⟩
  | ok f =>
    exfalso
    have hx := ((C34_single_equation is ks top _).1.1 ⟨f, hr⟩).1
    unfold Exclusive at hx
    rw [List.pairwise_append] at hx
    have := (List.pairwise_cons.1 hx.2.1).1 e' (by simp) i hi
    exact this ⟨h, h'⟩

/-- C34: the result does not depend on the order of the equations: both orders fail, or both succeed
with the same content at every item. -/
theorem C34_order_irrelevant (is : List ι) (ks : List κ) (top : ι → κ → Bool)
    (es es' : List (Eqn ι κ V)) (hp : es.Perm es') :
    (∀ f, evalEquations is ks top es = .ok f →
      ∃ f', evalEquations is ks top es' = .ok f' ∧ ∀ i ∈ is, f i = f' i) ∧
    ((∃ err, evalEquations is ks top es = .error err) ↔
      ∃ err, evalEquations is ks top es' = .error err) := by
  have hcond : (Exclusive is ks top es ∧ Complete is ks top es)
      ↔ (Exclusive is ks top es' ∧ Complete is ks top es') := by
    have hs : ∀ {a b : Eqn ι κ V}, (∀ i ∈ is, ¬ (Applies ks top a i ∧ Applies ks top b i)) →
        ∀ i ∈ is, ¬ (Applies ks top b i ∧ Applies ks top a i) :=
      fun h i hi hh => h i hi ⟨hh.2, hh.1⟩
    unfold Exclusive Complete
    rw [hp.pairwise_iff hs]
    exact ⟨fun h => ⟨h.1, fun e he => h.2 e (hp.mem_iff.2 he)⟩,
      fun h => ⟨h.1, fun e he => h.2 e (hp.mem_iff.1 he)⟩⟩
  have hok : (∃ f, evalEquations is ks top es = .ok f)
      ↔ ∃ f, evalEquations is ks top es' = .ok f := by
    rw [(C34_single_equation is ks top es).1, (C34_single_equation is ks top es').1, hcond]
  constructor
  · intro f hf
    obtain ⟨f', hf'⟩ := hok.1 ⟨f, hf⟩
    refine ⟨f', hf', ?_⟩
    intro i hi
    obtain ⟨a1, a2⟩ := (C34_single_equation is ks top es).2 f hf i hi
    obtain ⟨b1, b2⟩ := (C34_single_equation is ks top es').2 f' hf' i hi
    by_cases hex : ∃ e ∈ es, Applies ks top e i
    · obtain ⟨e, he, ha⟩ := hex
      rw [(a1 e he ha).1, (b1 e (hp.mem_iff.1 he) ha).1]
    · have hno : ∀ e ∈ es, ¬ Applies ks top e i := fun e he ha => hex ⟨e, he, ha⟩
      rw [a2 hno, b2 (fun e he => hno e (hp.mem_iff.2 he))]
  · have key : ∀ l : List (Eqn ι κ V), (∃ err, evalEquations is ks top l = .error err)
        ↔ ¬ ∃ f, evalEquations is ks top l = .ok f := by
      intro l
      cases evalEquations is ks top l with
      | ok f => simp
      | error e => simp
    rw [key, key, hok]

/-- Two exclusive equations over the items 0-3, the second with a gap at item 3. -/
def twoEqs : List (Eqn Nat Unit Nat) :=
  [⟨fun i _ => i < 1, fun i => some (10 + i)⟩, ⟨fun i _ => 1 ≤ i && i < 3, fun i => some (20 + i)⟩]

example : ∃ f, evalEquations [0, 1, 2, 3] [()] (fun _ _ => true) twoEqs = .ok f ∧
    [0, 1, 2, 3].map f = [some 10, some 21, some 22, none] :=
  ⟨_, rfl, by decide⟩

example : Exclusive [0, 1, 2, 3] [()] (fun _ _ => true) twoEqs
    ∧ Complete [0, 1, 2, 3] [()] (fun _ _ => true) twoEqs :=
  (C34_single_equation _ _ _ _).1.1 ⟨_, rfl⟩

example : Applies [()] (fun _ _ => true) (⟨fun i _ => i < 2, fun i => some i⟩ : Eqn Nat Unit Nat) 1
    ∧ Applies [()] (fun _ _ => true) (⟨fun i _ => 1 ≤ i, fun i => some i⟩ : Eqn Nat Unit Nat) 1 :=
  ⟨⟨(), by simp, rfl, by decide⟩, ⟨(), by simp, rfl, by decide⟩⟩

end Equations
end Calliope
