import Verif.Model.MathSchema

/-!
# Property C17 (and part of C18): names in the math definition
-/

namespace Calliope
namespace Math
variable {δ : Type}

/-- Specification: `n` is the name of an active component of field `f` with definition `c`. -/
def IsActive (m : MathDef δ) (f : Field) (n : String) (c : Component δ) : Prop :=
  (n, c) ∈ m f ∧ c.active = true

theorem mem_activeNames (m : MathDef δ) (f : Field) (n : String) :
    n ∈ activeNames m f ↔ ∃ c, IsActive m f n c := by
  simp [activeNames, activeOf, IsActive]

theorem lookup_of_mem {l : List (String × Component δ)} (h : (l.map Prod.fst).Nodup) {n c}
    (hm : (n, c) ∈ l) : l.lookup n = some c := by
  induction l with
  | nil => simp at hm
  | cons x l ih =>
    obtain ⟨k, v⟩ := x
    simp only [List.map_cons, List.nodup_cons] at h
    rw [List.mem_cons] at hm
    rcases hm with hm | hm
    · cases hm; simp [List.lookup]
    · have : n ≠ k := by
        rintro rfl
        exact h.1 (List.mem_map.2 ⟨(n, c), hm, rfl⟩)
      have hb : (n == k) = false := by simpa using this
      simp [List.lookup, hb, ih h.2 hm]

theorem insertByLen_perm (g : List String) (l) : (insertByLen g l).Perm (g :: l) := by
  induction l with
  | nil => exact List.Perm.refl _
  | cons h t ih =>
    simp only [insertByLen]; split
    · exact List.Perm.refl _
    · exact (List.Perm.cons h ih).trans (List.Perm.swap ..)

theorem sortByLen_perm (l : List (List String)) : (sortByLen l).Perm l := by
  induction l with
  | nil => exact List.Perm.refl _
  | cons g t ih => exact (insertByLen_perm g _).trans (List.Perm.cons g ih)

theorem pairwise_forall {α : Type} {R : α → α → Prop} (hs : ∀ a b, R a b → R b a)
    (hr : ∀ a, R a a) {l : List α} (h : l.Pairwise R) : ∀ a ∈ l, ∀ b ∈ l, R a b := by
  induction h with
  | nil => simp
  | cons hx _ ih =>
    intro a ha b hb
    rcases List.mem_cons.1 ha with ea | ha' <;> rcases List.mem_cons.1 hb with eb | hb'
    · rw [ea, eb]; exact hr _
    · rw [ea]; exact hx _ hb'
    · rw [eb]; exact hs _ _ (hx _ ha')
    · exact ih _ ha' _ hb'

theorem dupLoop_nil (gs : List (List String)) (seen dups : List String) :
    dupLoop gs seen dups = [] ↔
      dups = [] ∧ (∀ g ∈ gs, ∀ n ∈ g, n ∉ seen) ∧ gs.Pairwise (fun a b => ∀ n ∈ b, n ∉ a) := by
  induction gs generalizing seen dups with
  | nil => simp [dupLoop]
  | cons g gs ih =>
    simp only [dupLoop, ih, List.append_eq_nil_iff, List.filter_eq_nil_iff, List.mem_cons,
      List.mem_append, List.pairwise_cons, List.contains_eq_mem, decide_eq_true_eq]
    constructor
    · rintro ⟨⟨h1, h2⟩, h3, h4⟩
      refine ⟨h1, ?_, ?_, h4⟩
      · rintro x (rfl | hx) n hn
        · exact h2 n hn
        · exact fun hs => h3 x hx n hn (Or.inl hs)
      · intro b hb n hn hg; exact h3 b hb n hn (Or.inr hg)
    · rintro ⟨h1, h2, h3, h4⟩
      refine ⟨⟨h1, fun n hn => h2 g (Or.inl rfl) n hn⟩, ?_, h4⟩
      rintro x hx n hn (hs | hg)
      · exact h2 x (Or.inr hx) n hn hs
      · exact h3 x hx n hn hg

/-- C17: validation accepts a math definition exactly when no name is active in two different
fields. -/
theorem C17_unique_names (m : MathDef δ) :
    uniqueComponentNames m = .ok () ↔
      ∀ f f' n c c', IsActive m f n c → IsActive m f' n c' → f = f' := by
  have hsym : ∀ {a b : List String}, (∀ n ∈ b, n ∉ a) → ∀ n ∈ a, n ∉ b :=
    fun h n ha hb => h n hb ha
  have h1 : uniqueComponentNames m = .ok () ↔
      (Field.all.map (activeNames m)).Pairwise (fun a b => ∀ n ∈ b, n ∉ a) := by
    simp only [uniqueComponentNames]
    rw [← (sortByLen_perm (Field.all.map (activeNames m))).pairwise_iff hsym]
    split
    · rename_i h; rw [dupLoop_nil] at h; simp [h.2.2]
    · rename_i h; rw [dupLoop_nil] at h; simp at h ⊢
      intro hp; exact h hp
  rw [h1, List.pairwise_map]
  constructor
  · intro hp f f' n c c' ha ha'
    by_cases hne : f = f'
    · exact hne
    exfalso
    have hp' : ∀ g ∈ Field.all, ∀ g' ∈ Field.all, g ≠ g' → ∀ n ∈ activeNames m g', n ∉ activeNames m g := by
      intro g hg g' hg' hne
      exact pairwise_forall (R := fun g g' => g ≠ g' → ∀ n ∈ activeNames m g', n ∉ activeNames m g)
        (fun x y h hxy => hsym (h hxy.symm)) (fun x h => absurd rfl h)
        (hp.imp (S := fun g g' => g ≠ g' → ∀ n ∈ activeNames m g', n ∉ activeNames m g)
          (fun h _ => h)) g hg g' hg' hne
    have hall : ∀ g : Field, g ∈ Field.all := by intro g; cases g <;> decide
    exact hp' f (hall f) f' (hall f') hne n ((mem_activeNames m f' n).2 ⟨c', ha'⟩)
      ((mem_activeNames m f n).2 ⟨c, ha⟩)
  · intro h
    have hnd : Field.all.Nodup := by decide
    refine hnd.imp ?_
    intro f f' hne n hn hn'
    obtain ⟨c, hc⟩ := (mem_activeNames m f' n).1 hn
    obtain ⟨c', hc'⟩ := (mem_activeNames m f n).1 hn'
    exact hne (h f f' n c' c hc' hc)

/-- A parameter and a deactivated variable share a name: accepted. -/
def exampleMathDef : MathDef Nat
  | .parameters => [("flow_cap", ⟨true, 1⟩), ("old", ⟨false, 2⟩)]
  | .variables => [("flow_cap", ⟨false, 3⟩), ("flow_out", ⟨true, 4⟩)]
  | .globalExpressions => [("cost", ⟨true, 5⟩), ("gone", ⟨false, 6⟩)]
  | _ => []

theorem exampleMathDef_unique : uniqueComponentNames exampleMathDef = .ok () := by decide

example : uniqueComponentNames (fun f => if f = .parameters ∨ f = .variables then
    [("flow_cap", (⟨true, 1⟩ : Component Nat))] else []) = .error .valueError := by decide

/-- C17: in an accepted math definition, looking up a name returns *the* active definition of
that name, and raises `KeyError` when there is none. -/
theorem C17_find (m : MathDef δ) (hw : m.WF) (hu : uniqueComponentNames m = .ok ()) (n : String) :
    (∀ f c, f ≠ .checks → IsActive m f n c → find m n [] = .ok c) ∧
    ((∀ f c, f ≠ .checks → ¬ IsActive m f n c) → find m n [] = .error .keyError) := by
  rw [C17_unique_names] at hu
  have hmem : ∀ f, f ∈ (Field.all.filter (· ≠ .checks)).filter
      (fun f => (activeNames m f).contains n) ↔ f ≠ .checks ∧ ∃ c, IsActive m f n c := by
    intro f
    have hall : f ∈ Field.all := by cases f <;> decide
    simp [List.mem_filter, hall, mem_activeNames, and_comm]
  constructor
  · intro f c hf ha
    have hnd : ((Field.all.filter (· ≠ .checks)).filter
        (fun f => (activeNames m f).contains n)).Nodup := by
      exact List.Pairwise.filter _ (List.Pairwise.filter _ (by decide))
    have hfound : (Field.all.filter (· ≠ .checks)).filter
        (fun f => (activeNames m f).contains n) = [f] := by
      rcases hl : (Field.all.filter (· ≠ .checks)).filter
        (fun f => (activeNames m f).contains n) with _ | ⟨g, gs⟩
      · have := (hmem f).2 ⟨hf, c, ha⟩
        rw [hl] at this; simp at this
      · have hall : ∀ g' ∈ g :: gs, g' = f := by
          intro g' hg'
          rw [← hl, hmem] at hg'
          obtain ⟨_, c', hc'⟩ := hg'
          exact hu g' f n c' c hc' ha
        have hg := hall g (by simp)
        subst hg
        cases gs with
        | nil => exact hl
        | cons g2 gs =>
          have := hall g2 (by simp)
          subst this
          rw [hl] at hnd
          simp at hnd
    simp only [find, if_true, hfound, lookup_of_mem (hw f) ha.1]
  · intro h
    have hfound : (Field.all.filter (· ≠ .checks)).filter
        (fun f => (activeNames m f).contains n) = [] := by
      rcases hl : (Field.all.filter (· ≠ .checks)).filter
        (fun f => (activeNames m f).contains n) with _ | ⟨g, gs⟩
      · exact hl
      · have : g ∈ g :: gs := by simp
        rw [← hl, hmem] at this
        obtain ⟨h1, c, h2⟩ := this
        exact absurd h2 (h g c h1)
    simp only [find, if_true, hfound]

example : find exampleMathDef "flow_cap" [] = .ok ⟨true, 1⟩ ∧
    find exampleMathDef "old" [] = .error .keyError := by decide

/-- Specification: the fields whose components are data, and those that are computed. -/
def IsInputField (f : Field) : Prop := f = .parameters ∨ f = .lookups
def IsResultField (f : Field) : Prop := f = .variables ∨ f = .globalExpressions

/-- C18: a name may be used in an expression exactly when it is an active dimension, input
or result; a deactivated component cannot be referenced. -/
theorem C18_expression_names (m : MathDef δ) (n : String) :
    (∃ k, n ∈ expressionNames m k) ↔
      ∃ f c, (f = .dimensions ∨ IsInputField f ∨ IsResultField f) ∧ IsActive m f n c := by
  constructor
  · rintro ⟨k, hk⟩
    simp only [expressionNames, List.mem_flatMap] at hk
    obtain ⟨f, hf, hn⟩ := hk
    obtain ⟨c, hc⟩ := (mem_activeNames m f n).1 hn
    refine ⟨f, c, ?_, hc⟩
    cases k <;> simp [NameKind.fields] at hf <;> simp [IsInputField, IsResultField, hf]
    rcases hf with h | h <;> simp [h]
  · rintro ⟨f, c, hf, hc⟩
    have hn := (mem_activeNames m f n).2 ⟨c, hc⟩
    rcases hf with rfl | (rfl | rfl) | (rfl | rfl)
    · exact ⟨.dimensions, by simp [expressionNames, NameKind.fields, hn]⟩
    · exact ⟨.inputs, by simp [expressionNames, NameKind.fields, hn]⟩
    · exact ⟨.inputs, by simp [expressionNames, NameKind.fields, hn]⟩
    · exact ⟨.results, by simp [expressionNames, NameKind.fields, hn]⟩
    · exact ⟨.results, by simp [expressionNames, NameKind.fields, hn]⟩

/-- C18: in where strings every input (result) name of the math can be used, active or not,
and names that are both read as the active one: a name is offered as an input exactly when an
active input has it, or an input has it and no input or result of that name is active. -/
theorem C18_where_names (m : MathDef δ) (n : String) :
    (n ∈ whereNames m .inputs ↔
      (∃ f c, IsInputField f ∧ IsActive m f n c) ∨
      ((∃ f c, IsInputField f ∧ (n, c) ∈ m f) ∧
        ∀ f c, (IsInputField f ∨ IsResultField f) → ¬ IsActive m f n c)) ∧
    (n ∈ whereNames m .results ↔
      (∃ f c, IsResultField f ∧ IsActive m f n c) ∨
      ((∃ f c, IsResultField f ∧ (n, c) ∈ m f) ∧
        ∀ f c, (IsInputField f ∨ IsResultField f) → ¬ IsActive m f n c)) := by
  have hE : ∀ k : NameKind, n ∈ expressionNames m k ↔ ∃ f ∈ k.fields, ∃ c, IsActive m f n c := by
    intro k; simp only [expressionNames, List.mem_flatMap, mem_activeNames]
  have hA : (n ∈ expressionNames m .results ∨ n ∈ expressionNames m .inputs) ↔
      ¬ ∀ f c, (IsInputField f ∨ IsResultField f) → ¬ IsActive m f n c := by
    rw [hE, hE]
    constructor
    · rintro (⟨f, hf, c, hc⟩ | ⟨f, hf, c, hc⟩) h
      · exact h f c (Or.inr (by simpa [NameKind.fields, IsResultField] using hf)) hc
      · exact h f c (Or.inl (by
          simp [NameKind.fields] at hf
          rcases hf with h | h <;> simp [IsInputField, h])) hc
    · intro h
      apply Classical.byContradiction
      intro hno
      apply h
      rintro f c (hf | hf) ha
      · exact hno (Or.inr ⟨f, by rcases hf with rfl | rfl <;> simp [NameKind.fields], c, ha⟩)
      · exact hno (Or.inl ⟨f, by rcases hf with rfl | rfl <;> simp [NameKind.fields], c, ha⟩)
  have key : ∀ k : NameKind, k ≠ .dimensions → ∀ P : Field → Prop, (∀ f, f ∈ k.fields ↔ P f) →
      (n ∈ whereNames m k ↔ (∃ f c, P f ∧ IsActive m f n c) ∨
        ((∃ f c, P f ∧ (n, c) ∈ m f) ∧
          ∀ f c, (IsInputField f ∨ IsResultField f) → ¬ IsActive m f n c)) := by
    intro k hk P hP
    have hw : whereNames m k = expressionNames m k ++
        (k.fields.flatMap (fun f => (m f).map Prod.fst)).filter
          (fun n => !(expressionNames m .results ++ expressionNames m .inputs).contains n) := by
      cases k with
      | dimensions => exact absurd rfl hk
      | inputs => rfl
      | results => rfl
    rw [hw, List.mem_append, List.mem_filter, hE]
    have e1 : (∃ f ∈ k.fields, ∃ c, IsActive m f n c) ↔ ∃ f c, P f ∧ IsActive m f n c :=
      ⟨fun ⟨f, hf, c, hc⟩ => ⟨f, c, (hP f).1 hf, hc⟩, fun ⟨f, c, hf, hc⟩ => ⟨f, (hP f).2 hf, c, hc⟩⟩
    have e2 : n ∈ k.fields.flatMap (fun f => (m f).map Prod.fst) ↔ ∃ f c, P f ∧ (n, c) ∈ m f := by
      simp only [List.mem_flatMap, List.mem_map]
      constructor
      · rintro ⟨f, hf, ⟨a, c⟩, hx, rfl⟩; exact ⟨f, c, (hP f).1 hf, hx⟩
      · rintro ⟨f, c, hf, hx⟩; exact ⟨f, (hP f).2 hf, (n, c), hx, rfl⟩
    have e3 : ((!(expressionNames m .results ++ expressionNames m .inputs).contains n) = true) ↔
        ∀ f c, (IsInputField f ∨ IsResultField f) → ¬ IsActive m f n c := by
      simp only [List.contains_eq_mem, List.mem_append, Bool.not_eq_true', decide_eq_false_iff_not]
      rw [hA, Classical.not_not]
    rw [e1, e2, e3]
  exact ⟨key .inputs (by simp) IsInputField (by
      intro f; simp [NameKind.fields, IsInputField, or_comm]),
    key .results (by simp) IsResultField (by intro f; simp [NameKind.fields, IsResultField])⟩

/-- `old` is a deactivated parameter: usable in where strings, not in expressions. -/
example : "old" ∈ whereNames exampleMathDef .inputs ∧
    (∀ k, "old" ∉ expressionNames exampleMathDef k) ∧
    "flow_cap" ∉ whereNames exampleMathDef .results := by
  refine ⟨by decide, ?_, by decide⟩
  intro k; cases k <;> decide

end Math
end Calliope
