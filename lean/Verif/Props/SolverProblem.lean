import Verif.Spec.SolverProblem
import Mathlib.Data.List.Nodup

/-!
# The problem given to the solver (C96)
-/

namespace Calliope
namespace Problem

section
variable {P X : Type}

theorem create_id (k : Nat) (l : List P) (o : Obj P) (h : o ∈ create k l) : k ≤ o.id ∧ o.id < k + l.length := by
  induction l generalizing k with
  | nil => simp [create] at h
  | cons p ps ih =>
    rw [create, List.mem_cons] at h
    rw [List.length_cons]
    rcases h with rfl | h
    · exact ⟨Nat.le_refl _, by show k < _; omega⟩
    · have := ih (k + 1) h
      omega

theorem create_inj (k : Nat) (l : List P) (o o' : Obj P) (h : o ∈ create k l) (h' : o' ∈ create k l)
    (he : o.id = o'.id) : o = o' := by
  induction l generalizing k with
  | nil => simp [create] at h
  | cons p ps ih =>
    rw [create, List.mem_cons] at h h'
    rcases h with rfl | h <;> rcases h' with rfl | h'
    · rfl
    · have := (create_id (k + 1) ps o' h').1
      rw [← he] at this
      exact absurd this (by show ¬ (k + 1 ≤ k); omega)
    · have := (create_id (k + 1) ps o h).1
      rw [he] at this
      exact absurd this (by show ¬ (k + 1 ≤ k); omega)
    · exact ih (k + 1) h h'

theorem create_says (k : Nat) (l : List P) (p : P) (h : p ∈ l) : ∃ o ∈ create k l, o.says = p := by
  induction l generalizing k with
  | nil => simp at h
  | cons q qs ih =>
    rcases List.mem_cons.1 h with rfl | h
    · exact ⟨_, List.mem_cons_self, rfl⟩
    · obtain ⟨o, ho, e⟩ := ih (k + 1) h
      exact ⟨o, List.mem_cons_of_mem _ ho, e⟩

theorem create_isEmpty (k : Nat) (l : List P) (h : l ≠ []) : create k l ≠ [] := by
  cases l with
  | nil => exact absurd rfl h
  | cons p ps => simp [create]

theorem lookup_of_mem {d : List (String × Entry P)} (nd : (d.map Prod.fst).Nodup) {n : String} {e : Entry P}
    (h : (n, e) ∈ d) : d.lookup n = some e := by
  induction d with
  | nil => simp at h
  | cons x xs ih =>
    obtain ⟨m, f⟩ := x
    rw [List.map_cons, List.nodup_cons] at nd
    rw [List.lookup_cons]
    rcases List.mem_cons.1 h with h | hx
    · cases h
      simp
    · have hne : n ≠ m := by
        rintro rfl
        exact nd.1 (List.mem_map.2 ⟨_, hx, rfl⟩)
      rw [beq_false_of_ne hne]
      exact ih nd.2 hx

theorem mem_of_lookup {d : List (String × Entry P)} {n : String} {e : Entry P} (h : d.lookup n = some e) :
    (n, e) ∈ d := by
  induction d with
  | nil => simp at h
  | cons x xs ih =>
    obtain ⟨m, f⟩ := x
    rw [List.lookup_cons] at h
    by_cases hm : n = m
    · subst hm
      rw [beq_self_eq_true] at h
      cases h
      exact List.mem_cons_self
    · rw [beq_false_of_ne hm] at h
      exact List.mem_cons_of_mem _ (ih h)

theorem not_mem_of_lookup {d : List (String × Entry P)} {n : String} (h : ¬ (d.lookup n).isSome = true) :
    n ∉ d.map Prod.fst := by
  rw [Option.isSome_iff_ne_none, ne_eq, not_not, List.lookup_eq_none_iff] at h
  intro hm
  obtain ⟨x, hx, rfl⟩ := List.mem_map.1 hm
  exact absurd rfl (bne_iff_ne.1 (h x hx))

/-! ### Pyomo -/

/-- The dataset and the lists agree. -/
structure PyomoInv (s : Pyomo P) : Prop where
  names : (s.dataset.map Prod.fst).Nodup
  held : ∀ g n l, ((g, n), l) ∈ s.lists → l ≠ [] → ∃ e, (n, e) ∈ s.dataset ∧ e.group = g ∧ e.objs = l
  listed : ∀ n e, (n, e) ∈ s.dataset → e.objs ≠ [] → ((e.group, n), e.objs) ∈ s.lists

theorem pyomoInv_empty : PyomoInv (Pyomo.empty : Pyomo P) :=
  ⟨by simp [Pyomo.empty], by simp [Pyomo.empty], by simp [Pyomo.empty]⟩

theorem nodup_append_name {d : List (String × Entry P)} (nd : (d.map Prod.fst).Nodup) {n : String} (e : Entry P)
    (h : n ∉ d.map Prod.fst) : ((d ++ [(n, e)]).map Prod.fst).Nodup := by
  rw [List.map_append, List.nodup_append]
  refine ⟨nd, by simp, ?_⟩
  intro a ha b hb
  simp only [List.map_cons, List.map_nil, List.mem_singleton] at hb
  subst hb
  rintro rfl
  exact h ha

theorem pyomoInv_add (s : Pyomo P) (I : PyomoInv s) (g : Group) (n : String) (made : List P) (fails : Bool) :
    PyomoInv (s.add g n made fails) := by
  unfold Pyomo.add
  split
  · exact I
  split
  · split
    · exact I
    · refine ⟨I.names, ?_, fun n' e h he => List.mem_append_left _ (I.listed n' e h he)⟩
      intro g' n' l h hl
      rcases List.mem_append.1 h with h | h
      · exact I.held g' n' l h hl
      · rw [List.mem_singleton] at h
        cases h
        exact absurd rfl hl
  split
  · exact ⟨I.names, I.held, I.listed⟩
  rename_i hn _
  split
  · refine ⟨nodup_append_name I.names _ (not_mem_of_lookup hn), ?_, ?_⟩
    · intro g' n' l h hl
      obtain ⟨e, he, r⟩ := I.held g' n' l h hl
      exact ⟨e, List.mem_append_left _ he, r⟩
    · intro n' e h he
      rcases List.mem_append.1 h with h | h
      · exact I.listed n' e h he
      · rw [List.mem_singleton] at h
        cases h
        exact absurd rfl he
  · refine ⟨nodup_append_name I.names _ (not_mem_of_lookup hn), ?_, ?_⟩
    · intro g' n' l h hl
      rcases List.mem_append.1 h with h | h
      · obtain ⟨e, he, r⟩ := I.held g' n' l h hl
        exact ⟨e, List.mem_append_left _ he, r⟩
      · rw [List.mem_singleton] at h
        cases h
        exact ⟨_, List.mem_append_right _ (List.mem_singleton.2 rfl), rfl, rfl⟩
    · intro n' e h he
      rcases List.mem_append.1 h with h | h
      · exact List.mem_append_left _ (I.listed n' e h he)
      · rw [List.mem_singleton] at h
        cases h
        exact List.mem_append_right _ (List.mem_singleton.2 rfl)

theorem pyomoInv_delete (s : Pyomo P) (I : PyomoInv s) (g : Group) (n : String) : PyomoInv (s.delete g n) := by
  unfold Pyomo.delete
  by_cases hg : (s.dataset.lookup n).map Entry.group = some g
  · rw [if_pos hg]
    refine ⟨(List.filter_sublist.map _).nodup I.names, ?_, ?_⟩
    · intro g' n' l h hl
      have hk := List.mem_filter.1 h
      obtain ⟨e, he, hge, ho⟩ := I.held g' n' l hk.1 hl
      refine ⟨e, List.mem_filter.2 ⟨he, decide_eq_true ?_⟩, hge, ho⟩
      show n' ≠ n
      rintro rfl
      rw [lookup_of_mem I.names he] at hg
      exact absurd (by rw [← hge]; exact congrArg (·, n') (Option.some.inj hg)) (of_decide_eq_true hk.2)
    · intro n' e h he
      have hk := List.mem_filter.1 h
      refine List.mem_filter.2 ⟨I.listed n' e hk.1 he, decide_eq_true ?_⟩
      intro hc
      exact of_decide_eq_true hk.2 (Prod.mk.inj hc).2
  · rw [if_neg hg]
    refine ⟨I.names, ?_, ?_⟩
    · intro g' n' l h hl
      exact I.held g' n' l (List.mem_filter.1 h).1 hl
    · intro n' e h he
      refine List.mem_filter.2 ⟨I.listed n' e h he, decide_eq_true ?_⟩
      intro hc
      obtain ⟨h1, h2⟩ := Prod.mk.inj hc
      subst h2
      rw [lookup_of_mem I.names h] at hg
      exact hg (congrArg some h1)

theorem pyomoInv_run (s : Pyomo P) (I : PyomoInv s) (cs : List (Call P)) : PyomoInv (s.run cs) := by
  induction cs generalizing s with
  | nil => exact I
  | cons c cs ih =>
    apply ih
    cases c with
    | add g n made fails => exact pyomoInv_add s I g n made fails
    | delete g n => exact pyomoInv_delete s I g n

/-- C96: with Pyomo, after any calls that add and delete components, whether they succeed or fail, the problem given to
the solver holds exactly the objects of the components in the backend. -/
theorem C96_pyomo (cs : List (Call P)) (o : Obj P) :
    o ∈ ((Pyomo.empty : Pyomo P).run cs).problem ↔ Held ((Pyomo.empty : Pyomo P).run cs).dataset o := by
  have I := pyomoInv_run _ (pyomoInv_empty (P := P)) cs
  unfold Pyomo.problem Held
  rw [List.mem_flatMap]
  constructor
  · rintro ⟨⟨⟨g, n⟩, l⟩, hl, ho⟩
    obtain ⟨e, he, _, hobj⟩ := I.held g n l hl (List.ne_nil_of_mem ho)
    exact ⟨n, e, he, hobj ▸ ho⟩
  · rintro ⟨n, e, he, ho⟩
    exact ⟨_, I.listed n e he (List.ne_nil_of_mem ho), ho⟩

/-- C96: so that the solver looks for a point that does what the components say. -/
theorem C96_pyomo_solution (holds : P → X → Prop) (cs : List (Call P)) (x : X) :
    Solves holds (· ∈ ((Pyomo.empty : Pyomo P).run cs).problem) x ↔
      Solves holds (Held ((Pyomo.empty : Pyomo P).run cs).dataset) x := by
  simp only [Solves, C96_pyomo]

/-! ### Gurobi -/

/-- What holds after any calls. -/
structure GurobiInv (s : Gurobi P) : Prop where
  names : (s.dataset.map Prod.fst).Nodup
  fresh : ∀ o ∈ s.problem, o.id < s.next
  inj : ∀ o ∈ s.problem, ∀ o' ∈ s.problem, o.id = o'.id → o = o'
  held : ∀ n e, (n, e) ∈ s.dataset → ∀ o ∈ e.objs, o ∈ s.problem
  apart : ∀ n e n' e' o, (n, e) ∈ s.dataset → (n', e') ∈ s.dataset → o ∈ e.objs → o ∈ e'.objs → n = n'

theorem gurobiInv_empty : GurobiInv (Gurobi.empty : Gurobi P) := by
  constructor <;> simp [Gurobi.empty]

theorem gurobi_fresh (s : Gurobi P) (I : GurobiInv s) (made : List P) (o : Obj P)
    (h : o ∈ s.problem ++ create s.next made) : o.id < s.next + made.length := by
  rcases List.mem_append.1 h with h | h
  · have := I.fresh o h
    omega
  · exact (create_id _ _ _ h).2

theorem gurobi_inj (s : Gurobi P) (I : GurobiInv s) (made : List P) (o : Obj P)
    (h : o ∈ s.problem ++ create s.next made) (o' : Obj P) (h' : o' ∈ s.problem ++ create s.next made)
    (he : o.id = o'.id) : o = o' := by
  rcases List.mem_append.1 h with h | h <;> rcases List.mem_append.1 h' with h' | h'
  · exact I.inj o h o' h' he
  · have := I.fresh o h
    have := (create_id _ _ _ h').1
    omega
  · have := I.fresh o' h'
    have := (create_id _ _ _ h).1
    omega
  · exact create_inj _ _ _ _ h h' he

theorem gurobiInv_add (s : Gurobi P) (I : GurobiInv s) (g : Group) (n : String) (made : List P) (fails : Bool) :
    GurobiInv (s.add g n made fails) := by
  unfold Gurobi.add
  split
  · exact I
  split
  · exact ⟨I.names, gurobi_fresh s I made, gurobi_inj s I made,
      fun n' e h o ho => List.mem_append_left _ (I.held n' e h o ho), I.apart⟩
  rename_i hn _
  refine ⟨nodup_append_name I.names _ (not_mem_of_lookup hn), gurobi_fresh s I made, gurobi_inj s I made, ?_, ?_⟩
  · intro n' e h o ho
    rcases List.mem_append.1 h with h | h
    · exact List.mem_append_left _ (I.held n' e h o ho)
    · rw [List.mem_singleton] at h
      cases h
      exact List.mem_append_right _ ho
  · intro n₁ e₁ n₂ e₂ o h₁ h₂ ho₁ ho₂
    have old : ∀ m f, (m, f) ∈ s.dataset → o ∈ f.objs → o ∈ create s.next made → False := by
      intro m f h ho hc
      have := I.fresh o (I.held m f h o ho)
      have := (create_id _ _ _ hc).1
      omega
    rcases List.mem_append.1 h₁ with h₁ | h₁ <;> rcases List.mem_append.1 h₂ with h₂ | h₂
    · exact I.apart n₁ e₁ n₂ e₂ o h₁ h₂ ho₁ ho₂
    · rw [List.mem_singleton] at h₂
      cases h₂
      exact (old n₁ e₁ h₁ ho₁ ho₂).elim
    · rw [List.mem_singleton] at h₁
      cases h₁
      exact (old n₂ e₂ h₂ ho₂ ho₁).elim
    · rw [List.mem_singleton] at h₁ h₂
      cases h₁
      cases h₂
      rfl

theorem mem_removeAll (objs problem : List (Obj P)) (o : Obj P) :
    o ∈ removeAll objs problem ↔ o ∈ problem ∧ ∀ o' ∈ objs, o'.id ≠ o.id := by
  unfold removeAll
  rw [List.mem_filter]
  simp

theorem removeAll_sub (g : Group) (objs problem : List (Obj P)) (o : Obj P)
    (h : o ∈ if g = .variables ∨ g = .constraints then removeAll objs problem else problem) : o ∈ problem := by
  split at h
  · exact ((mem_removeAll _ _ _).1 h).1
  · exact h

theorem gurobiInv_delete (s : Gurobi P) (I : GurobiInv s) (g : Group) (n : String) : GurobiInv (s.delete g n) := by
  unfold Gurobi.delete
  cases hd : s.dataset.lookup n with
  | none => exact I
  | some e =>
    simp only []
    split
    · refine ⟨(List.filter_sublist.map _).nodup I.names, fun o h => I.fresh o (removeAll_sub g _ _ o h),
        fun o h o' h' => I.inj o (removeAll_sub g _ _ o h) o' (removeAll_sub g _ _ o' h'), ?_,
        fun n₁ e₁ n₂ e₂ o h₁ h₂ => I.apart n₁ e₁ n₂ e₂ o (List.mem_filter.1 h₁).1 (List.mem_filter.1 h₂).1⟩
      intro n' e' h o ho
      have hk := List.mem_filter.1 h
      have hp := I.held n' e' hk.1 o ho
      show o ∈ (if g = .variables ∨ g = .constraints then _ else _)
      split
      · refine (mem_removeAll _ _ _).2 ⟨hp, fun o' ho' hid => ?_⟩
        have hm := mem_of_lookup hd
        have := I.inj o' (I.held n e hm o' ho') o hp hid
        subst this
        exact of_decide_eq_true hk.2 (I.apart n' e' n e o' hk.1 hm ho ho')
      · exact hp
    · exact I

theorem gurobiInv_step (s : Gurobi P) (I : GurobiInv s) (c : Call P) : GurobiInv (s.step c) := by
  cases c with
  | add g n made fails => exact gurobiInv_add s I g n made fails
  | delete g n => exact gurobiInv_delete s I g n

theorem gurobiInv_run (s : Gurobi P) (I : GurobiInv s) (cs : List (Call P)) : GurobiInv (s.run cs) := by
  induction cs generalizing s with
  | nil => exact I
  | cons c cs ih => exact ih _ (gurobiInv_step s I c)

/-- C96: with Gurobi, after any calls, every object of a component in the backend is in the problem: deleting one
component never takes away objects of another. -/
theorem C96_gurobi_held (cs : List (Call P)) (o : Obj P) (h : Held ((Gurobi.empty : Gurobi P).run cs).dataset o) :
    o ∈ ((Gurobi.empty : Gurobi P).run cs).problem := by
  obtain ⟨n, e, he, ho⟩ := h
  exact (gurobiInv_run _ gurobiInv_empty cs).held n e he o ho

/-- C96: so that what the solver finds does what the components say, at least. -/
theorem C96_gurobi_solution (holds : P → X → Prop) (cs : List (Call P)) (x : X)
    (h : Solves holds (· ∈ ((Gurobi.empty : Gurobi P).run cs).problem) x) :
    Solves holds (Held ((Gurobi.empty : Gurobi P).run cs).dataset) x :=
  fun o ho => h o (C96_gurobi_held cs o ho)

/-- Nothing is left behind. -/
def Tidy (s : Gurobi P) : Prop := ∀ o ∈ s.problem, Held s.dataset o

theorem tidy_step (s : Gurobi P) (I : GurobiInv s) (T : Tidy s) (c : Call P) (hc : Clean c) : Tidy (s.step c) := by
  cases c with
  | add g n made fails =>
    show Tidy (s.add g n made fails)
    unfold Gurobi.add
    split
    · exact T
    split
    · rename_i hf
      rw [hc hf]
      intro o ho
      simp only [create, List.append_nil] at ho
      exact T o ho
    · intro o ho
      rcases List.mem_append.1 ho with ho | ho
      · obtain ⟨n', e, he, h⟩ := T o ho
        exact ⟨n', e, List.mem_append_left _ he, h⟩
      · exact ⟨n, _, List.mem_append_right _ (List.mem_singleton.2 rfl), ho⟩
  | delete g n =>
    show Tidy (s.delete g n)
    unfold Gurobi.delete
    cases hd : s.dataset.lookup n with
    | none => exact T
    | some e =>
      simp only []
      split
      · have hg : g = .variables ∨ g = .constraints := by
          cases g
          · exact .inl rfl
          · exact .inr rfl
          · exact absurd rfl hc
        intro o ho
        simp only [if_pos hg] at ho
        obtain ⟨hp, hne⟩ := (mem_removeAll _ _ _).1 ho
        obtain ⟨n', e', he', ho'⟩ := T o hp
        refine ⟨n', e', ?_, ho'⟩
        refine List.mem_filter.2 ⟨he', decide_eq_true ?_⟩
        show n' ≠ n
        rintro rfl
        have := (lookup_of_mem I.names he').symm.trans hd
        cases this
        exact hne o ho' rfl
      · exact T

theorem tidy_run (s : Gurobi P) (I : GurobiInv s) (T : Tidy s) (cs : List (Call P)) (hc : ∀ c ∈ cs, Clean c) :
    Tidy (s.run cs) := by
  induction cs generalizing s with
  | nil => exact T
  | cons c cs ih =>
    exact ih _ (gurobiInv_step s I c) (tidy_step s I T c (hc c List.mem_cons_self))
      (fun c' h => hc c' (List.mem_cons_of_mem _ h))

/-- C96 (partial): with Gurobi, after any calls none of which fails half way or deletes a piecewise constraint, the
problem given to the solver holds exactly the objects of the components in the backend. -/
theorem C96_gurobi_partial (cs : List (Call P)) (hc : ∀ c ∈ cs, Clean c) (o : Obj P) :
    o ∈ ((Gurobi.empty : Gurobi P).run cs).problem ↔ Held ((Gurobi.empty : Gurobi P).run cs).dataset o :=
  ⟨tidy_run _ gurobiInv_empty (by intro o h; simp [Gurobi.empty] at h) cs hc o, C96_gurobi_held cs o⟩

theorem stale_step (s : Gurobi P) (I : GurobiInv s) (c : Call P) (o : Obj P) (hp : o ∈ s.problem)
    (hd : ¬ Held s.dataset o) : o ∈ (s.step c).problem ∧ ¬ Held (s.step c).dataset o := by
  cases c with
  | add g n made fails =>
    show o ∈ (s.add g n made fails).problem ∧ ¬ Held (s.add g n made fails).dataset o
    unfold Gurobi.add
    split
    · exact ⟨hp, hd⟩
    split
    · exact ⟨List.mem_append_left _ hp, hd⟩
    · refine ⟨List.mem_append_left _ hp, ?_⟩
      rintro ⟨n', e, he, ho⟩
      rcases List.mem_append.1 he with he | he
      · exact hd ⟨n', e, he, ho⟩
      · rw [List.mem_singleton] at he
        cases he
        have := I.fresh o hp
        have := (create_id _ _ _ ho).1
        omega
  | delete g n =>
    show o ∈ (s.delete g n).problem ∧ ¬ Held (s.delete g n).dataset o
    unfold Gurobi.delete
    cases hl : s.dataset.lookup n with
    | none => exact ⟨hp, hd⟩
    | some e =>
      simp only []
      split
      · refine ⟨?_, ?_⟩
        · show o ∈ (if g = .variables ∨ g = .constraints then _ else _)
          split
          · refine (mem_removeAll _ _ _).2 ⟨hp, fun o' ho' hid => ?_⟩
            have hm := mem_of_lookup hl
            have := I.inj o' (I.held n e hm o' ho') o hp hid
            subst this
            exact hd ⟨n, e, hm, ho'⟩
          · exact hp
        · rintro ⟨n', e', he, ho⟩
          exact hd ⟨n', e', (List.mem_filter.1 he).1, ho⟩
      · exact ⟨hp, hd⟩

theorem stale_run (s : Gurobi P) (I : GurobiInv s) (cs : List (Call P)) (o : Obj P) (hp : o ∈ s.problem)
    (hd : ¬ Held s.dataset o) : o ∈ (s.run cs).problem ∧ ¬ Held (s.run cs).dataset o := by
  induction cs generalizing s with
  | nil => exact ⟨hp, hd⟩
  | cons c cs ih =>
    obtain ⟨h1, h2⟩ := stale_step s I c o hp hd
    exact ih _ (gurobiInv_step s I c) h1 h2

theorem gurobi_run_append (s : Gurobi P) (a b : List (Call P)) : s.run (a ++ b) = (s.run a).run b := by
  induction a generalizing s with
  | nil => rfl
  | cons c cs ih => exact ih _

/-- C96 is false with Gurobi for piecewise constraints: whatever the history before and after, once a piecewise
constraint has been deleted, which is also what `update_input` does before it adds the constraint again with new
breakpoints, every curve of it stays in the problem, and no component holds it. -/
theorem C96_gurobi_piecewise (before after : List (Call P)) (n : String) (made : List P)
    (hn : ∀ e, (n, e) ∉ ((Gurobi.empty : Gurobi P).run before).dataset) (p : P) (hp : p ∈ made) :
    ∃ o ∈ ((Gurobi.empty : Gurobi P).run
        (before ++ [.add .piecewise n made false, .delete .piecewise n] ++ after)).problem,
      o.says = p ∧ ¬ Held ((Gurobi.empty : Gurobi P).run
        (before ++ [.add .piecewise n made false, .delete .piecewise n] ++ after)).dataset o := by
  rw [gurobi_run_append, gurobi_run_append]
  generalize hs : (Gurobi.empty : Gurobi P).run before = s at hn
  have I : GurobiInv s := hs ▸ gurobiInv_run _ gurobiInv_empty before
  have hl : s.dataset.lookup n = none := by
    cases h : s.dataset.lookup n with
    | none => rfl
    | some e => exact absurd (mem_of_lookup h) (hn e)
  have hadd : s.add .piecewise n made false =
      ⟨s.dataset ++ [(n, ⟨.piecewise, create s.next made⟩)], s.problem ++ create s.next made,
        s.next + made.length⟩ := by
    unfold Gurobi.add
    rw [hl]
    rfl
  have J := gurobiInv_add s I .piecewise n made false
  obtain ⟨o, ho, hsay⟩ := create_says s.next made p hp
  have hrun : s.run [.add .piecewise n made false, .delete .piecewise n] =
      (s.add .piecewise n made false).delete .piecewise n := rfl
  rw [hrun]
  have hmem : (n, (⟨.piecewise, create s.next made⟩ : Entry P)) ∈ (s.add .piecewise n made false).dataset := by
    rw [hadd]
    exact List.mem_append_right _ (List.mem_singleton.2 rfl)
  have hdel : (s.add .piecewise n made false).delete .piecewise n =
      ⟨(s.add .piecewise n made false).dataset.filter (fun x => x.1 ≠ n),
        (s.add .piecewise n made false).problem, (s.add .piecewise n made false).next⟩ := by
    unfold Gurobi.delete
    rw [lookup_of_mem J.names hmem]
    rfl
  have K := gurobiInv_delete _ J .piecewise n
  obtain ⟨h1, h2⟩ := stale_run _ K after o
    (by rw [hdel, hadd]; exact List.mem_append_right _ ho)
    (by
      rw [hdel]
      rintro ⟨n', e, he, ho'⟩
      have hk := List.mem_filter.1 he
      exact of_decide_eq_true hk.2 (J.apart n' e n _ o hk.1 hmem ho' ho))
  exact ⟨o, h1, hsay, h2⟩

/-- C96 is false with Gurobi for calls that fail half way: what was created before the failure stays. -/
theorem C96_gurobi_failed (before after : List (Call P)) (g : Group) (n : String) (made : List P)
    (hn : ∀ e, (n, e) ∉ ((Gurobi.empty : Gurobi P).run before).dataset) (p : P) (hp : p ∈ made) :
    ∃ o ∈ ((Gurobi.empty : Gurobi P).run (before ++ [.add g n made true] ++ after)).problem,
      o.says = p ∧ ¬ Held ((Gurobi.empty : Gurobi P).run (before ++ [.add g n made true] ++ after)).dataset o := by
  rw [gurobi_run_append, gurobi_run_append]
  generalize hs : (Gurobi.empty : Gurobi P).run before = s at hn
  have I : GurobiInv s := hs ▸ gurobiInv_run _ gurobiInv_empty before
  have hl : s.dataset.lookup n = none := by
    cases h : s.dataset.lookup n with
    | none => rfl
    | some e => exact absurd (mem_of_lookup h) (hn e)
  have hadd : s.add g n made true = ⟨s.dataset, s.problem ++ create s.next made, s.next + made.length⟩ := by
    unfold Gurobi.add
    rw [hl]
    rfl
  obtain ⟨o, ho, hsay⟩ := create_says s.next made p hp
  obtain ⟨h1, h2⟩ := stale_run _ (gurobiInv_add s I g n made true) after o
    (by rw [hadd]; exact List.mem_append_right _ ho)
    (by
      rw [hadd]
      rintro ⟨n', e, he, ho'⟩
      have := I.fresh o (I.held n' e he o ho')
      have := (create_id _ _ _ ho).1
      omega)
  exact ⟨o, h1, hsay, h2⟩

end

/-! ### Examples: a curve through the origin, whose slope is changed from 1 to 2 -/

namespace Demo

/-- `y = slope * x`. -/
def line (slope : Int) (x : Int × Int) : Prop := x.2 = slope * x.1

/-- A variable is added, then the curve; `update_input` on its breakpoints deletes it and adds it again. -/
def history : List (Call Int) :=
  [.add .constraints "limit" [0] false, .add .piecewise "curve" [1] false, .delete .piecewise "curve",
   .add .constraints "limit" [3] false, .delete .constraints "limit", .add .piecewise "curve" [2] false]

/-- With Pyomo, the new curve is in the problem. -/
example : ((Pyomo.empty : Pyomo Int).run history).problem.map Obj.says = [2] := by decide +kernel

example : Solves line (· ∈ ((Pyomo.empty : Pyomo Int).run history).problem) (1, 2) := by
  rw [C96_pyomo_solution]
  rintro o ⟨n, e, he, ho⟩
  have hd : ((Pyomo.empty : Pyomo Int).run history).dataset = [("curve", ⟨.piecewise, [⟨2, 2⟩]⟩)] := rfl
  rw [hd, List.mem_singleton] at he
  cases he
  rw [List.mem_singleton] at ho
  subst ho
  show (2 : Int) = 2 * 1
  rfl

/-- With Gurobi, so is the old one, and only the origin is left. -/
example (x : Int × Int) (h : Solves line (· ∈ ((Gurobi.empty : Gurobi Int).run history).problem) x) : x = (0, 0) := by
  obtain ⟨o, ho, hs, _⟩ := C96_gurobi_piecewise [.add .constraints "limit" [0] false]
    [.add .constraints "limit" [3] false, .delete .constraints "limit", .add .piecewise "curve" [2] false]
    "curve" [(1 : Int)] (by
      intro e he
      have hd : ((Gurobi.empty : Gurobi Int).run [.add .constraints "limit" [0] false]).dataset =
        [("limit", ⟨.constraints, [⟨0, 0⟩]⟩)] := rfl
      rw [hd, List.mem_singleton] at he
      exact absurd (Prod.mk.inj he).1 (by decide)) 1 List.mem_cons_self
  have h1 : x.2 = 1 * x.1 := hs ▸ h o ho
  have h2 : x.2 = 2 * x.1 := h ⟨2, 2⟩ (by
    show _ ∈ ((Gurobi.empty : Gurobi Int).run history).problem
    decide +kernel)
  obtain ⟨a, b⟩ := x
  simp only at h1 h2
  have ha : a = 0 := by omega
  have hb : b = 0 := by omega
  rw [ha, hb]

/-- A history without piecewise constraints, in which a name is used twice. -/
def clean : List (Call Int) :=
  [.add .variables "x" [0, 1] false, .add .constraints "x" [7] false, .add .constraints "limit" [3, 4] false,
   .add .constraints "bad" [] true, .delete .constraints "limit", .add .constraints "limit" [5] false,
   .delete .constraints "x"]

example : ((Gurobi.empty : Gurobi Int).run clean).problem.map Obj.says = [0, 1, 5] := by decide +kernel

example : ∀ o, o ∈ ((Gurobi.empty : Gurobi Int).run clean).problem ↔
    Held ((Gurobi.empty : Gurobi Int).run clean).dataset o :=
  C96_gurobi_partial clean (by
    intro c hc
    simp only [clean, List.mem_cons, List.not_mem_nil, or_false] at hc
    rcases hc with rfl | rfl | rfl | rfl | rfl | rfl | rfl <;> simp [Clean])

end Demo

end Problem
end Calliope
