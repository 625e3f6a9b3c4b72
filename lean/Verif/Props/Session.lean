import Verif.Spec.Session

/-!
# C108: a model that is rebuilt is the model that was solved
-/

namespace Calliope
namespace Session

open Math (Field Component)

variable {δ V : Type}

/-- The first math is part of the second. -/
def Within (m m' : Mth δ) : Prop := ∀ f n c, m f n = some c → m' f n = some c

theorem Within.trans {a b c : Mth δ} (h1 : Within a b) (h2 : Within b c) : Within a c :=
  fun f n x h => h2 f n x (h1 f n x h)

theorem merge_within {m m' : Mth δ} (h : Within m m') : mergeMath m m' = m' := by
  funext f n
  unfold mergeMath
  cases h' : m' f n with
  | some c => rfl
  | none =>
    cases h'' : m f n with
    | none => rfl
    | some c => rw [h f n c h''] at h'; cases h'

theorem put_math (b : Backend δ V) (g : Field) (n : String) (c : Component δ) (v : Option V) :
    Within b.math (b.put g n c v).1.math := by
  unfold Backend.put
  split
  · exact fun _ _ _ h => h
  · split
    · exact fun _ _ _ h => h
    · rename_i h1 _
      intro f k x h
      simp only [mathPut]
      split
      · rename_i hf
        subst hf
        unfold setAt
        split
        · rename_i hk
          subst hk
          rw [h] at h1
          exact absurd rfl h1
        · exact h
      · exact h

theorem add_math (b : Backend δ V) (g : Field) (n : String) (c : Component δ) (v : Option V) (ok : Bool) :
    Within b.math (b.add g n c v ok).1.math := by
  unfold Backend.add
  split
  · exact fun _ _ _ h => h
  · split
    · exact fun _ _ _ h => h
    · split
      · exact fun _ _ _ h => h
      · exact put_math b g n c v

theorem delete_math (b : Backend δ V) (g : Field) (n : String) : (b.delete g n).math = b.math := by
  unfold Backend.delete
  split
  · rfl
  · split <;> rfl

theorem update_math (b : Backend δ V) (n : String) (v : V) (refs : List String) : (b.update n v refs).1.math = b.math := by
  unfold Backend.update
  split
  · split <;> rfl
  · rfl

/-- The math of the model is part of the math of its backend. -/
def Ahead (s : Model δ V) : Prop := ∀ b, s.backend = some b → Within s.math b.math

theorem step_ahead {s : Model δ V} (h : Ahead s) (o : Op δ V) : Ahead (step s o).1 := by
  cases o with
  | build force =>
    simp only [step, Model.build]
    split
    · exact h
    · intro b hb
      cases hb
      exact fun _ _ _ h => h
  | solve force ok optimal =>
    simp only [step, Model.solve]
    split
    · exact h
    · rename_i b hb
      split
      · exact h
      · split
        · exact h
        · split
          · exact h
          · intro b' hb'
            simp only [hb, Option.some.injEq] at hb'
            subst hb'
            simp only [merge_within (h b hb)]
            exact fun _ _ _ h => h
  | add g n c v ok =>
    simp only [step, Model.change]
    split
    · exact h
    · rename_i b hb
      intro b' hb'
      cases hb'
      exact (h b hb).trans (add_math b g n c v ok)
  | delete g n =>
    simp only [step, Model.change]
    split
    · exact h
    · rename_i b hb
      intro b' hb'
      cases hb'
      rw [delete_math]
      exact h b hb
  | update n v refs =>
    simp only [step, Model.change]
    split
    · exact h
    · rename_i b hb
      intro b' hb'
      cases hb'
      rw [update_math]
      exact h b hb

theorem run_ahead {s : Model δ V} (h : Ahead s) (os : List (Op δ V)) : Ahead (run s os) := by
  induction os generalizing s with
  | nil => exact h
  | cons o os ih => exact ih (step_ahead h o)

theorem new_ahead (m : Mth δ) (i : String → Option V) : Ahead (new m i) := by
  intro b hb
  cases hb

theorem step_inputs (s : Model δ V) (o : Op δ V) : (step s o).1.inputs = s.inputs := by
  cases o <;> simp only [step, Model.build, Model.solve, Model.change] <;> repeat' (first | rfl | split)

theorem run_inputs (s : Model δ V) (os : List (Op δ V)) : (run s os).inputs = s.inputs := by
  induction os generalizing s with
  | nil => rfl
  | cons o os ih => exact (ih _).trans (step_inputs s o)

/-- A solve that returned. -/
theorem solve_returned {s s' : Model δ V} {force ok optimal : Bool} (h : s.solve force ok optimal = (s', .returned)) :
    ∃ b, s.backend = some b ∧ s' = { s with math := mergeMath s.math b.math, results := optimal } := by
  unfold Model.solve at h
  split at h
  · cases h
  · rename_i b hb
    split at h
    · cases h
    · split at h
      · cases h
      · split at h
        · cases h
        · cases h
          exact ⟨b, hb, rfl⟩

/-- **C108.** After a solve, the math of the model is the math of the backend, whatever was done to it before. -/
theorem C108_recorded {m : Mth δ} {i : String → Option V} (os : List (Op δ V)) {s' : Model δ V} {force ok optimal : Bool}
    (h : (run (new m i) os).solve force ok optimal = (s', .returned)) :
    ∃ b, (run (new m i) os).backend = some b ∧ s'.backend = some b ∧ s'.math = b.math := by
  obtain ⟨b, hb, rfl⟩ := solve_returned h
  exact ⟨b, hb, hb, merge_within (run_ahead (new_ahead m i) os b hb)⟩

/-- **C108.** No history changes a definition that the model has. -/
theorem C108_definitions_kept {m : Mth δ} {i : String → Option V} (os os' : List (Op δ V)) {f : Field} {n : String}
    {c : Component δ} (h : (run (new m i) os).math f n = some c) : (run (new m i) (os ++ os')).math f n = some c := by
  have key : ∀ (os' : List (Op δ V)) (s : Model δ V), Ahead s → s.math f n = some c → (run s os').math f n = some c := by
    intro os'
    induction os' with
    | nil => exact fun s _ h => h
    | cons o os' ih =>
      intro s ha hs
      refine ih _ (step_ahead ha o) ?_
      cases o with
      | solve force ok optimal =>
        cases hr : s.solve force ok optimal with
        | mk s' r =>
          simp only [step, hr]
          cases r with
          | returned =>
            obtain ⟨b, hb, rfl⟩ := solve_returned hr
            rw [merge_within (ha b hb)]
            exact ha b hb f n c hs
          | raised =>
            have : s' = s := by
              unfold Model.solve at hr
              repeat' split at hr
              all_goals cases hr
              all_goals rfl
            rw [this]
            exact hs
      | build force =>
        simp only [step, Model.build]
        split <;> exact hs
      | add g n c v ok =>
        simp only [step, Model.change]
        split <;> exact hs
      | delete g n =>
        simp only [step, Model.change]
        split <;> exact hs
      | update n v refs =>
        simp only [step, Model.change]
        split <;> exact hs
  have hrun : ∀ (os : List (Op δ V)) (s : Model δ V), run s (os ++ os') = run (run s os) os' := by
    intro os
    induction os with
    | nil => exact fun _ => rfl
    | cons o os ih => exact fun s => ih _
  rw [hrun]
  exact key os' _ (run_ahead (new_ahead m i) os) h

/-! ### Rebuilding -/

/-- The backend holds what its math says. -/
def Faithful (s : Model δ V) : Prop := ∀ b, s.backend = some b → b.data = load b.math s.inputs

theorem load_put {m : Mth δ} {i : String → Option V} {g : Field} {n : String} {c : Component δ} (hg : g ∈ ordered)
    (hc : c.active = true) (hn : ∀ f, m f n = none) :
    load (mathPut m g n c) i = setAt (load m i) n (some ⟨g, c, none⟩) := by
  funext k
  unfold setAt
  split
  · rename_i hk
    subst hk
    have hl : loadInputs (mathPut m g k c) i k = none := by
      have h1 : mathPut m g k c .lookups k = none := by
        unfold mathPut
        split
        · rename_i he
          rw [← he] at hg
          simp [ordered] at hg
        · exact hn _
      have h2 : mathPut m g k c .parameters k = none := by
        unfold mathPut
        split
        · rename_i he
          rw [← he] at hg
          simp [ordered] at hg
        · exact hn _
      unfold loadInputs
      rw [h1, h2]
      rfl
    unfold load
    rw [hl]
    simp only [components]
    have h3 : ∀ f, entryOf none f (mathPut m g k c f k) = if f = g then some (⟨g, c, none⟩ : Entry δ V) else none := by
      intro f
      unfold mathPut
      split
      · rename_i he
        subst he
        simp [setAt, entryOf, hc]
      · simp [hn, entryOf]
    simp only [h3]
    simp only [ordered, List.mem_cons, List.not_mem_nil, or_false] at hg
    rcases hg with rfl | rfl | rfl | rfl | rfl <;> rfl
  · rename_i hk
    have h1 : ∀ f, mathPut m g n c f k = m f k := by
      intro f
      unfold mathPut
      split
      · unfold setAt
        rw [if_neg hk]
      · rfl
    unfold load loadInputs components
    simp only [h1]

theorem add_fresh {b : Backend δ V} {g : Field} {n : String} {c : Component δ} (ok : Bool) (hc : c.active = true)
    (hn : ∀ f, b.math f n = none) (hd : b.data n = none) :
    (b.add g n c none ok).1 = b ∨
      (b.add g n c none ok).1 = ⟨mathPut b.math g n c, setAt b.data n (some ⟨g, c, none⟩)⟩ := by
  unfold Backend.add
  rw [hc, hd]
  simp only [Bool.not_true, Bool.false_and, Option.isSome_none, Bool.false_eq_true, if_false]
  split
  · exact Or.inl rfl
  · right
    have hcl : clash b.math g n = false := by
      unfold clash
      rw [List.any_eq_false]
      intro f _
      simp [hn, isActive]
    unfold Backend.put
    rw [hn g, hcl]
    simp

theorem load_none {m : Mth δ} {i : String → Option V} {n : String} (hn : ∀ f, m f n = none) : load m i n = none := by
  unfold load loadInputs components
  simp only [hn]
  rfl

theorem run_faithful : ∀ (os : List (Op δ V)) {s : Model δ V}, OnlyNew s os → Faithful s → Faithful (run s os)
  | [], s, _, h => h
  | o :: os, s, hos, h => by
    cases o with
    | build force =>
      refine run_faithful os (s := (step s (.build force)).1) hos ?_
      simp only [step, Model.build]
      split
      · exact h
      · intro b hb
        cases hb
        rfl
    | solve force ok optimal =>
      refine run_faithful os (s := (step s (.solve force ok optimal)).1) hos ?_
      simp only [step, Model.solve]
      split
      · exact h
      · repeat' split
        all_goals exact h
    | add g n c v ok =>
      obtain ⟨⟨hg, hc, rfl, hn⟩, hrest⟩ := hos
      refine run_faithful os (s := (step s (.add g n c none ok)).1) hrest ?_
      simp only [step, Model.change]
      split
      · exact h
      · rename_i b hb
        intro b' hb'
        cases hb'
        have hn := hn b hb
        have hd : b.data n = none := by
          rw [h b hb]
          exact load_none hn
        rcases add_fresh (g := g) ok hc hn hd with he | he
        · rw [he]
          exact h b hb
        · rw [he]
          simp only
          rw [load_put hg hc hn, h b hb]
    | delete g n => exact hos.elim
    | update n v refs => exact hos.elim

theorem new_faithful (m : Mth δ) (i : String → Option V) : Faithful (new m i) := by
  intro b hb
  cases hb

theorem build_forced (s : Model δ V) :
    s.build true = ({ s with backend := some ⟨s.math, load s.math s.inputs⟩, built := true }, .returned) := by
  simp [Model.build]

/-- **C108 (partial).** If components were only added, under new names, a model that was solved and is built again has the
same backend: the components that were added too. -/
theorem C108_rebuild_partial {m : Mth δ} {i : String → Option V} {os : List (Op δ V)} (hos : OnlyNew (new m i) os)
    {s' : Model δ V} {force ok optimal : Bool} (h : (run (new m i) os).solve force ok optimal = (s', .returned)) :
    (s'.build true).1.backend = (run (new m i) os).backend := by
  obtain ⟨b, hb, rfl⟩ := solve_returned h
  rw [build_forced, hb]
  simp only [merge_within (run_ahead (new_ahead m i) os b hb)]
  have := run_faithful os hos (new_faithful m i) b hb
  rw [← this]

/-- **C108.** Whatever was done to the backend since the last solve is gone when the model is built again. -/
theorem C108_unsolved_lost {s : Model δ V} {os : List (Op δ V)} (hos : ∀ o ∈ os, ∀ f k l, o ≠ .solve f k l) :
    ((run s os).build true).1.backend = (s.build true).1.backend := by
  have hm : (run s os).math = s.math := by
    induction os generalizing s with
    | nil => rfl
    | cons o os ih =>
      have h1 : (step s o).1.math = s.math := by
        cases o with
        | solve f k l => exact absurd rfl (hos _ List.mem_cons_self f k l)
        | build force =>
          simp only [step, Model.build]
          split <;> rfl
        | add g n c v ok =>
          simp only [step, Model.change]
          split <;> rfl
        | delete g n =>
          simp only [step, Model.change]
          split <;> rfl
        | update n v refs =>
          simp only [step, Model.change]
          split <;> rfl
      exact (ih (fun o ho => hos o (List.mem_cons_of_mem _ ho))).trans h1
  rw [build_forced, build_forced]
  simp only [hm, run_inputs]

/-- **C108.** The values of inputs are those of the model, whatever they were in the backend: values set by `update_input` and
those of parameters that were added are gone. -/
theorem C108_values_lost {m : Mth δ} {i : String → Option V} (os : List (Op δ V)) {b : Backend δ V} {n : String}
    {e : Entry δ V} (hb : ((run (new m i) os).build true).1.backend = some b) (he : b.data n = some e)
    (hg : e.group = .parameters ∨ e.group = .lookups) : e.value = i n := by
  rw [build_forced] at hb
  cases hb
  rw [run_inputs] at he
  simp only [new] at he
  unfold load at he
  cases hl : loadInputs (run (new m i) os).math i n with
  | some x =>
    have hx : some x = some e := by
      rw [← he]
      simp only [new] at hl
      rw [hl]
    cases hx
    unfold loadInputs at hl
    split at hl
    · simp only [entryOf] at hl
      split at hl
      · cases hl; rfl
      · cases hl
    · unfold entryOf at hl
      split at hl
      · cases hl
      · split at hl
        · cases hl; rfl
        · cases hl
  | none =>
    have hx : components (run (new m i) os).math n = some e := by
      rw [← he]
      simp only [new] at hl ⊢
      rw [hl]
    unfold components at hx
    obtain ⟨g, hgm, hge⟩ := List.exists_of_findSome?_eq_some hx
    unfold entryOf at hge
    split at hge
    · cases hge
    · split at hge
      · cases hge
        simp only [ordered, List.mem_cons, List.not_mem_nil, or_false] at hgm
        rcases hgm with rfl | rfl | rfl | rfl | rfl <;> simp at hg
      · cases hge

/-- An active component of the math is built, if its name is not used elsewhere. -/
theorem load_active {m : Mth δ} {i : String → Option V} {g : Field} {n : String} {c : Component δ} (hg : g ∈ ordered)
    (hc : c.active = true) (hm : m g n = some c) (hu : ∀ f, f ≠ g → isActive (m f n) = false) :
    load m i n = some ⟨g, c, none⟩ := by
  have hoff : ∀ f (v : Option V), f ≠ g → entryOf v f (m f n) = none := by
    intro f v hf
    have := hu f hf
    cases h : m f n with
    | none => rfl
    | some x =>
      rw [h] at this
      simp only [isActive] at this
      simp [entryOf, this]
  have hin : loadInputs m i n = none := by
    unfold loadInputs
    split
    · rename_i x hx
      rw [← hx]
      exact hoff _ _ (by rintro rfl; simp [ordered] at hg)
    · exact hoff _ _ (by rintro rfl; simp [ordered] at hg)
  have hon : entryOf none g (m g n) = some (⟨g, c, none⟩ : Entry δ V) := by
    rw [hm]
    simp [entryOf, hc]
  unfold load
  rw [hin]
  simp only [components, ordered, List.findSome?_cons, List.findSome?_nil]
  simp only [ordered, List.mem_cons, List.not_mem_nil, or_false] at hg
  rcases hg with rfl | rfl | rfl | rfl | rfl <;> simp [hoff, hon]

/-- **C108.** A component that was deleted is there again when the model, solved without it, is built again. -/
theorem C108_deleted_returns {m : Mth δ} {i : String → Option V} {g : Field} {n : String} {c : Component δ}
    (h : Sole m g n c) {s' : Model δ V} {force ok optimal : Bool}
    (hs : (run (new m i) [.build false, .delete g n]).solve force ok optimal = (s', .returned)) :
    (∀ b, s'.backend = some b → b.data n = none) ∧
      ∀ b, (s'.build true).1.backend = some b → b.data n = some ⟨g, c, none⟩ := by
  obtain ⟨hg, hm, hc, hu⟩ := h
  obtain ⟨b, hb, rfl⟩ := solve_returned hs
  have hld : load m i n = some ⟨g, c, none⟩ := load_active hg hc hm hu
  have hb' : b = ⟨m, setAt (load m i) n none⟩ := by
    have hdel : (⟨m, load m i⟩ : Backend δ V).delete g n = ⟨m, setAt (load m i) n none⟩ := by
      unfold Backend.delete
      simp only [hld, if_true]
    have : some ((⟨m, load m i⟩ : Backend δ V).delete g n) = some b := hb
    rw [hdel] at this
    exact (Option.some.inj this).symm
  subst hb'
  refine ⟨?_, ?_⟩
  · intro b' h'
    rw [show _ = some b' from h'] at hb
    cases hb
    simp [setAt]
  · intro b' h'
    rw [build_forced] at h'
    cases h'
    have hmm : (run (new m i) [.build false, .delete g n]).math = m := rfl
    have hii : (run (new m i) [.build false, .delete g n]).inputs = i := rfl
    simp only [hmm, hii]
    rw [merge_within (fun _ _ _ h => h)]
    exact hld

/-- **C108.** A component that was deleted and added with another definition has its old definition when the model, solved with
the new one, is built again; and already when an input it refers to is updated. -/
theorem C108_redefined {m : Mth δ} {i : String → Option V} {g : Field} {n : String} {c c' : Component δ}
    (h : Sole m g n c) (hc' : c'.active = true) {s' : Model δ V} {force ok optimal : Bool}
    (hs : (run (new m i) [.build false, .delete g n, .add g n c' none true]).solve force ok optimal = (s', .returned)) :
    (∀ b, s'.backend = some b → b.data n = some ⟨g, c', none⟩ ∧
      ∀ refs, n ∈ refs → (b.rebuild refs).data n = some ⟨g, c, none⟩) ∧
      ∀ b, (s'.build true).1.backend = some b → b.data n = some ⟨g, c, none⟩ := by
  obtain ⟨hg, hm, hc, hu⟩ := h
  obtain ⟨b, hb, rfl⟩ := solve_returned hs
  have hld : load m i n = some ⟨g, c, none⟩ := load_active hg hc hm hu
  have hb' : b = ⟨m, setAt (setAt (load m i) n none) n (some ⟨g, c', none⟩)⟩ := by
    have hdel : (⟨m, load m i⟩ : Backend δ V).delete g n = ⟨m, setAt (load m i) n none⟩ := by
      unfold Backend.delete
      simp only [hld, if_true]
    have : some (((⟨m, load m i⟩ : Backend δ V).delete g n).add g n c' none true).1 = some b := hb
    rw [hdel] at this
    simp [Backend.add, Backend.put, hc', hm, setAt] at this
    rw [← this]
  subst hb'
  refine ⟨?_, ?_⟩
  · intro b' h'
    rw [show _ = some b' from h'] at hb
    cases hb
    refine ⟨by simp [setAt], fun refs hr => ?_⟩
    have : ordered.contains g = true := by simpa using hg
    have hr' : refs.contains n = true := by simpa using hr
    simp only [Backend.rebuild, setAt, if_true, hr', rebuilt, this, hm, entryOf, hc]
  · intro b' h'
    rw [build_forced] at h'
    cases h'
    have hmm : (run (new m i) [.build false, .delete g n, .add g n c' none true]).math = m := rfl
    have hii : (run (new m i) [.build false, .delete g n, .add g n c' none true]).inputs = i := rfl
    simp only [hmm, hii]
    rw [merge_within (fun _ _ _ h => h)]
    exact hld

/-- **C108.** A component that the math has as inactive and that is added to the backend is missing when the model, solved
with it, is built again. -/
theorem C108_inactive_lost {m : Mth δ} {i : String → Option V} {g : Field} {n : String} {c c' : Component δ}
    (hm : m g n = some c) (hoff : ∀ f, isActive (m f n) = false) (hc' : c'.active = true)
    {s' : Model δ V} {force ok optimal : Bool}
    (hs : (run (new m i) [.build false, .add g n c' none true]).solve force ok optimal = (s', .returned)) :
    (∀ b, s'.backend = some b → b.data n = some ⟨g, c', none⟩) ∧
      ∀ b, (s'.build true).1.backend = some b → b.data n = none := by
  obtain ⟨b, hb, rfl⟩ := solve_returned hs
  have hoff' : ∀ f (v : Option V), entryOf v f (m f n) = none := by
    intro f v
    have := hoff f
    cases h : m f n with
    | none => rfl
    | some x =>
      rw [h] at this
      simp only [isActive] at this
      simp [entryOf, this]
  have hld : load m i n = none := by
    have hin : loadInputs m i n = none := by
      unfold loadInputs
      split
      · rename_i x hx
        rw [← hx]
        exact hoff' _ _
      · exact hoff' _ _
    unfold load
    rw [hin]
    simp only [components, hoff']
    rfl
  have hb' : b = ⟨m, setAt (load m i) n (some ⟨g, c', none⟩)⟩ := by
    simp only [run, step, new, Model.build, Model.change] at hb
    simp [Backend.add, Backend.put, hc', hm, hld] at hb
    exact hb.symm
  subst hb'
  refine ⟨?_, ?_⟩
  · intro b' h'
    rw [show _ = some b' from h'] at hb
    cases hb
    simp [setAt]
  · intro b' h'
    rw [build_forced] at h'
    cases h'
    have hmm : (run (new m i) [.build false, .add g n c' none true]).math = m := rfl
    have hii : (run (new m i) [.build false, .add g n c' none true]).inputs = i := rfl
    simp only [hmm, hii]
    rw [merge_within (fun _ _ _ h => h)]
    exact hld

/-- Some group of which this is true has an active component of this name. -/
def ActiveIn (m : Mth δ) (groups : Field → Prop) (n : String) : Prop :=
  ∃ f c, groups f ∧ m f n = some c ∧ c.active = true

omit V in
theorem isActive_iff {x : Option (Component δ)} : isActive x = true ↔ ∃ c, x = some c ∧ c.active = true := by
  cases x with
  | none => simp [isActive]
  | some c => simp [isActive]

omit V in
theorem known_iff (m : Mth δ) (n : String) : known m n = true ↔ ActiveIn m (fun f => f ≠ .checks) n := by
  simp only [known, List.any_eq_true, List.mem_filter, decide_eq_true_eq, isActive_iff, ActiveIn]
  constructor
  · rintro ⟨f, ⟨_, hf⟩, c, hc, ha⟩
    exact ⟨f, c, hf, hc, ha⟩
  · rintro ⟨f, c, hf, hc, ha⟩
    exact ⟨f, ⟨by cases f <;> decide, hf⟩, c, hc, ha⟩

omit V in
theorem clash_iff (m : Mth δ) (g : Field) (n : String) : clash m g n = true ↔ ActiveIn m (fun f => f ≠ g) n := by
  simp only [clash, List.any_eq_true, Bool.and_eq_true, decide_eq_true_eq, isActive_iff, ActiveIn]
  constructor
  · rintro ⟨f, _, hf, c, hc, ha⟩
    exact ⟨f, c, hf, hc, ha⟩
  · rintro ⟨f, c, hf, hc, ha⟩
    exact ⟨f, by cases f <;> decide, hf, c, hc, ha⟩

/-- **C108.** When a component cannot be added: its name is taken by an active component that was built, its definition cannot
be evaluated, or the math has no component of its name in its group and an active one in another.  Inactive components are left
out without complaint, but for parameters and lookups. -/
theorem C108_add (b : Backend δ V) (g : Field) (n : String) (c : Component δ) (v : Option V) (ok : Bool) :
    (b.add g n c v ok).2 = .raised ↔ (c.active = true ∨ g = .parameters ∨ g = .lookups) ∧
      ((b.data n ≠ none ∧ ActiveIn b.math (fun f => f ≠ .checks) n) ∨ ok = false ∨
        (b.math g n = none ∧ c.active = true ∧ ActiveIn b.math (fun f => f ≠ g) n)) := by
  rw [← known_iff, ← clash_iff]
  have hd : (b.data n).isSome = true ↔ b.data n ≠ none := by cases b.data n <;> simp
  have hm : (b.math g n).isSome = true ↔ ¬b.math g n = none := by cases b.math g n <;> simp
  rw [← hd]
  unfold Backend.add
  by_cases h1 : (!c.active && decide (g ≠ .parameters) && decide (g ≠ .lookups)) = true
  · rw [if_pos h1]
    simp only [Bool.and_eq_true, Bool.not_eq_true', decide_eq_true_eq] at h1
    simp [h1.1.1, h1.1.2, h1.2]
  · rw [if_neg h1]
    have h1' : c.active = true ∨ g = .parameters ∨ g = .lookups := by
      cases hc : c.active with
      | true => exact .inl rfl
      | false =>
        by_cases h2 : g = .parameters
        · exact .inr (.inl h2)
        · by_cases h3 : g = .lookups
          · exact .inr (.inr h3)
          · exact absurd (by simp [hc, h2, h3]) h1
    simp only [h1', true_and]
    by_cases h2 : ((b.data n).isSome && known b.math n) = true
    · rw [if_pos h2]
      simp only [Bool.and_eq_true] at h2
      simp [h2]
    · rw [if_neg h2]
      simp only [Bool.and_eq_true] at h2
      simp only [h2, false_or]
      cases ok with
      | false => simp
      | true =>
        simp only [Bool.not_true, Bool.false_eq_true, if_false, Bool.true_eq_false, false_or]
        unfold Backend.put
        by_cases h3 : b.math g n = none
        · simp only [h3, Option.isSome_none, Bool.false_eq_true, if_false, true_and]
          by_cases h4 : (c.active && clash b.math g n) = true
          · rw [if_pos h4]
            simp only [Bool.and_eq_true] at h4
            simp [h4]
          · rw [if_neg h4]
            simp only [Bool.and_eq_true] at h4
            simp [h4]
        · simp [hm.2 h3, h3]

/-- **C108.** What a call that returned leaves in the backend: the component, as it was given, and nothing else changed.  A call
that raised leaves the backend as it was, but for one that raised for a name in another group only: that component is there. -/
theorem C108_added (b : Backend δ V) (g : Field) (n : String) (c : Component δ) (v : Option V) (ok : Bool) :
    (∀ k, k ≠ n → (b.add g n c v ok).1.data k = b.data k) ∧
      ((c.active = true ∨ g = .parameters ∨ g = .lookups) →
        ((b.data n ≠ none ∧ ActiveIn b.math (fun f => f ≠ .checks) n) ∨ ok = false → (b.add g n c v ok).1 = b) ∧
        (¬(b.data n ≠ none ∧ ActiveIn b.math (fun f => f ≠ .checks) n) → ok = true →
          (b.add g n c v ok).1.data n = some ⟨g, c, v⟩)) := by
  have hput : (b.put g n c v).1.data = setAt b.data n (some ⟨g, c, v⟩) := by
    unfold Backend.put
    split
    · rfl
    · split <;> rfl
  refine ⟨fun k hk => ?_, fun hc => ⟨fun h => ?_, fun h hok => ?_⟩⟩
  · unfold Backend.add
    split
    · rfl
    · split
      · rfl
      · split
        · rfl
        · simp [hput, setAt, hk]
  · unfold Backend.add
    split
    · rfl
    · split
      · rfl
      · rename_i h2
        rcases h with ⟨hd, hk⟩ | hok
        · exact absurd (by simp [(known_iff _ _).2 hk, Option.isSome_iff_ne_none.2 hd]) h2
        · simp [hok]
  · unfold Backend.add
    rw [if_neg, if_neg, hok]
    · simp [hput, setAt]
    · intro hx
      simp only [Bool.and_eq_true] at hx
      exact h ⟨Option.isSome_iff_ne_none.1 hx.1, (known_iff _ _).1 hx.2⟩
    · intro hx
      simp only [Bool.and_eq_true, Bool.not_eq_true', decide_eq_true_eq] at hx
      rcases hc with hc | hc | hc
      · simp [hc] at hx
      · exact hx.1.2 hc
      · exact hx.2 hc

/-! ### A session -/

namespace Demo

/-- A parameter, a variable, a constraint and one that is inactive. -/
def math : Mth String
  | .parameters, "cap_max" => some ⟨true, "inf"⟩
  | .variables, "cap" => some ⟨true, "0 .. inf"⟩
  | .constraints, "limit" => some ⟨true, "cap <= cap_max"⟩
  | .constraints, "share" => some ⟨false, "cap >= 1"⟩
  | _, _ => none

def inputs : String → Option Nat
  | "cap_max" => some 5
  | _ => none

/-- What the backend of a model has under a name. -/
def holds (s : Model String Nat) (n : String) : Option (Entry String Nat) :=
  match s.backend with
  | none => none
  | some b => b.data n

def extra : Component String := ⟨true, "cap >= 2"⟩

/-- A constraint is added, the model is solved and built again. -/
def session : List (Op String Nat) :=
  [.build false, .add .constraints "floor" extra none true, .solve false true true, .build true]

example : holds (run (new math inputs) session) "floor" = some ⟨.constraints, extra, none⟩ := by decide +kernel
example : holds (run (new math inputs) session) "limit" = some ⟨.constraints, ⟨true, "cap <= cap_max"⟩, none⟩ := by
  decide +kernel
example : holds (run (new math inputs) session) "cap_max" = some ⟨.parameters, ⟨true, "inf"⟩, some 5⟩ := by decide +kernel
example : holds (run (new math inputs) session) "share" = none := by decide +kernel

/-- Without the solve, it is gone. -/
example : holds (run (new math inputs) [.build false, .add .constraints "floor" extra none true, .build true]) "floor" = none := by
  decide +kernel

example : OnlyNew (new math inputs) [.build false, .add .constraints "floor" extra none true] := by
  refine ⟨⟨by decide, rfl, rfl, ?_⟩, trivial⟩
  intro b hb f
  cases hb
  cases f <;> rfl

example : ((run (new math inputs) [.build false, .add .constraints "floor" extra none true]).solve false true true).2 =
    .returned := by decide +kernel

example : Sole math .constraints "limit" ⟨true, "cap <= cap_max"⟩ := by
  refine ⟨by decide, rfl, rfl, ?_⟩
  intro f hf
  cases f <;> first | rfl | exact absurd rfl hf

example : ∀ f, isActive (math f "share") = false := by
  intro f
  cases f <;> rfl

/-- A parameter is added with a value, and a constraint that uses it: built again, the value is gone and the constraint is
still there. -/
def added : List (Op String Nat) :=
  [.build false, .add .parameters "low" ⟨true, "0"⟩ (some 2) true, .add .constraints "floor" ⟨true, "cap >= low"⟩ none true,
    .solve false true true, .build true]

theorem C108_added_parameter :
    holds (run (new math inputs) (added.take 4)) "low" = some ⟨.parameters, ⟨true, "0"⟩, some 2⟩ ∧
      holds (run (new math inputs) added) "low" = some ⟨.parameters, ⟨true, "0"⟩, none⟩ ∧
      holds (run (new math inputs) added) "floor" = some ⟨.constraints, ⟨true, "cap >= low"⟩, none⟩ := by decide +kernel

/-- A value that was updated is as before. -/
theorem C108_updated_input :
    holds (run (new math inputs) [.build false, .update "cap_max" 9 ["limit"], .solve false true true]) "cap_max" =
        some ⟨.parameters, ⟨true, "inf"⟩, some 9⟩ ∧
      holds (run (new math inputs) [.build false, .update "cap_max" 9 ["limit"], .solve false true true, .build true])
        "cap_max" = some ⟨.parameters, ⟨true, "inf"⟩, some 5⟩ := by decide +kernel

/-- A constraint with the name of the variable: the call raises, and the variable is still there.  A variable with the name of
a constraint that was deleted: the call raises, and the variable is there. -/
example : (((run (new math inputs) [.build false]).change fun b => b.add .constraints "cap" extra none true).2 = .raised) ∧
    holds (run (new math inputs) [.build false, .add .constraints "cap" extra none true]) "cap" =
      some ⟨.variables, ⟨true, "0 .. inf"⟩, none⟩ ∧
    holds (run (new math inputs) [.build false, .delete .constraints "limit", .add .variables "limit" extra none true])
      "limit" = some ⟨.variables, extra, none⟩ := by decide +kernel

end Demo

end Session
end Calliope
