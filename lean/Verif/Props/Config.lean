import Verif.Spec.Config
import Verif.Proofs.AttrDict

/-!
# Properties C19 and C20: configuration updates, unique lists
-/

namespace Calliope
namespace Config
variable {τ : Type}

theorem lookup_setField_self (l : List (String × Cfg τ)) (k c) :
    (setField l k c).lookup k = some c := by
  induction l with
  | nil => simp [setField]
  | cons x l ih =>
    obtain ⟨k', c'⟩ := x
    simp only [setField]; split
    · rename_i h; simp [h]
    · rename_i h
      have : (k == k') = false := by simpa using fun e => h e.symm
      simp [List.lookup, this, ih]

theorem lookup_setField_ne (l : List (String × Cfg τ)) (k c k2) (h : k2 ≠ k) :
    (setField l k c).lookup k2 = l.lookup k2 := by
  induction l with
  | nil =>
    have : (k2 == k) = false := by simpa using h
    simp [setField, List.lookup, this]
  | cons x l ih =>
    obtain ⟨k', c'⟩ := x
    simp only [setField]; split
    · rename_i h'
      have : (k2 == k') = false := by simpa [h'] using h
      simp [List.lookup, this]
    · simp only [List.lookup, ih]

theorem setField_same (l : List (String × Cfg τ)) (k c) (h : l.lookup k = some c) :
    setField l k c = l := by
  induction l with
  | nil => simp at h
  | cons x l ih =>
    obtain ⟨k', c'⟩ := x
    simp only [setField]; split
    · rename_i h'; subst h'; simp at h; simp [h]
    · rename_i h'
      have : (k == k') = false := by simpa using fun e => h' e.symm
      simp [List.lookup, this] at h
      rw [ih h]

/-- New value of an existing field of a base model. -/
def fieldNew (P : Pydantic τ) (c : Cfg τ) : Val Scalar → Except Err (Cfg τ)
  | .dict d => updWithDict P c d
  | .leaf a => match c with
    | .base _ _ => emptyUpdate c a
    | .dictM _ _ => emptyUpdate c a
    | .listM t _ => updList P t (.leaf a)
    | .leaf t v => if P.same v (.leaf a) then .ok c else P.build t (.leaf a)

/-- New value of an existing entry of a dict model. -/
def entryNew (P : Pydantic τ) (t : τ) (c : Cfg τ) (w : Val Scalar) : Except Err (Cfg τ) :=
  match c with
  | .dictM _ _ => P.build t w
  | .leaf _ v => if P.same v w then .ok c else P.build t w
  | c => fieldNew P c w

theorem updBase_get (P : Pydantic τ) (self : List (String × Cfg τ)) (u : Def) (hu : u.WF) :
    ∀ acc fs', updBase P self acc u = .ok fs' → ∀ k,
      (u.get1 k = none → fs'.lookup k = acc.lookup k) ∧
      (∀ w, u.get1 k = some w →
        (self.lookup k = none → fs'.lookup k = acc.lookup k) ∧
        (∀ c, self.lookup k = some c → ∃ r, fieldNew P c w = .ok r ∧ fs'.lookup k = some r)) := by
  induction u with
  | nil => intro acc fs' h k; simp [updBase] at h; simp [Dict.get1, h]
  | leaf k0 a rest ih =>
    intro acc fs' h k
    have ih := ih hu.2
    have hk0 : rest.get1 k0 = none := by
      exact (Dict.get1_eq_none _ _).2 hu.1
    rw [updBase] at h
    rcases hs : self.lookup k0 with _ | c
    · simp only [hs] at h
      have h' : updBase P self acc rest = .ok fs' := by
        split at h
        · exact h
        · split at h
          · cases h
          · exact h
      have := ih acc fs' h' k
      by_cases e : k0 = k
      · subst e
        simp only [Dict.get1, if_true]
        refine ⟨by simp, ?_⟩
        intro w _
        exact ⟨fun _ => this.1 hk0, fun c hc => by rw [hs] at hc; cases hc⟩
      · simpa only [Dict.get1, if_neg e] using this
    · simp only [hs] at h
      have h' : ∃ c', fieldNew P c (.leaf a) = .ok c' ∧ updBase P self (setField acc k0 c') rest = .ok fs' := by
        rcases hn : fieldNew P c (.leaf a) with e | c'
        · cases c <;> simp only [fieldNew] at hn <;> simp only [hn] at h <;> cases h
        · refine ⟨c', rfl, ?_⟩
          cases c <;> simp only [fieldNew] at hn <;> simp only [hn] at h <;> exact h
      obtain ⟨c', hn, hr⟩ := h'
      have := ih _ fs' hr k
      by_cases e : k0 = k
      · subst e
        simp only [Dict.get1, if_true]
        refine ⟨by simp, ?_⟩
        intro w hw
        cases hw
        refine ⟨fun hc => (by rw [hs] at hc; cases hc), fun c2 hc => ?_⟩
        rw [hs] at hc; cases hc
        refine ⟨c', hn, ?_⟩
        rw [this.1 hk0, lookup_setField_self]
      · simp only [Dict.get1, if_neg e]
        rw [lookup_setField_ne _ _ _ _ (fun h => e h.symm)] at this
        exact this
  | sub k0 d rest _ ih =>
    intro acc fs' h k
    have ih := ih hu.2.2
    have hk0 : rest.get1 k0 = none := (Dict.get1_eq_none _ _).2 hu.1
    rw [updBase] at h
    rcases hs : self.lookup k0 with _ | c
    · simp only [hs] at h
      have h' : updBase P self acc rest = .ok fs' := by
        split at h
        · cases h
        · exact h
      have := ih acc fs' h' k
      by_cases e : k0 = k
      · subst e
        simp only [Dict.get1, if_true]
        refine ⟨by simp, ?_⟩
        intro w _
        exact ⟨fun _ => this.1 hk0, fun c hc => by rw [hs] at hc; cases hc⟩
      · simpa only [Dict.get1, if_neg e] using this
    · simp only [hs] at h
      rcases hn : updWithDict P c d with e | c'
      · simp only [hn] at h; cases h
      simp only [hn] at h
      have := ih _ fs' h k
      by_cases e : k0 = k
      · subst e
        simp only [Dict.get1, if_true]
        refine ⟨by simp, ?_⟩
        intro w hw
        cases hw
        refine ⟨fun hc => (by rw [hs] at hc; cases hc), fun c2 hc => ?_⟩
        rw [hs] at hc; cases hc
        refine ⟨c', hn, ?_⟩
        rw [this.1 hk0, lookup_setField_self]
      · simp only [Dict.get1, if_neg e]
        rw [lookup_setField_ne _ _ _ _ (fun h => e h.symm)] at this
        exact this

theorem updDict_get (P : Pydantic τ) (t : τ) (self : List (String × Cfg τ)) (u : Def) (hu : u.WF) :
    ∀ acc fs', updDict P t self acc u = .ok fs' → ∀ k,
      (u.get1 k = none → fs'.lookup k = acc.lookup k) ∧
      (∀ w, u.get1 k = some w →
        (self.lookup k = none →
          (w = .leaf none ∧ fs'.lookup k = acc.lookup k) ∨
          (w ≠ .leaf none ∧ ∃ r, P.build t w = .ok r ∧ fs'.lookup k = some r)) ∧
        (∀ c, self.lookup k = some c → ∃ r, entryNew P t c w = .ok r ∧ fs'.lookup k = some r)) := by
  induction u with
  | nil => intro acc fs' h k; simp [updDict] at h; simp [Dict.get1, h]
  | leaf k0 a rest ih =>
    intro acc fs' h k
    have ih := ih hu.2
    have hk0 : rest.get1 k0 = none := (Dict.get1_eq_none _ _).2 hu.1
    rw [updDict] at h
    rcases hs : self.lookup k0 with _ | c
    · simp only [hs] at h
      by_cases ha : a = none
      · rw [if_pos ha] at h
        have := ih acc fs' h k
        by_cases e : k0 = k
        · subst e
          simp only [Dict.get1, if_true]
          refine ⟨by simp, ?_⟩
          intro w hw
          cases hw
          exact ⟨fun _ => Or.inl ⟨by rw [ha], this.1 hk0⟩, fun c hc => by rw [hs] at hc; cases hc⟩
        · simpa only [Dict.get1, if_neg e] using this
      · rw [if_neg ha] at h
        rcases hb : P.build t (.leaf a) with e | c'
        · simp only [hb] at h; cases h
        simp only [hb] at h
        have := ih _ fs' h k
        by_cases e : k0 = k
        · subst e
          simp only [Dict.get1, if_true]
          refine ⟨by simp, ?_⟩
          intro w hw
          cases hw
          refine ⟨fun _ => Or.inr ⟨by simpa using ha, c', hb, ?_⟩, fun c hc => by rw [hs] at hc; cases hc⟩
          rw [this.1 hk0, lookup_setField_self]
        · simp only [Dict.get1, if_neg e]
          rw [lookup_setField_ne _ _ _ _ (fun h => e h.symm)] at this
          exact this
    · simp only [hs] at h
      have h' : ∃ c', entryNew P t c (.leaf a) = .ok c' ∧ updDict P t self (setField acc k0 c') rest = .ok fs' := by
        rcases hn : entryNew P t c (.leaf a) with e | c'
        · cases c <;> simp only [entryNew, fieldNew] at hn <;> simp only [hn] at h <;> cases h
        · refine ⟨c', rfl, ?_⟩
          cases c <;> simp only [entryNew, fieldNew] at hn <;> simp only [hn] at h <;> exact h
      obtain ⟨c', hn, hr⟩ := h'
      have := ih _ fs' hr k
      by_cases e : k0 = k
      · subst e
        simp only [Dict.get1, if_true]
        refine ⟨by simp, ?_⟩
        intro w hw
        cases hw
        refine ⟨fun hc => (by rw [hs] at hc; cases hc), fun c2 hc => ?_⟩
        rw [hs] at hc; cases hc
        refine ⟨c', hn, ?_⟩
        rw [this.1 hk0, lookup_setField_self]
      · simp only [Dict.get1, if_neg e]
        rw [lookup_setField_ne _ _ _ _ (fun h => e h.symm)] at this
        exact this
  | sub k0 d rest _ ih =>
    intro acc fs' h k
    have ih := ih hu.2.2
    have hk0 : rest.get1 k0 = none := (Dict.get1_eq_none _ _).2 hu.1
    rw [updDict] at h
    rcases hs : self.lookup k0 with _ | c
    · simp only [hs] at h
      rcases hb : P.build t (.dict d) with e | c'
      · simp only [hb] at h; cases h
      simp only [hb] at h
      have := ih _ fs' h k
      by_cases e : k0 = k
      · subst e
        simp only [Dict.get1, if_true]
        refine ⟨by simp, ?_⟩
        intro w hw
        cases hw
        refine ⟨fun _ => Or.inr ⟨by simp, c', hb, ?_⟩, fun c hc => by rw [hs] at hc; cases hc⟩
        rw [this.1 hk0, lookup_setField_self]
      · simp only [Dict.get1, if_neg e]
        rw [lookup_setField_ne _ _ _ _ (fun h => e h.symm)] at this
        exact this
    · simp only [hs] at h
      have h' : ∃ c', entryNew P t c (.dict d) = .ok c' ∧ updDict P t self (setField acc k0 c') rest = .ok fs' := by
        rcases hn : entryNew P t c (.dict d) with e | c'
        · cases c <;> simp only [entryNew, fieldNew] at hn <;> simp only [hn] at h <;> cases h
        · refine ⟨c', rfl, ?_⟩
          cases c <;> simp only [entryNew, fieldNew] at hn <;> simp only [hn] at h <;> exact h
      obtain ⟨c', hn, hr⟩ := h'
      have := ih _ fs' hr k
      by_cases e : k0 = k
      · subst e
        simp only [Dict.get1, if_true]
        refine ⟨by simp, ?_⟩
        intro w hw
        cases hw
        refine ⟨fun hc => (by rw [hs] at hc; cases hc), fun c2 hc => ?_⟩
        rw [hs] at hc; cases hc
        refine ⟨c', hn, ?_⟩
        rw [this.1 hk0, lookup_setField_self]
      · simp only [Dict.get1, if_neg e]
        rw [lookup_setField_ne _ _ _ _ (fun h => e h.symm)] at this
        exact this

theorem updWithDict_base {P : Pydantic τ} {t fs u c'} (h : updWithDict P (.base t fs) u = .ok c') :
    ∃ fs', updBase P fs fs u = .ok fs' ∧ c' = .base t fs' ∧ P.checkAll t fs' = .ok () := by
  rw [updWithDict] at h
  rcases hb : updBase P fs fs u with e | fs'
  · simp only [hb] at h; cases h
  · simp only [hb] at h
    rcases hc : P.checkAll t fs' with e | _
    · simp only [hc] at h; cases h
    · simp only [hc] at h; cases h; exact ⟨fs', rfl, rfl, hc⟩

theorem updWithDict_dictM {P : Pydantic τ} {t fs u c'} (h : updWithDict P (.dictM t fs) u = .ok c') :
    ∃ fs', updDict P t fs fs u = .ok fs' ∧ c' = .dictM t fs' ∧ P.checkAll t fs' = .ok () := by
  rw [updWithDict] at h
  rcases hb : updDict P t fs fs u with e | fs'
  · simp only [hb] at h; cases h
  · simp only [hb] at h
    rcases hc : P.checkAll t fs' with e | _
    · simp only [hc] at h; cases h
    · simp only [hc] at h; cases h; exact ⟨fs', rfl, rfl, hc⟩

theorem entryNew_eq (P : Pydantic τ) (t : τ) (c : Cfg τ) (w) (h1 : ¬ IsDictM c)
    (h2 : ∀ t' v, c = .leaf t' v → t' = t) : entryNew P t c w = fieldNew P c w := by
  cases c with
  | leaf t' v =>
    have := h2 t' v rfl; subst this
    cases w with
    | leaf a => rfl
    | dict d => simp only [entryNew, fieldNew, updWithDict]
  | base t' fs => rfl
  | dictM t' fs => exact absurd ⟨t', fs, rfl⟩ h1
  | listM t' v => rfl

theorem sub_of_at {c : Cfg τ} {p x} (h : At c p x) : sub c p = some x := by
  induction h with
  | here c => simp [sub]
  | base hk _ ih => simp only [sub, hk, ih]
  | dict hk _ _ _ ih => simp only [sub, hk, ih]

/-- Locality: updating an object acts on the sub-object at `p` as the part of the update found
at `p`. -/
theorem update_at (P : Pydantic τ) {c p x} (hat : At c p x) : ∀ (u : Def) (c' : Cfg τ), u.WF →
    updWithDict P c u = .ok c' →
    (u.lookup p = none → At c' p x ∧ sub c' p = some x) ∧
    (∀ w, u.lookup p = some w → ∃ r, fieldNew P x w = .ok r ∧ sub c' p = some r) := by
  induction hat with
  | here c =>
    intro u c' hu h
    refine ⟨by simp [Dict.lookup], ?_⟩
    intro w hw
    simp only [Dict.lookup] at hw; cases hw
    exact ⟨c', h, by simp [sub]⟩
  | @base t fs k c p x hk hat ih =>
    intro u c' hu h
    obtain ⟨fs', hb, rfl, -⟩ := updWithDict_base h
    have hg := updBase_get P fs u hu fs fs' hb k
    rcases hu1 : u.get1 k with _ | w1
    · have := hg.1 hu1
      rw [hk] at this
      refine ⟨fun _ => ⟨.base this hat, ?_⟩, fun w hw => by simp [Dict.lookup, hu1] at hw⟩
      simp only [sub, this]
      exact sub_of_at hat
    · obtain ⟨r, hr, hl⟩ := (hg.2 w1 hu1).2 c hk
      cases w1 with
      | dict d =>
        have := ih d r (Dict.WF_get1 hu hu1) hr
        simp only [Dict.lookup, hu1, sub, hl]
        exact ⟨fun h0 => ⟨.base hl (this.1 h0).1, (this.1 h0).2⟩, this.2⟩
      | leaf a =>
        simp only [Dict.lookup, hu1, sub, hl]
        by_cases hp : p = []
        · subst hp
          cases hat
          simp only [if_true]
          refine ⟨by simp, fun w hw => ?_⟩
          cases hw
          exact ⟨r, hr, by simp [sub]⟩
        · rw [if_neg hp]
          refine ⟨fun _ => ?_, by simp⟩
          have hrc : r = c := by
            cases hat with
            | here => exact absurd rfl hp
            | base _ _ => cases a <;> simp [fieldNew, emptyUpdate] at hr; exact hr.symm
            | dict _ _ _ _ => cases a <;> simp [fieldNew, emptyUpdate] at hr; exact hr.symm
          subst hrc
          exact ⟨.base hl hat, sub_of_at hat⟩
  | @dict t fs k c p x hk h1 h2 hat ih =>
    intro u c' hu h
    obtain ⟨fs', hb, rfl, -⟩ := updWithDict_dictM h
    have hg := updDict_get P t fs u hu fs fs' hb k
    rcases hu1 : u.get1 k with _ | w1
    · have := hg.1 hu1
      rw [hk] at this
      refine ⟨fun _ => ⟨.dict this h1 h2 hat, ?_⟩, fun w hw => by simp [Dict.lookup, hu1] at hw⟩
      simp only [sub, this]
      exact sub_of_at hat
    · obtain ⟨r, hr, hl⟩ := (hg.2 w1 hu1).2 c hk
      rw [entryNew_eq P t c _ h1 h2] at hr
      cases w1 with
      | dict d =>
        have := ih d r (Dict.WF_get1 hu hu1) hr
        simp only [Dict.lookup, hu1, sub, hl]
        refine ⟨fun h0 => ⟨?_, (this.1 h0).2⟩, this.2⟩
        have hr1 : ¬ IsDictM r ∧ ∀ t' v, r = .leaf t' v → t' = t := by
          cases hat with
          | here => simp [Dict.lookup] at h0
          | base _ _ =>
            obtain ⟨fs2, -, rfl, -⟩ := updWithDict_base hr
            refine ⟨?_, ?_⟩
            · rintro ⟨_, _, h⟩; cases h
            · intro _ _ h; cases h
          | dict _ _ _ _ => exact absurd ⟨_, _, rfl⟩ h1
        exact .dict hl hr1.1 hr1.2 (this.1 h0).1
      | leaf a =>
        simp only [Dict.lookup, hu1, sub, hl]
        by_cases hp : p = []
        · subst hp
          cases hat
          simp only [if_true]
          refine ⟨by simp, fun w hw => ?_⟩
          cases hw
          exact ⟨r, hr, by simp [sub]⟩
        · rw [if_neg hp]
          refine ⟨fun _ => ?_, by simp⟩
          have hrc : r = c := by
            cases hat with
            | here => exact absurd rfl hp
            | base _ _ => cases a <;> simp [fieldNew, emptyUpdate] at hr; exact hr.symm
            | dict _ _ _ _ => exact absurd ⟨_, _, rfl⟩ h1
          subst hrc
          exact ⟨.dict hl h1 h2 hat, sub_of_at hat⟩

theorem fieldNew_setting (P : Pydantic τ) {x : Cfg τ} (hx : IsSetting x) (w) :
    fieldNew P x w = given P x w := by
  cases x with
  | leaf t v => cases w with
    | leaf a => rfl
    | dict d => simp only [fieldNew, given, updWithDict]
  | listM t v => cases w with
    | leaf a => simp only [fieldNew, given, updList]; cases P.buildList t (.leaf a) <;> rfl
    | dict d => simp only [fieldNew, given, updWithDict, updList]; cases P.buildList t (.dict d) <;> rfl
  | base _ _ => cases hx
  | dictM _ _ => cases hx

/-- C19: after a successful update each setting named by the update has the given (validated)
value, and each setting not named by it is what it was. -/
theorem C19_update (P : Pydantic τ) (c c' : Cfg τ) (u : Def) (hu : u.WF)
    (h : update P c u = .ok c') (p : List String) (x : Cfg τ) (hat : At c p x)
    (hx : IsSetting x) :
    (u.lookup p = none → sub c' p = some x) ∧
    (∀ w, u.lookup p = some w → ∃ r, given P x w = .ok r ∧ sub c' p = some r) := by
  have := update_at P hat u c' hu h
  refine ⟨fun h0 => (this.1 h0).2, fun w hw => ?_⟩
  rw [← fieldNew_setting P hx]
  exact this.2 w hw

theorem _root_.Calliope.Dict.WF_lookup' {u : Def} {p : Path} {d : Def} (hu : u.WF)
    (h : u.lookup p = some (.dict d)) : d.WF := by
  induction p generalizing u with
  | nil => simp [Dict.lookup] at h; subst h; exact hu
  | cons k p ih =>
    simp only [Dict.lookup] at h
    rcases hk : u.get1 k with _ | (a | e)
    · simp [hk] at h
    · simp only [hk] at h; split at h <;> cases h
    · simp only [hk] at h; exact ih (Dict.WF_get1 hu hk) h

/-- C19: an object with a fixed set of fields never gains one, and an object with user-defined
keys gains exactly the (validated) new keys of the update. -/
theorem C19_new_keys (P : Pydantic τ) (c c' : Cfg τ) (u : Def) (hu : u.WF)
    (h : update P c u = .ok c') (p : List String) (k : String) :
    (∀ t fs, At c p (.base t fs) → fs.lookup k = none → sub c' (p ++ [k]) = none) ∧
    (∀ t es, At c p (.dictM t es) → es.lookup k = none →
      (∀ w, u.lookup (p ++ [k]) = some w → w ≠ .leaf none →
        ∃ r, P.build t w = .ok r ∧ sub c' (p ++ [k]) = some r) ∧
      ((u.lookup (p ++ [k]) = none ∨ u.lookup (p ++ [k]) = some (.leaf none)) →
        sub c' (p ++ [k]) = none)) := by
  have sub_app : ∀ (p : List String) (c : Cfg τ) x, sub c p = some x → sub c (p ++ [k]) = sub x [k] := by
    intro p
    induction p with
    | nil => intro c x h; simp [sub] at h; simp [h]
    | cons k0 p ih =>
      intro c x h
      cases c with
      | leaf _ _ => simp [sub] at h
      | listM _ _ => simp [sub] at h
      | base t fs =>
        simp only [sub, List.cons_append] at h ⊢
        cases hl : fs.lookup k0 with
        | none => simp [hl] at h
        | some c2 => simp only [hl] at h ⊢; exact ih c2 x h
      | dictM t fs =>
        simp only [sub, List.cons_append] at h ⊢
        cases hl : fs.lookup k0 with
        | none => simp [hl] at h
        | some c2 => simp only [hl] at h ⊢; exact ih c2 x h
  have look_app : ∀ (p : List String) (u : Def), u.lookup (p ++ [k]) =
      match u.lookup p with | some (.dict d) => d.get1 k | _ => none := by
    intro p
    induction p with
    | nil =>
      intro u; simp only [List.nil_append, Dict.lookup]
      rcases u.get1 k with _ | (a | d) <;> simp
    | cons k0 p ih =>
      intro u
      simp only [List.cons_append, Dict.lookup]
      rcases u.get1 k0 with _ | (a | d)
      · rfl
      · simp
      · exact ih d
  constructor
  · intro t fs hat hk
    have := update_at P hat u c' hu h
    rcases hl : u.lookup p with _ | w
    · have := (this.1 hl).2
      rw [sub_app _ _ _ this]; simp [sub, hk]
    · obtain ⟨r, hr, hs⟩ := this.2 w hl
      rw [sub_app _ _ _ hs]
      cases w with
      | leaf a =>
        cases a with
        | none => simp [fieldNew, emptyUpdate] at hr; subst hr; simp [sub, hk]
        | some a => simp [fieldNew, emptyUpdate] at hr
      | dict d =>
        obtain ⟨fs', hb, rfl, -⟩ := updWithDict_base hr
        have hd := (Dict.WF_lookup' hu hl)
        have hg := updBase_get P fs d hd fs fs' hb k
        have : fs'.lookup k = none := by
          rcases hk2 : d.get1 k with _ | w
          · rw [hg.1 hk2, hk]
          · rw [(hg.2 w hk2).1 hk, hk]
        simp [sub, this]
  · intro t es hat hk
    have := update_at P hat u c' hu h
    rw [look_app]
    rcases hl : u.lookup p with _ | w
    · have := (this.1 hl).2
      rw [sub_app _ _ _ this]; simp [sub, hk]
    · obtain ⟨r, hr, hs⟩ := this.2 w hl
      rw [sub_app _ _ _ hs]
      cases w with
      | leaf a =>
        cases a with
        | none => simp [fieldNew, emptyUpdate] at hr; subst hr; simp [sub, hk]
        | some a => simp [fieldNew, emptyUpdate] at hr
      | dict d =>
        obtain ⟨fs', hb, rfl, -⟩ := updWithDict_dictM hr
        have hd := (Dict.WF_lookup' hu hl)
        have hg := updDict_get P t es d hd es fs' hb k
        refine ⟨fun w hw hw2 => ?_, fun hw => ?_⟩
        · rcases (hg.2 w hw).1 hk with ⟨h1, _⟩ | ⟨_, r, h1, h2⟩
          · exact absurd h1 hw2
          · exact ⟨r, h1, by simp [sub, h2]⟩
        · rcases hw with hw | hw
          · simp only at hw; simp [sub, hg.1 hw, hk]
          · rcases (hg.2 _ hw).1 hk with ⟨_, h1⟩ | ⟨h1, _⟩
            · simp [sub, h1, hk]
            · exact absurd rfl h1

/-- Assumption on pydantic used for idempotence only: giving a freshly validated object the raw
value it was validated from changes nothing. -/
def Stable (P : Pydantic τ) : Prop :=
  ∀ t v r, P.build t v = .ok r → fieldNew P r v = .ok r

theorem updBase_id (P : Pydantic τ) (fs : List (String × Cfg τ)) (u : Def)
    (hs : ∀ k w c, u.get1 k = some w → fs.lookup k = some c → fieldNew P c w = .ok c)
    (hu : u.WF) (hun : ∀ k w, u.get1 k = some w → fs.lookup k = none → P.strict = false ∨ w = .leaf none) :
    updBase P fs fs u = .ok fs := by
  induction u with
  | nil => rw [updBase]
  | leaf k0 a rest ih =>
    have hk0 : rest.get1 k0 = none := (Dict.get1_eq_none _ _).2 hu.1
    have hget : ∀ k w, rest.get1 k = some w → (Dict.leaf k0 a rest).get1 k = some w := by
      intro k w hw
      have : k0 ≠ k := by rintro rfl; rw [hk0] at hw; cases hw
      simp [Dict.get1, this, hw]
    have ih := ih (fun k w c h1 h2 => hs k w c (hget k w h1) h2) hu.2
      (fun k w h1 h2 => hun k w (hget k w h1) h2)
    rw [updBase]
    rcases hl : fs.lookup k0 with _ | c
    · simp only [ih]
      rcases hun k0 (.leaf a) (by simp [Dict.get1]) hl with h | h
      · simp [h]
      · cases h; simp
    · have hc := hs k0 (.leaf a) c (by simp [Dict.get1]) hl
      have e : setField fs k0 c = fs := setField_same _ _ _ hl
      cases c <;> simp only [fieldNew] at hc <;> simp only [hc, e, ih]
  | sub k0 d rest _ ih =>
    have hk0 : rest.get1 k0 = none := (Dict.get1_eq_none _ _).2 hu.1
    have hget : ∀ k w, rest.get1 k = some w → (Dict.sub k0 d rest).get1 k = some w := by
      intro k w hw
      have : k0 ≠ k := by rintro rfl; rw [hk0] at hw; cases hw
      simp [Dict.get1, this, hw]
    have ih := ih (fun k w c h1 h2 => hs k w c (hget k w h1) h2) hu.2.2
      (fun k w h1 h2 => hun k w (hget k w h1) h2)
    rw [updBase]
    rcases hl : fs.lookup k0 with _ | c
    · simp only [ih]
      rcases hun k0 (.dict d) (by simp [Dict.get1]) hl with h | h
      · simp [h]
      · cases h
    · have hc := hs k0 (.dict d) c (by simp [Dict.get1]) hl
      have e : setField fs k0 c = fs := setField_same _ _ _ hl
      simp only [fieldNew] at hc
      simp only [hc, e, ih]

theorem updDict_id (P : Pydantic τ) (t : τ) (fs : List (String × Cfg τ)) (u : Def)
    (hs : ∀ k w c, u.get1 k = some w → fs.lookup k = some c → entryNew P t c w = .ok c)
    (hu : u.WF) (hun : ∀ k w, u.get1 k = some w → fs.lookup k = none → w = .leaf none) :
    updDict P t fs fs u = .ok fs := by
  induction u with
  | nil => rw [updDict]
  | leaf k0 a rest ih =>
    have hk0 : rest.get1 k0 = none := (Dict.get1_eq_none _ _).2 hu.1
    have hget : ∀ k w, rest.get1 k = some w → (Dict.leaf k0 a rest).get1 k = some w := by
      intro k w hw
      have : k0 ≠ k := by rintro rfl; rw [hk0] at hw; cases hw
      simp [Dict.get1, this, hw]
    have ih := ih (fun k w c h1 h2 => hs k w c (hget k w h1) h2) hu.2
      (fun k w h1 h2 => hun k w (hget k w h1) h2)
    rw [updDict]
    rcases hl : fs.lookup k0 with _ | c
    · have h := hun k0 (.leaf a) (by simp [Dict.get1]) hl
      cases h; simp [ih]
    · have hc := hs k0 (.leaf a) c (by simp [Dict.get1]) hl
      have e : setField fs k0 c = fs := setField_same _ _ _ hl
      cases c <;> simp only [entryNew, fieldNew] at hc <;> simp only [hc, e, ih]
  | sub k0 d rest _ ih =>
    have hk0 : rest.get1 k0 = none := (Dict.get1_eq_none _ _).2 hu.1
    have hget : ∀ k w, rest.get1 k = some w → (Dict.sub k0 d rest).get1 k = some w := by
      intro k w hw
      have : k0 ≠ k := by rintro rfl; rw [hk0] at hw; cases hw
      simp [Dict.get1, this, hw]
    have ih := ih (fun k w c h1 h2 => hs k w c (hget k w h1) h2) hu.2.2
      (fun k w h1 h2 => hun k w (hget k w h1) h2)
    rw [updDict]
    rcases hl : fs.lookup k0 with _ | c
    · have h := hun k0 (.dict d) (by simp [Dict.get1]) hl
      cases h
    · have hc := hs k0 (.dict d) c (by simp [Dict.get1]) hl
      have e : setField fs k0 c = fs := setField_same _ _ _ hl
      cases c <;> simp only [entryNew, fieldNew] at hc <;> simp only [hc, e, ih]

theorem strict_of_ok (P : Pydantic τ) (fs : List (String × Cfg τ)) (u : Def) :
    ∀ acc fs', updBase P fs acc u = .ok fs' → ∀ k w, u.get1 k = some w → fs.lookup k = none →
      P.strict = false ∨ w = .leaf none := by
  induction u with
  | nil => intro _ _ _ k w h; simp [Dict.get1] at h
  | leaf k0 a rest ih =>
    intro acc fs' h k w hw hk
    rw [updBase] at h
    by_cases e : k0 = k
    · subst e
      simp only [Dict.get1, if_true] at hw; cases hw
      simp only [hk] at h
      by_cases ha : a = none
      · right; rw [ha]
      · rw [if_neg ha] at h
        by_cases hst : P.strict
        · rw [if_pos hst] at h; cases h
        · left; simpa using hst
    · simp only [Dict.get1, if_neg e] at hw
      rcases hl : fs.lookup k0 with _ | c
      · simp only [hl] at h
        split at h
        · exact ih _ _ h k w hw hk
        · split at h
          · cases h
          · exact ih _ _ h k w hw hk
      · simp only [hl] at h
        split at h
        · cases h
        · exact ih _ _ h k w hw hk
  | sub k0 d rest _ ih =>
    intro acc fs' h k w hw hk
    rw [updBase] at h
    by_cases e : k0 = k
    · subst e
      simp only [Dict.get1, if_true] at hw; cases hw
      simp only [hk] at h
      by_cases hst : P.strict
      · rw [if_pos hst] at h; cases h
      · left; simpa using hst
    · simp only [Dict.get1, if_neg e] at hw
      rcases hl : fs.lookup k0 with _ | c
      · simp only [hl] at h
        split at h
        · cases h
        · exact ih _ _ h k w hw hk
      · simp only [hl] at h
        split at h
        · cases h
        · exact ih _ _ h k w hw hk

theorem sizeOf_get1 {u : Def} {k d} (h : u.get1 k = some (.dict d)) : sizeOf d < sizeOf u := by
  induction u with
  | nil => simp [Dict.get1] at h
  | leaf k0 a rest ih =>
    simp only [Dict.get1] at h
    split at h
    · cases h
    · have := ih h; simp; omega
  | sub k0 e rest _ ih =>
    simp only [Dict.get1] at h
    split at h
    · cases h; simp; omega
    · have := ih h; simp; omega

theorem fieldNew_idem (P : Pydantic τ) (hP : Stable P) : ∀ (n : Nat) (c r : Cfg τ) (w : Val Scalar),
    sizeOf w < n → (∀ d, w = .dict d → d.WF) → fieldNew P c w = .ok r → fieldNew P r w = .ok r := by
  intro n
  induction n with
  | zero => intro c r w h; omega
  | succ n ih =>
    intro c r w hn hw h
    have build_case : ∀ t, P.build t w = .ok r → fieldNew P r w = .ok r := fun t hb => hP t w r hb
    cases w with
    | leaf a =>
      cases c with
      | base t fs =>
        cases a with
        | none => simp [fieldNew, emptyUpdate] at h; subst h; simp [fieldNew, emptyUpdate]
        | some a => simp [fieldNew, emptyUpdate] at h
      | dictM t fs =>
        cases a with
        | none => simp [fieldNew, emptyUpdate] at h; subst h; simp [fieldNew, emptyUpdate]
        | some a => simp [fieldNew, emptyUpdate] at h
      | listM t v =>
        simp only [fieldNew, updList] at h
        split at h
        · cases h
        · rename_i hb; cases h; simp [fieldNew, updList, hb]
      | leaf t v =>
        simp only [fieldNew] at h
        split at h
        · rename_i hsame; cases h; simp [fieldNew, hsame]
        · exact build_case t h
    | dict d =>
      have hd := hw d rfl
      have hsz : ∀ k e, d.get1 k = some e → sizeOf e < n := by
        intro k e he
        cases e with
        | leaf a =>
          -- a leaf is smaller than the dictionary that holds it
          have : ∀ u : Def, u.get1 k = some (.leaf a) → sizeOf (Val.leaf a : Val Scalar) ≤ sizeOf u := by
            intro u
            induction u with
            | nil => intro h; simp [Dict.get1] at h
            | leaf k0 b rest ih =>
              intro h; simp only [Dict.get1] at h
              split at h
              · cases h; simp; omega
              · have := ih h; simp at this ⊢; omega
            | sub k0 b rest _ ih =>
              intro h; simp only [Dict.get1] at h
              split at h
              · cases h
              · have := ih h; simp at this ⊢; omega
          have := this d he
          simp at hn this ⊢; omega
        | dict e => have := sizeOf_get1 he; simp at hn ⊢; omega
      simp only [fieldNew] at h ⊢
      cases c with
      | base t fs =>
        obtain ⟨fs', hb, rfl, hc⟩ := updWithDict_base h
        have hid : updBase P fs' fs' d = .ok fs' := by
          have hg := updBase_get P fs d hd fs fs' hb
          apply updBase_id P fs' d _ hd
          · intro k w hw hk
            rcases hl : fs.lookup k with _ | c0
            · exact strict_of_ok P fs d fs fs' hb k w hw hl
            · obtain ⟨r, hr, h2⟩ := ((hg k).2 w hw).2 c0 hl
              rw [h2] at hk; cases hk
          · intro k w c1 hw hk
            rcases hl : fs.lookup k with _ | c0
            · rw [((hg k).2 w hw).1 hl, hl] at hk; cases hk
            · obtain ⟨r, hr, h2⟩ := ((hg k).2 w hw).2 c0 hl
              rw [h2] at hk; cases hk
              exact ih c0 c1 w (hsz k w hw) (fun e he => by subst he; exact Dict.WF_get1 hd hw) hr
        rw [updWithDict]; simp only [hid, hc]
      | dictM t fs =>
        obtain ⟨fs', hb, rfl, hc⟩ := updWithDict_dictM h
        have hid : updDict P t fs' fs' d = .ok fs' := by
          have hg := updDict_get P t fs d hd fs fs' hb
          apply updDict_id P t fs' d _ hd
          · intro k w hw hk
            rcases hl : fs.lookup k with _ | c0
            · rcases ((hg k).2 w hw).1 hl with ⟨h1, _⟩ | ⟨_, r, _, h2⟩
              · exact h1
              · rw [h2] at hk; cases hk
            · obtain ⟨r, hr, h2⟩ := ((hg k).2 w hw).2 c0 hl
              rw [h2] at hk; cases hk
          · intro k w c1 hw hk
            have hbuild : ∀ r, P.build t w = .ok r → entryNew P t r w = .ok r := by
              intro r hr
              have := hP t w r hr
              cases r with
              | dictM _ _ => exact hr
              | leaf t' v =>
                simp only [entryNew]; split
                · rfl
                · exact hr
              | base _ _ => exact this
              | listM _ _ => exact this
            rcases hl : fs.lookup k with _ | c0
            · rcases ((hg k).2 w hw).1 hl with ⟨_, h1⟩ | ⟨_, r, h1, h2⟩
              · rw [h1, hl] at hk; cases hk
              · rw [h2] at hk; cases hk; exact hbuild c1 h1
            · obtain ⟨r, hr, h2⟩ := ((hg k).2 w hw).2 c0 hl
              rw [h2] at hk; cases hk
              have hmain : ∀ r, entryNew P t c0 w = .ok r → entryNew P t r w = .ok r := by
                intro r hr
                cases c0 with
                | dictM _ _ => exact hbuild r hr
                | leaf t' v =>
                  simp only [entryNew] at hr
                  split at hr
                  · rename_i hsame; cases hr; simp [entryNew, hsame]
                  · exact hbuild r hr
                | listM t' v =>
                  have hi := ih (.listM t' v) r w (hsz k w hw) (fun e he => by subst he; exact Dict.WF_get1 hd hw) hr
                  have : ∃ v', r = .listM t' v' := by
                    have hr' : updList P t' w = .ok r := by
                      cases w with
                      | leaf a => exact hr
                      | dict e => simpa only [entryNew, fieldNew, updWithDict] using hr
                    simp only [updList] at hr'
                    split at hr'
                    · cases hr'
                    · cases hr'; exact ⟨_, rfl⟩
                  obtain ⟨v', rfl⟩ := this
                  exact hi
                | base t' v =>
                  have hi := ih (.base t' v) r w (hsz k w hw) (fun e he => by subst he; exact Dict.WF_get1 hd hw) hr
                  have : ∃ v', r = .base t' v' := by
                    cases w with
                    | leaf a => cases a <;> simp [entryNew, fieldNew, emptyUpdate] at hr; exact ⟨v, hr.symm⟩
                    | dict e => obtain ⟨fs2, _, h2, _⟩ := updWithDict_base hr; exact ⟨fs2, h2⟩
                  obtain ⟨v', rfl⟩ := this
                  exact hi
              exact hmain c1 hr
        rw [updWithDict]; simp only [hid, hc]
      | listM t v =>
        rw [updWithDict] at h
        simp only [updList] at h
        split at h
        · cases h
        · rename_i hb; cases h; rw [updWithDict]; simp [updList, hb]
      | leaf t v =>
        rw [updWithDict] at h
        split at h
        · rename_i hsame; cases h; rw [updWithDict]; simp [hsame]
        · exact build_case t h

/-- A path that never enters a dict model held directly by a dict model. -/
def Walk : Cfg τ → List String → Prop
  | _, [] => True
  | .base _ fs, k :: q => ∃ c, fs.lookup k = some c ∧ Walk c q
  | .dictM _ es, k :: q => ∃ c, es.lookup k = some c ∧ (q = [] ∨ ¬ IsDictM c) ∧ Walk c q
  | _, _ => False

theorem walk_of_at {c : Cfg τ} {p x} (h : At c p x) : Walk c p := by
  induction h with
  | here c => simp [Walk]
  | base hk _ ih => exact ⟨_, hk, ih⟩
  | dict hk h1 _ _ ih => exact ⟨_, hk, Or.inr h1, ih⟩

theorem walk_update (P : Pydantic τ) {c p x} (hat : At c p x) : ∀ (u : Def) (c' : Cfg τ), u.WF →
    updWithDict P c u = .ok c' → Walk c' p := by
  induction hat with
  | here c => intros; simp [Walk]
  | @base t fs k c p x hk hat ih =>
    intro u c' hu h
    obtain ⟨fs', hb, rfl, -⟩ := updWithDict_base h
    have hg := updBase_get P fs u hu fs fs' hb k
    rcases hu1 : u.get1 k with _ | w1
    · exact ⟨c, by rw [hg.1 hu1, hk], walk_of_at hat⟩
    · obtain ⟨r, hr, hl⟩ := (hg.2 w1 hu1).2 c hk
      refine ⟨r, hl, ?_⟩
      cases w1 with
      | dict d => exact ih d r (Dict.WF_get1 hu hu1) hr
      | leaf a =>
        cases hat with
        | here => simp [Walk]
        | base h1 h2 => cases a <;> simp [fieldNew, emptyUpdate] at hr; subst hr; exact walk_of_at (.base h1 h2)
        | dict h1 h2 h3 h4 => cases a <;> simp [fieldNew, emptyUpdate] at hr; subst hr; exact walk_of_at (.dict h1 h2 h3 h4)
  | @dict t fs k c p x hk h1 h2 hat ih =>
    intro u c' hu h
    obtain ⟨fs', hb, rfl, -⟩ := updWithDict_dictM h
    have hg := updDict_get P t fs u hu fs fs' hb k
    rcases hu1 : u.get1 k with _ | w1
    · exact ⟨c, by rw [hg.1 hu1, hk], Or.inr h1, walk_of_at hat⟩
    · obtain ⟨r, hr, hl⟩ := (hg.2 w1 hu1).2 c hk
      rw [entryNew_eq P t c _ h1 h2] at hr
      refine ⟨r, hl, ?_, ?_⟩
      · cases hat with
        | here => exact Or.inl rfl
        | base _ _ =>
          right
          rintro ⟨t2, es2, rfl⟩
          cases w1 with
          | leaf a => cases a <;> simp [fieldNew, emptyUpdate] at hr
          | dict d => obtain ⟨fs2, -, h, -⟩ := updWithDict_base hr; cases h
        | dict _ _ _ _ => exact absurd ⟨_, _, rfl⟩ h1
      · cases w1 with
        | dict d => exact ih d r (Dict.WF_get1 hu hu1) hr
        | leaf a =>
          cases hat with
          | here => simp [Walk]
          | base e1 e2 => cases a <;> simp [fieldNew, emptyUpdate] at hr; subst hr; exact walk_of_at (.base e1 e2)
          | dict _ _ _ _ => exact absurd ⟨_, _, rfl⟩ h1

theorem keep_sub (P : Pydantic τ) (p : List String) : ∀ (f g y : Cfg τ) (u : Def), u.WF →
    u.lookup p = none → Walk f p → sub f p = some y → updWithDict P f u = .ok g →
    sub g p = some y := by
  induction p with
  | nil => intro f g y u hu hn; simp [Dict.lookup] at hn
  | cons k q ih =>
    intro f g y u hu hn hw hs h
    cases f with
    | leaf _ _ => simp [sub] at hs
    | listM _ _ => simp [sub] at hs
    | base t fs =>
      obtain ⟨fs', hb, rfl, -⟩ := updWithDict_base h
      obtain ⟨c, hk, hwc⟩ := hw
      have hg := updBase_get P fs u hu fs fs' hb k
      simp only [sub, hk] at hs
      rcases hu1 : u.get1 k with _ | w1
      · simp only [sub, hg.1 hu1, hk, hs]
      · obtain ⟨r, hr, hl⟩ := (hg.2 w1 hu1).2 c hk
        simp only [sub, hl]
        cases w1 with
        | dict d =>
          simp only [Dict.lookup, hu1] at hn
          exact ih c r y d (Dict.WF_get1 hu hu1) hn hwc hs hr
        | leaf a =>
          simp only [Dict.lookup, hu1] at hn
          have hq : q ≠ [] := by intro e; simp [e] at hn
          obtain ⟨k2, q2, rfl⟩ : ∃ k2 q2, q = k2 :: q2 := by
            cases q with
            | nil => exact absurd rfl hq
            | cons a b => exact ⟨a, b, rfl⟩
          cases c with
          | leaf _ _ => simp [sub] at hs
          | listM _ _ => simp [sub] at hs
          | base _ _ => cases a <;> simp [fieldNew, emptyUpdate] at hr; subst hr; exact hs
          | dictM _ _ => cases a <;> simp [fieldNew, emptyUpdate] at hr; subst hr; exact hs
    | dictM t fs =>
      obtain ⟨fs', hb, rfl, -⟩ := updWithDict_dictM h
      obtain ⟨c, hk, hnd, hwc⟩ := hw
      have hg := updDict_get P t fs u hu fs fs' hb k
      simp only [sub, hk] at hs
      rcases hu1 : u.get1 k with _ | w1
      · simp only [sub, hg.1 hu1, hk, hs]
      · obtain ⟨r, hr, hl⟩ := (hg.2 w1 hu1).2 c hk
        simp only [sub, hl]
        have hq : q ≠ [] := by
          rintro rfl
          cases w1 <;> simp [Dict.lookup, hu1] at hn
        obtain ⟨k2, q2, rfl⟩ : ∃ k2 q2, q = k2 :: q2 := by
          cases q with
          | nil => exact absurd rfl hq
          | cons a b => exact ⟨a, b, rfl⟩
        have hnd := hnd.resolve_left (by simp)
        cases c with
        | leaf _ _ => simp [sub] at hs
        | listM _ _ => simp [sub] at hs
        | dictM _ _ => exact absurd ⟨_, _, rfl⟩ hnd
        | base t' fs2 =>
          cases w1 with
          | dict d =>
            simp only [Dict.lookup, hu1] at hn
            exact ih _ r y d (Dict.WF_get1 hu hu1) hn hwc hs hr
          | leaf a => cases a <;> simp [entryNew, fieldNew, emptyUpdate] at hr; subst hr; exact hs

/-- C19: applying the same update a second time changes nothing. -/
theorem C19_idempotent (P : Pydantic τ) (hP : Stable P) (c c' : Cfg τ) (u : Def) (hu : u.WF)
    (h : update P c u = .ok c') : update P c' u = .ok c' :=
  fieldNew_idem P hP (sizeOf (Val.dict u : Val Scalar) + 1) c c' (.dict u) (by omega)
    (fun d hd => by cases hd; exact hu) h

/-- C19: two updates that name no common setting give the same settings in either order. -/
theorem C19_disjoint_commute (P : Pydantic τ) (c c1 c12 c2 c21 : Cfg τ) (u1 u2 : Def)
    (hu1 : u1.WF) (hu2 : u2.WF)
    (h1 : update P c u1 = .ok c1) (h12 : update P c1 u2 = .ok c12)
    (h2 : update P c u2 = .ok c2) (h21 : update P c2 u1 = .ok c21)
    (p : List String) (x : Cfg τ) (hat : At c p x)
    (hdis : u1.lookup p = none ∨ u2.lookup p = none) :
    sub c12 p = sub c21 p := by
  have aux : ∀ (u v : Def) (d e de f g : Cfg τ), u.WF → v.WF → update P d u = .ok e →
      update P e v = .ok de → update P d v = .ok f → update P f u = .ok g → At d p x →
      u.lookup p = none → sub de p = sub g p := by
    intro u v d e de f g hu hv ha hb hc hd hat hn
    have s1 := update_at P hat u e hu ha
    have s2 := update_at P (s1.1 hn).1 v de hv hb
    have s3 := update_at P hat v f hv hc
    rcases hw : v.lookup p with _ | w
    · have s4 := update_at P (s3.1 hw).1 u g hu hd
      rw [(s2.1 hw).2, (s4.1 hn).2]
    · obtain ⟨r, hr, hs⟩ := s2.2 w hw
      obtain ⟨r', hr', hs'⟩ := s3.2 w hw
      rw [hr] at hr'; cases hr'
      rw [hs]
      exact (keep_sub P p f g r u hu hn (walk_update P hat v f hv hc) hs' hd).symm
  rcases hdis with h | h
  · exact aux u1 u2 c c1 c12 c2 c21 hu1 hu2 h1 h12 h2 h21 hat h
  · exact (aux u2 u1 c c2 c21 c1 c12 hu2 hu1 h2 h21 h1 h12 hat h).symm

/-! ### A concrete configuration -/

/-- A small schema: annotation `"int"` accepts integers only, `"any"` accepts everything. -/
def toyPydantic : Pydantic String where
  build t v :=
    if t = "int" then
      match v with
      | .leaf (some (.int _)) => .ok (.leaf t v)
      | _ => .error .valueError
    else .ok (.leaf t v)
  buildList _ v := .ok v
  same v w := decide (v = w)
  strict := false
  checkAll _ _ := .ok ()

theorem toyPydantic_stable : Stable toyPydantic := by
  intro t v r h
  have hr : r = .leaf t v := by
    simp only [toyPydantic] at h
    split at h
    · split at h
      · cases h; rfl
      · cases h
    · cases h; rfl
  subst hr
  cases v with
  | leaf a => simp [fieldNew, toyPydantic]
  | dict d => simp only [fieldNew]; rw [updWithDict]; simp [toyPydantic]

/-- `config` with `init.name`, `build.horizon` and a dict model `init.subset`. -/
def toyConfig : Cfg String :=
  .base "config"
    [("init", .base "init" [("name", .leaf "any" (.leaf (some (.str "m")))),
        ("subset", .dictM "any" [("nodes", .leaf "any" (.leaf (some (.list ["a"]))))])]),
     ("build", .base "build" [("horizon", .leaf "int" (.leaf (some (.int 24))))])]

/-- `config.update({"build.horizon": 48, "init.subset.techs": ["b"]})`. -/
def toyUpdate : Def :=
  .sub "build" (.leaf "horizon" (some (.int 48)) .nil)
    (.sub "init" (.sub "subset" (.leaf "techs" (some (.list ["b"])) .nil) .nil) .nil)

theorem toyUpdate_ok : update toyPydantic toyConfig toyUpdate = .ok
    (.base "config"
      [("init", .base "init" [("name", .leaf "any" (.leaf (some (.str "m")))),
          ("subset", .dictM "any" [("nodes", .leaf "any" (.leaf (some (.list ["a"])))),
            ("techs", .leaf "any" (.leaf (some (.list ["b"]))))])]),
       ("build", .base "build" [("horizon", .leaf "int" (.leaf (some (.int 48))))])]) := by
  simp [update, updWithDict, updBase, updDict, toyConfig, toyUpdate, toyPydantic, setField,
    List.lookup]

example : toyUpdate.WF ∧ At toyConfig ["build", "horizon"] (.leaf "int" (.leaf (some (.int 24)))) ∧
    At toyConfig ["init", "subset", "nodes"] (.leaf "any" (.leaf (some (.list ["a"])))) := by
  refine ⟨by simp [toyUpdate, Dict.WF, Dict.keys], ?_, ?_⟩
  · exact .base rfl (.base rfl (.here _))
  · refine .base rfl (.base rfl (.dict rfl ?_ ?_ (.here _)))
    · rintro ⟨_, _, h⟩; cases h
    · intro t' v h; cases h; rfl

/-- A value of the wrong type is refused. -/
example : update toyPydantic toyConfig
    (.sub "build" (.leaf "horizon" (some (.str "x")) .nil) .nil) = .error .valueError := by
  simp [update, updWithDict, updBase, toyConfig, toyPydantic, List.lookup]

/-! ### C20 -/

theorem setSize_le {α : Type} [DecidableEq α] (l : List α) : setSize l ≤ l.length := by
  induction l with
  | nil => simp [setSize]
  | cons x l ih => simp only [setSize, List.length_cons]; split <;> omega

theorem setSize_eq {α : Type} [DecidableEq α] (l : List α) : l.length = setSize l ↔ l.Nodup := by
  induction l with
  | nil => simp [setSize]
  | cons x l ih =>
    have := setSize_le l
    simp only [setSize, List.length_cons, List.nodup_cons]
    split
    · rename_i h; constructor
      · omega
      · intro h'; exact absurd h h'.1
    · rename_i h; rw [← ih]; constructor
      · intro h'; exact ⟨h, by omega⟩
      · intro h'; omega

/-- C20 (lists of strings and numbers, and lists of lists): accepted exactly when no two entries
are equal.  Missing: lists mixing both kinds, where the claim is false (see below). -/
theorem C20_unique_partial :
    (∀ v : List Atom, validateUnique (v.map .atom) = .ok true ↔ v.Nodup) ∧
    (∀ v : List Atom, validateUnique (v.map .atom) = .ok true ∨ validateUnique (v.map .atom) = .ok false) ∧
    (∀ v : List (List Atom), validateUnique (v.map .list) = .ok true ↔ v.Nodup) ∧
    (∀ v : List (List Atom), validateUnique (v.map .list) = .ok true ∨ validateUnique (v.map .list) = .ok false) := by
  have hset : ∀ {α β : Type} [DecidableEq α] [DecidableEq β] (f : α → β), Function.Injective f →
      ∀ l : List α, (l.map f).Nodup ↔ l.Nodup := by
    intro α β _ _ f hf l
    induction l with
    | nil => simp
    | cons x l ih =>
      simp only [List.map_cons, List.nodup_cons, ih, List.mem_map]
      constructor
      · rintro ⟨h1, h2⟩; exact ⟨fun hx => h1 ⟨x, hx, rfl⟩, h2⟩
      · rintro ⟨h1, h2⟩; exact ⟨fun ⟨y, hy, e⟩ => h1 (hf e ▸ hy), h2⟩
  have ha : ∀ v : List Atom, validateUnique (v.map .atom) = .ok ((v.map LItem.atom).length == setSize (v.map LItem.atom)) := by
    intro v
    have : (v.map LItem.atom).all hashable = true := by simp [hashable]
    simp only [validateUnique, this, if_true]
  have hs : ∀ v : List (List Atom), sequenceTuples (v.map .list) = some v := by
    intro v
    induction v with
    | nil => rfl
    | cons x v ih => simp [sequenceTuples, tupleOf, ih]
  have hl : ∀ v : List (List Atom), validateUnique (v.map .list) = .ok (v.length == setSize v) := by
    intro v
    cases v with
    | nil => rfl
    | cons x v =>
      simp only [validateUnique, hs]
      simp [hashable]
  refine ⟨?_, ?_, ?_, ?_⟩
  · intro v
    rw [ha, ← hset LItem.atom (fun a b h => by cases h; rfl) v, ← setSize_eq]
    simp
  · intro v; rw [ha]; cases ((v.map LItem.atom).length == setSize (v.map LItem.atom)) <;> simp
  · intro v; rw [hl, ← setSize_eq]; simp
  · intro v; rw [hl]; cases (v.length == setSize v) <;> simp

example : validateUnique [.atom (.str "a"), .atom (.int 1), .atom (.str "b")] = .ok true ∧
    validateUnique [.list [.int 1, .int 2], .list [.int 2, .int 1]] = .ok true ∧
    validateUnique [.list [.int 1], .list [.int 1]] = .ok false := by decide

/-- C20 fails for mixed lists: `["ab", ["a", "b"]]` has two different entries and is rejected,
and `[1, ["a"]]` is neither accepted nor rejected but raises `TypeError`. -/
theorem C20_mixed_lists_fail :
    ([LItem.atom (.str "ab"), .list [.str "a", .str "b"]]).Nodup ∧
    validateUnique [.atom (.str "ab"), .list [.str "a", .str "b"]] = .ok false ∧
    validateUnique [.atom (.int 1), .list [.str "a"]] = .error .typeError := by decide

end Config
end Calliope
