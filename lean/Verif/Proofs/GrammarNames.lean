import Verif.Proofs.GrammarLevels
import Verif.Proofs.GrammarLex

namespace Calliope
namespace Grammar

open Arith (Op isAdd isMul isPow)
open Where (CmpOp)

/-! ### Whole strings -/

theorem free_nil : Free [] := ⟨fun _ _ e => (by cases e), fun _ _ e => (by cases e), fun _ _ e => (by cases e)⟩

theorem follow_nil (ls : List (Op → Bool)) : Follow ls [] := ⟨free_nil, fun _ _ _ e => by cases e⟩

theorem readAll_iff {α : Type} {p : Nat → P α} {s : Str} {t : α} :
    readAll p s = some t ↔ ∃ ts, Written false s ts ∧ p (fuelFor ts.length) ts = some (t, []) := by
  unfold readAll
  constructor
  · intro h
    split at h
    · cases h
    · rename_i ts hl
      split at h
      · cases h
      · rename_i t' r hp
        split at h
        · rename_i hr; subst hr; cases h
          exact ⟨ts, (lex_iff _ _).1 hl, hp⟩
        · cases h
  · rintro ⟨ts, hw, hp⟩
    rw [(lex_iff _ _).2 hw]
    simp only [hp, if_true]

theorem written_unique {g : Bool} {s : Str} {ts us : List Tok} (h1 : Written g s ts) (h2 : Written g s us) : ts = us := by
  have a := lexAll_complete h1 _ (Nat.le_refl _)
  rw [lexAll_complete h2 _ (Nat.le_refl _)] at a
  exact (Option.some.inj a).symm

theorem level_iff {g : Gram} (hg : g.Ok) {t : Ast} {ts : List Tok} :
    pLevel g (fuelFor ts.length) g.bins ts = some (t, []) ↔ Spells g g.bins t ts := by
  constructor
  · intro h
    obtain ⟨c, rfl, hc⟩ := (sound_all g hg _).1 _ _ _ _ h
    simpa using hc
  · intro h
    have hb := bins_length g
    have := complete_all g h (List.suffix_refl _) [] (fuelFor ts.length) (follow_nil _) (by unfold fuelFor; omega)
    rwa [List.append_nil] at this

theorem follow_cmp {ls : List (Op → Bool)} {b : Bool} {o : CmpOp} {r : List Tok} : Follow ls ((b, .cmp o) :: r) :=
  ⟨free_cons (by simp) (by simp) (by simp), fun _ _ _ e => by cases e⟩

theorem equation_iff {g : Gram} (hg : g.Ok) {l r : Ast} {o : CmpOp} {ts : List Tok} :
    pEquation g (fuelFor ts.length) ts = some ((l, o, r), []) ↔ SEquation g l o r ts := by
  have hb := bins_length g
  constructor
  · intro h
    unfold pEquation at h
    split at h
    · cases h
    · rename_i l' r1 hl
      split at h
      · cases h
      · rename_i o' r2 ho
        obtain ⟨b, rfl⟩ := pCmp_some.1 ho
        split at h
        · rename_i hop
          split at h
          · rename_i t' r3 ht
            cases h
            obtain ⟨c, rfl, hc⟩ := (sound_all g hg _).1 _ _ _ _ hl
            obtain ⟨c', e, hc'⟩ := (sound_all g hg _).1 _ _ _ _ ht
            rw [List.append_nil] at e
            subst e
            exact .eqn (by simpa [or_assoc] using hop) hc hc'
          · cases h
        · cases h
  · intro h
    cases h with
    | @eqn b _ _ _ ts us ho hl hr =>
      have h1 := complete_all g hl (List.suffix_refl _) ((b, .cmp o) :: us) (fuelFor (ts ++ (b, .cmp o) :: us).length)
        follow_cmp (by simp only [fuelFor, List.length_append, List.length_cons]; omega)
      have h2 := complete_all g hr (List.suffix_refl _) [] (fuelFor (ts ++ (b, .cmp o) :: us).length)
        (follow_nil _) (by simp only [fuelFor, List.length_append, List.length_cons]; omega)
      rw [List.append_nil] at h2
      unfold pEquation
      rw [h1]
      simp only []
      rw [pCmp_some.2 ⟨b, rfl⟩]
      simp only [h2]
      rcases ho with rfl | rfl | rfl <;> rfl

theorem sliceDef_iff {g : Gram} (hg : g.Ok) {a : Arg} {ts : List Tok} :
    pSliceDef g (fuelFor ts.length) ts = some (a, []) ↔ SSliceDef g a ts := by
  constructor
  · intro h
    unfold pSliceDef at h
    split at h
    · rename_i t r ht
      cases h
      exact .ex ((level_iff hg).1 ht)
    · split at h
      · rename_i l r hl
        cases h
        obtain ⟨c, e, hc⟩ := pList_sound hl
        rw [List.append_nil] at e
        subst e
        exact .list hc
      · split at h
        · rename_i s r ht
          cases h
          obtain ⟨b, rfl, hi, hk⟩ := pText_some.1 ht
          refine .text hi hk ?_
          cases hc : g.comp s with
          | false => rfl
          | true => rw [hg s hc] at hk; cases hk
        · cases h
  · intro h
    cases h with
    | ex h => simp only [pSliceDef, (level_iff hg).2 h]
    | list h =>
      have h1 : pLevel g (fuelFor ts.length) g.bins ts = none := by
        cases h; exact pLevel_bad (.inl rfl) _ _ _ _
      have h2 := pList_complete h []
      rw [List.append_nil] at h2
      simp only [pSliceDef, h1, h2]
    | @text b s hi hk hc =>
      have h1 := pLevel_text hi hc free_nil b (fuelFor [(b, Lx.id s)].length) g.bins
      have h2 : pList g false [(b, .id s)] = none := by simp [pList, after]
      simp only [pSliceDef, h1, h2, pText_some.2 ⟨b, rfl, hi, hk⟩]

/-! ### Reading depends on the names that are used only -/

theorem ids_append (a b : List Tok) : idsOf (a ++ b) = idsOf a ++ idsOf b := by
  induction a with
  | nil => rfl
  | cons x a ih =>
    obtain ⟨c, x⟩ := x
    cases x <;> simp [idsOf, ih]

/-- Two grammars that differ in names that are not in `l` only. -/
structure SameOn (g g' : Gram) (l : List Str) : Prop where
  subs : g.subs = g'.subs
  slices : g.slices = g'.slices
  refs : g.refs = g'.refs
  config : g.config = g'.config
  ops : g.ops = g'.ops
  nested : g.nested = g'.nested
  textFirst : g.textFirst = g'.textFirst
  comp : ∀ s ∈ l, g.comp s = g'.comp s
  known : ∀ s ∈ l, g.known s = g'.known s
  listed : ∀ s ∈ l, g.listed s = g'.listed s

theorem SameOn.sub {g g' : Gram} {l m : List Str} (h : SameOn g g' l) (hm : ∀ s ∈ m, s ∈ l) : SameOn g g' m :=
  { h with comp := fun s hs => h.comp s (hm s hs), known := fun s hs => h.known s (hm s hs),
           listed := fun s hs => h.listed s (hm s hs) }

theorem SameOn.symm {g g' : Gram} {l : List Str} (h : SameOn g g' l) : SameOn g' g l :=
  ⟨h.subs.symm, h.slices.symm, h.refs.symm, h.config.symm, h.ops.symm, h.nested.symm, h.textFirst.symm,
    fun s hs => (h.comp s hs).symm, fun s hs => (h.known s hs).symm, fun s hs => (h.listed s hs).symm⟩

theorem SameOn.bins {g g' : Gram} {l : List Str} (h : SameOn g g' l) : g.bins = g'.bins := by
  simp [Gram.bins, h.ops]

theorem sItem_congr {g g' : Gram} {c : Bool} {i : Item} {ts : List Tok} (h : SItem g c i ts)
    (hs : SameOn g g' (idsOf ts)) : SItem g' c i ts := by
  cases h with
  | num h => exact .num h
  | text hi hk => exact .text hi (by rw [← hs.known _ (by simp [idsOf])]; exact hk)
  | comp hi hk hl =>
    exact .comp hi (by rw [← hs.known _ (by simp [idsOf])]; exact hk) (by rw [← hs.listed _ (by simp [idsOf])]; exact hl)

theorem sItems_congr {g g' : Gram} {c : Bool} {i : List Item} {ts : List Tok} (h : SItems g c i ts) :
    SameOn g g' (idsOf ts) → SItems g' c i ts := by
  induction h with
  | one h => intro hs; exact .one (sItem_congr h hs)
  | more h _ ih =>
    intro hs
    refine .more (sItem_congr h (hs.sub ?_)) (ih (hs.sub ?_)) <;> intro s hm <;> simp [ids_append, idsOf, hm]

theorem sList_congr {g g' : Gram} {c : Bool} {i : List Item} {ts : List Tok} (h : SList g c i ts)
    (hs : SameOn g g' (idsOf ts)) : SList g' c i ts := by
  cases h with
  | list h => exact .list (sItems_congr h (hs.sub (by intro s hm; simp [ids_append, idsOf, hm])))

theorem sSlicer_congr {g g' : Gram} {i : Slicer} {ts : List Tok} (h : SSlicer g i ts)
    (hs : SameOn g g' (idsOf ts)) : SSlicer g' i ts := by
  cases h with
  | ref hr hi => exact .ref (by rw [← hs.refs]; exact hr) hi
  | item h => exact .item (sItem_congr h hs)
  | list h => exact .list (sList_congr h hs)

theorem sSlices_congr {g g' : Gram} {i : List (Str × Slicer)} {ts : List Tok} (h : SSlices g i ts) :
    SameOn g g' (idsOf ts) → SSlices g' i ts := by
  induction h with
  | one hi h => intro hs; exact .one hi (sSlicer_congr h (hs.sub (by intro s hm; simp [idsOf, hm])))
  | more hi h _ ih =>
    intro hs
    refine .more hi (sSlicer_congr h (hs.sub ?_)) (ih (hs.sub ?_)) <;> intro s hm <;> simp [ids_append, idsOf, hm]

theorem sSimple_congr {g g' : Gram} {t : Ast} {ts : List Tok} (h : SSimple g t ts)
    (hs : SameOn g g' (idsOf ts)) : SSimple g' t ts := by
  cases h with
  | number h => exact .number (by rw [← hs.ops]; exact h)
  | comp hc hi => exact .comp (by rw [← hs.comp _ (by simp [idsOf])]; exact hc) hi
  | sub hc hi => exact .sub (by rw [← hs.subs]; exact hc) hi
  | sliced h1 h2 h3 =>
    exact .sliced (by rw [← hs.slices]; exact h1) (by rw [← hs.comp _ (by simp [idsOf])]; exact h2)
      (sSlices_congr h3 (hs.sub (by intro s hm; simp [ids_append, idsOf, hm])))
  | config h1 h2 hi =>
    exact .config (by rw [← hs.config]; exact h1) (by rw [← hs.comp _ (by simp [idsOf])]; exact h2) hi

theorem captured_congr {g g' : Gram} {ts : List Tok} (hs : SameOn g g' (idsOf ts)) (h : Captured g' ts) :
    Captured g ts := by
  rcases h with ⟨b, s, us, rfl, hi, hk⟩ | h
  · exact .inl ⟨b, s, us, rfl, hi, by rw [hs.known _ (by simp [idsOf])]; exact hk⟩
  · exact .inr h

theorem sep_ids {c : List Tok} (h : Sep c) : idsOf c = [] := by
  rcases h with rfl | ⟨b, rfl⟩ <;> rfl

theorem congr_both (g g' : Gram) :
    (∀ (ls : List (Op → Bool)) (t : Ast) (ts : List Tok), Spells g ls t ts → SameOn g g' (idsOf ts) → Spells g' ls t ts) ∧
    (∀ (as : Args) (ks : Kws) (us : List Tok), SFun g as ks us → SameOn g g' (idsOf us) → SFun g' as ks us) := by
  let m1 : ∀ (ls : List (Op → Bool)) (t : Ast) (ts : List Tok), Spells g ls t ts → Prop :=
    fun ls t ts _ => SameOn g g' (idsOf ts) → Spells g' ls t ts
  let m2 : ∀ (l : Op → Bool) (ls : List (Op → Bool)) (r : ARest) (rs : List Tok), SpellsRest g l ls r rs → Prop :=
    fun l ls r rs _ => SameOn g g' (idsOf rs) → SpellsRest g' l ls r rs
  let m3 : ∀ (as : Args) (ks : Kws) (us : List Tok), SFun g as ks us → Prop :=
    fun as ks us _ => SameOn g g' (idsOf us) → SFun g' as ks us
  let m4 : ∀ (a : Arg) (us : List Tok), SArg g a us → Prop := fun a us _ => SameOn g g' (idsOf us) → SArg g' a us
  let m5 : ∀ (as : Args) (us : List Tok), SArgs g as us → Prop := fun as us _ => SameOn g g' (idsOf us) → SArgs g' as us
  let m6 : ∀ (ks : Kws) (us : List Tok), SKws g ks us → Prop := fun ks us _ => SameOn g g' (idsOf us) → SKws g' ks us
  refine ⟨@Spells.rec g m1 m2 m3 m4 m5 m6
    ?simple ?call ?sign ?paren ?lift ?chain ?one ?more ?none ?args ?kws ?both ?ex ?num ?list ?text ?last ?next ?lastKey ?nextKey,
    @SFun.rec g m1 m2 m3 m4 m5 m6
    ?simple ?call ?sign ?paren ?lift ?chain ?one ?more ?none ?args ?kws ?both ?ex ?num ?list ?text ?last ?next ?lastKey ?nextKey⟩
  case simple => intro t ts h hs; exact .simple (sSimple_congr h hs)
  case call =>
    intro b b' n as ks ts hn hi _ ih hs
    exact .call (by rw [← hs.nested]; exact hn) hi (ih (hs.sub (by intro s hm; simp [ids_append, idsOf, hm])))
  case sign =>
    intro b o t ts hops ho _ ih hs
    exact .sign (by rw [← hs.ops]; exact hops) ho (ih (hs.sub (by intro s hm; simpa [idsOf] using hm)))
  case paren =>
    intro b b' t ts hops _ ih hs
    have := ih (hs.sub (by intro s hm; simp [ids_append, idsOf, hm]))
    rw [hs.bins] at this
    exact .paren (by rw [← hs.ops]; exact hops) this
  case lift => intro l ls t ts _ ih hs; exact .lift (ih hs)
  case chain =>
    intro l ls t r ts rs _ _ ih ihr hs
    exact .chain (ih (hs.sub (by intro s hm; simp [ids_append, hm]))) (ihr (hs.sub (by intro s hm; simp [ids_append, hm])))
  case one =>
    intro l ls b o t ts ho _ ih hs
    exact .one ho (ih (hs.sub (by intro s hm; simpa [idsOf] using hm)))
  case more =>
    intro l ls b o t r ts rs ho _ _ ih ihr hs
    exact .more ho (ih (hs.sub (by intro s hm; simp [ids_append, idsOf, hm])))
      (ihr (hs.sub (by intro s hm; simp [ids_append, idsOf, hm])))
  case none => intro _; exact .none
  case args => intro as ts _ ih hs; exact .args (ih hs)
  case kws => intro ks ts _ ih hs; exact .kws (ih hs)
  case both =>
    intro as ks ts us c _ hc _ ih ihk hs
    exact .both (ih (hs.sub (by intro s hm; simp [ids_append, hm]))) hc (ihk (hs.sub (by intro s hm; simp [ids_append, hm])))
  case ex =>
    intro t ts hcap _ ih hs
    have := ih hs
    rw [hs.bins] at this
    exact .ex (fun htf hc => hcap (by rw [hs.textFirst]; exact htf) (captured_congr hs hc)) this
  case num => intro s ts htf h hs; exact .num (by rw [← hs.textFirst]; exact htf) h
  case list => intro l ts h hs; exact .list (sList_congr h hs)
  case text =>
    intro b s hi hk hc hs
    exact .text hi (by rw [← hs.known _ (by simp [idsOf])]; exact hk)
      (fun htf => by rw [← hs.comp _ (by simp [idsOf])]; exact hc (by rw [hs.textFirst]; exact htf))
  case last => intro a ts _ ih hs; exact .last (ih hs)
  case next =>
    intro a as b ts us _ _ ih ihs hs
    exact .next (ih (hs.sub (by intro s hm; simp [ids_append, hm]))) (ihs (hs.sub (by intro s hm; simp [ids_append, idsOf, hm])))
  case lastKey =>
    intro b b' k v ts hi _ ih hs
    exact .lastKey hi (ih (hs.sub (by intro s hm; simp [idsOf, hm])))
  case nextKey =>
    intro b b' k v ks ts us c hi _ hc _ ih ihk hs
    exact .nextKey hi (ih (hs.sub (by intro s hm; simp [ids_append, idsOf, hm]))) hc
      (ihk (hs.sub (by intro s hm; simp [ids_append, idsOf, hm])))

theorem spells_congr {g g' : Gram} {ls : List (Op → Bool)} {t : Ast} {ts : List Tok} (h : Spells g ls t ts)
    (hs : SameOn g g' (idsOf ts)) : Spells g' ls t ts := (congr_both g g').1 _ _ _ h hs

theorem sFun_congr {g g' : Gram} {as : Args} {ks : Kws} {ts : List Tok} (h : SFun g as ks ts)
    (hs : SameOn g g' (idsOf ts)) : SFun g' as ks ts := (congr_both g g').2 _ _ _ h hs

end Grammar
end Calliope
