import Verif.Proofs.GrammarNames
import Verif.Spec.WhereGrammar

namespace Calliope
namespace Grammar

open Arith (Op isAdd isMul isPow)
open Where (CmpOp)

theorem lhs_ok (n : WNames) : n.lhs.Ok := by
  intro s h
  simp only [WNames.lhs, WNames.all, Bool.or_eq_true, Bool.and_eq_true] at h ⊢
  rcases h with (h | h) | ⟨_, h | h⟩ <;> simp [h]

theorem fn_ok (n : WNames) : n.fn.Ok := fun _ h => h

theorem isWord_iff {w s : Str} : isWord w s = true ↔ Word w s := by simp [isWord, Word]

/-! ### Parentheses -/

/-- What is before the parenthesis that closes, and what is after it. -/
def close : Nat → List Tok → Option (List Tok × List Tok)
  | _, [] => none
  | k, (b, .lpar) :: r => (close (k + 1) r).map fun p => ((b, .lpar) :: p.1, p.2)
  | 0, (_, .rpar) :: r => some ([], r)
  | k + 1, (b, .rpar) :: r => (close k r).map fun p => ((b, .rpar) :: p.1, p.2)
  | k, x :: r => (close k r).map fun p => (x :: p.1, p.2)

/-- Every parenthesis is closed. -/
def Even (ts : List Tok) : Prop := ∀ k rest, close k (ts ++ rest) = (close k rest).map fun p => (ts ++ p.1, p.2)

theorem even_nil : Even [] := by intro k rest; simp

theorem even_append {a b : List Tok} (ha : Even a) (hb : Even b) : Even (a ++ b) := by
  intro k rest
  rw [List.append_assoc, ha, hb, Option.map_map]
  congr 1
  funext p
  simp

theorem even_one {b : Bool} {x : Lx} (h1 : x ≠ .lpar) (h2 : x ≠ .rpar) : Even [(b, x)] := by
  intro k rest
  cases x <;> first | contradiction | (cases k <;> rfl)

theorem even_cons {b : Bool} {x : Lx} {ts : List Tok} (h1 : x ≠ .lpar) (h2 : x ≠ .rpar) (h : Even ts) :
    Even ((b, x) :: ts) := even_append (a := [(b, x)]) (even_one h1 h2) h

theorem even_paren {b b' : Bool} {ts : List Tok} (h : Even ts) : Even ((b, .lpar) :: (ts ++ [(b', .rpar)])) := by
  intro k rest
  simp only [List.cons_append, List.append_assoc, List.nil_append, close]
  rw [h]
  simp [close, Option.map_map, Function.comp_def]

theorem even_unique {b b' : Bool} {v w x y : List Tok} (hv : Even v) (hw : Even w)
    (e : v ++ (b, .rpar) :: x = w ++ (b', .rpar) :: y) : v = w ∧ x = y := by
  have h1 := hv 0 ((b, .rpar) :: x)
  have h2 := hw 0 ((b', .rpar) :: y)
  rw [e, h2] at h1
  simp only [close, Option.map_some, List.append_nil, Option.some.injEq, Prod.mk.injEq] at h1
  exact ⟨h1.1.symm, h1.2.symm⟩

theorem even_plain {ts : List Tok} (h : ∀ t ∈ ts, t.2 ≠ .lpar ∧ t.2 ≠ .rpar) : Even ts := by
  induction ts with
  | nil => exact even_nil
  | cons t ts ih =>
    obtain ⟨b, x⟩ := t
    exact even_cons (h (b, x) (by simp)).1 (h (b, x) (by simp)).2 (ih fun u hu => h u (by simp [hu]))

theorem even_unsigned {s : Str} {ts : List Tok} (h : Unsigned s ts) : Even ts := by
  cases h <;> exact even_plain (by simp)
theorem even_signed {s : Str} {ts : List Tok} (h : Signed s ts) : Even ts := by
  cases h with
  | plain h => exact even_unsigned h
  | _ => exact even_plain (by simp)
theorem even_item {g : Gram} {c : Bool} {i : Item} {ts : List Tok} (h : SItem g c i ts) : Even ts := by
  cases h with
  | num h => exact even_signed h
  | _ => exact even_plain (by simp)
theorem even_items {g : Gram} {c : Bool} {i : List Item} {ts : List Tok} (h : SItems g c i ts) : Even ts := by
  induction h with
  | one h => exact even_item h
  | more h _ ih => exact even_append (even_item h) (even_cons (by simp) (by simp) ih)
theorem even_list {g : Gram} {c : Bool} {i : List Item} {ts : List Tok} (h : SList g c i ts) : Even ts := by
  cases h with
  | list h => exact even_cons (by simp) (by simp) (even_append (even_items h) (even_one (by simp) (by simp)))
theorem even_slicer {g : Gram} {s : Slicer} {ts : List Tok} (h : SSlicer g s ts) : Even ts := by
  cases h with
  | ref => exact even_plain (by simp)
  | item h => exact even_item h
  | list h => exact even_list h
theorem even_slices {g : Gram} {l : List (Str × Slicer)} {ts : List Tok} (h : SSlices g l ts) : Even ts := by
  induction h with
  | one _ h => exact even_cons (by simp) (by simp) (even_cons (by simp) (by simp) (even_slicer h))
  | more _ h _ ih =>
    exact even_cons (by simp) (by simp) (even_cons (by simp) (by simp)
      (even_append (even_slicer h) (even_cons (by simp) (by simp) ih)))
theorem even_simple {g : Gram} {t : Ast} {ts : List Tok} (h : SSimple g t ts) : Even ts := by
  cases h with
  | number h =>
    split at h
    · exact even_unsigned h
    · exact even_signed h
  | sliced _ _ h =>
    exact even_cons (by simp) (by simp) (even_cons (by simp) (by simp)
      (even_append (even_slices h) (even_one (by simp) (by simp))))
  | _ => exact even_plain (by simp)
theorem even_sep {c : List Tok} (h : Sep c) : Even c := by
  rcases h with rfl | ⟨b, rfl⟩
  · exact even_nil
  · exact even_one (by simp) (by simp)

theorem even_both (g : Gram) :
    (∀ (ls : List (Op → Bool)) (t : Ast) (ts : List Tok), Spells g ls t ts → Even ts) ∧
    (∀ (as : Args) (ks : Kws) (us : List Tok), SFun g as ks us → Even us) := by
  let m1 : ∀ (ls : List (Op → Bool)) (t : Ast) (ts : List Tok), Spells g ls t ts → Prop := fun _ _ ts _ => Even ts
  let m2 : ∀ (l : Op → Bool) (ls : List (Op → Bool)) (r : ARest) (rs : List Tok), SpellsRest g l ls r rs → Prop :=
    fun _ _ _ rs _ => Even rs
  let m3 : ∀ (as : Args) (ks : Kws) (us : List Tok), SFun g as ks us → Prop := fun _ _ us _ => Even us
  let m4 : ∀ (a : Arg) (us : List Tok), SArg g a us → Prop := fun _ us _ => Even us
  let m5 : ∀ (as : Args) (us : List Tok), SArgs g as us → Prop := fun _ us _ => Even us
  let m6 : ∀ (ks : Kws) (us : List Tok), SKws g ks us → Prop := fun _ us _ => Even us
  refine ⟨@Spells.rec g m1 m2 m3 m4 m5 m6
    ?simple ?call ?sign ?paren ?lift ?chain ?one ?more ?none ?args ?kws ?both ?ex ?num ?list ?text ?last ?next ?lastKey ?nextKey,
    @SFun.rec g m1 m2 m3 m4 m5 m6
    ?simple ?call ?sign ?paren ?lift ?chain ?one ?more ?none ?args ?kws ?both ?ex ?num ?list ?text ?last ?next ?lastKey ?nextKey⟩
  case simple => intro t ts h; exact even_simple h
  case call => intro b b' n as ks ts _ _ _ ih; exact even_cons (by simp) (by simp) (even_paren ih)
  case sign => intro b o t ts _ _ _ ih; exact even_cons (by simp) (by simp) ih
  case paren => intro b b' t ts _ _ ih; exact even_paren ih
  case lift => intro l ls t ts _ ih; exact ih
  case chain => intro l ls t r ts rs _ _ ih ihr; exact even_append ih ihr
  case one => intro l ls b o t ts _ _ ih; exact even_cons (by simp) (by simp) ih
  case more => intro l ls b o t r ts rs _ _ _ ih ihr; exact even_cons (by simp) (by simp) (even_append ih ihr)
  case none => exact even_nil
  case args => intro as ts _ ih; exact ih
  case kws => intro ks ts _ ih; exact ih
  case both => intro as ks ts us c _ hc _ ih ihk; exact even_append ih (even_append (even_sep hc) ihk)
  case ex => intro t ts _ _ ih; exact ih
  case num => intro s ts _ h; exact even_signed h
  case list => intro l ts h; exact even_list h
  case text => intro b s _ _ _; exact even_one (by simp) (by simp)
  case last => intro a ts _ ih; exact ih
  case next => intro a as b ts us _ _ ih ihs; exact even_append ih (even_cons (by simp) (by simp) ihs)
  case lastKey =>
    intro b b' k v ts _ _ ih
    exact even_cons (by simp) (by simp) (even_cons (by simp) (by simp) ih)
  case nextKey =>
    intro b b' k v ks ts us c _ _ hc _ ih ihk
    exact even_cons (by simp) (by simp) (even_cons (by simp) (by simp)
      (even_append ih (even_append (even_sep hc) ihk)))

theorem even_setItem {i : SetItem} {ts : List Tok} (h : SSetItem i ts) : Even ts := by
  cases h with
  | num h => exact even_signed h
  | _ => exact even_plain (by simp)
theorem even_set {l : List SetItem} {ts : List Tok} (h : SSet l ts) : Even ts := by
  induction h with
  | one h => exact even_setItem h
  | more h _ ih => exact even_append (even_setItem h) (even_cons (by simp) (by simp) ih)
theorem even_rhs {n : WNames} {r : CRhs} {ts : List Tok} (h : SRhs n r ts) : Even ts := by
  cases h with
  | call _ h => exact even_cons (by simp) (by simp) (even_paren ((even_both _).2 _ _ _ h))
  | num h => exact even_signed h
  | _ => exact even_plain (by simp)
theorem even_leaf {n : WNames} {l : WLeaf} {ts : List Tok} (h : SLeaf n l ts) : Even ts := by
  cases h with
  | cmp hl hr _ => exact even_append ((even_both _).1 _ _ _ hl) (even_cons (by simp) (by simp) (even_rhs hr))
  | call _ h _ => exact even_cons (by simp) (by simp) (even_paren ((even_both _).2 _ _ _ h))
  | isIn h _ => exact even_cons (by simp) (by simp) (even_append (even_set h) (even_plain (by simp)))
  | _ => exact even_plain (by simp)
theorem even_word {o : Where.Op} {ts : List Tok} (h : SWord o ts) : Even ts := by
  cases h <;> exact even_plain (by simp)

theorem even_cond {n : WNames} {t : Infix.Tree Where.Op WLeaf} {ts : List Tok} (h : SCond n t ts) : Even ts := by
  induction h using SCond.rec (motive_1 := fun _ ts _ => Even ts) (motive_3 := fun _ ts _ => Even ts) with
  | leaf h _ => exact even_leaf h
  | neg _ _ ih => exact even_cons (by simp) (by simp) ih
  | paren _ ih => exact even_paren ih
  | one _ ih => exact ih
  | chain _ _ ih ihr => exact even_append ih ihr
  | last h _ ih => exact even_append (even_word h) ih
  | next h _ _ ih ihr => exact even_append (even_word h) (even_append ih ihr)

/-! ### Where arithmetic stops -/

/-- Nothing, or an operator. -/
def Tail (ts : List Tok) : Prop := ts = [] ∨ ∃ b o r, ts = (b, .op o) :: r

theorem tail_append {a b : List Tok} (ha : Tail a) (hb : Tail b) : Tail (a ++ b) := by
  rcases ha with rfl | ⟨c, o, r, rfl⟩
  · exact hb
  · exact .inr ⟨c, o, r ++ b, rfl⟩

/-- How arithmetic goes on after its first lexeme, if that is a parenthesis or an identifier. -/
def Shape (ts : List Tok) : Prop :=
  (∀ b r, ts = (b, .lpar) :: r → ∃ v b' x, r = v ++ (b', .rpar) :: x ∧ Even v ∧ Tail x) ∧
  (∀ b s r, ts = (b, .id s) :: r → Tail r ∨ (∃ v b' x, r = (true, .lpar) :: (v ++ (b', .rpar) :: x) ∧ Even v ∧ Tail x) ∨
    (∃ r', r = (true, .dot) :: r') ∨ ∃ r', r = (true, .lsq) :: r') ∧
  (∀ b r, ts ≠ (b, .lsq) :: r) ∧ ts ≠ []

theorem shape_append {a b : List Tok} (ha : Shape a) (hb : Tail b) : Shape (a ++ b) := by
  obtain ⟨h1, h2, h3, h4⟩ := ha
  cases a with
  | nil => exact absurd rfl h4
  | cons t a =>
    obtain ⟨c, y⟩ := t
    refine ⟨?_, ?_, ?_, by simp⟩
    · intro b' r e
      simp only [List.cons_append, List.cons.injEq, Prod.mk.injEq] at e
      obtain ⟨⟨rfl, rfl⟩, rfl⟩ := e
      obtain ⟨v, b2, x, rfl, hv, hx⟩ := h1 _ _ rfl
      exact ⟨v, b2, x ++ b, by simp, hv, tail_append hx hb⟩
    · intro b' s r e
      simp only [List.cons_append, List.cons.injEq, Prod.mk.injEq] at e
      obtain ⟨⟨rfl, rfl⟩, rfl⟩ := e
      rcases h2 _ _ _ rfl with h | ⟨v, b2, x, rfl, hv, hx⟩ | ⟨r', rfl⟩ | ⟨r', rfl⟩
      · exact .inl (tail_append h hb)
      · exact .inr (.inl ⟨v, b2, x ++ b, by simp, hv, tail_append hx hb⟩)
      · exact .inr (.inr (.inl ⟨r' ++ b, rfl⟩))
      · exact .inr (.inr (.inr ⟨r' ++ b, rfl⟩))
    · intro b' r e
      simp only [List.cons_append, List.cons.injEq, Prod.mk.injEq] at e
      obtain ⟨⟨rfl, rfl⟩, rfl⟩ := e
      exact h3 _ _ rfl

theorem shape_unsigned {s : Str} {ts : List Tok} (h : Unsigned s ts) : Shape ts := by
  cases h <;>
    (refine ⟨?_, ?_, ?_, by simp⟩
     · intro _ _ e; cases e
     · intro _ _ _ e; cases e <;> exact .inl (.inl rfl)
     · intro _ _ e; cases e)

theorem shape_signed {s : Str} {ts : List Tok} (h : Signed s ts) : Shape ts := by
  cases h with
  | plain h => exact shape_unsigned h
  | _ =>
    refine ⟨?_, ?_, ?_, by simp⟩
    · intro _ _ e; cases e
    · intro _ _ _ e; cases e
    · intro _ _ e; cases e

theorem shape_simple {g : Gram} {t : Ast} {ts : List Tok} (h : SSimple g t ts) : Shape ts := by
  cases h with
  | number h =>
    split at h
    · exact shape_unsigned h
    · exact shape_signed h
  | comp =>
    refine ⟨?_, ?_, ?_, by simp⟩
    · intro _ _ e; cases e
    · intro _ _ _ e; cases e; exact .inl (.inl rfl)
    · intro _ _ e; cases e
  | sub =>
    refine ⟨?_, ?_, ?_, by simp⟩
    · intro _ _ e; cases e
    · intro _ _ _ e; cases e
    · intro _ _ e; cases e
  | sliced =>
    refine ⟨?_, ?_, ?_, by simp⟩
    · intro _ _ e; cases e
    · intro _ _ _ e
      simp only [List.cons.injEq] at e
      exact .inr (.inr (.inr ⟨_, e.2.symm⟩))
    · intro _ _ e; cases e
  | config =>
    refine ⟨?_, ?_, ?_, by simp⟩
    · intro _ _ e; cases e
    · intro _ _ _ e
      simp only [List.cons.injEq] at e
      exact .inr (.inr (.inl ⟨_, e.2.symm⟩))
    · intro _ _ e; cases e

theorem shape_spells {g : Gram} {ls : List (Op → Bool)} {t : Ast} {ts : List Tok} (h : Spells g ls t ts) :
    Shape ts := by
  induction h using Spells.rec (motive_2 := fun _ _ _ rs _ => Tail rs) (motive_3 := fun _ _ _ _ => True)
    (motive_4 := fun _ _ _ => True) (motive_5 := fun _ _ _ => True) (motive_6 := fun _ _ _ => True) with
  | simple h => exact shape_simple h
  | @call b b' n as ks ts _ _ h _ =>
    have := (even_both g).2 _ _ _ h
    refine ⟨by simp, ?_, by simp, by simp⟩
    intro c s r e
    simp only [List.cons.injEq, Prod.mk.injEq] at e
    exact .inr (.inl ⟨ts, b', [], e.2.symm, this, .inl rfl⟩)
  | sign => simp [Shape]
  | @paren b b' t ts _ h _ =>
    have := (even_both g).1 _ _ _ h
    refine ⟨?_, by simp, by simp, by simp⟩
    intro c r e
    simp only [List.cons.injEq, Prod.mk.injEq] at e
    exact ⟨ts, b', [], e.2.symm, this, .inl rfl⟩
  | lift _ ih => exact ih
  | chain _ _ ih ihr => exact shape_append ih ihr
  | one => exact .inr ⟨_, _, _, rfl⟩
  | more => exact .inr ⟨_, _, _, rfl⟩
  | _ => trivial

/-- What may follow a condition. -/
def Stops (rest : List Tok) : Prop :=
  rest = [] ∨ (∃ b r, rest = (b, .rpar) :: r) ∨ ∃ b s r, rest = (b, .id s) :: r

theorem Stops.free {rest : List Tok} (h : Stops rest) : Free rest := by
  rcases h with rfl | ⟨b, r, rfl⟩ | ⟨b, s, r, rfl⟩
  · exact free_nil
  · exact free_cons (by simp) (by simp) (by simp)
  · exact free_cons (by simp) (by simp) (by simp)

theorem Stops.cmp {rest : List Tok} (h : Stops rest) {x : List Tok} (hx : Tail x) {b : Bool} {o : CmpOp} {r : List Tok} :
    rest ≠ x ++ (b, .cmp o) :: r := by
  rintro rfl
  rcases hx with rfl | ⟨c, p, q, rfl⟩
  · rcases h with h | ⟨_, _, h⟩ | ⟨_, _, _, h⟩ <;> cases h
  · rcases h with h | ⟨_, _, h⟩ | ⟨_, _, _, h⟩ <;> cases h

/-! ### Functions -/

theorem pFn_sound {g : Gram} (hg : g.Ok) {f : Nat} {n : Str} {as : Args} {ks : Kws} {ts r : List Tok}
    (h : pFn g f ts = some ((n, as, ks), r)) :
    ∃ b b' c, ts = (b, .id n) :: (true, .lpar) :: (c ++ (b', .rpar) :: r) ∧ ¬ Inf n ∧ SFun g as ks c := by
  unfold pFn at h
  split at h
  · cases h
  · rename_i n' r1 hn
    obtain ⟨b, rfl, hi⟩ := pName_some.1 hn
    split at h
    · cases h
    · rename_i as' ks' r2 ha
      obtain ⟨c, rfl, hc⟩ := (sound_all g hg f).2.2.2.2.1 _ _ _ _ ha
      split at h
      · rename_i r3 hr
        obtain ⟨b', rfl⟩ := after_some.1 hr
        cases h
        exact ⟨b, b', c, rfl, hi, hc⟩
      · cases h

theorem pFn_complete {g : Gram} {f : Nat} {n : Str} {as : Args} {ks : Kws} {c : List Tok} (hi : ¬ Inf n)
    (h : SFun g as ks c) (b b' : Bool) (r : List Tok) (hf : 12 * c.length + 20 ≤ f) :
    pFn g f ((b, .id n) :: (true, .lpar) :: (c ++ (b', .rpar) :: r)) = some ((n, as, ks), r) := by
  unfold pFn
  rw [pName_some.2 ⟨b, rfl, hi⟩]
  simp only []
  rw [complete_fun g h b' r f hf]
  simp only [after_cons]

theorem pFn_none {g : Gram} {f : Nat} {ts : List Tok} (h : pName ts = none) : pFn g f ts = none := by
  unfold pFn; rw [h]

theorem pName_stops {b : Bool} {s : Str} {rest : List Tok} (h : Stops rest) : pName ((b, .id s) :: rest) = none := by
  cases hp : pName ((b, .id s) :: rest) with
  | none => rfl
  | some x =>
    obtain ⟨n, r⟩ := x
    obtain ⟨b', e, _⟩ := pName_some.1 hp
    simp only [List.cons.injEq] at e
    obtain ⟨_, rfl⟩ := e
    rcases h with h | ⟨_, _, h⟩ | ⟨_, _, _, h⟩ <;> cases h

/-! ### Booleans and right-hand sides -/

theorem pBool_true {ts r : List Tok} : pBool ts = some (true, r) ↔ ∃ b s, ts = (b, .id s) :: r ∧ Word "true".toList s := by
  constructor
  · intro h
    match ts, h with
    | (b, .id s) :: r', h =>
      simp only [pBool] at h
      split at h
      · rename_i hw; cases h; exact ⟨b, s, rfl, isWord_iff.1 hw⟩
      · split at h <;> cases h
  · rintro ⟨b, s, rfl, hw⟩
    have hw' : isWord wTrue s = true := isWord_iff.2 hw
    simp [pBool, hw']

theorem pBool_false {ts r : List Tok} :
    pBool ts = some (false, r) ↔ ∃ b s, ts = (b, .id s) :: r ∧ Word "false".toList s := by
  constructor
  · intro h
    match ts, h with
    | (b, .id s) :: r', h =>
      simp only [pBool] at h
      split at h
      · cases h
      · split at h
        · rename_i hw; cases h; exact ⟨b, s, rfl, isWord_iff.1 hw⟩
        · cases h
  · rintro ⟨b, s, rfl, hw⟩
    simp only [pBool]
    have hw' : isWord wFalse s = true := isWord_iff.2 hw
    have : isWord wTrue s = false := by
      simp only [isWord, decide_eq_true_eq] at hw'
      simp only [isWord, hw']; decide
    rw [this, hw']; simp

theorem pBool_none {ts : List Tok} : pBool ts = none ↔ StartsNot ["true", "false"] ts := by
  constructor
  · intro h b s r e w hw hs
    simp only [List.mem_cons, List.not_mem_nil, or_false] at hw
    rcases hw with rfl | rfl
    · rw [pBool_true.2 ⟨b, s, e, hs⟩] at h; cases h
    · rw [pBool_false.2 ⟨b, s, e, hs⟩] at h; cases h
  · intro h
    cases hp : pBool ts with
    | none => rfl
    | some x =>
      obtain ⟨v, r⟩ := x
      cases v with
      | true => obtain ⟨b, s, rfl, hw⟩ := pBool_true.1 hp; exact absurd hw (h _ _ _ rfl "true" (by simp))
      | false => obtain ⟨b, s, rfl, hw⟩ := pBool_false.1 hp; exact absurd hw (h _ _ _ rfl "false" (by simp))

theorem startsNot_cons {ws : List String} {b b' : Bool} {s : Str} {r r' : List Tok}
    (h : StartsNot ws ((b, .id s) :: r)) : StartsNot ws ((b', .id s) :: r') := by
  intro c t q e
  simp only [List.cons.injEq, Prod.mk.injEq, Lx.id.injEq] at e
  obtain ⟨⟨rfl, rfl⟩, rfl⟩ := e
  exact h _ _ _ rfl

theorem startsNot_append {ws : List String} {a r : List Tok} (ha : a ≠ []) :
    StartsNot ws (a ++ r) ↔ StartsNot ws a := by
  cases a with
  | nil => exact absurd rfl ha
  | cons t a =>
    obtain ⟨b, x⟩ := t
    constructor
    · intro h c s q e
      simp only [List.cons.injEq, Prod.mk.injEq] at e
      obtain ⟨⟨rfl, rfl⟩, rfl⟩ := e
      exact h _ _ _ rfl
    · intro h c s q e
      simp only [List.cons_append, List.cons.injEq, Prod.mk.injEq] at e
      obtain ⟨⟨rfl, rfl⟩, rfl⟩ := e
      exact h _ _ _ rfl

theorem pRhs_sound {n : WNames} {f : Nat} {c : CRhs} {ts r : List Tok} (h : pRhs n f ts = some (c, r)) :
    ∃ us, ts = us ++ r ∧ SRhs n c us := by
  unfold pRhs at h
  split at h
  · rename_i g as ks r' hf
    obtain ⟨b, b', c', rfl, hi, hc⟩ := pFn_sound (lhs_ok n) hf
    cases h
    exact ⟨_, by simp, .call (b := b) (b' := b') hi hc⟩
  · split at h
    · rename_i v r' hb
      cases h
      cases v with
      | true => obtain ⟨b, s, rfl, hw⟩ := pBool_true.1 hb; exact ⟨[(b, .id s)], rfl, .yes hw⟩
      | false => obtain ⟨b, s, rfl, hw⟩ := pBool_false.1 hb; exact ⟨[(b, .id s)], rfl, .no hw⟩
    · rename_i hb
      split at h
      · rename_i s r' hs
        cases h
        obtain ⟨c', rfl, hc⟩ := pSigned_sound hs
        exact ⟨c', rfl, .num hc⟩
      · split at h
        · rename_i s r' hs
          cases h
          obtain ⟨b, rfl, hi⟩ := pIdent_some.1 hs
          exact ⟨[(b, .id s)], rfl, .text hi (startsNot_cons (pBool_none.1 hb))⟩
        · cases h

theorem pBool_signed {s : Str} {ts : List Tok} (h : Signed s ts) (r : List Tok) : pBool (ts ++ r) = none := by
  cases h with
  | plain h =>
    cases h with
    | num => rfl
    | inf b hi =>
      rw [pBool_none]
      intro c t q e w hw hs
      simp only [List.cons_append, List.nil_append, List.cons.injEq, Prod.mk.injEq, Lx.id.injEq] at e
      obtain ⟨⟨rfl, rfl⟩, rfl⟩ := e
      unfold Inf at hi
      unfold Word at hs
      rw [hi] at hs
      simp only [List.mem_cons, List.not_mem_nil, or_false] at hw
      rcases hw with rfl | rfl <;> revert hs <;> decide
    | dotInf => rfl
  | _ => rfl

theorem pName_signed {s : Str} {ts : List Tok} (h : Signed s ts) (r : List Tok) : pName (ts ++ r) = none := by
  cases hp : pName (ts ++ r) with
  | none => rfl
  | some x =>
    obtain ⟨n, q⟩ := x
    obtain ⟨b, e, hi⟩ := pName_some.1 hp
    have := pSigned_complete h r
    rw [e, pSigned_id_none hi] at this
    cases this

theorem pRhs_complete {n : WNames} {c : CRhs} {us : List Tok} (h : SRhs n c us) {rest : List Tok} (hr : Stops rest)
    {f : Nat} (hf : 12 * us.length ≤ f) : pRhs n f (us ++ rest) = some (c, rest) := by
  cases h with
  | @call b b' g as ks ts hi h =>
    simp only [List.length_cons, List.length_append, List.length_nil] at hf
    simp only [List.cons_append, List.append_assoc, List.nil_append, pRhs]
    rw [pFn_complete (g := n.lhs) hi h b b' rest (by omega)]
  | @yes b s hw =>
    simp only [List.cons_append, List.nil_append, pRhs]
    rw [pFn_none (pName_stops hr), pBool_true.2 ⟨b, s, rfl, hw⟩]
  | @no b s hw =>
    simp only [List.cons_append, List.nil_append, pRhs]
    rw [pFn_none (pName_stops hr), pBool_false.2 ⟨b, s, rfl, hw⟩]
  | num h =>
    simp only [pRhs]
    rw [pFn_none (pName_signed h rest), pBool_signed h, pSigned_complete h]
  | @text b s hi hs =>
    simp only [List.cons_append, List.nil_append, pRhs]
    rw [pFn_none (pName_stops hr), pBool_none.2 (startsNot_cons hs), pSigned_id_none hi, pIdent_some.2 ⟨b, rfl, hi⟩]

/-! ### Comparisons -/

theorem pCompare_sound {n : WNames} {f : Nat} {l : WLeaf} {ts r : List Tok} (h : pCompare n f ts = some (l, r)) :
    ∃ a o c us b vs, l = .cmp a o c ∧ ts = us ++ (b, .cmp o) :: (vs ++ r) ∧ Spells n.lhs n.lhs.bins a us ∧
      SRhs n c vs := by
  unfold pCompare at h
  split at h
  · cases h
  · rename_i a r1 ha
    obtain ⟨us, rfl, hus⟩ := (sound_all n.lhs (lhs_ok n) f).1 _ _ _ _ ha
    split at h
    · cases h
    · rename_i o r2 ho
      obtain ⟨b, rfl⟩ := pCmp_some.1 ho
      split at h
      · cases h
      · rename_i c r3 hc
        obtain ⟨vs, rfl, hvs⟩ := pRhs_sound hc
        cases h
        exact ⟨a, o, c, us, b, vs, rfl, rfl, hus, hvs⟩

theorem pCompare_complete {n : WNames} {a : Ast} {o : CmpOp} {c : CRhs} {us vs : List Tok}
    (h1 : Spells n.lhs n.lhs.bins a us) (h2 : SRhs n c vs) {rest : List Tok} (hr : Stops rest) (b : Bool) {f : Nat}
    (hf : 12 * (us ++ (b, .cmp o) :: vs).length ≤ f) :
    pCompare n f (us ++ (b, .cmp o) :: (vs ++ rest)) = some (.cmp a o c, rest) := by
  have hb := bins_length n.lhs
  simp only [List.length_append, List.length_cons] at hf
  unfold pCompare
  rw [complete_all n.lhs h1 (List.suffix_refl _) _ f follow_cmp (by omega)]
  simp only []
  rw [pCmp_some.2 ⟨b, rfl⟩]
  simp only []
  rw [pRhs_complete h2 hr (by omega)]

/-- A comparison does not take part of what is in parentheses. -/
theorem pCompare_paren {n : WNames} {f : Nat} {b b' : Bool} {ts rest : List Tok} (he : Even ts) (hr : Stops rest) :
    pCompare n f ((b, .lpar) :: (ts ++ (b', .rpar) :: rest)) = none := by
  cases hp : pCompare n f ((b, .lpar) :: (ts ++ (b', .rpar) :: rest)) with
  | none => rfl
  | some x =>
    obtain ⟨l, r⟩ := x
    obtain ⟨a, o, c, us, b2, vs, _, e, hus, _⟩ := pCompare_sound hp
    obtain ⟨h1, _, _, h4⟩ := shape_spells hus
    cases us with
    | nil => exact absurd rfl h4
    | cons t us =>
      simp only [List.cons_append, List.cons.injEq] at e
      obtain ⟨rfl, e⟩ := e
      obtain ⟨v, b3, x, rfl, hv, hx⟩ := h1 _ _ rfl
      rw [List.append_assoc, List.cons_append] at e
      exact absurd (even_unique he hv e).2 (hr.cmp hx)

theorem pCompare_call {n : WNames} {f : Nat} {b b' : Bool} {s : Str} {ts rest : List Tok} (he : Even ts)
    (hr : Stops rest) : pCompare n f ((b, .id s) :: (true, .lpar) :: (ts ++ (b', .rpar) :: rest)) = none := by
  cases hp : pCompare n f ((b, .id s) :: (true, .lpar) :: (ts ++ (b', .rpar) :: rest)) with
  | none => rfl
  | some x =>
    obtain ⟨l, r⟩ := x
    obtain ⟨a, o, c, us, b2, vs, _, e, hus, _⟩ := pCompare_sound hp
    obtain ⟨_, h2, _, h4⟩ := shape_spells hus
    cases us with
    | nil => exact absurd rfl h4
    | cons t us =>
      simp only [List.cons_append, List.cons.injEq] at e
      obtain ⟨rfl, e⟩ := e
      rcases h2 _ _ _ rfl with h | ⟨v, b3, x, rfl, hv, hx⟩ | ⟨r', rfl⟩ | ⟨r', rfl⟩
      · rcases h with rfl | ⟨_, _, _, rfl⟩ <;> cases e
      · simp only [List.append_assoc, List.cons_append, List.cons.injEq, true_and] at e
        exact absurd (even_unique he hv e).2 (hr.cmp hx)
      · cases e
      · cases e

theorem pCompare_comp {n : WNames} {f : Nat} {b : Bool} {s : Str} {rest : List Tok} (hr : Stops rest) :
    pCompare n f ((b, .id s) :: rest) = none := by
  cases hp : pCompare n f ((b, .id s) :: rest) with
  | none => rfl
  | some x =>
    obtain ⟨l, r⟩ := x
    obtain ⟨a, o, c, us, b2, vs, _, e, hus, _⟩ := pCompare_sound hp
    obtain ⟨_, h2, _, h4⟩ := shape_spells hus
    cases us with
    | nil => exact absurd rfl h4
    | cons t us =>
      simp only [List.cons_append, List.cons.injEq] at e
      obtain ⟨rfl, e⟩ := e
      rcases h2 _ _ _ rfl with h | ⟨v, b3, x, rfl, hv, hx⟩ | ⟨r', rfl⟩ | ⟨r', rfl⟩
      · exact absurd e (hr.cmp h)
      · subst e; rcases hr with h | ⟨_, _, h⟩ | ⟨_, _, _, h⟩ <;> cases h
      · subst e; rcases hr with h | ⟨_, _, h⟩ | ⟨_, _, _, h⟩ <;> cases h
      · subst e; rcases hr with h | ⟨_, _, h⟩ | ⟨_, _, _, h⟩ <;> cases h

theorem pCompare_lsq {n : WNames} {f : Nat} {b : Bool} {r : List Tok} : pCompare n f ((b, .lsq) :: r) = none := by
  unfold pCompare
  rw [pLevel_bad (.inl rfl)]

/-! ### Subsets -/

theorem pConfigItem_some {s : Str} {ts r : List Tok} :
    pConfigItem ts = some (s, r) ↔ ∃ b b', ts = (b, .id wConfig) :: (true, .dot) :: (b', .id s) :: r ∧ ¬ Inf s := by
  constructor
  · intro h
    unfold pConfigItem at h
    split at h
    · split at h
      · rename_i hs
        subst hs
        obtain ⟨b', rfl, hi⟩ := pIdent_some.1 h
        exact ⟨_, b', rfl, hi⟩
      · cases h
    · cases h
  · rintro ⟨b, b', rfl, hi⟩
    simp only [pConfigItem, if_true]
    exact pIdent_some.2 ⟨b', rfl, hi⟩

theorem pSetItem_sound {i : SetItem} {ts r : List Tok} (h : pSetItem ts = some (i, r)) :
    ∃ c, ts = c ++ r ∧ SSetItem i c := by
  unfold pSetItem at h
  split at h
  · rename_i s r' hs
    cases h
    obtain ⟨b, b', rfl, hi⟩ := pConfigItem_some.1 hs
    exact ⟨[(b, .id wConfig), (true, .dot), (b', .id s)], rfl, .config hi⟩
  · split at h
    · rename_i s r' hs
      cases h
      obtain ⟨c, rfl, hc⟩ := pSigned_sound hs
      exact ⟨c, rfl, .num hc⟩
    · split at h
      · rename_i s r' hs
        cases h
        obtain ⟨b, rfl, hi⟩ := pIdent_some.1 hs
        exact ⟨[(b, .id s)], rfl, .text hi⟩
      · cases h

theorem pConfigItem_none {ts : List Tok} (h : ∀ b s r, ts ≠ (b, .id s) :: (true, .dot) :: r) : pConfigItem ts = none := by
  cases hp : pConfigItem ts with
  | none => rfl
  | some x =>
    obtain ⟨s, r⟩ := x
    obtain ⟨b, b', rfl, _⟩ := pConfigItem_some.1 hp
    exact absurd rfl (h _ _ _)

theorem pSetItem_complete {i : SetItem} {c : List Tok} (h : SSetItem i c) {r : List Tok} (hr : NotNext .dot r) :
    pSetItem (c ++ r) = some (i, r) := by
  unfold pSetItem
  cases h with
  | @config b b' s hi =>
    have := (pConfigItem_some (r := r)).2 ⟨b, b', rfl, hi⟩
    simp only [wConfig] at this
    simp only [List.cons_append, List.nil_append]
    rw [this]
  | num h =>
    rw [pConfigItem_none, pSigned_complete h]
    intro b s q e
    cases h with
    | plain h =>
      cases h with
      | inf b' hi =>
        simp only [List.cons_append, List.nil_append, List.cons.injEq] at e
        exact hr _ _ e.2
      | _ => cases e
    | _ => cases e
  | @text b s hi =>
    rw [pConfigItem_none, List.cons_append, List.nil_append, pSigned_id_none hi, pIdent_some.2 ⟨b, rfl, hi⟩]
    intro b' s' q e
    simp only [List.cons_append, List.nil_append, List.cons.injEq] at e
    exact hr _ _ e.2

theorem pSetItems_sound : ∀ (f : Nat) {l : List SetItem} {ts r : List Tok}, pSetItems f ts = some (l, r) →
    ∃ c, ts = c ++ r ∧ SSet l c := by
  intro f
  induction f with
  | zero => intro l ts r h; simp [pSetItems] at h
  | succ f ih =>
    intro l ts r h
    simp only [pSetItems] at h
    split at h
    · cases h
    · rename_i i r1 hi
      obtain ⟨c, rfl, hc⟩ := pSetItem_sound hi
      split at h
      · cases h; exact ⟨c, rfl, .one hc⟩
      · rename_i r2 hr
        obtain ⟨b, rfl⟩ := after_some.1 hr
        split at h
        · rename_i is r3 his
          cases h
          obtain ⟨c', rfl, hc'⟩ := ih his
          exact ⟨c ++ (b, .comma) :: c', by simp, .more hc hc'⟩
        · cases h; exact ⟨c, rfl, .one hc⟩

theorem sSetItem_pos {i : SetItem} {c : List Tok} (h : SSetItem i c) : 1 ≤ c.length := by
  cases h with
  | num h =>
    cases h with
    | plain h => cases h <;> simp
    | _ => simp
  | _ => simp

theorem sSet_pos {l : List SetItem} {c : List Tok} (h : SSet l c) : 1 ≤ c.length := by
  cases h with
  | one h => exact sSetItem_pos h
  | more _ _ => simp only [List.length_append, List.length_cons]; omega

theorem pSetItems_complete {l : List SetItem} {c : List Tok} (h : SSet l c) : ∀ {b : Bool} {r : List Tok} {f : Nat},
    c.length ≤ f → pSetItems f (c ++ (b, .rsq) :: r) = some (l, (b, .rsq) :: r) := by
  induction h with
  | one h =>
    intro b r f hf
    have := sSetItem_pos h
    obtain ⟨f, rfl⟩ : ∃ f', f = f' + 1 := ⟨f - 1, by omega⟩
    simp only [pSetItems]
    rw [pSetItem_complete h (by intro _ _ e; cases e)]
    simp [after]
  | @more b' i is ts us h _ ih =>
    intro b r f hf
    simp only [List.length_append, List.length_cons] at hf
    obtain ⟨f, rfl⟩ : ∃ f', f = f' + 1 := ⟨f - 1, by omega⟩
    simp only [pSetItems, List.append_assoc, List.cons_append]
    rw [pSetItem_complete h (by intro _ _ e; cases e)]
    simp only [after_cons]
    rw [ih (by omega)]

theorem pIn_some {n : WNames} {d : Str} {ts r : List Tok} :
    pIn n ts = some (d, r) ↔ ts = (false, .id wIn) :: (false, .id d) :: r ∧ n.dims d = true := by
  constructor
  · intro h
    unfold pIn at h
    split at h
    · split at h
      · rename_i hc
        simp only [Bool.and_eq_true, decide_eq_true_eq] at hc
        cases h
        exact ⟨by rw [hc.1], hc.2⟩
      · cases h
    · cases h
  · rintro ⟨rfl, hd⟩
    simp [pIn, hd]

theorem pSubset_sound {n : WNames} {l : WLeaf} {ts r : List Tok} (h : pSubset n ts = some (l, r)) :
    ∃ c, ts = c ++ r ∧ SLeaf n l c := by
  unfold pSubset at h
  split at h
  · cases h
  · rename_i r1 h1
    obtain ⟨b, rfl⟩ := after_some.1 h1
    split at h
    · cases h
    · rename_i is r2 h2
      obtain ⟨c, rfl, hc⟩ := pSetItems_sound _ h2
      split at h
      · cases h
      · rename_i r3 h3
        obtain ⟨b', rfl⟩ := after_some.1 h3
        split at h
        · rename_i d q h4
          cases h
          obtain ⟨rfl, hd⟩ := pIn_some.1 h4
          exact ⟨_, by simp [wIn], .isIn (b := b) (b' := b') hc hd⟩
        · cases h

theorem pSubset_complete {n : WNames} {l : List SetItem} {d : Str} {c : List Tok} (h : SSet l c)
    (hd : n.dims d = true) (b b' : Bool) (r : List Tok) :
    pSubset n ((b, .lsq) :: (c ++ (b', .rsq) :: (false, .id wIn) :: (false, .id d) :: r)) = some (.isIn l d, r) := by
  unfold pSubset
  simp only [after_cons]
  rw [pSetItems_complete h (by simp only [List.length_append]; omega)]
  simp only [after_cons]
  rw [pIn_some.2 ⟨rfl, hd⟩]

/-! ### Operands -/

theorem pLeaf_sound {n : WNames} {f : Nat} {l : WLeaf} {ts r : List Tok} (h : pLeaf n f ts = some (l, r)) :
    ∃ c, ts = c ++ r ∧ SLeaf n l c := by
  unfold pLeaf at h
  split at h
  · rename_i v r' hb
    cases h
    cases v with
    | true => obtain ⟨b, s, rfl, hw⟩ := pBool_true.1 hb; exact ⟨[(b, .id s)], rfl, .yes hw⟩
    | false => obtain ⟨b, s, rfl, hw⟩ := pBool_false.1 hb; exact ⟨[(b, .id s)], rfl, .no hw⟩
  · rename_i hb
    have hb := pBool_none.1 hb
    split at h
    · rename_i x hc
      cases h
      obtain ⟨a, o, c, us, b, vs, rfl, rfl, hus, hvs⟩ := pCompare_sound hc
      refine ⟨us ++ (b, .cmp o) :: vs, by simp, .cmp hus hvs ?_⟩
      exact (startsNot_append (shape_spells hus).2.2.2).1 hb
    · split at h
      · rename_i g as ks r' hf
        cases h
        obtain ⟨b, b', c, rfl, hi, hc⟩ := pFn_sound (fn_ok n) hf
        exact ⟨(b, .id g) :: (true, .lpar) :: (c ++ [(b', .rpar)]), by simp, .call hi hc (startsNot_cons hb)⟩
      · split at h
        · rename_i x hs
          cases h
          exact pSubset_sound hs
        · unfold pArray at h
          split at h
          · rename_i s r' hs
            obtain ⟨b, rfl⟩ := pId_some.1 hs
            split at h
            · rename_i hn
              cases h
              exact ⟨[(b, .id s)], rfl, .input hn (startsNot_cons hb)⟩
            · rename_i hi
              split at h
              · rename_i hn
                cases h
                refine ⟨[(b, .id s)], rfl, .result ?_ (by simpa using hi) (startsNot_cons hb)⟩
                simpa using hn
              · cases h
          · cases h

theorem pLeaf_complete {n : WNames} {l : WLeaf} {c : List Tok} (h : SLeaf n l c) {rest : List Tok} (hr : Stops rest)
    {f : Nat} (hf : 12 * c.length ≤ f) : pLeaf n f (c ++ rest) = some (l, rest) := by
  unfold pLeaf
  cases h with
  | @yes b s hw => rw [List.cons_append, List.nil_append, pBool_true.2 ⟨b, s, rfl, hw⟩]
  | @no b s hw => rw [List.cons_append, List.nil_append, pBool_false.2 ⟨b, s, rfl, hw⟩]
  | @cmp b a o r ts us hl hrr hs =>
    have hne := (shape_spells hl).2.2.2
    rw [List.append_assoc, List.cons_append, pBool_none.2 ((startsNot_append hne).2 hs)]
    simp only []
    rw [pCompare_complete hl hrr hr b hf]
  | @call b b' g as ks ts hi hfn hs =>
    simp only [List.length_cons, List.length_append, List.length_nil] at hf
    simp only [List.cons_append, List.append_assoc, List.nil_append]
    rw [pBool_none.2 (startsNot_cons hs)]
    simp only []
    rw [pCompare_call ((even_both _).2 _ _ _ hfn) hr, pFn_complete (g := n.fn) hi hfn b b' rest (by omega)]
  | @isIn b b' l d ts hset hd =>
    simp only [List.cons_append, List.append_assoc, List.nil_append]
    rw [pBool_none.2 (by intro _ _ _ e; cases e)]
    simp only []
    rw [pCompare_lsq, pFn_none (show pName _ = none from rfl)]
    simp only []
    have := pSubset_complete hset hd b b' rest
    rw [show wIn = ['i', 'n'] from rfl] at this
    rw [this]
  | @input b s hn hs =>
    simp only [List.cons_append, List.nil_append]
    rw [pBool_none.2 (startsNot_cons hs)]
    simp only []
    rw [pCompare_comp hr, pFn_none (pName_stops hr)]
    simp only [pSubset, after, reduceCtorEq, if_false, pArray, pId]
    rw [hn]; rfl
  | @result b s hn hi hs =>
    simp only [List.cons_append, List.nil_append]
    rw [pBool_none.2 (startsNot_cons hs)]
    simp only []
    rw [pCompare_comp hr, pFn_none (pName_stops hr)]
    simp only [pSubset, after, reduceCtorEq, if_false, pArray, pId]
    have : (n.results s || n.post s) = true := by simpa using hn
    rw [hi, this]; rfl

/-! ### Operators -/

theorem pNotWord_some {ts r : List Tok} : pNotWord ts = some r ↔ ∃ b s, ts = (b, .id s) :: r ∧ Word "not".toList s := by
  constructor
  · intro h
    unfold pNotWord at h
    split at h
    · split at h
      · rename_i hw; cases h; exact ⟨_, _, rfl, isWord_iff.1 hw⟩
      · cases h
    · cases h
  · rintro ⟨b, s, rfl, hw⟩
    have hw' : isWord wNot s = true := isWord_iff.2 hw
    simp [pNotWord, hw']

theorem pNotWord_none {ts : List Tok} : pNotWord ts = none ↔ StartsNot ["not"] ts := by
  constructor
  · intro h b s r e w hw hs
    simp only [List.mem_singleton] at hw
    subst hw
    rw [pNotWord_some.2 ⟨b, s, e, hs⟩] at h; cases h
  · intro h
    cases hp : pNotWord ts with
    | none => rfl
    | some r => obtain ⟨b, s, rfl, hw⟩ := pNotWord_some.1 hp; exact absurd hw (h _ _ _ rfl "not" (by simp))

theorem pAndOr_some {o : Where.Op} {ts r : List Tok} : pAndOr ts = some (o, r) ↔ ∃ c, ts = c ++ r ∧ SWord o c := by
  constructor
  · intro h
    unfold pAndOr at h
    split at h
    · rename_i b s r'
      split at h
      · rename_i hw; cases h; exact ⟨[(b, .id s)], rfl, .and (isWord_iff.1 hw)⟩
      · split at h
        · rename_i hw; cases h; exact ⟨[(b, .id s)], rfl, .or (isWord_iff.1 hw)⟩
        · cases h
    · cases h
  · rintro ⟨c, rfl, hc⟩
    cases hc with
    | @and b s hw =>
      have hw' : isWord wAnd s = true := isWord_iff.2 hw
      simp [pAndOr, hw']
    | @or b s hw =>
      simp only [List.cons_append, List.nil_append, pAndOr]
      have hw' : isWord wOr s = true := isWord_iff.2 hw
      have : isWord wAnd s = false := by
        simp only [isWord, decide_eq_true_eq] at hw'
        simp only [isWord, hw']; decide
      rw [this, hw']; simp

theorem sLeaf_ne {n : WNames} {l : WLeaf} {c : List Tok} (h : SLeaf n l c) : c ≠ [] := by
  cases h <;> simp

theorem cond_sound (n : WNames) : ∀ f : Nat,
    (∀ ts t r, pNot n f ts = some (t, r) → ∃ c, ts = c ++ r ∧ SNot n t c) ∧
    (∀ ts t r, pCond n f ts = some (t, r) → ∃ c, ts = c ++ r ∧ SCond n t c) ∧
    (∀ ts t r, pConds n f ts = some (t, r) → ∃ c, ts = c ++ r ∧ SConds n t c) := by
  intro f
  induction f with
  | zero => refine ⟨?_, ?_, ?_⟩ <;> intro ts t r h <;> simp [pNot, pCond, pConds] at h
  | succ f ih =>
    obtain ⟨ihN, ihC, ihS⟩ := ih
    refine ⟨?_, ?_, ?_⟩
    · intro ts t r h
      simp only [pNot] at h
      split at h
      · rename_i r1 h1
        obtain ⟨b, s, rfl, hw⟩ := pNotWord_some.1 h1
        split at h
        · rename_i t' r' h2
          cases h
          obtain ⟨c, rfl, hc⟩ := ihN _ _ _ h2
          exact ⟨(b, .id s) :: c, rfl, .neg hw hc⟩
        · cases h
      · rename_i h1
        have h1 := pNotWord_none.1 h1
        split at h
        · rename_i l r' h2
          cases h
          obtain ⟨c, rfl, hc⟩ := pLeaf_sound h2
          exact ⟨c, rfl, .leaf hc ((startsNot_append (sLeaf_ne hc)).1 h1)⟩
        · split at h
          · cases h
          · rename_i r1 h3
            obtain ⟨b, rfl⟩ := after_some.1 h3
            split at h
            · cases h
            · rename_i t' r2 h4
              obtain ⟨c, rfl, hc⟩ := ihC _ _ _ h4
              split at h
              · rename_i r3 h5
                obtain ⟨b', rfl⟩ := after_some.1 h5
                cases h
                exact ⟨(b, .lpar) :: (c ++ [(b', .rpar)]), by simp, .paren hc⟩
              · cases h
    · intro ts t r h
      simp only [pCond] at h
      split at h
      · cases h
      · rename_i t' r1 h1
        obtain ⟨c, rfl, hc⟩ := ihN _ _ _ h1
        split at h
        · cases h; exact ⟨c, rfl, .one hc⟩
        · rename_i rs r2 h2
          cases h
          obtain ⟨c', rfl, hc'⟩ := ihS _ _ _ h2
          exact ⟨c ++ c', by simp, .chain hc hc'⟩
    · intro ts t r h
      simp only [pConds] at h
      split at h
      · cases h
      · rename_i o r1 h1
        obtain ⟨w, rfl, hw⟩ := pAndOr_some.1 h1
        split at h
        · cases h
        · rename_i t' r2 h2
          obtain ⟨c, rfl, hc⟩ := ihN _ _ _ h2
          split at h
          · cases h; exact ⟨w ++ c, by simp, .last hw hc⟩
          · rename_i rs r3 h3
            cases h
            obtain ⟨c', rfl, hc'⟩ := ihS _ _ _ h3
            exact ⟨w ++ (c ++ c'), by simp, .next hw hc hc'⟩

/-- What may follow a whole condition. -/
def Ends (rest : List Tok) : Prop := rest = [] ∨ ∃ b r, rest = (b, .rpar) :: r

theorem Ends.stops {rest : List Tok} (h : Ends rest) : Stops rest := by
  rcases h with h | h
  · exact .inl h
  · exact .inr (.inl h)

theorem Ends.none (n : WNames) {rest : List Tok} (h : Ends rest) (f : Nat) : pConds n f rest = none := by
  cases f with
  | zero => simp [pConds]
  | succ f => rcases h with rfl | ⟨b, r, rfl⟩ <;> simp [pConds, pAndOr]

theorem sConds_stops {n : WNames} {r : Infix.Rest Where.Op WLeaf} {us : List Tok} (h : SConds n r us)
    (rest : List Tok) : Stops (us ++ rest) := by
  have key : ∀ {o : Where.Op} {w : List Tok}, SWord o w → ∀ x : List Tok, Stops (w ++ x) := by
    intro o w hw x
    cases hw <;> exact .inr (.inr ⟨_, _, _, rfl⟩)
  cases h with
  | last hw _ => rw [List.append_assoc]; exact key hw _
  | next hw _ _ => rw [List.append_assoc]; exact key hw _

theorem sWord_length {o : Where.Op} {w : List Tok} (h : SWord o w) : w.length = 1 := by cases h <;> rfl

theorem cond_complete {n : WNames} {t : Infix.Tree Where.Op WLeaf} {ts : List Tok} (h : SCond n t ts) :
    ∀ rest f, Ends rest → 12 * ts.length + 2 ≤ f → pCond n f (ts ++ rest) = some (t, rest) := by
  induction h using SCond.rec
    (motive_1 := fun t ts _ => ∀ rest f, Stops rest → 12 * ts.length + 1 ≤ f → pNot n f (ts ++ rest) = some (t, rest))
    (motive_3 := fun r us _ => ∀ rest f, Ends rest → 12 * us.length ≤ f → pConds n f (us ++ rest) = some (r, rest)) with
  | @leaf l ts hl hs =>
    rename_i rest f hr hf
    obtain ⟨f, rfl⟩ : ∃ f', f = f' + 1 := ⟨f - 1, by omega⟩
    simp only [pNot]
    rw [pNotWord_none.2 ((startsNot_append (sLeaf_ne hl)).2 hs), pLeaf_complete hl hr (by omega)]
  | @neg b s t ts hw _ ih =>
    rename_i rest f hr hf
    simp only [List.length_cons] at hf
    obtain ⟨f, rfl⟩ : ∃ f', f = f' + 1 := ⟨f - 1, by omega⟩
    simp only [pNot, List.cons_append]
    rw [pNotWord_some.2 ⟨b, s, rfl, hw⟩]
    simp only []
    rw [ih rest f hr (by omega)]
  | @paren b b' t ts hc ih =>
    rename_i rest f hr hf
    simp only [List.length_cons, List.length_append, List.length_nil] at hf
    obtain ⟨f, rfl⟩ : ∃ f', f = f' + 1 := ⟨f - 1, by omega⟩
    simp only [pNot, List.cons_append, List.append_assoc, List.nil_append]
    rw [pNotWord_none.2 (by intro _ _ _ e; cases e)]
    have hleaf : pLeaf n f ((b, .lpar) :: (ts ++ (b', .rpar) :: rest)) = none := by
      unfold pLeaf
      rw [pBool_none.2 (by intro _ _ _ e; cases e), pCompare_paren (even_cond hc) hr]
      simp only []
      rw [pFn_none (show pName _ = none from rfl)]
      simp [pSubset, after, pArray, pId]
    rw [hleaf]
    simp only [after_cons]
    rw [ih _ f (.inr ⟨b', rest, rfl⟩) (by omega)]
    simp only [after_cons]
  | @one t ts _ ih =>
    intro rest f hr hf
    obtain ⟨f, rfl⟩ : ∃ f', f = f' + 1 := ⟨f - 1, by omega⟩
    simp only [pCond]
    rw [ih rest f hr.stops (by omega)]
    simp only [hr.none n f]
  | @chain t r ts us _ hr' ih ihr =>
    intro rest f hr hf
    simp only [List.length_append] at hf
    obtain ⟨f, rfl⟩ : ∃ f', f = f' + 1 := ⟨f - 1, by omega⟩
    simp only [pCond, List.append_assoc]
    rw [ih _ f (sConds_stops hr' rest) (by omega)]
    simp only []
    rw [ihr rest f hr (by omega)]
  | @last o t us ts hw _ ih =>
    rename_i rest f hr hf
    have := sWord_length hw
    simp only [List.length_append] at hf
    obtain ⟨f, rfl⟩ : ∃ f', f = f' + 1 := ⟨f - 1, by omega⟩
    simp only [pConds, List.append_assoc]
    rw [pAndOr_some.2 ⟨us, rfl, hw⟩]
    simp only []
    rw [ih rest f hr.stops (by omega)]
    simp only [hr.none n f]
  | @next o t r us ts vs hw _ hv ih ihr =>
    rename_i rest f hr hf
    have := sWord_length hw
    simp only [List.length_append] at hf
    obtain ⟨f, rfl⟩ : ∃ f', f = f' + 1 := ⟨f - 1, by omega⟩
    simp only [pConds, List.append_assoc]
    rw [pAndOr_some.2 ⟨us, rfl, hw⟩]
    simp only []
    rw [ih _ f (sConds_stops hv rest) (by omega)]
    simp only []
    rw [ihr rest f hr (by omega)]

theorem cond_iff {n : WNames} {t : Infix.Tree Where.Op WLeaf} {ts : List Tok} :
    pCond n (fuelFor ts.length) ts = some (t, []) ↔ SCond n t ts := by
  constructor
  · intro h
    obtain ⟨c, rfl, hc⟩ := (cond_sound n _).2.1 _ _ _ h
    simpa using hc
  · intro h
    have := cond_complete h [] (fuelFor ts.length) (.inl rfl) (by unfold fuelFor; omega)
    rwa [List.append_nil] at this

/-! ### Reading depends on the names that are used only -/

/-- The same for the names in `l`; what is an input may be a result or not. -/
structure SameNames (n n' : WNames) (l : List Str) : Prop where
  dims : ∀ s ∈ l, n.dims s = n'.dims s
  inputs : ∀ s ∈ l, n.inputs s = n'.inputs s
  results : ∀ s ∈ l, n.inputs s = false → n.results s = n'.results s
  post : ∀ s ∈ l, n.post s = n'.post s
  hasPost : n.hasPost = n'.hasPost

theorem SameNames.sub {n n' : WNames} {l m : List Str} (h : SameNames n n' l) (hm : ∀ s ∈ m, s ∈ l) :
    SameNames n n' m :=
  ⟨fun s hs => h.dims s (hm s hs), fun s hs => h.inputs s (hm s hs), fun s hs => h.results s (hm s hs),
    fun s hs => h.post s (hm s hs), h.hasPost⟩

theorem SameNames.all {n n' : WNames} {l : List Str} (h : SameNames n n' l) : ∀ s ∈ l, n.all s = n'.all s := by
  intro s hs
  unfold WNames.all
  rw [h.dims s hs, h.post s hs]
  cases hi : n.inputs s with
  | true => rw [← h.inputs s hs, hi]; simp
  | false => rw [h.results s hs hi, ← h.inputs s hs, hi]

theorem SameNames.lhs {n n' : WNames} {l : List Str} (h : SameNames n n' l) : SameOn n.lhs n'.lhs l := by
  have hc : ∀ s ∈ l, n.lhs.comp s = n'.lhs.comp s := by
    intro s hs
    show (n.dims s || n.inputs s || (n.hasPost && (n.results s || n.post s))) =
      (n'.dims s || n'.inputs s || (n'.hasPost && (n'.results s || n'.post s)))
    rw [h.dims s hs, h.post s hs, h.hasPost]
    cases hi : n.inputs s with
    | true => rw [← h.inputs s hs, hi]; simp
    | false => rw [h.results s hs hi, ← h.inputs s hs, hi]
  exact ⟨rfl, rfl, rfl, rfl, rfl, rfl, rfl, hc, h.all, h.dims⟩

theorem SameNames.fn {n n' : WNames} {l : List Str} (h : SameNames n n' l) : SameOn n.fn n'.fn l :=
  ⟨rfl, rfl, rfl, rfl, rfl, rfl, rfl, h.all, h.all, h.dims⟩

theorem SameNames.symm {n n' : WNames} {l : List Str} (h : SameNames n n' l) : SameNames n' n l :=
  ⟨fun s hs => (h.dims s hs).symm, fun s hs => (h.inputs s hs).symm,
    fun s hs hi => (h.results s hs (by rw [h.inputs s hs]; exact hi)).symm, fun s hs => (h.post s hs).symm, h.hasPost.symm⟩

theorem sRhs_congr {n n' : WNames} {c : CRhs} {ts : List Tok} (h : SRhs n c ts) (hs : SameNames n n' (idsOf ts)) :
    SRhs n' c ts := by
  cases h with
  | call hi h => exact .call hi (sFun_congr h ((hs.sub (by intro s hm; simp [ids_append, idsOf, hm])).lhs))
  | yes h => exact .yes h
  | no h => exact .no h
  | num h => exact .num h
  | text hi h => exact .text hi h

theorem sLeaf_congr {n n' : WNames} {c : WLeaf} {ts : List Tok} (h : SLeaf n c ts) (hs : SameNames n n' (idsOf ts)) :
    SLeaf n' c ts := by
  cases h with
  | yes h => exact .yes h
  | no h => exact .no h
  | cmp h1 h2 h3 =>
    exact .cmp (spells_congr h1 ((hs.sub (by intro s hm; simp [ids_append, hm])).lhs))
      (sRhs_congr h2 (hs.sub (by intro s hm; simp [ids_append, idsOf, hm]))) h3
  | call hi h hw => exact .call hi (sFun_congr h ((hs.sub (by intro s hm; simp [ids_append, idsOf, hm])).fn)) hw
  | isIn h hd => exact .isIn h (by rw [← hs.dims _ (by simp [ids_append, idsOf])]; exact hd)
  | input h hw => exact .input (by rw [← hs.inputs _ (by simp [idsOf])]; exact h) hw
  | result h hi hw =>
    exact .result (by rw [← hs.results _ (by simp [idsOf]) hi, ← hs.post _ (by simp [idsOf])]; exact h)
      (by rw [← hs.inputs _ (by simp [idsOf])]; exact hi) hw

theorem sCond_congr {n n' : WNames} {t : Infix.Tree Where.Op WLeaf} {ts : List Tok} (h : SCond n t ts) :
    SameNames n n' (idsOf ts) → SCond n' t ts := by
  induction h using SCond.rec
    (motive_1 := fun t ts _ => SameNames n n' (idsOf ts) → SNot n' t ts)
    (motive_3 := fun r us _ => SameNames n n' (idsOf us) → SConds n' r us) with
  | leaf h hw => rename_i hs; exact .leaf (sLeaf_congr h hs) hw
  | neg hw _ ih => rename_i hs; exact .neg hw (ih (hs.sub (by intro s hm; simp [idsOf, hm])))
  | paren _ ih => rename_i hs; exact .paren (ih (hs.sub (by intro s hm; simp [ids_append, idsOf, hm])))
  | one _ ih => intro hs; exact .one (ih hs)
  | chain _ _ ih ihr =>
    intro hs
    exact .chain (ih (hs.sub (by intro s hm; simp [ids_append, hm]))) (ihr (hs.sub (by intro s hm; simp [ids_append, hm])))
  | last hw _ ih => rename_i hs; exact .last hw (ih (hs.sub (by intro s hm; simp [ids_append, hm])))
  | next hw _ _ ih ihr =>
    rename_i hs
    exact .next hw (ih (hs.sub (by intro s hm; simp [ids_append, hm]))) (ihr (hs.sub (by intro s hm; simp [ids_append, hm])))

end Grammar
end Calliope
