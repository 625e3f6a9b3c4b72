import Verif.Proofs.Write
import Verif.Props.Grammar

/-!
# Lemmas about texts of expressions and slices
-/

namespace Calliope
namespace Write

open Grammar
open MathText (Ex ExRest)
open Arith (isAdd isMul isPow)

/-- Equations and sub-expressions. -/
def gram (known : Str → Bool) (subs : Bool) : Gram := ⟨subs, true, true, false, true, true, false, known, known, known⟩

variable {known : Str → Bool} {subs : Bool}

theorem lift_all {g : Gram} {t : Ast} {ts : List Tok} (h : Spells g [] t ts) : ∀ ls, Spells g ls t ts
  | [] => h
  | _ :: ls => .lift (lift_all h ls)

/-! ### Arguments -/

theorem str (n : String) : String.ofList n.toList = n := by simp

theorem reads_ex {s : Str} {a : Ast} (h : Reads s (Spells (gram known subs) (gram known subs).bins a)) :
    Reads s (SArg (gram known subs) (.ex a)) :=
  h.mono fun _ h => .ex (fun h => by cases h) h

/-- A name as an argument. -/
theorem arg_name {n : String} (h : Name n) : ∃ a v, MathText.value a = some v ∧ v.names = some [n] ∧
    Reads n.toList (SArg (gram known subs) a) := by
  by_cases hk : known n.toList = true
  · refine ⟨.ex (.comp n.toList), _, by rw [MathText.value], by simp [MathText.nameOf], ?_⟩
    exact reads_id h.1 fun b => .ex (fun h => by cases h) (lift_all (.simple (.comp hk h.2)) _)
  · have hk' : known n.toList = false := by simpa using hk
    refine ⟨.text n.toList, _, by rw [MathText.value], by simp, ?_⟩
    exact reads_id h.1 fun b => .text h.2 hk' (fun _ => hk')

/-- A name in a list. -/
theorem item_name {n : String} (h : Name n) : ∃ i, MathText.itemName i = some n ∧
    Reads n.toList (SItem (gram known subs) true i) := by
  by_cases hk : known n.toList = true
  · exact ⟨.comp n.toList, by simp [MathText.itemName], reads_id h.1 fun b => .comp h.2 hk hk⟩
  · have hk' : known n.toList = false := by simpa using hk
    exact ⟨.text n.toList, by simp [MathText.itemName], reads_id h.1 fun b => .text h.2 hk'⟩

theorem items_names {g : Gram} (hi : ∀ n, Name n → ∃ i, MathText.itemName i = some n ∧ Reads n.toList (SItem g true i)) :
    ∀ {l : List String}, (∀ d ∈ l, Name d) → ∃ is, MathText.itemNames is = some l ∧
      List.Forall₂ (fun i s => Reads s (SItem g true i)) is (l.map String.toList)
  | [], _ => ⟨[], rfl, .nil⟩
  | n :: l, h => by
    obtain ⟨i, h1, h2⟩ := hi n (h n (by simp))
    obtain ⟨is, h3, h4⟩ := items_names hi (l := l) (fun d hd => h d (by simp [hd]))
    exact ⟨i :: is, by simp [MathText.itemNames, h1, h3], .cons h2 h4⟩

/-- Names in brackets. -/
theorem reads_list {g : Gram} (hi : ∀ n, Name n → ∃ i, MathText.itemName i = some n ∧ Reads n.toList (SItem g true i))
    {l : List String} (hn : l ≠ []) (h : ∀ d ∈ l, Name d) :
    ∃ is, MathText.itemNames is = some l ∧ Reads (bracket (commas (l.map String.toList))) (SList g true is) := by
  obtain ⟨is, h1, h2⟩ := items_names hi h
  refine ⟨is, h1, ?_⟩
  have hne : is ≠ [] := by
    rintro rfl
    simp only [MathText.itemNames, Option.some.injEq] at h1
    exact hn h1.symm
  refine (reads_bracket (reads_commas (L := SItems g true) (fun _ _ h => .one h) (fun _ _ _ _ _ h h' => .more h h')
    h2 hne)).mono ?_
  rintro ts ⟨b, b', us, rfl, hu⟩
  exact .list hu

theorem arg_over {l : List String} {u : Str} (h : Over l u) : ∃ a v, MathText.value a = some v ∧ v.names = some l ∧
    Reads u (SArg (gram known subs) a) := by
  cases h with
  | one h => exact arg_name h
  | list hn h =>
    obtain ⟨is, h1, h2⟩ := reads_list (g := gram known subs) (fun n hn => item_name hn) hn h
    exact ⟨.list is, _, by rw [MathText.value], h1, h2.mono fun _ h => .list h⟩

theorem wholeNumber {ds : Str} (hd : Digits ds) (hn : ds ≠ []) : Number (natural ds) ds := .whole hd hn

theorem arg_whole {i : Int} {s : Str} (h : Whole i s) : ∃ a v, MathText.value a = some v ∧ v.int = some i ∧
    Reads s (SArg (gram known subs) a) := by
  cases h with
  | plain hd hn =>
    refine ⟨.ex (.num s), _, by rw [MathText.value], by simp [MathText.intOf, integer_eq hd hn], ?_⟩
    exact reads_num (wholeNumber hd hn) fun b => .ex (fun h => by cases h)
      (lift_all (.simple (.number (by simpa [gram] using .num b s))) _)
  | @minus ds hd hn =>
    refine ⟨.ex (.sign .minus (.num ds)), _, by rw [MathText.value], by simp [MathText.intOf, integer_eq hd hn], ?_⟩
    exact reads_minus (wholeNumber hd hn) fun b => .ex (fun h => by cases h)
      (lift_all (.sign rfl (.inr rfl) (.simple (.number (by simpa [gram] using .num true ds)))) _)

/-- Arguments with keywords, from those that `A` gives. -/
theorem kws_shifts {g : Gram} (hw : ∀ i s, Whole i s → ∃ a v, MathText.value a = some v ∧ v.int = some i ∧
    Reads s (SArg g a)) {l : List (String × Int)} {ss : List Str} (h : Shifts l ss) :
    ∃ ks vs, MathText.keywords (toKws ks) = some vs ∧ MathText.shifts vs = some l ∧ List.Forall₂ (KwReads g) ks ss ∧
      (l ≠ [] → ks ≠ []) := by
  induction h with
  | nil => exact ⟨[], [], rfl, rfl, .nil, fun h => absurd rfl h⟩
  | @cons d i s l ss hd hi _ ih =>
    obtain ⟨a, v, h1, h2, h3⟩ := hw i s hi
    obtain ⟨ks, vs, h4, h5, h6, _⟩ := ih
    refine ⟨(d.toList, a) :: ks, (d.toList, v) :: vs, ?_, ?_, .cons ⟨d, s, hd, rfl, rfl, h3⟩ h6, by simp⟩
    · simp only [toKws, MathText.keywords, h1, h4]
    · simp [MathText.shifts, h2, h5]

theorem kws_lookups {g : Gram} (hw : ∀ n, Name n → ∃ a v, MathText.value a = some v ∧ v.names = some [n] ∧
    Reads n.toList (SArg g a)) : ∀ {l : List (String × String)}, (∀ p ∈ l, Name p.1 ∧ Name p.2) →
    ∃ ks vs, MathText.keywords (toKws ks) = some vs ∧ MathText.arrays vs = some l ∧
      List.Forall₂ (KwReads g) ks (l.map (fun p => key p.1 p.2.toList))
  | [], _ => ⟨[], [], rfl, rfl, .nil⟩
  | (d, n) :: l, h => by
    obtain ⟨hd, hn⟩ := h (d, n) (by simp)
    obtain ⟨a, v, h1, h2, h3⟩ := hw n hn
    obtain ⟨ks, vs, h4, h5, h6⟩ := kws_lookups hw (l := l) (fun p hp => h p (by simp [hp]))
    refine ⟨(d.toList, a) :: ks, (d.toList, v) :: vs, ?_, ?_, .cons ⟨d, n.toList, hd, rfl, rfl, h3⟩ h6⟩
    · simp only [toKws, MathText.keywords, h1, h4]
    · simp [MathText.arrays, h2, h5]

/-! ### Slices of components -/

theorem reads_slice {x : Expr.Slicer} {s : Str} (h : Slice known x s) : ∃ y, MathText.slicer y = some x ∧
    Reads s (SSlicer (gram known subs) y) := by
  cases h with
  | @label l hl hk =>
    exact ⟨.item (.text l.toList), by simp [MathText.slicer], reads_id hl.1 fun b => .item (.text hl.2 hk)⟩
  | @ref n hn => exact ⟨.ref n.toList, by simp [MathText.slicer], reads_dollar hn.1 fun b => .ref rfl hn.2⟩

theorem reads_slices {l : List (String × Expr.Slicer)} {ss : List Str} (h : Slices known l ss) :
    ∃ ys : List (Str × Grammar.Slicer), MathText.slicers ys = some l ∧ (l ≠ [] → ys ≠ []) ∧
      List.Forall₂ (fun p s => Reads s (fun ts => ∃ b b' us, ts = (b, .id p.1) :: (b', .eq) :: us ∧ ¬ Inf p.1 ∧
        SSlicer (gram known subs) p.2 us)) ys ss := by
  induction h with
  | nil => exact ⟨[], rfl, fun h => absurd rfl h, .nil⟩
  | @cons d x s l ss hd hx _ ih =>
    obtain ⟨y, h1, h2⟩ := reads_slice (subs := subs) hx
    obtain ⟨ys, h3, _, h4⟩ := ih
    refine ⟨(d.toList, y) :: ys, by simp [MathText.slicers, h1, h3], by simp, .cons ?_ h4⟩
    refine (reads_key hd h2).mono ?_
    rintro ts ⟨b, b', us, rfl, hu⟩
    exact ⟨b, b', us, rfl, hd.2, hu⟩

theorem reads_sliced {n : String} {l : List (String × Expr.Slicer)} {ss : List Str} (hn : Name n)
    (hk : known n.toList = true) (hl : l ≠ []) (h : Slices known l ss) : ∃ a, MathText.ex a = some (.sliced n l) ∧
    Reads (n.toList ++ bracket (commas ss)) (Spells (gram known subs) [] a) := by
  obtain ⟨ys, h1, h2, h3⟩ := reads_slices (subs := subs) h
  have h4 := reads_commas (L := SSlices (gram known subs)) (by
      rintro ⟨d, y⟩ ts ⟨b, b', us, rfl, h5, h6⟩
      exact .one h5 h6) (by
      rintro ⟨d, y⟩ as c ts vs ⟨b, b', us, rfl, h5, h6⟩ h7
      exact .more h5 h6 h7) h3 (h2 hl)
  refine ⟨.sliced n.toList ys, by simp [MathText.ex, h1], ?_⟩
  refine (reads_glued (Q := fun _ ts => ∃ b' us, ts = (true, .lsq) :: (us ++ [(b', .rsq)]) ∧
    SSlices (gram known subs) ys us) hn.1 (stop_cons (by simp)) ?_ (by simp [bracket])).mono ?_
  · intro r us hr hw
    obtain ⟨ts, h5, h6⟩ := h4.2 true (']' :: r) ((true, .rsq) :: us) (stop_cons (by simp)) (step (lexOne_rsq _) hw)
    refine ⟨(true, .lsq) :: (ts ++ [(true, .rsq)]), ?_, true, ts, rfl, h6⟩
    have := step (b := true) (lexOne_lsq _) h5
    simpa [bracket] using this
  · rintro ts ⟨b, us, rfl, b', us', rfl, h7⟩
    exact .simple (.sliced rfl hk h7)

/-! ### Expressions -/

theorem reads_operator (o : Arith.Op) {r : Str} {us : List Tok} {b : Bool} (hr : ∀ c ∈ r.head?, c ≠ '*')
    (hw : Written true r us) : Written b (operator o ++ r) ((b, .op o) :: us) := by
  cases o with
  | plus => exact step (lexOne_plus r) hw
  | minus => exact step (lexOne_minus r) hw
  | div => exact step (lexOne_div r) hw
  | pow => exact step (by cases r <;> rfl) hw
  | times =>
    refine step ?_ hw
    cases r with
    | nil => rfl
    | cons c r =>
      have hc := hr c (by simp)
      have : symbolTwo '*' c = none := by
        unfold symbolTwo
        split <;> simp_all
      simp [operator, lexOne, symbol, this, symbolOne]

theorem reads_operand {s : Str} {a : Ast} (h : Reads s (Spells (gram known subs) (gram known subs).bins a)) :
    Reads (paren s) (Spells (gram known subs) [] a) := by
  refine (reads_paren h).mono ?_
  rintro ts ⟨b, b', us, rfl, hu⟩
  exact .paren rfl hu

theorem restText_start {o : Arith.Op} {r : ExRest} {u : Str} (h : RestText known subs o r u) (v : Str) :
    Stop (u ++ v) := by
  cases h <;> exact stop_cons (by simp)

theorem together_level {o o' : Arith.Op} (h : Together o o') {l : Arith.Op → Bool}
    (hl : (l = isAdd ∨ l = isMul ∨ l = isPow)) (ho : l o = true) : l o' = true := by
  rcases hl with rfl | rfl | rfl <;> cases o <;> cases o' <;> simp_all [Together, isAdd, isMul, isPow]

theorem level_of (o : Arith.Op) : isAdd o = true ∨ isMul o = true ∨ isPow o = true := by
  cases o <;> simp [isAdd, isMul, isPow]

/-- What follows the first operand. -/
def RestReads (known : Str → Bool) (subs : Bool) (o : Arith.Op) (u : Str) (ar : ARest) : Prop :=
  ∀ r us, Stop r → Written true r us → ∃ ts, Written true (u ++ r) (ts ++ us) ∧
    ∀ l ls, (l = isAdd ∨ l = isMul ∨ l = isPow) → l o = true → SpellsRest (gram known subs) l ls ar ts

theorem chain_reads {o : Arith.Op} {a : Ast} {ar : ARest} {s u : Str}
    (h : Reads s (Spells (gram known subs) (gram known subs).bins a)) (hu : ∀ v, Stop (u ++ v))
    (hr : RestReads known subs o u ar) :
    Reads (paren s ++ u) (Spells (gram known subs) (gram known subs).bins (.chain a ar)) := by
  have h1 := reads_operand h
  refine ⟨⟨by simp [paren], by intro c hc; simp [paren] at hc; subst hc; decide⟩, fun b r us hs hw => ?_⟩
  obtain ⟨ts, h2, h3⟩ := hr r us hs hw
  obtain ⟨t1, h4, h5⟩ := h1.2 b (u ++ r) (ts ++ us) (hu r) h2
  refine ⟨t1 ++ ts, by simpa using h4, ?_⟩
  show Spells _ [isAdd, isMul, isPow] _ _
  rcases level_of o with ho | ho | ho
  · exact .chain (lift_all h5 _) (h3 _ _ (.inl rfl) ho)
  · exact .lift (.chain (lift_all h5 _) (h3 _ _ (.inr (.inl rfl)) ho))
  · exact .lift (.lift (.chain (lift_all h5 _) (h3 _ _ (.inr (.inr rfl)) ho)))

theorem restOne_reads {o o' : Arith.Op} {a : Ast} {s : Str} (ho : Together o o')
    (h : Reads s (Spells (gram known subs) (gram known subs).bins a)) :
    RestReads known subs o (' ' :: (operator o' ++ (' ' :: paren s))) (.one o' a) := by
  intro r us hs hw
  obtain ⟨t1, h4, h5⟩ := (reads_operand h).2 false r us hs hw
  refine ⟨(false, .op o') :: t1, ?_, fun l ls hl hlo => .one (together_level ho hl hlo) (lift_all h5 _)⟩
  have := reads_operator (b := false) o' (r := ' ' :: (paren s ++ r)) (by intro c hc; simp at hc; subst hc; decide)
    (.blank (by simp) h4)
  have := Written.blank (g := true) (c := ' ') (by simp) this
  simpa using this

theorem restMore_reads {o o' : Arith.Op} {a : Ast} {ar : ARest} {s u : Str} (ho : Together o o')
    (h : Reads s (Spells (gram known subs) (gram known subs).bins a)) (hu : ∀ v, Stop (u ++ v))
    (hr : RestReads known subs o u ar) :
    RestReads known subs o (' ' :: (operator o' ++ (' ' :: (paren s ++ u)))) (.more o' a ar) := by
  intro r us hs hw
  obtain ⟨ts, h2, h3⟩ := hr r us hs hw
  obtain ⟨t1, h4, h5⟩ := (reads_operand h).2 false (u ++ r) (ts ++ us) (hu r) h2
  refine ⟨(false, .op o') :: (t1 ++ ts), ?_, fun l ls hl hlo =>
    .more (together_level ho hl hlo) (lift_all h5 _) (h3 _ _ hl hlo)⟩
  have := reads_operator (b := false) o' (r := ' ' :: (paren s ++ (u ++ r))) (by intro c hc; simp at hc; subst hc; decide)
    (.blank (by simp) h4)
  have := Written.blank (g := true) (c := ' ') (by simp) this
  simpa using this

theorem sign_reads {o : Arith.Op} {a : Ast} {s : Str} (ho : o ∈ [Arith.Op.plus, .minus])
    (h : Reads s (Spells (gram known subs) (gram known subs).bins a)) :
    Reads (operator o ++ paren s) (Spells (gram known subs) [] (.sign o a)) := by
  have ho' : o = .plus ∨ o = .minus := by simpa using ho
  refine ⟨⟨by simp [paren], ?_⟩, fun b r us hs hw => ?_⟩
  · rcases ho' with rfl | rfl <;> · intro c hc; simp [operator] at hc; subst hc; decide
  · obtain ⟨t1, h4, h5⟩ := (reads_operand h).2 true r us hs hw
    refine ⟨(b, .op o) :: t1, ?_, .sign rfl ho' h5⟩
    rw [List.append_assoc]
    exact reads_operator o (by intro c hc; simp [paren] at hc; subst hc; decide) h4

/-- A call whose arguments are read. -/
theorem call_reads {f : String} {as : List Arg} {ks : List (Str × Arg)} {ss kk : List Str} {vs : List MathText.Value}
    {ws : List (Str × MathText.Value)} {t : Ex} (hf : Name f)
    (h : List.Forall₂ (fun a s => Reads s (SArg (gram known subs) a)) as ss)
    (h' : List.Forall₂ (KwReads (gram known subs)) ks kk) (hn : as ≠ [])
    (hv : List.Forall₂ (fun a v => MathText.value a = some v) as vs) (hk : MathText.keywords (toKws ks) = some ws)
    (hc : MathText.callHelper f.toList vs ws = some t) :
    ∃ a, MathText.ex a = some t ∧ Reads (call f (ss ++ kk)) (Spells (gram known subs) (gram known subs).bins a) := by
  refine ⟨.call f.toList (toArgs as) (toKws ks), ?_, (reads_helper hf rfl h h' (.inl hn)).mono fun _ h => lift_all h _⟩
  simp only [MathText.ex, values_toArgs hv, hk, hc]

theorem isName {f : String} {c : Char} {r : Str} (h : f.toList = c :: r) (hc : c.isAlpha = true)
    (hr : ∀ d ∈ r, d.isAlphanum = true ∨ d = '_') (hi : (c :: r).map Char.toLower ≠ ['i', 'n', 'f']) : Name f :=
  ⟨⟨c, r, h, hc, hr⟩, by rw [h]; exact hi⟩

macro "name!" : tactic => `(tactic| exact isName (by rfl) (by decide) (by decide) (by decide))

theorem name_sum : Name "sum" := by name!
theorem name_over : Name "over" := by name!
theorem name_roll : Name "roll" := by name!
theorem name_where : Name "where" := by name!
theorem name_select : Name "select_from_lookup_arrays" := by name!
theorem name_groupSum : Name "group_sum" := by name!
theorem name_reduce : Name "reduce_carrier_dim" := by name!
theorem name_groupDatetime : Name "group_datetime" := by name!
theorem name_sumNextN : Name "sum_next_n" := by name!
theorem name_valAt : Name "get_val_at_index" := by name!

theorem helper_sum (vs : List MathText.Value) (ws : List (Str × MathText.Value)) :
    MathText.callHelper "sum".toList vs ws = MathText.callSum vs ws := by rfl
theorem helper_roll (vs : List MathText.Value) (ws : List (Str × MathText.Value)) :
    MathText.callHelper "roll".toList vs ws = MathText.callRoll vs ws := by rfl
theorem helper_where (vs : List MathText.Value) (ws : List (Str × MathText.Value)) :
    MathText.callHelper "where".toList vs ws = MathText.callWhere vs ws := by rfl
theorem helper_select (vs : List MathText.Value) (ws : List (Str × MathText.Value)) :
    MathText.callHelper "select_from_lookup_arrays".toList vs ws = MathText.callSelect vs ws := by rfl
theorem helper_groupSum (vs : List MathText.Value) (ws : List (Str × MathText.Value)) :
    MathText.callHelper "group_sum".toList vs ws = MathText.callGroupSum vs ws := by rfl
theorem helper_reduce (vs : List MathText.Value) (ws : List (Str × MathText.Value)) :
    MathText.callHelper "reduce_carrier_dim".toList vs ws = MathText.callReduceCarrier vs ws := by rfl
theorem helper_groupDatetime (vs : List MathText.Value) (ws : List (Str × MathText.Value)) :
    MathText.callHelper "group_datetime".toList vs ws = MathText.callGroupDatetime vs ws := by rfl
theorem helper_sumNextN (vs : List MathText.Value) (ws : List (Str × MathText.Value)) :
    MathText.callHelper "sum_next_n".toList vs ws = MathText.callSumNextN vs ws := by rfl

/-- The argument that an expression is. -/
theorem arg_ex {t : Ex} {s : Str}
    (h : ∃ a, MathText.ex a = some t ∧ Reads s (Spells (gram known subs) (gram known subs).bins a)) :
    ∃ a v, MathText.value a = some v ∧ v.ex = some t ∧ Reads s (SArg (gram known subs) a) := by
  obtain ⟨a, h1, h2⟩ := h
  exact ⟨.ex a, _, by rw [MathText.value], h1, reads_ex h2⟩

mutual
theorem text_reads {t : Ex} {s : Str} : Text known subs t s →
    ∃ a, MathText.ex a = some t ∧ Reads s (Spells (gram known subs) (gram known subs).bins a)
  | .num h => ⟨.num s, by simp [MathText.ex, number_not_inf h, number_eq h],
      reads_num h fun b => lift_all (.simple (.number (by simpa [gram] using .num b s))) _⟩
  | .comp (n := n) h hk => ⟨.comp n.toList, by simp [MathText.ex],
      reads_id h.1 fun b => lift_all (.simple (.comp hk h.2)) _⟩
  | .sliced hn hk hl h => by
    obtain ⟨a, h1, h2⟩ := reads_sliced hn hk hl h
    exact ⟨a, h1, h2.mono fun _ h => lift_all h _⟩
  | .sub (n := n) hs h => ⟨.sub n.toList, by simp [MathText.ex],
      reads_dollar h.1 fun b => lift_all (.simple (.sub hs h.2)) _⟩
  | .sign (o := o) ho h => by
    obtain ⟨a, h1, h2⟩ := text_reads h
    exact ⟨.sign o a, by simp [MathText.ex, h1], (sign_reads ho h2).mono fun _ h => lift_all h _⟩
  | .chain h hr => by
    obtain ⟨a, h1, h2⟩ := text_reads h
    obtain ⟨ar, h3, h4⟩ := rest_reads hr
    exact ⟨.chain a ar, by simp [MathText.ex, h1, h3], chain_reads h2 (restText_start hr) h4⟩
  | .sum (u := u) h ho => by
    obtain ⟨a, v, h1, h2, h3⟩ := arg_ex (text_reads h)
    obtain ⟨a', v', h4, h5, h6⟩ := arg_over (known := known) (subs := subs) ho
    refine call_reads (as := [a]) (ks := [("over".toList, a')]) (kk := [key "over" u]) (vs := [v])
      (ws := [("over".toList, v')]) name_sum (.cons h3 .nil) (.cons ⟨"over", u, name_over, rfl, rfl, h6⟩ .nil)
      (by simp) (.cons h1 .nil) (by simp [toKws, MathText.keywords, h4]) ?_
    rw [helper_sum]
    simp only [MathText.callSum, h2, h5]
    rw [if_pos (by rfl)]
  | .reduceCarrier h hf => by
    obtain ⟨a, v, h1, h2, h3⟩ := arg_ex (text_reads h)
    obtain ⟨a', v', h4, h5, h6⟩ := arg_name (known := known) (subs := subs) hf
    refine call_reads (as := [a, a']) (ks := []) (kk := []) (vs := [v, v']) (ws := []) name_reduce
      (.cons h3 (.cons h6 .nil)) .nil (by simp) (.cons h1 (.cons h4 .nil)) rfl ?_
    rw [helper_reduce]
    simp only [MathText.callReduceCarrier, h2, h5]
  | .cond h hc => by
    obtain ⟨a, v, h1, h2, h3⟩ := arg_ex (text_reads h)
    obtain ⟨a', v', h4, h5, h6⟩ := arg_ex (text_reads hc)
    refine call_reads (as := [a, a']) (ks := []) (kk := []) (vs := [v, v']) (ws := []) name_where
      (.cons h3 (.cons h6 .nil)) .nil (by simp) (.cons h1 (.cons h4 .nil)) rfl ?_
    rw [helper_where]
    simp only [MathText.callWhere, h2, h5]
  | .roll (ss := ss) h hl => by
    obtain ⟨a, v, h1, h2, h3⟩ := arg_ex (text_reads h)
    obtain ⟨ks, ws, h4, h5, h6, _⟩ := kws_shifts (g := gram known subs) (fun _ _ h => arg_whole h) hl
    refine call_reads (as := [a]) (ks := ks) (kk := ss) (vs := [v]) (ws := ws) name_roll
      (.cons h3 .nil) h6 (by simp) (.cons h1 .nil) h4 ?_
    rw [helper_roll]
    simp only [MathText.callRoll, h2, h5]
  | .groupSum h hg hd => by
    obtain ⟨a, v, h1, h2, h3⟩ := arg_ex (text_reads h)
    obtain ⟨a', v', h4, h5, h6⟩ := arg_name (known := known) (subs := subs) hg
    obtain ⟨a'', v'', h7, h8, h9⟩ := arg_name (known := known) (subs := subs) hd
    refine call_reads (as := [a, a', a'']) (ks := []) (kk := []) (vs := [v, v', v'']) (ws := []) name_groupSum
      (.cons h3 (.cons h6 (.cons h9 .nil))) .nil (by simp) (.cons h1 (.cons h4 (.cons h7 .nil))) rfl ?_
    rw [helper_groupSum]
    simp only [MathText.callGroupSum, h2, h5, h8]
  | .groupDatetime h hg hd => by
    obtain ⟨a, v, h1, h2, h3⟩ := arg_ex (text_reads h)
    obtain ⟨a', v', h4, h5, h6⟩ := arg_name (known := known) (subs := subs) hg
    obtain ⟨a'', v'', h7, h8, h9⟩ := arg_name (known := known) (subs := subs) hd
    refine call_reads (as := [a, a', a'']) (ks := []) (kk := []) (vs := [v, v', v'']) (ws := []) name_groupDatetime
      (.cons h3 (.cons h6 (.cons h9 .nil))) .nil (by simp) (.cons h1 (.cons h4 (.cons h7 .nil))) rfl ?_
    rw [helper_groupDatetime]
    simp only [MathText.callGroupDatetime, h2, h5, h8]
  | .sumNextN h hg hd => by
    obtain ⟨a, v, h1, h2, h3⟩ := arg_ex (text_reads h)
    obtain ⟨a', v', h4, h5, h6⟩ := arg_name (known := known) (subs := subs) hg
    obtain ⟨a'', v'', h7, h8, h9⟩ := arg_whole (known := known) (subs := subs) hd
    refine call_reads (as := [a, a', a'']) (ks := []) (kk := []) (vs := [v, v', v'']) (ws := []) name_sumNextN
      (.cons h3 (.cons h6 (.cons h9 .nil))) .nil (by simp) (.cons h1 (.cons h4 (.cons h7 .nil))) rfl ?_
    rw [helper_sumNextN]
    simp only [MathText.callSumNextN, h2, h5, h8]
  | .select (l := l) h hl => by
    obtain ⟨a, v, h1, h2, h3⟩ := arg_ex (text_reads h)
    obtain ⟨ks, ws, h4, h5, h6⟩ := kws_lookups (g := gram known subs) (fun _ h => arg_name h) hl
    refine call_reads (as := [a]) (ks := ks) (vs := [v]) (ws := ws) name_select
      (.cons h3 .nil) h6 (by simp) (.cons h1 .nil) h4 ?_
    rw [helper_select]
    simp only [MathText.callSelect, h2, h5]
theorem rest_reads {o : Arith.Op} {r : ExRest} {u : Str} : RestText known subs o r u →
    ∃ ar, MathText.exRest ar = some r ∧ RestReads known subs o u ar
  | .one (o' := o') ho h => by
    obtain ⟨a, h1, h2⟩ := text_reads h
    exact ⟨.one o' a, by simp [MathText.exRest, h1], restOne_reads ho h2⟩
  | .more (o' := o') ho h hr => by
    obtain ⟨a, h1, h2⟩ := text_reads h
    obtain ⟨ar, h3, h4⟩ := rest_reads hr
    exact ⟨.more o' a ar, by simp [MathText.exRest, h1, h3], restMore_reads ho h2 (restText_start hr) h4⟩
end

end Write
end Calliope
