import Verif.Proofs.WriteEx
import Verif.Props.WhereGrammar

/-!
# Lemmas about texts of slices, equations and conditions
-/

namespace Calliope
namespace Write

open Grammar
open MathText (Ex ExRest)
open Arith (isAdd isMul isPow)

variable {known : Str → Bool}

/-! ### Whole numbers with their sign -/

/-- A whole number that is read with its sign. -/
theorem signed_whole {i : Int} {s : Str} (h : Whole i s) : MathText.intOf (.num s) = some i ∧ Reads s (Signed s) := by
  cases h with
  | plain hd hn =>
    exact ⟨by simp [MathText.intOf, integer_eq hd hn], reads_num (wholeNumber hd hn) fun b => .plain (.num b s)⟩
  | @minus ds hd hn =>
    refine ⟨?_, reads_minus (wholeNumber hd hn) fun b => .minus b ds⟩
    simp [MathText.intOf, MathText.integer, digits_eq]

theorem arg_signed {g : Gram} {i : Int} {s : Str} (hg : g.ops = false ∨ g.textFirst = true)
    (hg' : g.textFirst = true ∨ g.textFirst = false) (h : Whole i s) :
    MathText.intOf (.num s) = some i ∧ Reads s (SArg g (.ex (.num s))) := by
  obtain ⟨h1, h2⟩ := signed_whole h
  refine ⟨h1, h2.mono fun ts hs => ?_⟩
  rcases hg' with h3 | h3
  · exact .num h3 hs
  · refine .ex (fun h4 => by rw [h3] at h4; cases h4) (lift_all (.simple (.number ?_)) _)
    rcases hg with h4 | h4
    · rw [h4]
      exact hs
    · rw [h3] at h4
      cases h4

/-! ### Slices -/

theorem reads_valAt {g : Gram} {d : String} {i : Int} {s : Str} (hg : g.ops = false ∨ g.textFirst = true)
    (hg' : g.textFirst = true ∨ g.textFirst = false) (hd : Name d) (h : Whole i s) :
    ∃ f as ks, MathText.valAtIndex f as ks = some (d, i) ∧ ¬ Inf f ∧ f = "get_val_at_index".toList ∧
      Reads (call "get_val_at_index" [key d s])
        (fun ts => ∃ b b' us, ts = (b, .id f) :: (true, .lpar) :: (us ++ [(b', .rpar)]) ∧ SFun g as ks us) := by
  obtain ⟨h1, h2⟩ := arg_signed hg hg' h
  refine ⟨"get_val_at_index".toList, .nil, .cons d.toList (.ex (.num s)) .nil, ?_, name_valAt.2, rfl, ?_⟩
  · unfold MathText.valAtIndex
    rw [if_pos (by rfl)]
    simp [h1]
  · exact reads_call name_valAt (reads_fun (as := []) (ss := []) (ks := [(d.toList, .ex (.num s))]) .nil
      (.cons ⟨d, s, hd, rfl, rfl, h2⟩ .nil) (.inr (by simp)))

theorem slice_reads {x : Expr.SliceDef} {s : Str} (h : SliceText known x s) :
    ∃ a, MathText.sliceDef a = some x ∧ Reads s (SSliceDef (inSlices known) a) := by
  cases h with
  | @label l hl hk =>
    exact ⟨.text l.toList, by simp [MathText.sliceDef], reads_id hl.1 fun b => .text hl.2 hk hk⟩
  | @valAt d i s hd hi =>
    obtain ⟨f, as, ks, h1, h2, _, h3⟩ := reads_valAt (g := inSlices known) (.inl rfl) (.inr rfl) hd hi
    refine ⟨.ex (.call f as ks), by simp [MathText.sliceDef, h1], h3.mono ?_⟩
    rintro ts ⟨b, b', us, rfl, hu⟩
    exact .ex (.call rfl h2 hu)
  | @lookup n hn hk =>
    exact ⟨.ex (.comp n.toList), by simp [MathText.sliceDef], reads_id hn.1 fun b => .ex (.simple (.comp hk hn.2))⟩
  | @rolled n l ss hn hk hl hs =>
    obtain ⟨ks, vs, h1, h2, h3, _⟩ := kws_shifts (g := inSlices known) (fun i s h => by
      obtain ⟨h1, h2⟩ := arg_signed (g := inSlices known) (.inl rfl) (.inr rfl) h
      exact ⟨_, _, by rw [MathText.value], h1, h2⟩) hs
    have h4 := reads_helper (g := inSlices known) (f := "roll") (as := [.ex (.comp n.toList)]) (ss := [n.toList])
      name_roll rfl (.cons (reads_id hn.1 fun b => .ex (fun h => by cases h) (.simple (.comp hk hn.2))) .nil) h3
      (.inl (by simp))
    refine ⟨.ex (.call "roll".toList (toArgs [.ex (.comp n.toList)]) (toKws ks)), ?_, h4.mono fun _ h => .ex h⟩
    have h5 : MathText.valAtIndex "roll".toList (toArgs [.ex (.comp n.toList)]) (toKws ks) = none := by
      unfold MathText.valAtIndex
      rw [if_neg (by decide)]
    simp only [MathText.sliceDef, h5]
    unfold MathText.rolledLookup
    rw [if_pos (by rfl)]
    simp [toArgs, h1, h2]

/-! ### Equations -/

theorem lexOne_le {r : Str} : lexOne ('<' :: '=' :: r) = some (.cmp .le, r) := by rfl
theorem lexOne_ge {r : Str} : lexOne ('>' :: '=' :: r) = some (.cmp .ge, r) := by rfl
theorem lexOne_eqeq {r : Str} : lexOne ('=' :: '=' :: r) = some (.cmp .eq, r) := by rfl
theorem lexOne_lt {r : Str} : lexOne ('<' :: ' ' :: r) = some (.cmp .lt, ' ' :: r) := by rfl
theorem lexOne_gt {r : Str} : lexOne ('>' :: ' ' :: r) = some (.cmp .gt, ' ' :: r) := by rfl

theorem lexOne_comparison (o : Where.CmpOp) (r : Str) :
    lexOne (comparison o ++ (' ' :: r)) = some (.cmp o, ' ' :: r) := by
  cases o <;> rfl

/-- Two texts and a comparison between them. -/
theorem reads_compared {s u : Str} {Q Q' : List Tok → Prop} (h : Reads s Q) (h' : Reads u Q') (o : Where.CmpOp) :
    Reads (s ++ (' ' :: (comparison o ++ (' ' :: u))))
      (fun ts => ∃ b t1 t2, ts = t1 ++ (b, .cmp o) :: t2 ∧ Q t1 ∧ Q' t2) := by
  refine ⟨⟨by simp, by rw [head_append h.1.1]; exact h.1.2⟩, fun b r us hr hw => ?_⟩
  obtain ⟨t2, h1, h2⟩ := h'.2 false r us hr hw
  have h3 : Written true (' ' :: (comparison o ++ (' ' :: (u ++ r)))) ((false, .cmp o) :: (t2 ++ us)) :=
    .blank (by simp) (step (lexOne_comparison o _) (.blank (by simp) h1))
  obtain ⟨t1, h4, h5⟩ := h.2 b _ _ (stop_cons (by simp)) h3
  exact ⟨t1 ++ (false, .cmp o) :: t2, by simpa using h4, _, _, _, rfl, h5, h2⟩

theorem equation_reads {l r : Ex} {s u : Str} (h : Text known true l s) (h' : Text known true r u) (o : Where.CmpOp)
    (ho : o = .le ∨ o = .ge ∨ o = .eq) : ∃ a a', MathText.ex a = some l ∧ MathText.ex a' = some r ∧
      Reads (s ++ (' ' :: (comparison o ++ (' ' :: u)))) (SEquation (inEquations known) a o a') := by
  obtain ⟨a, h1, h2⟩ := text_reads h
  obtain ⟨a', h3, h4⟩ := text_reads h'
  refine ⟨a, a', h1, h3, (reads_compared h2 h4 o).mono ?_⟩
  rintro ts ⟨b, t1, t2, rfl, h5, h6⟩
  exact .eqn ho h5 h6

/-! ### Conditions -/

instance (w s : Str) : Decidable (Word w s) := by
  unfold Word
  infer_instance

variable {n : WNames}

theorem signed_number {q : Rat} {s : Str} (h : SignedNumber q s) :
    MathText.number s = q ∧ s ≠ MathText.wInf ∧ Reads s (Signed s) := by
  cases h with
  | plain h => exact ⟨number_eq h, number_not_inf h, reads_num h fun b => .plain (.num b s)⟩
  | @minus q s h =>
    refine ⟨by simp [MathText.number, decimal_eq h], ?_, reads_minus h fun b => .minus b s⟩
    intro he
    simp only [MathText.wInf, List.cons.injEq] at he
    exact absurd he.1 (by decide)

theorem startsNot_id {n : Str} {ws : List String} {b : Bool} {r : List Tok} (h : ∀ w ∈ ws, ¬ Word w.toList n) :
    StartsNot ws ((b, .id n) :: r) := by
  rintro b' s r' he w hw
  simp only [List.cons.injEq, Prod.mk.injEq, Lx.id.injEq] at he
  exact he.1.2 ▸ h w hw

theorem startsNot_num {ws : List String} {s : Str} {b : Bool} {r : List Tok} : StartsNot ws ((b, .num s) :: r) := by
  rintro b' s r' he
  simp at he

theorem startsNot_append {ws : List String} {ts us : List Tok} (h : StartsNot ws ts) (hn : ts ≠ []) :
    StartsNot ws (ts ++ us) := by
  cases ts with
  | nil => exact absurd rfl hn
  | cons t ts =>
    rintro b s r he w hw
    simp only [List.cons_append, List.cons.injEq] at he
    exact h b s ts (by rw [he.1]) w hw

theorem Plain.words {m : String} (h : Plain m) : ∀ w ∈ ["true", "false", "not"], ¬ Word w.toList m.toList := by
  intro w hw
  simp only [List.mem_cons, List.not_mem_nil, or_false] at hw
  rcases hw with rfl | rfl | rfl
  · exact h.2.1
  · exact h.2.2.1
  · exact h.2.2.2

theorem words_sub {m : Str} (h : ∀ w ∈ ["true", "false", "not"], ¬ Word w.toList m) :
    (∀ w ∈ ["true", "false"], ¬ Word w.toList m) ∧ ∀ w ∈ ["not"], ¬ Word w.toList m :=
  ⟨fun w hw => h w (by simp at hw ⊢; tauto), fun w hw => h w (by simp at hw ⊢; tauto)⟩

/-- A name that `Captured` does not hold of. -/
theorem not_captured {g : Gram} {b : Bool} {s : Str} {r : List Tok} (hk : g.known s = true) (hi : ¬ Inf s) :
    ¬ Captured g ((b, .id s) :: r) := by
  rintro (⟨b', s', us, he, _, hk'⟩ | ⟨s', us, vs, hs, he⟩)
  · simp only [List.cons.injEq, Prod.mk.injEq, Lx.id.injEq] at he
    rw [← he.1.2, hk] at hk'
    cases hk'
  · cases hs with
    | plain hu => cases hu with
      | num => simp at he
      | inf _ hs => simp at he; exact hi (he.1.2 ▸ hs)
      | dotInf => simp at he
    | plus => simp at he
    | minus => simp at he

/-- A name as an argument where texts come first. -/
theorem arg_known {g : Gram} {m : String} (hm : Name m) (hk : g.known m.toList = true) (hc : g.comp m.toList = true) :
    Reads m.toList (SArg g (.ex (.comp m.toList))) :=
  reads_id hm.1 fun _ => .ex (fun _ => not_captured hk hm.2) (lift_all (.simple (.comp hc hm.2)) _)

/-- Dimensions as an argument. -/
theorem arg_dims {g : Gram} {l : List String} {u : Str} (hl : Over l u) (hd : ∀ d ∈ l, g.known d.toList = true)
    (hc : ∀ d ∈ l, g.comp d.toList = true) (hi : ∀ d ∈ l, g.listed d.toList = true) :
    ∃ a v, MathText.value a = some v ∧ v.names = some l ∧ Reads u (SArg g a) := by
  cases hl with
  | @one d h =>
    exact ⟨.ex (.comp d.toList), _, by rw [MathText.value], by simp [MathText.nameOf],
      arg_known h (hd d (by simp)) (hc d (by simp))⟩
  | list hn h =>
    have key : ∀ {l : List String}, (∀ d ∈ l, Name d) → (∀ d ∈ l, g.known d.toList = true) →
        (∀ d ∈ l, g.listed d.toList = true) → ∃ is, MathText.itemNames is = some l ∧
          List.Forall₂ (fun i s => Reads s (SItem g true i)) is (l.map String.toList) := by
      intro l
      induction l with
      | nil => exact fun _ _ _ => ⟨[], rfl, .nil⟩
      | cons d l ih =>
        intro h1 h2 h3
        obtain ⟨is, h4, h5⟩ := ih (fun d hd => h1 d (by simp [hd])) (fun d hd => h2 d (by simp [hd]))
          (fun d hd => h3 d (by simp [hd]))
        refine ⟨.comp d.toList :: is, by simp [MathText.itemNames, MathText.itemName, h4], .cons ?_ h5⟩
        exact reads_id (h1 d (by simp)).1 fun b => .comp (h1 d (by simp)).2 (h2 d (by simp)) (h3 d (by simp))
    obtain ⟨is, h1, h2⟩ := key h hd hi
    have hne : is ≠ [] := by
      rintro rfl
      simp only [MathText.itemNames, Option.some.injEq] at h1
      exact hn h1.symm
    refine ⟨.list is, _, by rw [MathText.value], h1, ?_⟩
    refine (reads_bracket (reads_commas (L := SItems g true) (fun _ _ h => .one h) (fun _ _ _ _ _ h h' => .more h h')
      h2 hne)).mono ?_
    rintro ts ⟨b, b', us, rfl, hu⟩
    exact .list (.list hu)

/-- `f(name, over=...)`. -/
theorem reads_over {g : Gram} {f m : String} {l : List String} {u : Str} (hf : Name f) (hm : Name m)
    (hk : g.known m.toList = true) (hc : g.comp m.toList = true) (hl : Over l u)
    (hd : ∀ d ∈ l, g.known d.toList = true) (hc' : ∀ d ∈ l, g.comp d.toList = true)
    (hi : ∀ d ∈ l, g.listed d.toList = true) :
    ∃ as ks, MathText.nameOver f.toList f.toList as ks = some (m.toList, l) ∧
      Reads (call f [m.toList, key "over" u])
        (fun ts => ∃ b b' us, ts = (b, .id f.toList) :: (true, .lpar) :: (us ++ [(b', .rpar)]) ∧ SFun g as ks us) := by
  obtain ⟨a, v, h1, h2, h3⟩ := arg_dims hl hd hc' hi
  refine ⟨.cons (.ex (.comp m.toList)) .nil, .cons "over".toList a .nil, ?_, ?_⟩
  · unfold MathText.nameOver
    rw [if_pos rfl]
    dsimp only
    rw [if_pos (by rfl)]
    simp [h1, h2]
  · exact reads_call hf (reads_fun (as := [.ex (.comp m.toList)]) (ss := [m.toList]) (ks := [("over".toList, a)])
      (kk := [key "over" u]) (.cons (arg_known hm hk hc) .nil) (.cons ⟨"over", u, name_over, rfl, rfl, h3⟩ .nil)
      (.inl (by simp)))

theorem word_ne {w : String} {f : Str} (h : f.map Char.toLower ≠ w.toList) : ¬ Word w.toList f := h

theorem left_reads {k : MathText.Kinds} (hk : k.cond = n) {l : Where.Lhs} {s : Str} (h : LeftText n l s) :
    ∃ a, MathText.lhs k a = some l ∧ Reads s (fun ts => Spells (inComparisons n) [isAdd, isMul, isPow] a ts ∧
      ts ≠ [] ∧ StartsNot ["true", "false"] ts ∧ StartsNot ["not"] ts) := by
  subst hk
  cases h with
  | num h =>
    refine ⟨.num s, by simp [MathText.lhs, number_not_inf h, number_eq h], reads_num h fun b => ⟨?_, by simp, ?_, ?_⟩⟩
    · exact lift_all (.simple (.number (by simpa [inComparisons] using .num b s))) _
    · exact startsNot_num
    · exact startsNot_num
  | @dim d hd hk =>
    refine ⟨.comp d.toList, by simp [MathText.lhs, MathText.lhsComp, hk], reads_id hd.1.1 fun b =>
      ⟨lift_all (.simple (.comp (by simp [inComparisons, hk]) hd.1.2)) _, by simp, ?_, ?_⟩⟩
    · exact startsNot_id (words_sub hd.words).1
    · exact startsNot_id (words_sub hd.words).2
  | @input d hd hk hi =>
    refine ⟨.comp d.toList, by simp [MathText.lhs, MathText.lhsComp, hk, hi], reads_id hd.1.1 fun b =>
      ⟨lift_all (.simple (.comp (by simp [inComparisons, hi]) hd.1.2)) _, by simp, ?_, ?_⟩⟩
    · exact startsNot_id (words_sub hd.words).1
    · exact startsNot_id (words_sub hd.words).2
  | @result d hd hk hi hp hr =>
    refine ⟨.comp d.toList, by simp [MathText.lhs, MathText.lhsComp, hk, hi], reads_id hd.1.1 fun b =>
      ⟨lift_all (.simple (.comp (by simp [inComparisons, hp, hr]) hd.1.2)) _, by simp, ?_, ?_⟩⟩
    · exact startsNot_id (words_sub hd.words).1
    · exact startsNot_id (words_sub hd.words).2
  | @config o ho hc =>
    refine ⟨.config o.toList, by simp [MathText.lhs], ?_⟩
    have hid : IdText ['c', 'o', 'n', 'f', 'i', 'g'] := ⟨'c', ['o', 'n', 'f', 'i', 'g'], rfl, by decide, by decide⟩
    refine ⟨⟨by simp, by intro c hc; simp at hc; subst hc; decide⟩, fun b r us hr hw => ?_⟩
    refine ⟨[(b, .id ['c', 'o', 'n', 'f', 'i', 'g']), (true, .dot), (true, .id o.toList)], ?_, ?_, by simp, ?_, ?_⟩
    · have h1 : lexOne ('.' :: (o.toList ++ r)) = some (.dot, o.toList ++ r) := by
        obtain ⟨c, m, he, hc, _⟩ := ho.1
        rw [he]
        have hd : c.isDigit = false := by
          cases hcd : c.isDigit with
          | false => rfl
          | true => rw [digit_not_alpha hcd] at hc; cases hc
        have h2 : ('.' : Char).isAlpha = false := by decide
        have h3 : ('.' : Char).isDigit = false := by decide
        simp [lexOne, hd, h2, h3]
      have h4 := step (b := true) h1 (step (b := true) (lexOne_id ho.1 (hr.not _ (by decide))) hw)
      have h5 := step (b := b) (lexOne_id hid (r := '.' :: (o.toList ++ r)) (by
        intro c hc; simp at hc; subst hc; decide)) h4
      exact h5
    · obtain ⟨c1, c2, c3, c4⟩ := hc
      have hc' : (inComparisons k.cond).comp ['c', 'o', 'n', 'f', 'i', 'g'] = false := by
        show (k.cond.dims "config".toList || k.cond.inputs "config".toList ||
          (k.cond.hasPost && (k.cond.results "config".toList || k.cond.post "config".toList))) = false
        rw [c1, c2, c3, c4]
        simp
      exact lift_all (.simple (.config rfl hc' ho.2)) _
    · exact startsNot_id (by decide)
    · exact startsNot_id (by decide)
  | @valAt d i s hd hi =>
    obtain ⟨f, as, ks, h1, h2, h3, h4⟩ := reads_valAt (g := inComparisons k.cond) (.inr rfl) (.inl rfl) hd hi
    refine ⟨.call f as ks, by simp [MathText.lhs, h1], h4.mono ?_⟩
    rintro ts ⟨b, b', us, rfl, hu⟩
    refine ⟨lift_all (.call rfl h2 hu) _, by simp, ?_, ?_⟩
    · exact startsNot_id (by rw [h3]; decide)
    · exact startsNot_id (by rw [h3]; decide)
  | @total m l u hm hk hl hd =>
    obtain ⟨as, ks, h1, h2⟩ := reads_over (g := inComparisons k.cond) name_sum hm
      (by simp [inComparisons]; tauto) (by simp [inComparisons]; tauto) hl
      (fun d h => by simp [inComparisons, hd d h]) (fun d h => by simp [inComparisons, hd d h])
      (fun d h => by simp [inComparisons, hd d h])
    refine ⟨.call "sum".toList as ks, ?_, h2.mono ?_⟩
    · have h3 : MathText.valAtIndex "sum".toList as ks = none := by
        unfold MathText.valAtIndex
        rw [if_neg (by decide)]
      have h4 : MathText.nameOver "sum".toList (chars! "sum") as ks = some (m.toList, l) := h1
      simp only [MathText.lhs, h3, h4, str]
    · rintro ts ⟨b, b', us, rfl, hu⟩
      refine ⟨lift_all (.call rfl name_sum.2 hu) _, by simp, ?_, ?_⟩
      · exact startsNot_id (by decide)
      · exact startsNot_id (by decide)

theorem right_reads {r : Where.Rhs} {s : Str} (h : RightText r s) :
    ∃ x, MathText.rhs x = some r ∧ Reads s (SRhs n x) := by
  cases h with
  | yes => exact ⟨.bool true, rfl, reads_id ⟨'T', ['r', 'u', 'e'], rfl, by decide, by decide⟩ fun b => .yes (by rfl)⟩
  | no => exact ⟨.bool false, rfl,
      reads_id ⟨'F', ['a', 'l', 's', 'e'], rfl, by decide, by decide⟩ fun b => .no (by rfl)⟩
  | num h =>
    obtain ⟨h1, h2, h3⟩ := signed_number h
    exact ⟨.num s, by simp [MathText.rhs, h1, h2], h3.mono fun _ h => .num h⟩
  | inf =>
    exact ⟨.num ['i', 'n', 'f'], by rfl, reads_id ⟨'i', ['n', 'f'], rfl, by decide, by decide⟩ fun b =>
      .num (.plain (.inf b (by rfl)))⟩
  | @str s hs =>
    exact ⟨.text s.toList, by simp [MathText.rhs], reads_id hs.1.1 fun b => .text hs.1.2
      (startsNot_id (words_sub hs.words).1)⟩
  | @valAt d i s hd hi =>
    obtain ⟨f, as, ks, h1, h2, h3, h4⟩ := reads_valAt (g := inComparisons n) (.inr rfl) (.inl rfl) hd hi
    refine ⟨.call f as ks, by simp [MathText.rhs, h1], h4.mono ?_⟩
    rintro ts ⟨b, b', us, rfl, hu⟩
    exact .call h2 hu

theorem element_reads {v : Where.Val} {s : Str} (h : ElementText v s) :
    ∃ i, (∀ r l, MathText.setItems r = some l → MathText.setItems (i :: r) = some (v :: l)) ∧ Reads s (SSetItem i) := by
  cases h with
  | @str s hs => exact ⟨.text s.toList, fun r l h => by simp [MathText.setItems, h], reads_id hs.1 fun b => .text hs.2⟩
  | @num q s h =>
    obtain ⟨h1, _, h3⟩ := signed_number h
    exact ⟨.num s, fun r l h => by simp [MathText.setItems, h, h1], h3.mono fun _ h => .num h⟩

theorem elements_reads {l : List Where.Val} {ss : List Str} (h : List.Forall₂ ElementText l ss) :
    ∃ is, MathText.setItems is = some l ∧ (l ≠ [] → is ≠ []) ∧
      List.Forall₂ (fun i s => Reads s (SSetItem i)) is ss := by
  induction h with
  | nil => exact ⟨[], rfl, fun h => absurd rfl h, .nil⟩
  | cons h1 _ ih =>
    obtain ⟨i, h2, h3⟩ := element_reads h1
    obtain ⟨is, h4, _, h5⟩ := ih
    exact ⟨i :: is, h2 _ _ h4, by simp, .cons h3 h5⟩

theorem startsNot_lsq {ws : List String} {b : Bool} {r : List Tok} : StartsNot ws ((b, .lsq) :: r) := by
  rintro b' s r' he
  simp at he

theorem name_any : Name "any" := by name!

theorem leaf_reads {k : MathText.Kinds} (hk : k.cond = n) {x : Where.Leaf} {s : Str} (h : LeafText n x s) :
    ∃ y, MathText.leaf k y = some x ∧ Reads s (fun ts => SLeaf n y ts ∧ StartsNot ["not"] ts) := by
  cases h with
  | yes => exact ⟨.bool true, rfl, reads_id ⟨'T', ['r', 'u', 'e'], rfl, by decide, by decide⟩ fun b =>
      ⟨.yes (by rfl), startsNot_id (by decide)⟩⟩
  | no => exact ⟨.bool false, rfl, reads_id ⟨'F', ['a', 'l', 's', 'e'], rfl, by decide, by decide⟩ fun b =>
      ⟨.no (by rfl), startsNot_id (by decide)⟩⟩
  | @input p hp hi =>
    exact ⟨.input p.toList, by simp [MathText.leaf], reads_id hp.1.1 fun b =>
      ⟨.input hi (startsNot_id (words_sub hp.words).1), startsNot_id (words_sub hp.words).2⟩⟩
  | @result p hp hr hi =>
    exact ⟨.result p.toList, by simp [MathText.leaf], reads_id hp.1.1 fun b =>
      ⟨.result hr hi (startsNot_id (words_sub hp.words).1), startsNot_id (words_sub hp.words).2⟩⟩
  | @cmp l o r s u hl hr =>
    obtain ⟨a, h1, h2⟩ := left_reads hk hl
    obtain ⟨y, h3, h4⟩ := right_reads (n := n) hr
    refine ⟨.cmp a o y, by simp [MathText.leaf, h1, h3], (reads_compared h2 h4 o).mono ?_⟩
    rintro ts ⟨b, t1, t2, rfl, ⟨h5, h6, h7, h8⟩, h9⟩
    exact ⟨.cmp h5 h9 h7, startsNot_append h8 h6⟩
  | @isIn l d ss hl he hd hn =>
    obtain ⟨is, h1, h2, h3⟩ := elements_reads he
    have h4 := reads_bracket (reads_commas (L := SSet) (fun _ _ h => .one h) (fun _ _ _ _ _ h h' => .more h h') h3
      (h2 hl))
    refine ⟨.isIn is d.toList, by simp [MathText.leaf, h1],
      ⟨by simp [bracket], by intro c hc; simp [bracket] at hc; subst hc; decide⟩, fun b r us hr hw => ?_⟩
    have h5 : Written false (d.toList ++ r) ((false, .id d.toList) :: us) :=
      step (lexOne_id hd.1 (hr.not _ (by decide))) hw
    have h6 : Written true (' ' :: 'i' :: 'n' :: ' ' :: (d.toList ++ r)) ((false, .id ['i', 'n']) :: (false, .id d.toList) :: us) := by
      refine .blank (by simp) (step (r := ' ' :: (d.toList ++ r)) ?_ (.blank (by simp) h5))
      exact lexOne_id (n := ['i', 'n']) ⟨'i', ['n'], rfl, by decide, by decide⟩
        (by intro c hc; simp at hc; subst hc; decide)
    obtain ⟨ts, h7, b1, b2, vs, rfl, h8⟩ := h4.2 b _ _ (stop_cons (by simp)) h6
    refine ⟨(b1, .lsq) :: (vs ++ [(b2, .rsq), (false, .id ['i', 'n']), (false, .id d.toList)]), ?_, .isIn h8 hn,
      startsNot_lsq⟩
    simpa using h7
  | @anyInput p l u hp hi hl hd =>
    obtain ⟨as, ks, h1, h2⟩ := reads_over (g := inFunctions n) name_any hp
      (by simp [inFunctions, hi]) (by simp [inFunctions, hi]) hl
      (fun d h => by simp [inFunctions, hd d h]) (fun d h => by simp [inFunctions, hd d h])
      (fun d h => by simp [inFunctions, hd d h])
    refine ⟨.call "any".toList as ks, ?_, h2.mono ?_⟩
    · have h4 : MathText.nameOver "any".toList (chars! "any") as ks = some (p.toList, l) := h1
      subst hk
      simp only [MathText.leaf, h4, str, hi, if_true]
    · rintro ts ⟨b, b', us, rfl, hu⟩
      exact ⟨.call name_any.2 hu (startsNot_id (by decide)), startsNot_id (by decide)⟩
  | @anyResult p l u hp hr hi hl hd =>
    obtain ⟨as, ks, h1, h2⟩ := reads_over (g := inFunctions n) name_any hp
      (by simp [inFunctions]; tauto) (by simp [inFunctions]; tauto) hl
      (fun d h => by simp [inFunctions, hd d h]) (fun d h => by simp [inFunctions, hd d h])
      (fun d h => by simp [inFunctions, hd d h])
    refine ⟨.call "any".toList as ks, ?_, h2.mono ?_⟩
    · have h4 : MathText.nameOver "any".toList (chars! "any") as ks = some (p.toList, l) := h1
      subst hk
      simp only [MathText.leaf, h4, str, hi]
      rfl
    · rintro ts ⟨b, b', us, rfl, hu⟩
      exact ⟨.call name_any.2 hu (startsNot_id (by decide)), startsNot_id (by decide)⟩

/-- What follows the first condition. -/
def CondsReads (n : WNames) (u : Str) (y : Infix.Rest Where.Op WLeaf) : Prop :=
  ∀ r us, Stop r → Written true r us → ∃ ts, Written true (u ++ r) (ts ++ us) ∧ SConds n y ts

theorem condsText_start {r : Infix.Rest Where.Op Where.Leaf} {u : Str} (h : CondsText n r u) (v : Str) :
    Stop (u ++ v) := by
  cases h <;> exact stop_cons (c := ' ') (by simp)

theorem reads_condition {s : Str} {t : Infix.Tree Where.Op WLeaf} (h : Reads s (SCond n t)) :
    Reads (paren s) (SNot n t) := by
  refine (reads_paren h).mono ?_
  rintro ts ⟨b, b', us, rfl, hu⟩
  exact .paren hu

theorem lexOne_word {w r : Str} (h : IdText w) : lexOne (w ++ ' ' :: r) = some (.id w, ' ' :: r) :=
  lexOne_id h (by intro c hc; simp at hc; subst hc; decide)

theorem idText_and : IdText ['a', 'n', 'd'] := ⟨'a', ['n', 'd'], rfl, by decide, by decide⟩
theorem idText_or : IdText ['o', 'r'] := ⟨'o', ['r'], rfl, by decide, by decide⟩
theorem idText_not : IdText ['n', 'o', 't'] := ⟨'n', ['o', 't'], rfl, by decide, by decide⟩

theorem condsLast_reads {o : Where.Op} {w s : Str} {t : Infix.Tree Where.Op WLeaf} (hw : IdText w)
    (ho : ∀ b, SWord o [(b, .id w)]) (h : Reads s (SCond n t)) :
    CondsReads n (' ' :: (w ++ (' ' :: paren s))) (.one o t) := by
  intro r us hr hwr
  obtain ⟨ts, h1, h2⟩ := (reads_condition h).2 false r us hr hwr
  refine ⟨[(false, .id w)] ++ ts, ?_, .last (ho false) h2⟩
  have := Written.blank (g := true) (c := ' ') (by simp)
    (step (b := false) (lexOne_word (r := paren s ++ r) hw) (.blank (by simp) h1))
  simpa using this

theorem condsNext_reads {o : Where.Op} {w s u : Str} {t : Infix.Tree Where.Op WLeaf} {y : Infix.Rest Where.Op WLeaf}
    (hw : IdText w) (ho : ∀ b, SWord o [(b, .id w)]) (h : Reads s (SCond n t)) (hu : ∀ v, Stop (u ++ v))
    (hy : CondsReads n u y) : CondsReads n (' ' :: (w ++ (' ' :: (paren s ++ u)))) (.more o t y) := by
  intro r us hr hwr
  obtain ⟨vs, h3, h4⟩ := hy r us hr hwr
  obtain ⟨ts, h1, h2⟩ := (reads_condition h).2 false (u ++ r) (vs ++ us) (hu r) h3
  refine ⟨[(false, .id w)] ++ (ts ++ vs), ?_, .next (ho false) h2 h4⟩
  have := Written.blank (g := true) (c := ' ') (by simp)
    (step (b := false) (lexOne_word (r := paren s ++ (u ++ r)) hw) (.blank (by simp) h1))
  simpa using this

theorem not_reads {s : Str} {t : Infix.Tree Where.Op WLeaf} (h : Reads s (SCond n t)) :
    Reads ("not ".toList ++ paren s) (SCond n (.pre .not t)) := by
  refine ⟨⟨by simp, by intro c hc; simp at hc; subst hc; decide⟩, fun b r us hr hwr => ?_⟩
  obtain ⟨ts, h1, h2⟩ := (reads_condition h).2 false r us hr hwr
  refine ⟨(b, .id ['n', 'o', 't']) :: ts, ?_, .one (.neg (by rfl) h2)⟩
  have := step (b := b) (lexOne_word (r := paren s ++ r) idText_not) (.blank (by simp) h1)
  simpa using this

theorem chainCond_reads {s u : Str} {t : Infix.Tree Where.Op WLeaf} {y : Infix.Rest Where.Op WLeaf}
    (h : Reads s (SCond n t)) (hu : ∀ v, Stop (u ++ v)) (hy : CondsReads n u y) :
    Reads (paren s ++ u) (SCond n (.chain t y)) := by
  refine ⟨⟨by simp [paren], by intro c hc; simp [paren] at hc; subst hc; decide⟩, fun b r us hr hwr => ?_⟩
  obtain ⟨vs, h3, h4⟩ := hy r us hr hwr
  obtain ⟨ts, h1, h2⟩ := (reads_condition h).2 b (u ++ r) (vs ++ us) (hu r) h3
  exact ⟨ts ++ vs, by simpa using h1, .chain h2 h4⟩

mutual
theorem cond_reads {k : MathText.Kinds} (hk : k.cond = n) {c : Build.Cond} {s : Str} : CondText n c s →
    ∃ t, MathText.cond k t = some c ∧ Reads s (SCond n t)
  | .leaf h => by
    obtain ⟨y, h1, h2⟩ := leaf_reads hk h
    exact ⟨.atom y, by simp [MathText.cond, h1], h2.mono fun _ h => .one (.leaf h.1 h.2)⟩
  | .not h => by
    obtain ⟨t, h1, h2⟩ := cond_reads hk h
    exact ⟨.pre .not t, by simp [MathText.cond, h1], not_reads h2⟩
  | .chain h hr => by
    obtain ⟨t, h1, h2⟩ := cond_reads hk h
    obtain ⟨y, h3, h4⟩ := conds_reads hk hr
    exact ⟨.chain t y, by simp [MathText.cond, h1, h3], chainCond_reads h2 (condsText_start hr) h4⟩
theorem conds_reads {k : MathText.Kinds} (hk : k.cond = n) {r : Infix.Rest Where.Op Where.Leaf} {u : Str} :
    CondsText n r u → ∃ y, MathText.conds k y = some r ∧ CondsReads n u y
  | .andLast h => by
    obtain ⟨t, h1, h2⟩ := cond_reads hk h
    exact ⟨.one .and t, by simp [MathText.conds, h1], condsLast_reads idText_and (fun _ => .and (by rfl)) h2⟩
  | .orLast h => by
    obtain ⟨t, h1, h2⟩ := cond_reads hk h
    exact ⟨.one .or t, by simp [MathText.conds, h1], condsLast_reads idText_or (fun _ => .or (by rfl)) h2⟩
  | .andNext h hr => by
    obtain ⟨t, h1, h2⟩ := cond_reads hk h
    obtain ⟨y, h3, h4⟩ := conds_reads hk hr
    exact ⟨.more .and t y, by simp [MathText.conds, h1, h3],
      condsNext_reads idText_and (fun _ => .and (by rfl)) h2 (condsText_start hr) h4⟩
  | .orNext h hr => by
    obtain ⟨t, h1, h2⟩ := cond_reads hk h
    obtain ⟨y, h3, h4⟩ := conds_reads hk hr
    exact ⟨.more .or t y, by simp [MathText.conds, h1, h3],
      condsNext_reads idText_or (fun _ => .or (by rfl)) h2 (condsText_start hr) h4⟩
end

end Write
end Calliope
