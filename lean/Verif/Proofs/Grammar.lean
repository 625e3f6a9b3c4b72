import Verif.Spec.Grammar

namespace Calliope
namespace Grammar

open Arith (Op isAdd isMul isPow)
open Where (CmpOp)

/-! ### Parsers without recursion -/

theorem inf_iff (s : Str) : isInf s = true ↔ Inf s := by simp [isInf, Inf]
theorem inf_false (s : Str) : isInf s = false ↔ ¬ Inf s := by
  rw [← inf_iff]; simp

theorem after_some {x : Lx} {ts r : List Tok} : after x ts = some r ↔ ∃ b, ts = (b, x) :: r := by
  cases ts with
  | nil => simp [after]
  | cons y ts =>
    obtain ⟨b, y⟩ := y
    simp only [after]
    split
    · rename_i h; subst h
      constructor
      · intro h; cases h; exact ⟨b, rfl⟩
      · rintro ⟨b', h⟩; cases h; rfl
    · rename_i h
      constructor
      · intro h; cases h
      · rintro ⟨b', h'⟩; cases h'; exact absurd rfl h

theorem after_cons (x : Lx) (b : Bool) (r : List Tok) : after x ((b, x) :: r) = some r := after_some.2 ⟨b, rfl⟩

theorem glued_some {x : Lx} {ts r : List Tok} : glued x ts = some r ↔ ts = (true, x) :: r := by
  cases ts with
  | nil => simp [glued]
  | cons y ts =>
    obtain ⟨b, y⟩ := y
    cases b
    · simp [glued]
    · simp only [glued, Bool.true_and, decide_eq_true_eq]
      split
      · rename_i h; subst h; simp
      · rename_i h; simp [h]

theorem glued_cons (x : Lx) (r : List Tok) : glued x ((true, x) :: r) = some r := glued_some.2 rfl

theorem pId_some {s : Str} {ts r : List Tok} : pId ts = some (s, r) ↔ ∃ b, ts = (b, .id s) :: r := by
  cases ts with
  | nil => simp [pId]
  | cons y ts =>
    obtain ⟨b, y⟩ := y
    cases y <;> simp [pId]

theorem pIdent_some {s : Str} {ts r : List Tok} :
    pIdent ts = some (s, r) ↔ ∃ b, ts = (b, .id s) :: r ∧ ¬ Inf s := by
  cases ts with
  | nil => simp [pIdent, pId]
  | cons y ts =>
    obtain ⟨b, y⟩ := y
    cases y with
    | id u =>
      simp only [pIdent, pId]
      by_cases h : isInf u = true
      · simp only [h, if_true, List.cons.injEq, Prod.mk.injEq, Lx.id.injEq]
        constructor
        · intro h; cases h
        · rintro ⟨_, ⟨⟨_, rfl⟩, _⟩, h2⟩; exact absurd ((inf_iff _).1 h) h2
      · simp only [h]
        constructor
        · intro h'; cases h'; exact ⟨b, rfl, fun h' => h ((inf_iff _).2 h')⟩
        · rintro ⟨_, h', h2⟩; cases h'; rfl
    | _ => simp [pIdent, pId]

theorem pText_some {g : Gram} {s : Str} {ts r : List Tok} :
    pText g ts = some (s, r) ↔ ∃ b, ts = (b, .id s) :: r ∧ ¬ Inf s ∧ g.known s = false := by
  simp only [pText]
  constructor
  · intro h
    split at h
    · rename_i s' r' he
      obtain ⟨b, rfl, hi⟩ := pIdent_some.1 he
      split at h
      · cases h
      · rename_i hk; cases h; exact ⟨b, rfl, hi, by simpa using hk⟩
    · cases h
  · rintro ⟨b, rfl, hi, hk⟩
    rw [pIdent_some.2 ⟨b, rfl, hi⟩]
    simp [hk]

theorem pUnsigned_sound {s : Str} {ts r : List Tok} (h : pUnsigned ts = some (s, r)) :
    ∃ c, ts = c ++ r ∧ Unsigned s c := by
  unfold pUnsigned at h
  split at h
  · cases h; exact ⟨_, rfl, .num _ _⟩
  · split at h
    · rename_i hi; cases h; exact ⟨[_], rfl, .inf _ ((inf_iff _).1 hi)⟩
    · cases h
  · split at h
    · rename_i hi; cases h; exact ⟨[_, _], rfl, .dotInf _ ((inf_iff _).1 hi)⟩
    · cases h
  · cases h

theorem pUnsigned_complete {s : Str} {c : List Tok} (h : Unsigned s c) (r : List Tok) :
    pUnsigned (c ++ r) = some (s, r) := by
  cases h with
  | num => rfl
  | inf b hi => simp [pUnsigned, (inf_iff _).2 hi]
  | dotInf b hi => simp [pUnsigned, (inf_iff _).2 hi]

theorem pSigned_sound {s : Str} {ts r : List Tok} (h : pSigned ts = some (s, r)) :
    ∃ c, ts = c ++ r ∧ Signed s c := by
  unfold pSigned at h
  split at h
  · cases h; exact ⟨[_, _], rfl, .plus _ _⟩
  · cases h; exact ⟨[_, _], rfl, .minus _ _⟩
  · obtain ⟨c, rfl, hc⟩ := pUnsigned_sound h
    exact ⟨c, rfl, .plain hc⟩

theorem pSigned_complete {s : Str} {c : List Tok} (h : Signed s c) (r : List Tok) :
    pSigned (c ++ r) = some (s, r) := by
  cases h with
  | plus => rfl
  | minus => rfl
  | plain h =>
    rw [← pUnsigned_complete h r]
    cases h <;> rfl

theorem pOp_some {o : Op} {ts r : List Tok} : pOp ts = some (o, r) ↔ ∃ b, ts = (b, .op o) :: r := by
  cases ts with
  | nil => simp [pOp]
  | cons y ts =>
    obtain ⟨b, y⟩ := y
    cases y <;> simp [pOp]

theorem pCmp_some {o : CmpOp} {ts r : List Tok} : pCmp ts = some (o, r) ↔ ∃ b, ts = (b, .cmp o) :: r := by
  cases ts with
  | nil => simp [pCmp]
  | cons y ts =>
    obtain ⟨b, y⟩ := y
    cases y <;> simp [pCmp]

theorem pName_some {n : Str} {ts r : List Tok} :
    pName ts = some (n, r) ↔ ∃ b, ts = (b, .id n) :: (true, .lpar) :: r ∧ ¬ Inf n := by
  simp only [pName]
  constructor
  · intro h
    split at h
    · cases h
    · rename_i s' r' he
      obtain ⟨b, rfl, hi⟩ := pIdent_some.1 he
      split at h
      · cases h
      · rename_i r'' hg; cases h; rw [glued_some] at hg; subst hg; exact ⟨b, rfl, hi⟩
  · rintro ⟨b, rfl, hi⟩
    rw [pIdent_some.2 ⟨b, rfl, hi⟩]
    simp [glued]

theorem pKey_some {n : Str} {ts r : List Tok} :
    pKey ts = some (n, r) ↔ ∃ b b', ts = (b, .id n) :: (b', .eq) :: r ∧ ¬ Inf n := by
  simp only [pKey]
  constructor
  · intro h
    split at h
    · cases h
    · rename_i s' r' he
      obtain ⟨b, rfl, hi⟩ := pIdent_some.1 he
      split at h
      · cases h
      · rename_i r'' hg; cases h; obtain ⟨b', rfl⟩ := after_some.1 hg; exact ⟨b, b', rfl, hi⟩
  · rintro ⟨b, b', rfl, hi⟩
    rw [pIdent_some.2 ⟨b, rfl, hi⟩]
    simp [after]

theorem pItem_sound {g : Gram} {c : Bool} {i : Item} {ts r : List Tok} (h : pItem g c ts = some (i, r)) :
    ∃ us, ts = us ++ r ∧ SItem g c i us := by
  simp only [pItem] at h
  split at h
  · rename_i s r' he
    cases h
    obtain ⟨us, rfl, hs⟩ := pSigned_sound he
    exact ⟨us, rfl, .num hs⟩
  · rename_i hn
    split at h
    · rename_i s r' he
      cases h
      obtain ⟨b, rfl, hi, hk⟩ := pText_some.1 he
      exact ⟨[_], rfl, .text hi hk⟩
    · rename_i ht
      split at h
      · rename_i s r' he
        obtain ⟨b, rfl⟩ := pId_some.1 he
        split at h
        · rename_i hc
          simp only [Bool.and_eq_true] at hc
          obtain ⟨rfl, hl⟩ := hc
          cases h
          have hi : ¬ Inf s := by
            intro hi
            have := (pSigned_complete (.plain (.inf b hi)) r)
            simp only [List.cons_append, List.nil_append] at this
            rw [hn] at this; cases this
          refine ⟨[_], rfl, .comp hi ?_ hl⟩
          cases hk : g.known s with
          | true => rfl
          | false => rw [pText_some.2 ⟨b, rfl, hi, hk⟩] at ht; cases ht
        · cases h
      · cases h

theorem pSigned_id_none {s : Str} (hi : ¬ Inf s) (b : Bool) (r : List Tok) : pSigned ((b, .id s) :: r) = none := by
  simp [pSigned, pUnsigned, (inf_false _).2 hi]

theorem pItem_complete {g : Gram} {c : Bool} {i : Item} {us : List Tok} (h : SItem g c i us) (r : List Tok) :
    pItem g c (us ++ r) = some (i, r) := by
  cases h with
  | num hs => simp [pItem, pSigned_complete hs r]
  | @text _ b s hi hk =>
    simp only [List.cons_append, List.nil_append, pItem]
    rw [pSigned_id_none hi, pText_some.2 ⟨b, rfl, hi, hk⟩]
  | @comp b s hi hk hl =>
    simp only [List.cons_append, List.nil_append, pItem]
    have : pText g ((b, .id s) :: r) = none := by
      simp [pText, pIdent_some.2 ⟨b, rfl, hi⟩, hk]
    rw [pSigned_id_none hi, this]
    simp [pId, hl]

theorem sItem_pos {g : Gram} {c : Bool} {i : Item} {us : List Tok} (h : SItem g c i us) : 1 ≤ us.length := by
  cases h with
  | num hs =>
    cases hs with
    | plain h => cases h <;> simp
    | _ => simp
  | _ => simp

theorem pItems_sound {g : Gram} {c : Bool} : ∀ (f : Nat) {is : List Item} {ts r : List Tok},
    pItems g c f ts = some (is, r) → ∃ us, ts = us ++ r ∧ SItems g c is us
  | 0, _, _, _, h => by simp [pItems] at h
  | f + 1, is, ts, r, h => by
    simp only [pItems] at h
    split at h
    · cases h
    · rename_i i r' he
      obtain ⟨us, rfl, hs⟩ := pItem_sound he
      split at h
      · cases h; exact ⟨us, rfl, .one hs⟩
      · rename_i r'' hc
        obtain ⟨b, rfl⟩ := after_some.1 hc
        split at h
        · rename_i is' r3 hr
          cases h
          obtain ⟨vs, rfl, hv⟩ := pItems_sound f hr
          exact ⟨us ++ (b, .comma) :: vs, by simp, .more hs hv⟩
        · cases h; exact ⟨us, rfl, .one hs⟩

/-- What follows is not the lexeme `x`. -/
def NotNext (x : Lx) (ts : List Tok) : Prop := ∀ b r, ts ≠ (b, x) :: r

theorem after_none {x : Lx} {ts : List Tok} (h : NotNext x ts) : after x ts = none := by
  cases ht : after x ts with
  | none => rfl
  | some r => obtain ⟨b, e⟩ := after_some.1 ht; exact absurd e (h b r)

theorem glued_none {x : Lx} {ts : List Tok} (h : NotNext x ts) : glued x ts = none := by
  cases ht : glued x ts with
  | none => rfl
  | some r => exact absurd (glued_some.1 ht) (h _ r)

theorem sItems_pos {g : Gram} {c : Bool} {is : List Item} {us : List Tok} (h : SItems g c is us) : 1 ≤ us.length := by
  induction h with
  | one h => exact sItem_pos h
  | more => simp only [List.length_append, List.length_cons]; omega

theorem pItems_complete {g : Gram} {c : Bool} {is : List Item} {us : List Tok} (h : SItems g c is us) :
    ∀ (r : List Tok) (f : Nat), NotNext .comma r → us.length ≤ f → pItems g c f (us ++ r) = some (is, r) := by
  induction h with
  | one hs =>
    intro r f hr hf
    have := sItem_pos hs
    cases f with
    | zero => omega
    | succ f => simp [pItems, pItem_complete hs r, after_none hr]
  | @more b i is ts us hs _ ih =>
    intro r f hr hf
    simp only [List.length_append, List.length_cons] at hf
    cases f with
    | zero => omega
    | succ f =>
      simp only [List.append_assoc, List.cons_append, pItems]
      rw [pItem_complete hs]
      simp only [after_cons]
      rw [ih r f hr (by omega)]

theorem pList_sound {g : Gram} {c : Bool} {is : List Item} {ts r : List Tok} (h : pList g c ts = some (is, r)) :
    ∃ us, ts = us ++ r ∧ SList g c is us := by
  simp only [pList] at h
  split at h
  · cases h
  · rename_i r1 he
    obtain ⟨b, rfl⟩ := after_some.1 he
    split at h
    · cases h
    · rename_i is' r2 hi
      obtain ⟨us, rfl, hs⟩ := pItems_sound _ hi
      split at h
      · rename_i r3 ha
        obtain ⟨b', rfl⟩ := after_some.1 ha
        cases h
        exact ⟨(b, .lsq) :: (us ++ [(b', .rsq)]), by simp, .list hs⟩
      · cases h

theorem pList_complete {g : Gram} {c : Bool} {is : List Item} {us : List Tok} (h : SList g c is us) (r : List Tok) :
    pList g c (us ++ r) = some (is, r) := by
  cases h with
  | @list b b' _ ts hs =>
    simp only [List.cons_append, List.append_assoc, List.nil_append, pList, after_cons]
    rw [pItems_complete hs ((b', .rsq) :: r) _ (by intro _ _ e; cases e) (by simp)]
    simp [after_cons]

theorem pSlicer_sound {g : Gram} {s : Slicer} {ts r : List Tok} (h : pSlicer g ts = some (s, r)) :
    ∃ us, ts = us ++ r ∧ SSlicer g s us := by
  simp only [pSlicer] at h
  split at h
  · rename_i r1 he
    obtain ⟨b, rfl⟩ := after_some.1 he
    split at h
    · rename_i hg
      split at h
      · rename_i s' r' hi
        obtain ⟨b', rfl, hn⟩ := pIdent_some.1 hi
        cases h
        exact ⟨[_, _], rfl, .ref hg hn⟩
      · cases h
    · cases h
  · split at h
    · rename_i i r' hi
      cases h
      obtain ⟨us, rfl, hs⟩ := pItem_sound hi
      exact ⟨us, rfl, .item hs⟩
    · split at h
      · rename_i l r' hi
        cases h
        obtain ⟨us, rfl, hs⟩ := pList_sound hi
        exact ⟨us, rfl, .list hs⟩
      · cases h

theorem pSlicer_complete {g : Gram} {s : Slicer} {us : List Tok} (h : SSlicer g s us) (r : List Tok) :
    pSlicer g (us ++ r) = some (s, r) := by
  cases h with
  | @ref b b' s hg hn =>
    simp only [List.cons_append, List.nil_append, pSlicer, after_cons, hg, if_true]
    rw [pIdent_some.2 ⟨b', rfl, hn⟩]
  | @item i _ hi =>
    have : after .dollar (us ++ r) = none := by
      cases hi with
      | num hs =>
        cases hs with
        | plain h => cases h <;> rfl
        | _ => rfl
      | _ => rfl
    simp only [pSlicer, this, pItem_complete hi r]
  | @list l _ hl =>
    have h1 : after .dollar (us ++ r) = none := by cases hl; rfl
    have h2 : pItem g false (us ++ r) = none := by
      cases hl; simp [pItem, pSigned, pUnsigned, pText, pIdent, pId]
    simp only [pSlicer, h1, h2, pList_complete hl r]

theorem pSlice_sound {g : Gram} {d : Str} {s : Slicer} {ts r : List Tok} (h : pSlice g ts = some ((d, s), r)) :
    ∃ b b' us, ts = (b, .id d) :: (b', .eq) :: (us ++ r) ∧ ¬ Inf d ∧ SSlicer g s us := by
  simp only [pSlice] at h
  split at h
  · cases h
  · rename_i d' r1 hi
    obtain ⟨b, rfl, hn⟩ := pIdent_some.1 hi
    split at h
    · cases h
    · rename_i r2 he
      obtain ⟨b', rfl⟩ := after_some.1 he
      split at h
      · cases h
      · rename_i s' r3 hs
        obtain ⟨us, rfl, hu⟩ := pSlicer_sound hs
        cases h
        exact ⟨b, b', us, rfl, hn, hu⟩

theorem pSlice_complete {g : Gram} {d : Str} {s : Slicer} {us : List Tok} (hn : ¬ Inf d) (h : SSlicer g s us)
    (b b' : Bool) (r : List Tok) : pSlice g ((b, .id d) :: (b', .eq) :: (us ++ r)) = some ((d, s), r) := by
  simp only [pSlice]
  rw [pIdent_some.2 ⟨b, rfl, hn⟩]
  simp only [after_cons, pSlicer_complete h r]

theorem pSlices_sound {g : Gram} : ∀ (f : Nat) {l : List (Str × Slicer)} {ts r : List Tok},
    pSlices g f ts = some (l, r) → ∃ us, ts = us ++ r ∧ SSlices g l us
  | 0, _, _, _, h => by simp [pSlices] at h
  | f + 1, l, ts, r, h => by
    simp only [pSlices] at h
    split at h
    · cases h
    · rename_i s r1 he
      obtain ⟨d, s⟩ := s
      obtain ⟨b, b', us, rfl, hn, hu⟩ := pSlice_sound he
      split at h
      · cases h; exact ⟨_ :: _ :: us, rfl, .one hn hu⟩
      · rename_i r2 hc
        obtain ⟨b'', rfl⟩ := after_some.1 hc
        split at h
        · rename_i l' r3 hr
          obtain ⟨vs, rfl, hv⟩ := pSlices_sound f hr
          cases h
          exact ⟨(b, .id d) :: (b', .eq) :: (us ++ (b'', .comma) :: vs), by simp, .more hn hu hv⟩
        · cases h; exact ⟨_ :: _ :: us, rfl, .one hn hu⟩

theorem pSlices_complete {g : Gram} {l : List (Str × Slicer)} {us : List Tok} (h : SSlices g l us) :
    ∀ (r : List Tok) (f : Nat), NotNext .comma r → us.length ≤ f → pSlices g f (us ++ r) = some (l, r) := by
  induction h with
  | one hn hs =>
    intro r f hr hf
    simp only [List.length_cons] at hf
    cases f with
    | zero => omega
    | succ f =>
      simp only [List.cons_append, pSlices]
      rw [pSlice_complete hn hs]
      simp only [after_none hr]
  | @more b b' b'' d s l ts us hn hs _ ih =>
    intro r f hr hf
    simp only [List.length_cons, List.length_append] at hf
    cases f with
    | zero => omega
    | succ f =>
      simp only [List.cons_append, List.append_assoc, pSlices]
      rw [pSlice_complete hn hs]
      simp only [after_cons]
      rw [ih r f hr (by omega)]

theorem pSub_sound {g : Gram} {t : Ast} {ts r : List Tok} (h : pSub g ts = some (t, r)) :
    ∃ us, ts = us ++ r ∧ SSimple g t us := by
  unfold pSub at h
  split at h
  · split at h
    · rename_i hc
      simp only [Bool.and_eq_true, Bool.not_eq_true', inf_false] at hc
      cases h
      exact ⟨[_, _], rfl, .sub hc.1 hc.2⟩
    · cases h
  · cases h

theorem pSliced_sound {g : Gram} {t : Ast} {ts r : List Tok} (h : pSliced g ts = some (t, r)) :
    ∃ us, ts = us ++ r ∧ SSimple g t us := by
  simp only [pSliced] at h
  split at h
  · cases h
  · rename_i s r1 hi
    obtain ⟨b, rfl⟩ := pId_some.1 hi
    split at h
    · rename_i hc
      simp only [Bool.and_eq_true] at hc
      split at h
      · cases h
      · rename_i r2 hg
        rw [glued_some] at hg
        subst hg
        split at h
        · cases h
        · rename_i l r3 hl
          obtain ⟨us, rfl, hu⟩ := pSlices_sound _ hl
          split at h
          · rename_i q hq
            obtain ⟨b', rfl⟩ := after_some.1 hq
            cases h
            exact ⟨(b, .id s) :: (true, .lsq) :: (us ++ [(b', .rsq)]), by simp, .sliced hc.1 hc.2 hu⟩
          · cases h
    · cases h

theorem pNumber_sound {g : Gram} {t : Ast} {ts r : List Tok} (h : pNumber g ts = some (t, r)) :
    ∃ us, ts = us ++ r ∧ SSimple g t us := by
  unfold pNumber at h
  split at h
  · rename_i s r' he
    cases h
    by_cases hg : g.ops = true
    · simp only [hg, if_true] at he
      obtain ⟨us, rfl, hu⟩ := pUnsigned_sound he
      exact ⟨us, rfl, .number (by simpa [hg] using hu)⟩
    · simp only [hg] at he
      obtain ⟨us, rfl, hu⟩ := pSigned_sound he
      exact ⟨us, rfl, .number (by simpa [hg] using hu)⟩
  · cases h

theorem pNumber_inf {g : Gram} {s : Str} (hs : Inf s) (b : Bool) (r : List Tok) :
    pNumber g ((b, .id s) :: r) = some (.num ['i', 'n', 'f'], r) := by
  have h1 := pUnsigned_complete (.inf b hs) r
  have h2 := pSigned_complete (.plain (.inf b hs)) r
  simp only [List.cons_append, List.nil_append] at h1 h2
  simp only [pNumber, h1, h2]
  cases g.ops <;> rfl

theorem pNumber_id {g : Gram} {s : Str} (hs : ¬ Inf s) (b : Bool) (r : List Tok) :
    pNumber g ((b, .id s) :: r) = none := by
  have h1 : pUnsigned ((b, .id s) :: r) = none := by simp [pUnsigned, (inf_false _).2 hs]
  simp only [pNumber, h1, pSigned_id_none hs]
  cases g.ops <;> rfl

theorem pSimple_sound {g : Gram} {t : Ast} {ts r : List Tok} (h : pSimple g ts = some (t, r)) :
    ∃ us, ts = us ++ r ∧ SSimple g t us := by
  simp only [pSimple] at h
  split at h
  · rename_i x hx; cases h; exact pSub_sound hx
  · split at h
    · rename_i x hx; cases h; exact pSliced_sound hx
    · split at h
      · rename_i x hx; cases h; exact pNumber_sound hx
      · rename_i hnum
        split at h
        · rename_i x hx
          cases h
          unfold pComp at hx
          split at hx
          · rename_i s r' hi
            obtain ⟨b, rfl⟩ := pId_some.1 hi
            split at hx
            · rename_i hc
              cases hx
              refine ⟨[_], rfl, .comp hc ?_⟩
              intro hs
              rw [pNumber_inf hs] at hnum; cases hnum
            · cases hx
          · cases hx
        · rename_i hcomp
          unfold pConfig at h
          split at h
          · cases h
          · rename_i s r1 hi
            obtain ⟨b, rfl⟩ := pId_some.1 hi
            split at h
            · rename_i hc
              simp only [Bool.and_eq_true, decide_eq_true_eq] at hc
              obtain ⟨hc, rfl⟩ := hc
              split at h
              · cases h
              · rename_i r2 hg
                rw [glued_some] at hg
                subst hg
                split at h
                · rename_i o q hq
                  obtain ⟨b', rfl, hn⟩ := pIdent_some.1 hq
                  cases h
                  refine ⟨[_, _, _], rfl, .config hc ?_ hn⟩
                  cases hk : g.comp ['c', 'o', 'n', 'f', 'i', 'g'] with
                  | false => rfl
                  | true => simp [pComp, pId, hk] at hcomp
                · cases h
            · cases h

/-- What may follow an operand: not what could belong to it. -/
structure Free (r : List Tok) : Prop where
  lpar : NotNext .lpar r
  lsq : NotNext .lsq r
  dot : NotNext .dot r

theorem pSliced_none {g : Gram} {s : Str} {b : Bool} {r : List Tok} (h : NotNext .lsq r) :
    pSliced g ((b, .id s) :: r) = none := by
  simp only [pSliced, pId, glued_none h]
  split <;> rfl

theorem pSimple_complete {g : Gram} {t : Ast} {us : List Tok} (h : SSimple g t us) {r : List Tok} (hr : Free r) :
    pSimple g (us ++ r) = some (t, r) := by
  cases h with
  | @number s _ hs =>
    have h3 : pNumber g (us ++ r) = some (.num s, r) := by
      simp only [pNumber]
      by_cases hg : g.ops = true
      · simp only [hg, if_true] at hs ⊢
        rw [pUnsigned_complete hs]
      · simp only [hg] at hs ⊢
        rw [pSigned_complete hs]; rfl
    have hS : Signed s us := by
      by_cases hg : g.ops = true
      · simp only [hg, if_true] at hs; exact .plain hs
      · simp only [hg] at hs; exact hs
    have h1 : pSub g (us ++ r) = none := by
      cases hS with
      | plain h => cases h <;> rfl
      | _ => rfl
    have h2 : pSliced g (us ++ r) = none := by
      cases hS with
      | plain h =>
        cases h with
        | num => rfl
        | inf => exact pSliced_none hr.lsq
        | dotInf => rfl
      | _ => rfl
    simp only [pSimple, h1, h2, h3]
  | @comp b s hc hi =>
    simp only [List.cons_append, List.nil_append, pSimple, pSliced_none hr.lsq, pNumber_id hi]
    simp [pSub, pComp, pId, hc]
  | @sub b s hg hi =>
    simp [pSimple, pSub, hg, (inf_false _).2 hi]
  | @sliced b b' s l ts hg hc hl =>
    simp only [List.cons_append, List.append_assoc, List.nil_append, pSimple, pSub, pSliced, pId, hg, hc,
      Bool.and_self, if_true, glued_cons]
    rw [pSlices_complete hl _ _ (by intro _ _ e; cases e) (by simp)]
    simp only [after_cons]
  | @config b b' s hg hc hi =>
    have hn : ¬ Inf ['c', 'o', 'n', 'f', 'i', 'g'] := by unfold Inf; decide
    simp only [List.cons_append, List.nil_append, pSimple, pNumber_id hn]
    rw [pSliced_none (by intro _ _ e; cases e)]
    simp only [pSub, pComp, pId, hc, pConfig, hg]
    simp [glued_cons, pIdent_some.2 ⟨b', rfl, hi⟩]

end Grammar
end Calliope
