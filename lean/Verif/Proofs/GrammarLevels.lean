import Verif.Proofs.Grammar

namespace Calliope
namespace Grammar

open Arith (Op isAdd isMul isPow)
open Where (CmpOp)

/-- Components are no texts. -/
def Gram.Ok (g : Gram) : Prop := ∀ s, g.comp s = true → g.known s = true

theorem isAdd_iff {o : Op} : isAdd o = true ↔ o = .plus ∨ o = .minus := by cases o <;> simp [isAdd]

theorem captured_append {g : Gram} {us r : List Tok} (h1 : pText g (us ++ r) = none) (h2 : pSigned (us ++ r) = none) :
    ¬ Captured g us := by
  rintro (⟨b, s, vs, rfl, hi, hk⟩ | ⟨s, vs, ws, hs, rfl⟩)
  · rw [List.cons_append, pText_some.2 ⟨b, rfl, hi, hk⟩] at h1; cases h1
  · rw [List.append_assoc, pSigned_complete hs] at h2; cases h2

theorem sound_all (g : Gram) (hg : g.Ok) : ∀ f : Nat,
    (∀ ls ts t r, pLevel g f ls ts = some (t, r) → ∃ c, ts = c ++ r ∧ Spells g ls t c) ∧
    (∀ l ls ts t r, pRest g f l ls ts = some (t, r) → ∃ c, ts = c ++ r ∧ SpellsRest g l ls t c) ∧
    (∀ ts t r, pOperand g f ts = some (t, r) → ∃ c, ts = c ++ r ∧ Spells g [] t c) ∧
    (∀ ts t r, pCall g f ts = some (t, r) → g.nested = true → ∃ c, ts = c ++ r ∧ Spells g [] t c) ∧
    (∀ ts as ks r, pFunArgs g f ts = some ((as, ks), r) → ∃ c, ts = c ++ r ∧ SFun g as ks c) ∧
    (∀ ts a r, pAlt g f ts = some (a, r) → ∃ c, ts = c ++ r ∧ SArg g a c) ∧
    (∀ ts a r, pArg g f ts = some (a, r) → ∃ c, ts = c ++ r ∧ SArg g a c) ∧
    (∀ ts as r, pArgs g f ts = some (as, r) → ∃ c, ts = c ++ r ∧ SArgs g as c) ∧
    (∀ ts ks r, pKws g f ts = some (ks, r) → ∃ c, ts = c ++ r ∧ SKws g ks c) := by
  intro f
  induction f with
  | zero =>
    refine ⟨?_, ?_, ?_, ?_, ?_, ?_, ?_, ?_, ?_⟩ <;> intros <;>
      simp_all [pLevel, pRest, pOperand, pCall, pFunArgs, pAlt, pArg, pArgs, pKws]
  | succ f ih =>
    obtain ⟨ihL, ihR, ihO, ihC, ihF, ihA, ihG, ihGs, ihK⟩ := ih
    refine ⟨?_, ?_, ?_, ?_, ?_, ?_, ?_, ?_, ?_⟩
    · intro ls ts t r h
      cases ls with
      | nil =>
        simp only [pLevel] at h
        split at h
        · rename_i o r1 ho
          split at ho
          · rename_i hops
            obtain ⟨b, rfl⟩ := pOp_some.1 ho
            split at h
            · rename_i hadd
              split at h
              · rename_i t' r' he
                cases h
                obtain ⟨c, rfl, hc⟩ := ihL _ _ _ _ he
                exact ⟨(b, .op o) :: c, rfl, .sign hops (isAdd_iff.1 hadd) hc⟩
              · cases h
            · cases h
          · cases ho
        · split at h
          · rename_i x hx; cases h; exact ihO _ _ _ hx
          · split at h
            · cases h
            · rename_i r1 hl
              split at hl
              · rename_i hops
                obtain ⟨b, rfl⟩ := after_some.1 hl
                split at h
                · cases h
                · rename_i t' r' he
                  obtain ⟨c, rfl, hc⟩ := ihL _ _ _ _ he
                  split at h
                  · rename_i r2 hr
                    obtain ⟨b', rfl⟩ := after_some.1 hr
                    cases h
                    exact ⟨(b, .lpar) :: (c ++ [(b', .rpar)]), by simp, .paren hops hc⟩
                  · cases h
              · cases hl
      | cons l ls =>
        simp only [pLevel] at h
        split at h
        · cases h
        · rename_i t' r' he
          obtain ⟨c, rfl, hc⟩ := ihL _ _ _ _ he
          split at h
          · cases h; exact ⟨c, rfl, .lift hc⟩
          · rename_i rs r'' hr
            cases h
            obtain ⟨c', rfl, hc'⟩ := ihR _ _ _ _ _ hr
            exact ⟨c ++ c', by simp, .chain hc hc'⟩
    · intro l ls ts t r h
      simp only [pRest] at h
      split at h
      · cases h
      · rename_i o r1 ho
        obtain ⟨b, rfl⟩ := pOp_some.1 ho
        split at h
        · rename_i hlo
          split at h
          · cases h
          · rename_i t' r' he
            obtain ⟨c, rfl, hc⟩ := ihL _ _ _ _ he
            split at h
            · cases h; exact ⟨(b, .op o) :: c, rfl, .one hlo hc⟩
            · rename_i rs r'' hr
              cases h
              obtain ⟨c', rfl, hc'⟩ := ihR _ _ _ _ _ hr
              exact ⟨(b, .op o) :: (c ++ c'), by simp, .more hlo hc hc'⟩
        · cases h
    · intro ts t r h
      simp only [pOperand] at h
      split at h
      · rename_i x hx
        cases h
        split at hx
        · rename_i hn; exact ihC _ _ _ hx hn
        · cases hx
      · obtain ⟨c, rfl, hc⟩ := pSimple_sound h
        exact ⟨c, rfl, .simple hc⟩
    · intro ts t r h hn
      simp only [pCall] at h
      split at h
      · cases h
      · rename_i n r1 hname
        obtain ⟨b, rfl, hi⟩ := pName_some.1 hname
        split at h
        · cases h
        · rename_i as ks r' he
          obtain ⟨c, rfl, hc⟩ := ihF _ _ _ _ he
          split at h
          · rename_i r2 hr
            obtain ⟨b', rfl⟩ := after_some.1 hr
            cases h
            exact ⟨(b, .id n) :: (true, .lpar) :: (c ++ [(b', .rpar)]), by simp, .call hn hi hc⟩
          · cases h
    · intro ts as ks r h
      simp only [pFunArgs] at h
      split at h
      · rename_i as' r1 ha
        obtain ⟨c, rfl, hc⟩ := ihGs _ _ _ ha
        split at h
        · rename_i r2 hcom
          obtain ⟨b, rfl⟩ := after_some.1 hcom
          split at h
          · rename_i ks' r3 hk
            cases h
            obtain ⟨c', rfl, hc'⟩ := ihK _ _ _ hk
            exact ⟨c ++ ([(b, .comma)] ++ c'), by simp, .both hc (.inr ⟨b, rfl⟩) hc'⟩
          · cases h; exact ⟨c, rfl, .args hc⟩
        · split at h
          · rename_i ks' r3 hk
            cases h
            obtain ⟨c', rfl, hc'⟩ := ihK _ _ _ hk
            exact ⟨c ++ ([] ++ c'), by simp, .both hc (.inl rfl) hc'⟩
          · cases h; exact ⟨c, rfl, .args hc⟩
      · split at h
        · rename_i ks' r3 hk
          cases h
          obtain ⟨c', rfl, hc'⟩ := ihK _ _ _ hk
          exact ⟨c', rfl, .kws hc'⟩
        · cases h; exact ⟨[], rfl, .none⟩
    · intro ts a r h
      simp only [pAlt] at h
      split at h
      · rename_i htf
        split at h
        · rename_i s r1 ht
          cases h
          obtain ⟨b, rfl, hi, hk⟩ := pText_some.1 ht
          exact ⟨[_], rfl, .text hi hk (by simp [htf])⟩
        · rename_i ht
          split at h
          · rename_i s r1 hs
            cases h
            obtain ⟨c, rfl, hc⟩ := pSigned_sound hs
            exact ⟨c, rfl, .num htf hc⟩
          · rename_i hs
            split at h
            · rename_i l r1 hl
              cases h
              obtain ⟨c, rfl, hc⟩ := pList_sound hl
              exact ⟨c, rfl, .list hc⟩
            · split at h
              · rename_i t r1 he
                cases h
                obtain ⟨c, rfl, hc⟩ := ihL _ _ _ _ he
                exact ⟨c, rfl, .ex (fun _ => captured_append ht hs) hc⟩
              · cases h
      · rename_i htf
        split at h
        · rename_i t r1 he
          cases h
          obtain ⟨c, rfl, hc⟩ := ihL _ _ _ _ he
          exact ⟨c, rfl, .ex (fun h => absurd h htf) hc⟩
        · split at h
          · rename_i l r1 hl
            cases h
            obtain ⟨c, rfl, hc⟩ := pList_sound hl
            exact ⟨c, rfl, .list hc⟩
          · split at h
            · rename_i s r1 ht
              cases h
              obtain ⟨b, rfl, hi, hk⟩ := pText_some.1 ht
              refine ⟨[_], rfl, .text hi hk (fun _ => ?_)⟩
              cases hc : g.comp s with
              | false => rfl
              | true => rw [hg s hc] at hk; cases hk
            · cases h
    · intro ts a r h
      simp only [pArg] at h
      split at h
      · rename_i a' r1 ha
        split at h
        · cases h
        · cases h; exact ihA _ _ _ ha
      · cases h
    · intro ts as r h
      simp only [pArgs] at h
      split at h
      · cases h
      · rename_i a r1 ha
        obtain ⟨c, rfl, hc⟩ := ihG _ _ _ ha
        split at h
        · cases h; exact ⟨c, rfl, .last hc⟩
        · rename_i r2 hcom
          obtain ⟨b, rfl⟩ := after_some.1 hcom
          split at h
          · rename_i as' r3 hk
            cases h
            obtain ⟨c', rfl, hc'⟩ := ihGs _ _ _ hk
            exact ⟨c ++ (b, .comma) :: c', by simp, .next hc hc'⟩
          · cases h; exact ⟨c, rfl, .last hc⟩
    · intro ts ks r h
      simp only [pKws] at h
      split at h
      · cases h
      · rename_i k r1 hk
        obtain ⟨b, b', rfl, hi⟩ := pKey_some.1 hk
        split at h
        · cases h
        · rename_i v r2 ha
          obtain ⟨c, rfl, hc⟩ := ihG _ _ _ ha
          split at h
          · rename_i ks' r3 hk'
            cases h
            obtain ⟨c', rfl, hc'⟩ := ihK _ _ _ hk'
            exact ⟨(b, .id k) :: (b', .eq) :: (c ++ ([] ++ c')), by simp, .nextKey hi hc (.inl rfl) hc'⟩
          · split at h
            · cases h; exact ⟨(b, .id k) :: (b', .eq) :: c, rfl, .lastKey hi hc⟩
            · rename_i r3 hcom
              obtain ⟨b'', rfl⟩ := after_some.1 hcom
              split at h
              · rename_i ks' r4 hk'
                cases h
                obtain ⟨c', rfl, hc'⟩ := ihK _ _ _ hk'
                exact ⟨(b, .id k) :: (b', .eq) :: (c ++ ([(b'', .comma)] ++ c')), by simp,
                  .nextKey hi hc (.inr ⟨b'', rfl⟩) hc'⟩
              · cases h; exact ⟨(b, .id k) :: (b', .eq) :: c, rfl, .lastKey hi hc⟩

/-! ### Every way to write an expression is read -/

/-- What may follow a match of the levels `ls`. -/
def Follow (ls : List (Op → Bool)) (rest : List Tok) : Prop :=
  Free rest ∧ ∀ b o ts, rest = (b, .op o) :: ts → ∀ l ∈ ls, l o = false

/-- What may follow an argument. -/
inductive FollowArg : List Tok → Prop
  | rpar (b : Bool) (r : List Tok) : FollowArg ((b, .rpar) :: r)
  | comma (b : Bool) (r : List Tok) : FollowArg ((b, .comma) :: r)
  | key (b b' : Bool) (k : Str) (r : List Tok) : FollowArg ((b, .id k) :: (b', .eq) :: r)

theorem free_cons {b : Bool} {x : Lx} {r : List Tok} (h1 : x ≠ .lpar) (h2 : x ≠ .lsq) (h3 : x ≠ .dot) :
    Free ((b, x) :: r) := by
  constructor <;> intro _ _ e <;> cases e <;> contradiction

theorem FollowArg.follow {rest : List Tok} (h : FollowArg rest) (ls : List (Op → Bool)) : Follow ls rest := by
  cases h <;> exact ⟨free_cons (by simp) (by simp) (by simp), fun _ _ _ e => by cases e⟩

theorem FollowArg.equals {rest : List Tok} (h : FollowArg rest) : equalsNext rest = false := by cases h <;> rfl

theorem Follow.tail {l : Op → Bool} {ls : List (Op → Bool)} {rest : List Tok} (h : Follow (l :: ls) rest) :
    Follow ls rest := ⟨h.1, fun b o ts e c hc => h.2 b o ts e c (List.mem_cons_of_mem _ hc)⟩

theorem pRest_stop (g : Gram) {l : Op → Bool} {ls : List (Op → Bool)} {rest : List Tok}
    (h : Follow (l :: ls) rest) (f : Nat) : pRest g f l ls rest = none := by
  cases f with
  | zero => simp [pRest]
  | succ f =>
    simp only [pRest]
    split
    · rfl
    · rename_i o r ho
      obtain ⟨b, rfl⟩ := pOp_some.1 ho
      simp [h.2 b o r rfl l (List.mem_cons_self ..)]

theorem rest_starts {g : Gram} {l : Op → Bool} {ls : List (Op → Bool)} {r : ARest} {rs : List Tok}
    (h : SpellsRest g l ls r rs) : ∃ b o ts, rs = (b, .op o) :: ts ∧ l o = true := by
  cases h with
  | one ho _ => exact ⟨_, _, _, rfl, ho⟩
  | more ho _ _ => exact ⟨_, _, _, rfl, ho⟩

theorem follow_of_rest {g : Gram} {l : Op → Bool} {ls : List (Op → Bool)} {r : ARest} {rs rest : List Tok}
    (hdis : ∀ c ∈ ls, ∀ o, l o = true → c o = false) (h : SpellsRest g l ls r rs) : Follow ls (rs ++ rest) := by
  obtain ⟨b, o, ts, rfl, ho⟩ := rest_starts h
  refine ⟨free_cons (by simp) (by simp) (by simp), ?_⟩
  intro b' o' ts' e c hc
  simp only [List.cons_append, List.cons.injEq, Prod.mk.injEq, Lx.op.injEq] at e
  obtain ⟨⟨_, rfl⟩, _⟩ := e
  exact hdis c hc o ho

theorem bins_disjoint (g : Gram) : g.bins.Pairwise (fun b c => ∀ o, b o = true → c o = false) := by
  unfold Gram.bins
  split
  · simp only [List.pairwise_cons, List.mem_cons, List.not_mem_nil, or_false]
    refine ⟨?_, ?_, ?_, .nil⟩
    · rintro c (rfl | rfl) o h <;> cases o <;> simp_all [isAdd, isMul, isPow]
    · rintro c rfl o h; cases o <;> simp_all [isMul, isPow]
    · simp
  · exact .nil

theorem dis_of_suffix {g : Gram} {l : Op → Bool} {ls : List (Op → Bool)} (hs : (l :: ls) <:+ g.bins) :
    ∀ c ∈ ls, ∀ o, l o = true → c o = false :=
  (List.pairwise_cons.1 ((bins_disjoint g).sublist hs.sublist)).1

theorem suffix_tail {l : Op → Bool} {ls m : List (Op → Bool)} (hs : (l :: ls) <:+ m) : ls <:+ m :=
  (List.suffix_cons l ls).trans hs

theorem bins_length (g : Gram) : g.bins.length ≤ 3 := by unfold Gram.bins; split <;> simp

theorem sSimple_pos {g : Gram} {t : Ast} {ts : List Tok} (h : SSimple g t ts) : 1 ≤ ts.length := by
  cases h with
  | number hs =>
    have : ∀ {s us}, Signed s us → 1 ≤ us.length := by
      intro s us h
      cases h with
      | plain h => cases h <;> simp
      | _ => simp
    by_cases hg : g.ops = true
    · simp only [hg, if_true] at hs; exact this (.plain hs)
    · simp only [hg] at hs; exact this hs
  | _ => simp

theorem pName_simple {g : Gram} {t : Ast} {us : List Tok} (h : SSimple g t us) {r : List Tok} (hr : Free r) :
    pName (us ++ r) = none := by
  have idCase : ∀ (b : Bool) (s : Str) (q : List Tok), NotNext .lpar q → pName ((b, .id s) :: q) = none := by
    intro b s q hq
    cases hn : pName ((b, .id s) :: q) with
    | none => rfl
    | some x =>
      obtain ⟨n, r'⟩ := x
      obtain ⟨b', e, _⟩ := pName_some.1 hn
      simp only [List.cons.injEq] at e
      exact absurd e.2 (hq _ _)
  cases h with
  | number hs =>
    have : ∀ {s us}, Signed s us → pName (us ++ r) = none := by
      intro s us h
      cases h with
      | plain h =>
        cases h with
        | num => rfl
        | inf => exact idCase _ _ _ hr.lpar
        | dotInf => rfl
      | _ => rfl
    by_cases hg : g.ops = true
    · simp only [hg, if_true] at hs; exact this (.plain hs)
    · simp only [hg] at hs; exact this hs
  | comp => exact idCase _ _ _ hr.lpar
  | sub => rfl
  | sliced => exact idCase _ _ _ (fun _ _ e => by cases e)
  | config => exact idCase _ _ _ (fun _ _ e => by cases e)

theorem pCall_none {g : Gram} {ts : List Tok} (h : pName ts = none) (f : Nat) : pCall g f ts = none := by
  cases f with
  | zero => simp [pCall]
  | succ f => simp [pCall, h]

theorem pOp_simple {g : Gram} {t : Ast} {us : List Tok} (h : SSimple g t us) (r : List Tok) :
    (if g.ops then pOp (us ++ r) else none) = none := by
  by_cases hg : g.ops = true
  · simp only [hg, if_true]
    cases h with
    | number hs => simp only [hg, if_true] at hs; cases hs <;> rfl
    | _ => rfl
  · simp [hg]

/-- An identifier that is no operand. -/
theorem pLevel_text {g : Gram} {s : Str} (hi : ¬ Inf s) (hc : g.comp s = false) {rest : List Tok} (hr : Free rest)
    (b : Bool) : ∀ (f : Nat) (ls : List (Op → Bool)), pLevel g f ls ((b, .id s) :: rest) = none
  | 0, _ => by simp [pLevel]
  | f + 1, l :: ls => by simp [pLevel, pLevel_text hi hc hr b f ls]
  | f + 1, [] => by
    have hcall : ∀ f, pCall g f ((b, .id s) :: rest) = none := by
      intro f
      apply pCall_none
      cases hn : pName ((b, .id s) :: rest) with
      | none => rfl
      | some x =>
        obtain ⟨n, r'⟩ := x
        obtain ⟨b', e, _⟩ := pName_some.1 hn
        simp only [List.cons.injEq] at e
        exact absurd e.2 (hr.lpar _ _)
    have hsimple : pSimple g ((b, .id s) :: rest) = none := by
      simp only [pSimple, pSliced_none hr.lsq, pNumber_id hi]
      simp [pSub, pComp, pId, hc, pConfig, glued_none hr.dot]
    have hop : pOperand g f ((b, .id s) :: rest) = none := by
      cases f with
      | zero => simp [pOperand]
      | succ f => simp [pOperand, hcall, hsimple]
    simp only [pLevel, hop]
    cases g.ops <;> simp [pOp, after]

theorem pLevel_bad {g : Gram} {x : Lx} (hx : x = .lsq ∨ x = .rpar) (b : Bool) (rest : List Tok) :
    ∀ (f : Nat) (ls : List (Op → Bool)), pLevel g f ls ((b, x) :: rest) = none
  | 0, _ => by simp [pLevel]
  | f + 1, l :: ls => by simp [pLevel, pLevel_bad hx b rest f ls]
  | f + 1, [] => by
    have hsimple : pSimple g ((b, x) :: rest) = none := by
      rcases hx with rfl | rfl <;>
      · simp only [pSimple, pSub, pSliced, pId, pNumber, pSigned, pUnsigned, pComp, pConfig]
        cases g.ops <;> rfl
    have hname : pName ((b, x) :: rest) = none := by rcases hx with rfl | rfl <;> rfl
    have hop : pOperand g f ((b, x) :: rest) = none := by
      cases f with
      | zero => simp [pOperand]
      | succ f => simp [pOperand, pCall_none hname, hsimple]
    simp only [pLevel, hop]
    rcases hx with rfl | rfl <;> cases g.ops <;> simp [pOp, after]

theorem pArgs_rpar {g : Gram} (b : Bool) (rest : List Tok) (f : Nat) : pArgs g f ((b, .rpar) :: rest) = none := by
  have h : ∀ f, pAlt g f ((b, .rpar) :: rest) = none := by
    intro f
    cases f with
    | zero => simp [pAlt]
    | succ f =>
      have h1 : pText g ((b, .rpar) :: rest) = none := rfl
      have h2 : pSigned ((b, .rpar) :: rest) = none := rfl
      have h3 : pList g true ((b, .rpar) :: rest) = none := by simp [pList, after]
      simp only [pAlt, h1, h2, h3, pLevel_bad (.inr rfl) b rest]
      simp
  have h' : ∀ f, pArg g f ((b, .rpar) :: rest) = none := by
    intro f
    cases f with
    | zero => simp [pArg]
    | succ f => simp [pArg, h]
  cases f with
  | zero => simp [pArgs]
  | succ f => simp [pArgs, h']

/-- An identifier with `=` after it. -/
theorem pLevel_key {g : Gram} {k : Str} (hi : ¬ Inf k) (b b' : Bool) (r : List Tok) :
    ∀ (f : Nat) (ls : List (Op → Bool)), pLevel g f ls ((b, .id k) :: (b', .eq) :: r) = none ∨
      pLevel g f ls ((b, .id k) :: (b', .eq) :: r) = some (.comp k, (b', .eq) :: r)
  | 0, _ => by simp [pLevel]
  | f + 1, l :: ls => by
    rcases pLevel_key (g := g) hi b b' r f ls with h | h
    · exact .inl (by simp [pLevel, h])
    · refine .inr ?_
      have : pRest g f l ls ((b', .eq) :: r) = none := by
        cases f with
        | zero => simp [pRest]
        | succ f => simp [pRest, pOp]
      simp [pLevel, h, this]
  | f + 1, [] => by
    have hfree : Free ((b', .eq) :: r) := free_cons (by simp) (by simp) (by simp)
    cases hc : g.comp k with
    | false => exact .inl (pLevel_text hi hc hfree b _ _)
    | true =>
      have hs := pSimple_complete (.comp (b := b) hc hi) hfree
      have hn := pName_simple (.comp (b := b) hc hi) hfree
      have ho := pOp_simple (.comp (b := b) hc hi) ((b', .eq) :: r)
      simp only [List.cons_append, List.nil_append] at hs hn ho
      cases f with
      | zero => left; simp only [pLevel, ho, pOperand]; cases g.ops <;> simp [after]
      | succ f => right; simp [pLevel, ho, pOperand, pCall_none hn, hs]

theorem pArg_key {g : Gram} {k : Str} (hi : ¬ Inf k) (b b' : Bool) (r : List Tok) (f : Nat) :
    pArg g f ((b, .id k) :: (b', .eq) :: r) = none := by
  cases f with
  | zero => simp [pArg]
  | succ f =>
    have key : ∀ a q, pAlt g f ((b, .id k) :: (b', .eq) :: r) = some (a, q) → q = (b', .eq) :: r := by
      intro a q h
      cases f with
      | zero => simp [pAlt] at h
      | succ f =>
        have hsig := pSigned_id_none hi b ((b', .eq) :: r)
        have htext : ∀ s q, pText g ((b, .id k) :: (b', .eq) :: r) = some (s, q) → q = (b', .eq) :: r := by
          intro s q h
          obtain ⟨_, e, _⟩ := pText_some.1 h
          cases e; rfl
        have hlev : ∀ t q, pLevel g f g.bins ((b, .id k) :: (b', .eq) :: r) = some (t, q) → q = (b', .eq) :: r := by
          intro t q h
          rcases pLevel_key hi b b' r f g.bins with h' | h'
          · rw [h] at h'; cases h'
          · rw [h] at h'; cases h'; rfl
        have hlist : pList g true ((b, .id k) :: (b', .eq) :: r) = none := by simp [pList, after]
        simp only [pAlt, hsig, hlist] at h
        split at h
        · split at h
          · rename_i s r1 ht; cases h; exact htext _ _ ht
          · split at h
            · rename_i t r1 ht; cases h; exact hlev _ _ ht
            · cases h
        · split at h
          · rename_i t r1 ht; cases h; exact hlev _ _ ht
          · split at h
            · rename_i s r1 ht; cases h; exact htext _ _ ht
            · cases h
    simp only [pArg]
    split
    · rename_i a q ha
      rw [key a q ha]
      rfl
    · rfl

theorem pArgs_key {g : Gram} {k : Str} (hi : ¬ Inf k) (b b' : Bool) (r : List Tok) (f : Nat) :
    pArgs g f ((b, .id k) :: (b', .eq) :: r) = none := by
  cases f with
  | zero => simp [pArgs]
  | succ f => simp [pArgs, pArg_key hi b b' r f]

theorem kws_starts {g : Gram} {ks : Kws} {us : List Tok} (h : SKws g ks us) :
    ∃ b b' k r, us = (b, .id k) :: (b', .eq) :: r ∧ ¬ Inf k := by
  cases h with
  | lastKey hi _ => exact ⟨_, _, _, _, rfl, hi⟩
  | nextKey hi _ _ _ => exact ⟨_, _, _, _, rfl, hi⟩

theorem spells_starts {g : Gram} {ls : List (Op → Bool)} {t : Ast} {ts : List Tok} (h : Spells g ls t ts) :
    1 ≤ ts.length ∧ (∀ b x, ts = [(b, x)] → x ≠ .dot ∧ ∀ o, x ≠ .op o) := by
  induction h using Spells.rec (motive_2 := fun _ _ _ _ _ => True) (motive_3 := fun _ _ _ _ => True)
    (motive_4 := fun _ _ _ => True) (motive_5 := fun _ _ _ => True) (motive_6 := fun _ _ _ => True) with
  | simple h =>
    refine ⟨sSimple_pos h, ?_⟩
    cases h with
    | number hs =>
      have : ∀ {s us}, Signed s us → ∀ b x, us = [(b, x)] → x ≠ Lx.dot ∧ ∀ o, x ≠ Lx.op o := by
        intro s us h b x e
        cases h with
        | plain h => cases h <;> cases e <;> simp
        | _ => cases e
      by_cases hg : g.ops = true
      · simp only [hg, if_true] at hs; exact this (.plain hs)
      · simp only [hg] at hs; exact this hs
    | comp => intro b x e; cases e; simp
    | _ => intro b x e; simp at e
  | call => refine ⟨by simp, ?_⟩; intro b x e; simp at e
  | @sign b' o t' ts' _ _ _ ih =>
    refine ⟨by simp, ?_⟩
    intro b x e
    simp only [List.cons.injEq] at e
    rw [e.2] at ih
    simp at ih
  | paren _ _ ih => refine ⟨by simp, ?_⟩; intro b x e; simp at e
  | lift _ ih => exact ih
  | @chain l ls t r ts rs _ hr ih _ =>
    obtain ⟨b', o', ts', rfl, _⟩ := rest_starts hr
    refine ⟨by simp only [List.length_append, List.length_cons]; omega, ?_⟩
    intro b x e
    have := congrArg List.length e
    simp at this
    have := ih.1
    omega
  | _ => trivial

theorem not_captured {g : Gram} {ts rest : List Tok} (hpos : 1 ≤ ts.length)
    (hone : ∀ b x, ts = [(b, x)] → x ≠ .dot ∧ ∀ o, x ≠ .op o) (h : ¬ Captured g ts) :
    pText g (ts ++ rest) = none ∧ pSigned (ts ++ rest) = none := by
  constructor
  · cases ht : pText g (ts ++ rest) with
    | none => rfl
    | some x =>
      obtain ⟨s, q⟩ := x
      obtain ⟨b, e, hi, hk⟩ := pText_some.1 ht
      cases ts with
      | nil => simp at hpos
      | cons y ts =>
        simp only [List.cons_append, List.cons.injEq] at e
        exact absurd (.inl ⟨b, s, ts, by rw [e.1], hi, hk⟩) h
  · cases ht : pSigned (ts ++ rest) with
    | none => rfl
    | some x =>
      obtain ⟨s, q⟩ := x
      obtain ⟨c, e, hc⟩ := pSigned_sound ht
      exfalso
      rcases List.append_eq_append_iff.1 e with ⟨as, rfl, rfl⟩ | ⟨bs, rfl, rfl⟩
      · -- the number goes on after `ts`
        cases as with
        | nil => rw [List.append_nil] at hc; exact h (.inr ⟨s, ts, [], hc, by simp⟩)
        | cons a as =>
          cases ts with
          | nil => simp at hpos
          | cons y ts =>
            have hlen : ∀ {s : Str} {us : List Tok}, Signed s us → us.length ≤ 2 := by
              intro s us h
              cases h with
              | plain h => cases h <;> simp
              | _ => simp
            have := hlen hc
            simp only [List.length_append, List.length_cons] at this
            have ht0 : ts = [] := List.length_eq_zero_iff.1 (by omega)
            have ha0 : as = [] := List.length_eq_zero_iff.1 (by omega)
            subst ht0 ha0
            obtain ⟨b, x⟩ := y
            have := hone b x rfl
            simp only [List.cons_append, List.nil_append] at hc
            cases hc with
            | plain hc => cases hc; exact this.1 rfl
            | plus => exact this.2 _ rfl
            | minus => exact this.2 _ rfl
      · exact h (.inr ⟨s, c, bs, hc, rfl⟩)

theorem pList_other {g : Gram} {c : Bool} {ts : List Tok} (h : NotNext .lsq ts) : pList g c ts = none := by
  simp [pList, after_none h]

theorem pKws_none {g : Gram} {ts : List Tok} (h : ∀ b k r, ts ≠ (b, .id k) :: r) (f : Nat) : pKws g f ts = none := by
  cases f with
  | zero => simp [pKws]
  | succ f =>
    have : pKey ts = none := by
      cases hk : pKey ts with
      | none => rfl
      | some x =>
        obtain ⟨k, r⟩ := x
        obtain ⟨b, b', e, _⟩ := pKey_some.1 hk
        exact absurd e (h _ _ _)
    simp [pKws, this]

theorem not_lsq_of_level {g : Gram} {f : Nat} {ls : List (Op → Bool)} {ts : List Tok} {x : Ast × List Tok}
    (h : pLevel g f ls ts = some x) : NotNext .lsq ts := by
  intro b r e
  subst e
  rw [pLevel_bad (.inl rfl)] at h
  cases h

/-- The recursive parsers read what is spelled: operators at a level, and what is in the parentheses of a function. -/
theorem complete_both (g : Gram) :
    (∀ (ls : List (Op → Bool)) (t : Ast) (ts : List Tok), Spells g ls t ts → ls <:+ g.bins → ∀ rest f, Follow ls rest →
      12 * ts.length + ls.length ≤ f + 6 → pLevel g f ls (ts ++ rest) = some (t, rest)) ∧
    (∀ (as : Args) (ks : Kws) (us : List Tok), SFun g as ks us → ∀ b rest f, 12 * us.length + 20 ≤ f →
      pFunArgs g f (us ++ (b, .rpar) :: rest) = some ((as, ks), (b, .rpar) :: rest)) := by
  have hb := bins_length g
  let m1 : ∀ (ls : List (Op → Bool)) (t : Ast) (ts : List Tok), Spells g ls t ts → Prop := fun ls t ts _ =>
    ls <:+ g.bins → ∀ rest f, Follow ls rest → 12 * ts.length + ls.length ≤ f + 6 →
      pLevel g f ls (ts ++ rest) = some (t, rest)
  let m2 : ∀ (l : Op → Bool) (ls : List (Op → Bool)) (r : ARest) (rs : List Tok), SpellsRest g l ls r rs → Prop :=
    fun l ls r rs _ => (l :: ls) <:+ g.bins → ∀ rest f, Follow (l :: ls) rest →
      12 * rs.length ≤ f → pRest g f l ls (rs ++ rest) = some (r, rest)
  let m3 : ∀ (as : Args) (ks : Kws) (us : List Tok), SFun g as ks us → Prop := fun as ks us _ =>
    ∀ b rest f, 12 * us.length + 20 ≤ f →
      pFunArgs g f (us ++ (b, .rpar) :: rest) = some ((as, ks), (b, .rpar) :: rest)
  let m4 : ∀ (a : Arg) (us : List Tok), SArg g a us → Prop := fun a us _ =>
    ∀ rest f, FollowArg rest → 12 * us.length + 5 ≤ f → pArg g f (us ++ rest) = some (a, rest)
  let m5 : ∀ (as : Args) (us : List Tok), SArgs g as us → Prop := fun as us _ => ∀ rest f, FollowArg rest →
    (∀ b r, rest = (b, .comma) :: r → ∃ b k b' r', r = (b, .id k) :: (b', .eq) :: r' ∧ ¬ Inf k) →
    12 * us.length + 10 ≤ f → pArgs g f (us ++ rest) = some (as, rest)
  let m6 : ∀ (ks : Kws) (us : List Tok), SKws g ks us → Prop := fun ks us _ => ∀ b rest f, 12 * us.length + 10 ≤ f →
    pKws g f (us ++ (b, .rpar) :: rest) = some (ks, (b, .rpar) :: rest)
  refine ⟨@Spells.rec g m1 m2 m3 m4 m5 m6 
    ?simple ?call ?sign ?paren ?lift ?chain ?one ?more ?none ?args ?kws ?both ?ex ?num ?list ?text ?last ?next ?lastKey ?nextKey, @SFun.rec g m1 m2 m3 m4 m5 m6 
    ?simple ?call ?sign ?paren ?lift ?chain ?one ?more ?none ?args ?kws ?both ?ex ?num ?list ?text ?last ?next ?lastKey ?nextKey⟩
  case simple =>
    intro t ts h
    intro _ rest f hst hf
    have := sSimple_pos h
    obtain ⟨f, rfl⟩ : ∃ f', f = f' + 2 := ⟨f - 2, by simp at hf; omega⟩
    simp only [pLevel, pOp_simple h rest, pOperand, pCall_none (pName_simple h hst.1),
      pSimple_complete h hst.1]
    simp
  case call =>
    intro b b' n as ks ts hn hi _ ih
    intro _ rest f hst hf
    simp only [List.length_cons, List.length_append, List.length_nil] at hf
    obtain ⟨f, rfl⟩ : ∃ f', f = f' + 3 := ⟨f - 3, by omega⟩
    simp only [List.cons_append, List.append_assoc, List.nil_append, pLevel, pOperand, hn, if_true, pCall]
    rw [pName_some.2 ⟨b, rfl, hi⟩]
    simp only []
    rw [ih b' rest f (by omega)]
    simp only [after_cons]
    cases g.ops <;> simp [pOp]
  case sign =>
    intro b o t ts hops ho _ ih
    intro hs rest f hst hf
    simp only [List.length_cons, List.length_nil] at hf
    obtain ⟨f, rfl⟩ : ∃ f', f = f' + 1 := ⟨f - 1, by omega⟩
    simp only [List.cons_append, pLevel, hops, if_true]
    rw [pOp_some.2 ⟨b, rfl⟩]
    simp only [isAdd_iff.2 ho, if_true]
    rw [ih hs rest f hst (by simp; omega)]
  case paren =>
    intro b b' t ts hops _ ih
    intro hs rest f hst hf
    simp only [List.length_cons, List.length_append, List.length_nil] at hf
    obtain ⟨f, rfl⟩ : ∃ f', f = f' + 2 := ⟨f - 2, by omega⟩
    simp only [List.cons_append, List.append_assoc, List.nil_append, pLevel, hops, if_true]
    have h1 : pOp ((b, .lpar) :: (ts ++ (b', .rpar) :: rest)) = none := rfl
    have h2 : pSimple g ((b, .lpar) :: (ts ++ (b', .rpar) :: rest)) = none := by
      simp only [pSimple, pSub, pSliced, pId, pNumber, pSigned, pUnsigned, pComp, pConfig]
      cases g.ops <;> rfl
    simp only [h1, pOperand, pCall_none (show pName ((b, .lpar) :: (ts ++ (b', .rpar) :: rest)) = none from rfl), h2]
    simp only [ite_self, after_cons]
    rw [ih (List.suffix_refl _) ((b', .rpar) :: rest) (f + 1) ((FollowArg.rpar b' rest).follow _) (by omega)]
    simp [after_cons]
  case lift =>
    intro l ls t ts _ ih
    intro hs rest f hst hf
    simp only [List.length_cons] at hf
    have hpos : 1 ≤ ts.length := (spells_starts (by assumption)).1
    obtain ⟨f, rfl⟩ : ∃ f', f = f' + 1 := ⟨f - 1, by omega⟩
    simp only [pLevel]
    rw [ih (suffix_tail hs) rest f hst.tail (by omega)]
    simp only [pRest_stop g hst]
  case chain =>
    intro l ls t r ts rs ht hr ih ihr
    intro hs rest f hst hf
    simp only [List.length_cons, List.length_append] at hf
    have hpos : 1 ≤ ts.length := (spells_starts ht).1
    obtain ⟨f, rfl⟩ : ∃ f', f = f' + 1 := ⟨f - 1, by omega⟩
    simp only [pLevel, List.append_assoc]
    rw [ih (suffix_tail hs) (rs ++ rest) f (follow_of_rest (dis_of_suffix hs) hr) (by omega)]
    simp only []
    rw [ihr hs rest f hst (by omega)]
  case one =>
    intro l ls b o t ts ho ht ih
    intro hs rest f hst hf
    have hl : ls.length + 1 ≤ 3 := Nat.le_trans (by simpa using hs.length_le) hb
    simp only [List.length_cons] at hf
    obtain ⟨f, rfl⟩ : ∃ f', f = f' + 1 := ⟨f - 1, by omega⟩
    simp only [List.cons_append, pRest]
    rw [pOp_some.2 ⟨b, rfl⟩]
    simp only [ho, if_true]
    rw [ih (suffix_tail hs) rest f hst.tail (by omega)]
    simp only [pRest_stop g hst]
  case more =>
    intro l ls b o t r ts rs ho ht hr ih ihr
    intro hs rest f hst hf
    have hl : ls.length + 1 ≤ 3 := Nat.le_trans (by simpa using hs.length_le) hb
    simp only [List.length_cons, List.length_append] at hf
    obtain ⟨f, rfl⟩ : ∃ f', f = f' + 1 := ⟨f - 1, by omega⟩
    simp only [List.cons_append, List.append_assoc, pRest]
    rw [pOp_some.2 ⟨b, rfl⟩]
    simp only [ho, if_true]
    rw [ih (suffix_tail hs) (rs ++ rest) f (follow_of_rest (dis_of_suffix hs) hr) (by omega)]
    simp only []
    rw [ihr hs rest f hst (by omega)]
  case none =>
    intro b rest f hf
    obtain ⟨f, rfl⟩ : ∃ f', f = f' + 1 := ⟨f - 1, by omega⟩
    simp [pFunArgs, pArgs_rpar, pKws_none (show ∀ b' k r, (b, Lx.rpar) :: rest ≠ (b', .id k) :: r by simp)]
  case args =>
    intro as ts ha ih
    intro b rest f hf
    obtain ⟨f, rfl⟩ : ∃ f', f = f' + 1 := ⟨f - 1, by omega⟩
    simp only [pFunArgs]
    rw [ih _ f (.rpar b rest) (by intro _ _ e; cases e) (by omega)]
    simp [after, pKws_none (show ∀ b' k r, (b, Lx.rpar) :: rest ≠ (b', .id k) :: r by simp)]
  case kws =>
    intro ks ts hk ih
    intro b rest f hf
    obtain ⟨f, rfl⟩ : ∃ f', f = f' + 1 := ⟨f - 1, by omega⟩
    have := ih b rest f (by omega)
    obtain ⟨b1, b2, k, r, rfl, hi⟩ := kws_starts hk
    simp only [pFunArgs, List.cons_append] at this ⊢
    rw [pArgs_key hi, this]
  case both =>
    intro as ks ts us c ha hc hk iha ihk
    intro b rest f hf
    simp only [List.length_append] at hf
    obtain ⟨f, rfl⟩ : ∃ f', f = f' + 1 := ⟨f - 1, by omega⟩
    have hk' := ihk b rest f (by omega)
    obtain ⟨b1, b2, k, r, rfl, hi⟩ := kws_starts hk
    simp only [pFunArgs, List.append_assoc]
    rcases hc with rfl | ⟨b3, rfl⟩
    · simp only [List.nil_append, List.cons_append] at hk' ⊢
      rw [iha _ f (.key b1 b2 k _) (by intro _ _ e; cases e) (by omega)]
      simp only [after, reduceCtorEq, if_false, hk']
    · simp only [List.nil_append, List.cons_append] at hk' ⊢
      rw [iha _ f (.comma b3 _) (by
        intro b' r' e
        simp only [List.cons.injEq] at e
        exact ⟨b1, k, b2, _, e.2.symm, hi⟩) (by omega)]
      simp only [after_cons, hk']
  case ex =>
    intro t ts hcap hsp ih
    intro rest f hfo hf
    obtain ⟨f, rfl⟩ : ∃ f', f = f' + 2 := ⟨f - 2, by omega⟩
    have hlev := ih (List.suffix_refl _) rest f (hfo.follow _) (by omega)
    simp only [pArg, pAlt]
    by_cases htf : g.textFirst = true
    · have hst := spells_starts hsp
      obtain ⟨h1, h2⟩ := not_captured (rest := rest) hst.1 hst.2 (hcap htf)
      simp only [htf, if_true, h1, h2, pList_other (not_lsq_of_level hlev), hlev, hfo.equals]
      simp
    · simp only [htf, hlev]
      simp [hfo.equals]
  case num =>
    intro s ts htf hs
    intro rest f hfo hf
    obtain ⟨f, rfl⟩ : ∃ f', f = f' + 2 := ⟨f - 2, by omega⟩
    have h1 : pText g (ts ++ rest) = Option.none := by
      cases hp : pText g (ts ++ rest) with
      | none => rfl
      | some x =>
        obtain ⟨s', q⟩ := x
        obtain ⟨b, e, hi, _⟩ := pText_some.1 hp
        have := pSigned_complete hs rest
        rw [e, pSigned_id_none hi] at this
        cases this
    simp only [pArg, pAlt, htf, if_true, h1, pSigned_complete hs rest, hfo.equals]
    simp
  case list =>
    intro l ts hl
    intro rest f hfo hf
    obtain ⟨f, rfl⟩ : ∃ f', f = f' + 2 := ⟨f - 2, by omega⟩
    have hpl := pList_complete hl rest
    have h1 : pText g (ts ++ rest) = Option.none := by cases hl; rfl
    have h2 : pSigned (ts ++ rest) = Option.none := by cases hl; rfl
    have h3 : pLevel g f g.bins (ts ++ rest) = Option.none := by
      cases hl; simp only [List.cons_append]; exact pLevel_bad (.inl rfl) _ _ _ _
    simp only [pArg, pAlt, h1, h2, h3, hpl, ite_self, hfo.equals]
    simp
  case text =>
    intro b s hi hk hc
    intro rest f hfo hf
    obtain ⟨f, rfl⟩ : ∃ f', f = f' + 2 := ⟨f - 2, by simp at hf; omega⟩
    have h1 : pText g ((b, .id s) :: rest) = some (s, rest) := pText_some.2 ⟨b, rfl, hi, hk⟩
    simp only [List.cons_append, List.nil_append, pArg, pAlt, h1]
    by_cases htf : g.textFirst = true
    · simp [htf, hfo.equals]
    · have h3 := pLevel_text hi (hc (by simpa using htf)) (hfo.follow g.bins).1 b f g.bins
      simp only [htf, h3]
      simp [pList, after, hfo.equals]
  case last =>
    intro a ts ha ih
    intro rest f hfo hcom hf
    obtain ⟨f, rfl⟩ : ∃ f', f = f' + 1 := ⟨f - 1, by omega⟩
    simp only [pArgs]
    rw [ih rest f hfo (by omega)]
    simp only []
    split
    · rfl
    · rename_i r' hr
      obtain ⟨b, rfl⟩ := after_some.1 hr
      obtain ⟨b1, k, b2, r2, rfl, hi⟩ := hcom b r' rfl
      rw [pArgs_key hi]
  case next =>
    intro a as b ts us ha hs ih ihs
    intro rest f hfo hcom hf
    simp only [List.length_append, List.length_cons] at hf
    obtain ⟨f, rfl⟩ : ∃ f', f = f' + 1 := ⟨f - 1, by omega⟩
    simp only [pArgs, List.append_assoc, List.cons_append]
    rw [ih _ f (.comma b _) (by omega)]
    simp only [after_cons]
    rw [ihs rest f hfo hcom (by omega)]
  case lastKey =>
    intro b b' k v ts hi ha ih
    intro b3 rest f hf
    simp only [List.length_cons] at hf
    obtain ⟨f, rfl⟩ : ∃ f', f = f' + 1 := ⟨f - 1, by omega⟩
    simp only [pKws, List.cons_append]
    rw [pKey_some.2 ⟨b, b', rfl, hi⟩]
    simp only []
    rw [ih _ f (.rpar b3 rest) (by omega)]
    simp [after, pKws_none (show ∀ b' k r, (b3, Lx.rpar) :: rest ≠ (b', .id k) :: r by simp)]
  case nextKey =>
    intro b b' k v ks ts us c hi ha hc hk ih ihk
    intro b3 rest f hf
    simp only [List.length_append, List.length_cons] at hf
    obtain ⟨f, rfl⟩ : ∃ f', f = f' + 1 := ⟨f - 1, by omega⟩
    have hk' := ihk b3 rest f (by omega)
    obtain ⟨b1, b2, k', r, rfl, hi'⟩ := kws_starts hk
    simp only [pKws, List.cons_append, List.append_assoc]
    rw [pKey_some.2 ⟨b, b', rfl, hi⟩]
    simp only []
    rcases hc with rfl | ⟨b4, rfl⟩
    · simp only [List.nil_append, List.cons_append] at hk' ⊢
      rw [ih _ f (.key b1 b2 k' _) (by omega)]
      simp only [hk']
    · simp only [List.nil_append, List.cons_append] at hk' ⊢
      rw [ih _ f (.comma b4 _) (by omega)]
      simp only []
      rw [pKws_none (by simp)]
      simp only [after_cons, hk']

theorem complete_all (g : Gram) {ls : List (Op → Bool)} {t : Ast} {ts : List Tok} (h : Spells g ls t ts) :
    ls <:+ g.bins → ∀ rest f, Follow ls rest → 12 * ts.length + ls.length ≤ f + 6 →
      pLevel g f ls (ts ++ rest) = some (t, rest) := (complete_both g).1 ls t ts h

theorem complete_fun (g : Gram) {as : Args} {ks : Kws} {us : List Tok} (h : SFun g as ks us) (b : Bool)
    (rest : List Tok) (f : Nat) (hf : 12 * us.length + 20 ≤ f) :
    pFunArgs g f (us ++ (b, .rpar) :: rest) = some ((as, ks), (b, .rpar) :: rest) :=
  (complete_both g).2 as ks us h b rest f hf

end Grammar
end Calliope
