import Verif.Props.WhereGrammar
import Verif.Spec.ExtraMath

namespace Calliope
namespace Grammar

open Arith (Op)

/-! ### Reading with other names -/

theorem readWhere_congr {n n' : WNames} {s : Str} (h : ∀ ts, Written false s ts → SameNames n n' (idsOf ts)) :
    readWhere n s = readWhere n' s := by
  apply Option.ext
  intro t
  rw [C102_where, C102_where]
  exact exists_congr fun ts => and_congr_right fun hw =>
    ⟨fun k => sCond_congr k (h ts hw), fun k => sCond_congr k (h ts hw).symm⟩

theorem readArithmetic_congr {n n' : Str → Bool} {s : Str} (h : ∀ k, Uses s k → n k = n' k) :
    readArithmetic n s = readArithmetic n' s := by
  apply Option.ext
  intro t
  rw [C101_arithmetic, C101_arithmetic]
  exact exists_congr fun ts => and_congr_right fun hw =>
    ⟨fun k => spells_congr k (sameOn_names h hw), fun k => spells_congr k (sameOn_names h hw).symm⟩

theorem readSub_congr {n n' : Str → Bool} {s : Str} (h : ∀ k, Uses s k → n k = n' k) : readSub n s = readSub n' s := by
  apply Option.ext
  intro t
  rw [C101_sub, C101_sub]
  exact exists_congr fun ts => and_congr_right fun hw =>
    ⟨fun k => spells_congr k (sameOn_sub h hw), fun k => spells_congr k (sameOn_sub h hw).symm⟩

theorem readEquation_congr {n n' : Str → Bool} {s : Str} (h : ∀ k, Uses s k → n k = n' k) :
    readEquation n s = readEquation n' s := by
  apply Option.ext
  rintro ⟨l, o, r⟩
  rw [C101_equation, C101_equation]
  refine exists_congr fun ts => and_congr_right fun hw => ?_
  have key : ∀ {n n' : Str → Bool}, (∀ k, Uses s k → n k = n' k) → SEquation (inEquations n) l o r ts →
      SEquation (inEquations n') l o r ts := by
    intro n n' hnn h
    have hs := sameOn_names hnn hw
    cases h with
    | eqn ho h1 h2 =>
      exact .eqn ho (spells_congr h1 (hs.sub (by intro k hk; simp [ids_append, hk])))
        (spells_congr h2 (hs.sub (by intro k hk; simp [ids_append, idsOf, hk])))
  exact ⟨key h, key fun k hk => (h k hk).symm⟩

theorem readSlice_congr {n n' : Str → Bool} {s : Str} (h : ∀ k, Uses s k → n k = n' k) :
    readSlice n s = readSlice n' s := by
  apply Option.ext
  intro x
  rw [C101_slice, C101_slice]
  refine exists_congr fun ts => and_congr_right fun hw => ?_
  have key : ∀ {n n' : Str → Bool}, (∀ k, Uses s k → n k = n' k) → SSliceDef (inSlices n) x ts →
      SSliceDef (inSlices n') x ts := by
    intro n n' hnn h
    have hs := sameOn_slice hnn hw
    cases h with
    | ex h => exact .ex (spells_congr h hs)
    | list h => exact .list (sList_congr h hs)
    | text hi hk hc =>
      exact .text hi (by rw [← hs.known _ (by simp [idsOf])]; exact hk) (by rw [← hs.comp _ (by simp [idsOf])]; exact hc)
  exact ⟨key h, key fun k hk => (h k hk).symm⟩

/-- A component is written with its name. -/
theorem comp_mem {g : Gram} {ls : List (Op → Bool)} {t : Ast} {ts : List Tok} (h : Spells g ls t ts) :
    ∀ s, t = .comp s → s ∈ idsOf ts := by
  induction h using Spells.rec (motive_2 := fun _ _ _ _ _ => True) (motive_3 := fun _ _ _ _ => True)
    (motive_4 := fun _ _ _ => True) (motive_5 := fun _ _ _ => True) (motive_6 := fun _ _ _ => True) with
  | simple h => intro s e; subst e; cases h; simp [idsOf]
  | call => intro s e; cases e
  | sign => intro s e; cases e
  | paren _ _ ih => intro s e; simp [idsOf, ids_append, ih s e]
  | lift _ ih => exact ih
  | chain => intro s e; cases e
  | _ => trivial

theorem fun_comp_mem {g : Gram} {s : Str} {k : Str} {v : Arg} {ts : List Tok}
    (h : SFun g (.cons (.ex (.comp s)) .nil) (.cons k v .nil) ts) : s ∈ idsOf ts := by
  cases h with
  | both ha _ _ =>
    cases ha with
    | last ha =>
      cases ha with
      | ex _ h => simp [ids_append, comp_mem h s rfl]
    | next _ h => cases h

end Grammar

namespace MathText

open Grammar (Str Ast Args Kws WLeaf Tok Written idsOf Uses SameNames SLeaf SCond SNot SConds)

theorem nameOver_some {f g : Str} {as : Args} {ks : Kws} {s : Str} {l : List String} (h : nameOver f g as ks = some (s, l)) :
    ∃ k v, as = .cons (.ex (.comp s)) .nil ∧ ks = .cons k v .nil := by
  unfold nameOver at h
  split at h
  · split at h
    · split at h
      · split at h
        · split at h
          · cases h; exact ⟨_, _, rfl, rfl⟩
          · cases h
        · cases h
      · cases h
    · cases h
  · cases h

theorem lhs_congr {k k' : Kinds} {l : Ast} (h : ∀ s, l = .comp s → lhsComp k s = lhsComp k' s) : lhs k l = lhs k' l := by
  unfold lhs
  split <;> first
    | rfl
    | exact congrArg some (h _ rfl)

theorem leaf_congr {k k' : Kinds} {l : WLeaf} {ts : List Tok} (h : SLeaf k.cond l ts)
    (hs : SameNames k.cond k'.cond (idsOf ts)) : leaf k l = leaf k' l := by
  cases h with
  | yes => rfl
  | no => rfl
  | @cmp b l o r ts us h1 _ _ =>
    have : lhs k l = lhs k' l := lhs_congr fun s e => by
      have hm : s ∈ idsOf (ts ++ (b, .cmp o) :: us) := by simp [Grammar.ids_append, Grammar.comp_mem h1 s e]
      simp only [lhsComp, hs.dims s hm, hs.inputs s hm]
    simp only [leaf, this]
  | @call b b' f as ks ts _ h _ =>
    simp only [leaf]
    cases hn : nameOver f (chars! "any") as ks with
    | none => rfl
    | some p =>
      obtain ⟨s, l⟩ := p
      obtain ⟨_, _, rfl, rfl⟩ := nameOver_some hn
      have hm := Grammar.fun_comp_mem h
      simp only []
      rw [hs.inputs s (by simp [idsOf, Grammar.ids_append, hm])]
  | isIn => rfl
  | input => rfl
  | result => rfl

theorem cond_congr {k k' : Kinds} {t : Infix.Tree Where.Op WLeaf} {ts : List Tok} (h : SCond k.cond t ts) :
    SameNames k.cond k'.cond (idsOf ts) → cond k t = cond k' t := by
  induction h using SCond.rec
    (motive_1 := fun t ts _ => SameNames k.cond k'.cond (idsOf ts) → cond k t = cond k' t)
    (motive_3 := fun r us _ => SameNames k.cond k'.cond (idsOf us) → conds k r = conds k' r) with
  | leaf h hw => rename_i hs; simp only [cond, leaf_congr h hs]
  | neg hw _ ih => rename_i hs; simp only [cond, ih (hs.sub (by intro s hm; simp [idsOf, hm]))]
  | paren _ ih => rename_i hs; exact ih (hs.sub (by intro s hm; simp [Grammar.ids_append, idsOf, hm]))
  | one _ ih => intro hs; exact ih hs
  | chain _ _ ih ihr =>
    intro hs
    simp only [cond, ih (hs.sub (by intro s hm; simp [Grammar.ids_append, hm])),
      ihr (hs.sub (by intro s hm; simp [Grammar.ids_append, hm]))]
  | last hw _ ih => rename_i hs; simp only [conds, ih (hs.sub (by intro s hm; simp [Grammar.ids_append, hm]))]
  | next hw _ _ ih ihr =>
    rename_i hs
    simp only [conds, ih (hs.sub (by intro s hm; simp [Grammar.ids_append, hm])),
      ihr (hs.sub (by intro s hm; simp [Grammar.ids_append, hm]))]

/-- The same for the names for which `p` holds. -/
structure SameKinds (k k' : Kinds) (p : Str → Prop) : Prop where
  expr : ∀ s, p s → k.expr s = k'.expr s
  dims : ∀ s, p s → k.cond.dims s = k'.cond.dims s
  inputs : ∀ s, p s → k.cond.inputs s = k'.cond.inputs s
  results : ∀ s, p s → k.cond.inputs s = false → k.cond.results s = k'.cond.results s
  post : ∀ s, p s → k.cond.post s = k'.cond.post s
  hasPost : k.cond.hasPost = k'.cond.hasPost

theorem SameKinds.cond {k k' : Kinds} {p : Str → Prop} (h : SameKinds k k' p) {l : List Str} (hl : ∀ s ∈ l, p s) :
    SameNames k.cond k'.cond l :=
  ⟨fun s hs => h.dims s (hl s hs), fun s hs => h.inputs s (hl s hs), fun s hs => h.results s (hl s hs),
    fun s hs => h.post s (hl s hs), h.hasPost⟩

theorem readWhere_true (n : Grammar.WNames) : Grammar.readWhere n wTrue = some (.atom (.bool true)) := by
  rw [Grammar.C102_where]
  refine ⟨[(false, .id wTrue)], (Grammar.lex_iff _ _).1 (by decide +kernel),
    .one (.leaf (.yes (by unfold Grammar.Word; decide +kernel)) ?_)⟩
  intro b s r e w hw
  cases e
  simp only [List.mem_singleton] at hw
  subst hw
  unfold Grammar.Word
  decide +kernel

theorem readCond_same {k k' : Kinds} {s : Option Str}
    (h : ∀ c ∈ s, ∀ ts, Written false c ts → SameNames k.cond k'.cond (idsOf ts)) : readCond k s = readCond k' s := by
  unfold readCond
  cases s with
  | none =>
    simp only [Option.getD_none, readWhere_true]
    rfl
  | some c =>
    have hs := h c rfl
    simp only [Option.getD_some]
    rw [← Grammar.readWhere_congr hs]
    cases ht : Grammar.readWhere k.cond c with
    | none => rfl
    | some t =>
      obtain ⟨ts, hw, hc⟩ := (Grammar.C102_where _ _ _).1 ht
      exact cond_congr hc (hs ts hw)

theorem readCond_congr {k k' : Kinds} {s : Option Str} (h : SameKinds k k' (fun n => ∃ c ∈ s, Uses c n)) :
    readCond k s = readCond k' s :=
  readCond_same fun c hc ts hw => h.cond fun n hn => ⟨c, hc, ts, hw, hn⟩

theorem SameKinds.sub {k k' : Kinds} {p q : Str → Prop} (h : SameKinds k k' p) (hq : ∀ s, q s → p s) :
    SameKinds k k' q :=
  ⟨fun s hs => h.expr s (hq s hs), fun s hs => h.dims s (hq s hs), fun s hs => h.inputs s (hq s hs),
    fun s hs => h.results s (hq s hs), fun s hs => h.post s (hq s hs), h.hasPost⟩

theorem readItems_congr {α : Type} {k k' : Kinds} {f f' : Str → Option α} {l : List RawItem}
    (h : SameKinds k k' (fun n => ∃ s ∈ itemTexts l, Uses s n)) (hf : ∀ s ∈ itemTexts l, f s = f' s) :
    readItems k f l = readItems k' f' l := by
  induction l with
  | nil => rfl
  | cons e es ih =>
    obtain ⟨c, e⟩ := e
    have h1 : readCond k c = readCond k' c := readCond_congr (h.sub (by
      rintro n ⟨d, hd, hu⟩
      cases hd
      exact ⟨d, by simp [itemTexts], hu⟩))
    have h2 : f e = f' e := hf e (by cases c <;> simp [itemTexts])
    have h3 := ih (h.sub (by
        rintro n ⟨s, hs, hu⟩
        exact ⟨s, by cases c <;> simp [itemTexts, hs], hu⟩))
      (fun s hs => hf s (by cases c <;> simp [itemTexts, hs]))
    simp only [readItems, h1, h2, h3]

theorem readTable_congr {α : Type} {k k' : Kinds} {f f' : Str → Option α} {l : List (Str × List RawItem)}
    (h : SameKinds k k' (fun n => ∃ s ∈ l.flatMap (fun p => itemTexts p.2), Uses s n))
    (hf : ∀ s ∈ l.flatMap (fun p => itemTexts p.2), f s = f' s) : readTable k f l = readTable k' f' l := by
  induction l with
  | nil => rfl
  | cons p ps ih =>
    obtain ⟨n, is⟩ := p
    have h1 : readItems k f is = readItems k' f' is := readItems_congr (h.sub (by
        rintro n ⟨s, hs, hu⟩
        exact ⟨s, by simp [hs], hu⟩))
      (fun s hs => hf s (by simp [hs]))
    have h2 := ih (h.sub (by
        rintro n ⟨s, hs, hu⟩
        exact ⟨s, by rw [List.flatMap_cons]; exact List.mem_append_right _ hs, hu⟩))
      (fun s hs => hf s (by rw [List.flatMap_cons]; exact List.mem_append_right _ hs))
    simp only [readTable, h1, h2]

theorem readComponent_congr {k k' : Kinds} {f f' : Str → Option (Expand.Body Rat)} {r : Raw}
    (h : SameKinds k k' (Mentions r)) (hf : ∀ s ∈ r.texts, f s = f' s) :
    readComponent k f r = readComponent k' f' r := by
  have mem : ∀ s, s ∈ r.texts ↔ s ∈ r.cond ∨ s ∈ itemTexts (r.equations.getD []) ∨
      s ∈ r.subs.flatMap (fun p => itemTexts p.2) ∨ s ∈ r.slices.flatMap (fun p => itemTexts p.2) := by
    intro s
    simp only [Raw.texts, List.mem_append, Option.mem_toList, Option.mem_def, or_assoc]
  have sub : ∀ {q : Str → Prop}, (∀ s, q s → s ∈ r.texts) → SameKinds k k' (fun n => ∃ s, q s ∧ Uses s n) :=
    fun hq => h.sub fun n ⟨s, hs, hu⟩ => ⟨s, hq s hs, hu⟩
  have h1 : readCond k r.cond = readCond k' r.cond := readCond_congr (sub fun s hs => (mem s).2 (.inl hs))
  have h2 : readItems k f (r.equations.getD []) = readItems k' f' (r.equations.getD []) :=
    readItems_congr (sub fun s hs => (mem s).2 (.inr (.inl hs))) fun s hs => hf s ((mem s).2 (.inr (.inl hs)))
  have e : ∀ s ∈ r.texts, ∀ n, Uses s n → k.expr n = k'.expr n := fun s hs n hu => h.expr n ⟨s, hs, hu⟩
  have h3 : readTable k (readSub k) r.subs = readTable k' (readSub k') r.subs :=
    readTable_congr (sub fun s hs => (mem s).2 (.inr (.inr (.inl hs)))) fun s hs => by
      simp only [readSub, Grammar.readSub_congr (e s ((mem s).2 (.inr (.inr (.inl hs)))))]
  have h4 : readTable k (readSlice k) r.slices = readTable k' (readSlice k') r.slices :=
    readTable_congr (sub fun s hs => (mem s).2 (.inr (.inr (.inr hs)))) fun s hs => by
      simp only [readSlice, Grammar.readSlice_congr (e s ((mem s).2 (.inr (.inr (.inr hs)))))]
  simp only [readComponent, h1, h2, h3, h4]

theorem readConstraint_congr {k k' : Kinds} {r : Raw} (h : SameKinds k k' (Mentions r)) :
    readConstraint k r = readConstraint k' r :=
  readComponent_congr h fun s hs => by
    simp only [readEquation, Grammar.readEquation_congr (fun n hu => h.expr n ⟨s, hs, hu⟩)]

theorem readExpression_congr {k k' : Kinds} {r : Raw} (h : SameKinds k k' (Mentions r)) :
    readExpression k r = readExpression k' r :=
  readComponent_congr h fun s hs => by
    simp only [readArithmetic, Grammar.readArithmetic_congr (fun n hu => h.expr n ⟨s, hs, hu⟩)]

theorem readCond_mentions {k k' : Kinds} {r : Raw} (h : SameKinds k k' (Mentions r)) :
    readCond k r.cond = readCond k' r.cond :=
  readCond_congr (h.sub fun n ⟨s, hs, hu⟩ => ⟨s, by simp [Raw.texts, Option.mem_def.1 hs], hu⟩)

theorem readVariable_congr {k k' : Kinds} {r : Raw} (h : SameKinds k k' (Mentions r)) :
    readVariable k r = readVariable k' r := by
  simp only [readVariable, readCond_mentions h]

theorem readCheck_congr {k k' : Kinds} {r : Raw} (h : SameKinds k k' (Mentions r)) : readCheck k r = readCheck k' r := by
  simp only [readCheck, readCond_mentions h]

/-! ### One more file -/

theorem over_name (a b : Raw) : (a.over b).name = a.name := rfl

theorem putRaw_named {r : Raw} {l : List Raw} {n : Str} (h : ∃ x ∈ l, x.name = n) : ∃ x ∈ putRaw r l, x.name = n := by
  induction l with
  | nil => obtain ⟨x, hx, _⟩ := h; cases hx
  | cons a l ih =>
    obtain ⟨x, hx, he⟩ := h
    unfold putRaw
    split
    · rcases List.mem_cons.1 hx with rfl | hx
      · exact ⟨_, List.mem_cons_self, he⟩
      · exact ⟨x, List.mem_cons_of_mem _ hx, he⟩
    · rcases List.mem_cons.1 hx with rfl | hx
      · exact ⟨_, List.mem_cons_self, he⟩
      · obtain ⟨y, hy, hye⟩ := ih ⟨x, hx, he⟩
        exact ⟨y, List.mem_cons_of_mem _ hy, hye⟩

theorem putRaw_any {q : Str → Bool → Bool} {n : Str} (hq : ∀ s a, q s a = true → s = n) {r : Raw} {l : List Raw}
    (hr : r.name = n → r.active = none ∧ ∃ x ∈ l, x.name = n) :
    ((putRaw r l).any fun r => q r.name r.isActive) = l.any fun r => q r.name r.isActive := by
  have off : ∀ x : Raw, x.name ≠ n → q x.name x.isActive = false := fun x hx => by
    cases h : q x.name x.isActive with
    | false => rfl
    | true => exact absurd (hq _ _ h) hx
  induction l with
  | nil =>
    have : r.name ≠ n := fun e => by obtain ⟨_, x, hx, _⟩ := hr e; cases hx
    simp [putRaw, off r this]
  | cons a l ih =>
    unfold putRaw
    split
    · rename_i he
      have h : q (a.over r).name (a.over r).isActive = q a.name a.isActive := by
        by_cases hn : r.name = n
        · have : (a.over r).isActive = a.isActive := by simp [Raw.isActive, Raw.over, later, (hr hn).1]
          rw [this, over_name]
        · rw [off a (by rw [he]; exact hn), off (a.over r) (by rw [over_name, he]; exact hn)]
      simp [h]
    · rename_i he
      rw [List.any_cons, List.any_cons, ih]
      intro hn
      obtain ⟨h1, x, hx, hxn⟩ := hr hn
      rcases List.mem_cons.1 hx with rfl | hx
      · exact absurd (hxn.trans hn.symm) he
      · exact ⟨h1, x, hx, hxn⟩

theorem foldl_any {q : Str → Bool → Bool} {n : Str} (hq : ∀ s a, q s a = true → s = n) {m l : List Raw}
    (hm : KeepsIn l m n) :
    ((m.foldl (fun l r => putRaw r l) l).any fun r => q r.name r.isActive) = l.any fun r => q r.name r.isActive := by
  induction m generalizing l with
  | nil => rfl
  | cons r m ih =>
    rw [List.foldl_cons, ih (fun x hx e => ?_)]
    · exact putRaw_any hq (hm r List.mem_cons_self)
    · obtain ⟨h1, h2⟩ := hm x (List.mem_cons_of_mem _ hx) e
      exact ⟨h1, putRaw_named h2⟩

theorem names_any (m : File) (q : Str → Bool → Bool) :
    (m.names.any fun e => q e.1 e.2) =
      ((m.dimensions.any fun r => q r.name r.isActive) || (m.parameters.any fun r => q r.name r.isActive) ||
        (m.lookups.any fun r => q r.name r.isActive) || (m.vars.any fun r => q r.name r.isActive) ||
        (m.globals.any fun r => q r.name r.isActive)) := by
  simp [File.names, List.any_append, List.any_map, Function.comp_def, Bool.or_assoc]

theorem sorts_any (m : File) (q : Str → Grammar.Sort' → Bool → Bool) :
    (m.sorts.any fun e => q e.1 e.2.1 e.2.2) =
      ((m.dimensions.any fun r => q r.name .dim r.isActive) || (m.parameters.any fun r => q r.name .input r.isActive) ||
        (m.lookups.any fun r => q r.name .input r.isActive) || (m.vars.any fun r => q r.name .result r.isActive) ||
        (m.globals.any fun r => q r.name .result r.isActive)) := by
  simp [File.sorts, List.any_append, List.any_map, Function.comp_def, Bool.or_assoc]

theorem over_names {b m : File} {n : Str} (h : Keeps b m n) {q : Str → Bool → Bool}
    (hq : ∀ s a, q s a = true → s = n) :
    ((b.over m).names.any fun e => q e.1 e.2) = b.names.any fun e => q e.1 e.2 := by
  rw [names_any, names_any]
  simp only [File.over]
  rw [foldl_any hq h.dimensions, foldl_any hq h.parameters, foldl_any hq h.lookups, foldl_any hq h.vars,
    foldl_any hq h.globals]

theorem over_sorts {b m : File} {n : Str} (h : Keeps b m n) {q : Str → Grammar.Sort' → Bool → Bool}
    (hq : ∀ s k a, q s k a = true → s = n) :
    ((b.over m).sorts.any fun e => q e.1 e.2.1 e.2.2) = b.sorts.any fun e => q e.1 e.2.1 e.2.2 := by
  rw [sorts_any, sorts_any]
  simp only [File.over]
  rw [foldl_any (q := fun s a => q s .dim a) (fun s a => hq s _ a) h.dimensions,
    foldl_any (q := fun s a => q s .input a) (fun s a => hq s _ a) h.parameters,
    foldl_any (q := fun s a => q s .input a) (fun s a => hq s _ a) h.lookups,
    foldl_any (q := fun s a => q s .result a) (fun s a => hq s _ a) h.vars,
    foldl_any (q := fun s a => q s .result a) (fun s a => hq s _ a) h.globals]

theorem over_has {b m : File} {n : Str} (h : Keeps b m n) (k : Grammar.Sort') :
    (b.over m).sorts.has k n = b.sorts.has k n :=
  over_sorts h (q := fun s k' _ => decide (s = n) && decide (k' = k)) (fun s k' a hs => by simp at hs; exact hs.1)

theorem over_active {b m : File} {n : Str} (h : Keeps b m n) (k : Grammar.Sort') :
    (b.over m).sorts.active k n = b.sorts.active k n :=
  over_sorts h (q := fun s k' a => decide (s = n) && decide (k' = k) && a) (fun s k' a hs => by simp at hs; exact hs.1.1)

theorem over_build {b m : File} {n : Str} (h : Keeps b m n) : (b.over m).kinds.expr n = b.kinds.expr n :=
  over_names h (q := fun s a => decide (s = n) && a) (fun s a hs => by simp at hs; exact hs.1)

theorem over_kinds {b m : File} {p : Str → Prop} (h : ∀ n, p n → Keeps b m n) : SameKinds (b.over m).kinds b.kinds p where
  expr n hn := over_build (h n hn)
  dims n hn := over_active (h n hn) .dim
  inputs n hn := by
    simp only [File.kinds, Grammar.buildWhere, Grammar.WMath.extended, over_active (h n hn), over_has (h n hn)]
  results n hn _ := by
    simp only [File.kinds, Grammar.buildWhere, Grammar.WMath.extended, over_active (h n hn), over_has (h n hn)]
  post _ _ := rfl
  hasPost := rfl

theorem putRaw_ne (r : Raw) (l : List Raw) : putRaw r l ≠ [] := by
  cases l with
  | nil => simp [putRaw]
  | cons a l => unfold putRaw; split <;> simp

theorem foldl_ne (m l : List Raw) (h : l ≠ []) : m.foldl (fun l r => putRaw r l) l ≠ [] := by
  induction m generalizing l with
  | nil => exact h
  | cons r m ih => exact ih _ (putRaw_ne r l)

theorem named_filter (l : List Raw) (s : Str) :
    named (l.filter Raw.isActive) s = l.any (fun r => decide (r.name = s) && r.isActive) := by
  induction l with
  | nil => rfl
  | cons r l ih =>
    by_cases h : r.isActive = true <;> simp_all [named, List.filter_cons]

theorem over_post {b m : File} {p : Str → Prop} (h : ∀ n, p n → Keeps b m n) (hb : b.postprocessed ≠ []) :
    SameKinds (b.over m).postKinds b.postKinds p where
  expr n hn := by
    have : named ((b.over m).postprocessed.filter Raw.isActive) n = named (b.postprocessed.filter Raw.isActive) n := by
      rw [named_filter, named_filter]
      exact foldl_any (q := fun s a => decide (s = n) && a) (fun s a hs => by simp at hs; exact hs.1)
        (h n hn).postprocessed
    simp only [File.postKinds, this, over_build (h n hn)]
  dims n hn := (over_kinds h).dims n hn
  inputs n hn := (over_kinds h).inputs n hn
  results n hn := (over_kinds h).results n hn
  post n hn :=
    foldl_any (q := fun s _ => decide (s = n)) (fun s a hs => by simpa using hs) (h n hn).postprocessed
  hasPost := by
    have h1 : (b.over m).postprocessed ≠ [] := foldl_ne _ _ hb
    have e : ∀ l : List Raw, l ≠ [] → l.isEmpty = false := fun l hl => by cases l <;> simp_all
    show (!(b.over m).postprocessed.isEmpty) = !b.postprocessed.isEmpty
    rw [e _ h1, e _ hb]

/-! ### Groups -/

theorem putRaw_split {l : List Raw} {r : Raw} (h : ∀ a ∈ l, r.name ≠ a.name) (t : List Raw) :
    putRaw r (l ++ t) = l ++ putRaw r t := by
  induction l with
  | nil => rfl
  | cons a l ih =>
    have ha : a.name ≠ r.name := fun e => h a List.mem_cons_self e.symm
    rw [List.cons_append, putRaw, if_neg ha, ih (fun x hx => h x (List.mem_cons_of_mem _ hx)), List.cons_append]

theorem over_append {l m : List Raw} (h : ∀ r ∈ l, ∀ x ∈ m, x.name ≠ r.name) :
    ∀ t, ∃ t', m.foldl (fun l r => putRaw r l) (l ++ t) = l ++ t' := by
  induction m with
  | nil => exact fun t => ⟨t, rfl⟩
  | cons x m ih =>
    intro t
    rw [List.foldl_cons, putRaw_split (fun a ha => h a ha x List.mem_cons_self)]
    exact ih (fun r hr y hy => h r hr y (List.mem_cons_of_mem _ hy)) _

theorem insertRaw_sublist (r : Raw) (l : List Raw) : l.Sublist (insertRaw r l) := by
  induction l with
  | nil => exact List.nil_sublist _
  | cons a l ih =>
    unfold insertRaw
    split
    · exact List.sublist_cons_self _ _
    · exact ih.cons_cons a

theorem ordered_sublist (l t : List Raw) : (ordered l).Sublist (ordered (l ++ t)) := by
  unfold ordered
  rw [List.foldl_append]
  generalize l.foldl (fun s r => insertRaw r s) [] = s
  induction t generalizing s with
  | nil => exact List.Sublist.refl _
  | cons r t ih => exact (insertRaw_sublist r s).trans (ih _)

theorem insertRaw_mem {r x : Raw} {l : List Raw} : x ∈ insertRaw r l ↔ x = r ∨ x ∈ l := by
  induction l with
  | nil => simp [insertRaw]
  | cons a l ih =>
    unfold insertRaw
    split
    · simp
    · simp only [List.mem_cons, ih]
      tauto

theorem ordered_mem {x : Raw} {l : List Raw} : x ∈ ordered l ↔ x ∈ l := by
  have key : ∀ (l s : List Raw), x ∈ l.foldl (fun s r => insertRaw r s) s ↔ x ∈ s ∨ x ∈ l := by
    intro l
    induction l with
    | nil => simp
    | cons r l ih =>
      intro s
      rw [List.foldl_cons, ih, insertRaw_mem, List.mem_cons]
      tauto
  simpa [ordered] using key l []

theorem readList_sublist {α : Type} {f f' : Raw → Option α} {l l' : List Raw} (h : l.Sublist l')
    (hf : ∀ r ∈ l, f r = f' r) {xs ys : List α} (hx : readList f l = some xs) (hy : readList f' l' = some ys) :
    xs.Sublist ys := by
  induction h generalizing xs ys with
  | slnil => cases hx; exact List.nil_sublist _
  | @cons l l' a _ ih =>
    unfold readList at hy
    split at hy
    · rename_i h1 h2
      cases hy
      exact (ih hf hx h2).cons _
    · cases hy
  | @cons_cons l l' a _ ih =>
    unfold readList at hx hy
    split at hx
    · rename_i x xs' h1 h2
      cases hx
      split at hy
      · rename_i y ys' h3 h4
        cases hy
        rw [hf a List.mem_cons_self, h3] at h1
        cases h1
        exact (ih (fun r hr => hf r (List.mem_cons_of_mem _ hr)) h2 h4).cons_cons _
      · cases hy
    · cases hx

theorem readGroup_sublist {α : Type} {f f' : Raw → Option α} {l m : List Raw} (hn : ∀ r ∈ l, ∀ x ∈ m, x.name ≠ r.name)
    (hf : ∀ r ∈ l, f r = f' r) {xs ys : List α} (hx : readGroup f l = some xs)
    (hy : readGroup f' (m.foldl (fun l r => putRaw r l) l) = some ys) : xs.Sublist ys := by
  obtain ⟨t, ht⟩ := over_append hn []
  rw [List.append_nil] at ht
  rw [ht] at hy
  exact readList_sublist ((ordered_sublist l t).filter _)
    (fun r hr => hf r (ordered_mem.1 (List.mem_filter.1 hr).1)) hx hy

theorem read_some {m : File} {M : Math} (h : m.read = some M) :
    readGroup (readVariable m.kinds) m.vars = some M.vars ∧ readGroup (readExpression m.kinds) m.globals = some M.globals ∧
    readGroup (readConstraint m.kinds) m.constraints = some M.constraints ∧
    readGroup (readExpression m.kinds) m.objectives = some M.objectives ∧
    readGroup (readExpression m.postKinds) m.postprocessed = some M.postprocessed ∧
    readGroup (readCheck m.kinds) m.checks = some M.checks := by
  unfold File.read at h
  generalize readGroup (readVariable m.kinds) m.vars = a at *
  generalize readGroup (readExpression m.kinds) m.globals = b at *
  generalize readGroup (readConstraint m.kinds) m.constraints = c at *
  generalize readGroup (readExpression m.kinds) m.objectives = d at *
  generalize readGroup (readExpression m.postKinds) m.postprocessed = e at *
  generalize readGroup (readCheck m.kinds) m.checks = f at *
  cases a <;> cases b <;> cases c <;> cases d <;> cases e <;> cases f <;> simp only [reduceCtorEq] at h
  rw [← Option.some.inj h]
  exact ⟨rfl, rfl, rfl, rfl, rfl, rfl⟩

/-! ### New names, computed -/

/-- The words of a string. -/
def wordsOf (s : Str) : List Str := idsOf ((Grammar.lex s).getD [])

theorem mentions_words {r : Raw} {n : Str} (h : Mentions r n) : n ∈ r.texts.flatMap wordsOf := by
  obtain ⟨s, hs, ts, hw, hn⟩ := h
  rw [List.mem_flatMap]
  refine ⟨s, hs, ?_⟩
  rw [wordsOf, (Grammar.lex_iff _ _).2 hw]
  exact hn

def keepsIn (l m : List Raw) (n : Str) : Bool :=
  m.all fun x => decide (x.name ≠ n) || (x.active.isNone && named l n)

def keeps (b m : File) (n : Str) : Bool :=
  keepsIn b.dimensions m.dimensions n && keepsIn b.parameters m.parameters n && keepsIn b.lookups m.lookups n &&
    keepsIn b.vars m.vars n && keepsIn b.globals m.globals n && keepsIn b.postprocessed m.postprocessed n

theorem keepsIn_sound {l m : List Raw} {n : Str} (h : keepsIn l m n = true) : KeepsIn l m n := by
  intro x hx e
  simp only [keepsIn, List.all_eq_true, Bool.or_eq_true, decide_eq_true_eq, Bool.and_eq_true] at h
  rcases h x hx with h1 | ⟨h1, h2⟩
  · exact absurd e h1
  · refine ⟨by simpa using h1, ?_⟩
    simpa [named] using h2

theorem keeps_sound {b m : File} {n : Str} (h : keeps b m n = true) : Keeps b m n := by
  simp only [keeps, Bool.and_eq_true] at h
  obtain ⟨⟨⟨⟨⟨h1, h2⟩, h3⟩, h4⟩, h5⟩, h6⟩ := h
  exact ⟨keepsIn_sound h1, keepsIn_sound h2, keepsIn_sound h3, keepsIn_sound h4, keepsIn_sound h5, keepsIn_sound h6⟩

def newGroup (b m : File) (l g : List Raw) : Bool :=
  l.all fun r => g.all (fun x => decide (x.name ≠ r.name)) && (r.texts.flatMap wordsOf).all (keeps b m)

def isNew (b m : File) : Bool :=
  newGroup b m b.vars m.vars && newGroup b m b.globals m.globals &&
    newGroup b m b.constraints m.constraints && newGroup b m b.objectives m.objectives &&
    newGroup b m b.postprocessed m.postprocessed && newGroup b m b.checks m.checks

theorem newGroup_sound {b m : File} {l g : List Raw} (h : newGroup b m l g = true) : ∀ r ∈ l, Leaves b m g r := by
  intro r hr
  simp only [newGroup, List.all_eq_true, Bool.and_eq_true, decide_eq_true_eq] at h
  exact ⟨fun x hx => (h r hr).1 x hx, fun n hn => keeps_sound ((h r hr).2 n (mentions_words hn))⟩

theorem isNew_sound {b m : File} (h : isNew b m = true) : New b m := by
  simp only [isNew, Bool.and_eq_true] at h
  obtain ⟨⟨⟨⟨⟨h1, h2⟩, h3⟩, h4⟩, h5⟩, h6⟩ := h
  exact ⟨newGroup_sound h1, newGroup_sound h2, newGroup_sound h3, newGroup_sound h4, newGroup_sound h5, newGroup_sound h6⟩

end MathText
end Calliope
