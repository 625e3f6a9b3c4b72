import Verif.Proofs.MathText
import Verif.Spec.Validation

/-!
# C104: what the validation of math strings accepts
-/

namespace Calliope
namespace MathText

open Grammar (Str Tok Written idsOf Uses SameNames)

section

/-! ### Names -/

theorem active_iff {r : Raw} : r.isActive = true ↔ r.active ≠ some false := by
  unfold Raw.isActive
  cases r.active with
  | none => simp
  | some b => cases b <;> simp

theorem validation_expr {m : File} {n : Str} : m.validationKinds.expr n = true ↔ Has m.operands n := by
  simp only [File.validationKinds, Grammar.validationNames, File.names, Has, File.operands, List.any_map, List.any_eq_true,
    Function.comp, decide_eq_true_eq]

theorem build_expr {m : File} {n : Str} : m.kinds.expr n = true ↔ HasActive m.operands n := by
  simp only [File.kinds, Grammar.buildNames, File.names, HasActive, File.operands, List.any_map, List.any_eq_true,
    Function.comp, Bool.and_eq_true, decide_eq_true_eq, active_iff]

/-- The components that `where` strings name as something of this kind. -/
def File.ofSort (m : File) : Grammar.Sort' → List Raw
  | .dim => m.dimensions
  | .input => m.parameters ++ m.lookups
  | .result => m.vars ++ m.globals

theorem sorts_mem {m : File} {n : Str} {k : Grammar.Sort'} {a : Bool} :
    (n, k, a) ∈ m.sorts ↔ ∃ r ∈ m.ofSort k, r.name = n ∧ r.isActive = a := by
  cases k <;> simp [File.sorts, File.ofSort, List.mem_append, List.mem_map, or_and_right, exists_or]

theorem sorts_has {m : File} {n : Str} {k : Grammar.Sort'} : m.sorts.has k n = true ↔ Has (m.ofSort k) n := by
  rw [Grammar.has_iff]
  constructor
  · rintro ⟨a, h⟩
    obtain ⟨r, hr, hn, _⟩ := sorts_mem.1 h
    exact ⟨r, hr, hn⟩
  · rintro ⟨r, hr, hn⟩
    exact ⟨_, sorts_mem.2 ⟨r, hr, hn, rfl⟩⟩

theorem allNames_eq {m : File} {names : Str → Bool} {w : Grammar.WNames} (h : AllNames m names w) :
    (⟨names, w⟩ : Kinds) = m.validationKinds := by
  obtain ⟨dims, inputs, results, post, hasPost⟩ := w
  have h1 : names = m.validationKinds.expr := funext fun n => Grammar.bool_iff ((h.expr n).trans validation_expr.symm)
  have h2 : dims = m.sorts.has .dim := funext fun n => Grammar.bool_iff ((h.dims n).trans (sorts_has (k := .dim)).symm)
  have h3 : inputs = m.sorts.has .input := funext fun n => Grammar.bool_iff ((h.inputs n).trans (sorts_has (k := .input)).symm)
  have h4 : results = m.sorts.has .result := funext fun n => Grammar.bool_iff ((h.results n).trans (sorts_has (k := .result)).symm)
  have h5 : post = fun _ => false := funext h.post
  have h6 : hasPost = false := h.hasPost
  subst h1 h2 h3 h4 h5 h6
  rfl

/-! ### Strings -/

theorem where_iff {w : Grammar.WNames} {s : Str} : parses (Grammar.readWhere w s) = true ↔ WhereOk w s := by
  rw [parses, Option.isSome_iff_exists]
  exact exists_congr fun t => Grammar.C102_where w s t

theorem cond_iff {w : Grammar.WNames} {c : Option Str} :
    parses (Grammar.readWhere w (c.getD wTrue)) = true ↔ ∀ s ∈ c, WhereOk w s := by
  cases c with
  | none => simp [readWhere_true, parses]
  | some c => simp [where_iff]

theorem arithmetic_iff {k : Kinds} {s : Str} : arithmeticParses k s = true ↔ ArithmeticOk k.expr s := by
  rw [arithmeticParses, parses, Option.isSome_iff_exists]
  exact exists_congr fun t => Grammar.C101_arithmetic k.expr s t

theorem equation_iff {k : Kinds} {s : Str} : equationParses k s = true ↔ EquationOk k.expr s := by
  rw [equationParses, parses, Option.isSome_iff_exists]
  constructor
  · rintro ⟨⟨l, o, r⟩, h⟩
    obtain ⟨ts, h⟩ := (Grammar.C101_equation _ _ _ _ _).1 h
    exact ⟨l, o, r, ts, h⟩
  · rintro ⟨l, o, r, ts, h⟩
    exact ⟨(l, o, r), (Grammar.C101_equation _ _ _ _ _).2 ⟨ts, h⟩⟩

theorem sub_iff {k : Kinds} {s : Str} : parses (Grammar.readSub k.expr s) = true ↔ SubOk k.expr s := by
  rw [parses, Option.isSome_iff_exists]
  exact exists_congr fun t => Grammar.C101_sub k.expr s t

theorem slice_iff {k : Kinds} {s : Str} : parses (Grammar.readSlice k.expr s) = true ↔ SliceOk k.expr s := by
  rw [parses, Option.isSome_iff_exists]
  exact exists_congr fun t => Grammar.C101_slice k.expr s t

theorem items_iff {k : Kinds} {read : Str → Bool} {l : List RawItem} :
    itemsParse k read l = true ↔ ∀ e ∈ l, (∀ s ∈ e.cond, WhereOk k.cond s) ∧ read e.expr = true := by
  simp only [itemsParse, List.all_eq_true, Bool.and_eq_true, cond_iff]

theorem wheres_mem {r : Raw} {s : Str} : s ∈ r.wheres ↔ s ∈ r.cond ∨ (∃ e ∈ r.equations.getD [], s ∈ e.cond) ∨
    (∃ p ∈ r.subs, ∃ e ∈ p.2, s ∈ e.cond) ∨ (∃ p ∈ r.slices, ∃ e ∈ p.2, s ∈ e.cond) := by
  simp only [Raw.wheres, List.mem_append, Option.mem_toList, List.mem_filterMap, List.mem_flatMap, Option.mem_def]
  constructor
  · rintro (h | ⟨e, ((h | ⟨p, hp, h⟩) | ⟨p, hp, h⟩), he⟩)
    · exact .inl h
    · exact .inr (.inl ⟨e, h, he⟩)
    · exact .inr (.inr (.inl ⟨p, hp, e, h, he⟩))
    · exact .inr (.inr (.inr ⟨p, hp, e, h, he⟩))
  · rintro (h | ⟨e, h, he⟩ | ⟨p, hp, e, h, he⟩ | ⟨p, hp, e, h, he⟩)
    · exact .inl h
    · exact .inr ⟨e, .inl (.inl h), he⟩
    · exact .inr ⟨e, .inl (.inr ⟨p, hp, h⟩), he⟩
    · exact .inr ⟨e, .inr ⟨p, hp, h⟩, he⟩

theorem exprs_mem {r : Raw} {s : Str} : s ∈ r.exprs ↔ (∃ e ∈ r.equations.getD [], e.expr = s) ∨
    (∃ p ∈ r.subs, ∃ e ∈ p.2, e.expr = s) ∨ (∃ p ∈ r.slices, ∃ e ∈ p.2, e.expr = s) := by
  simp only [Raw.exprs, List.mem_append, List.mem_map, List.mem_flatMap]
  constructor
  · rintro ⟨e, ((h | ⟨p, hp, h⟩) | ⟨p, hp, h⟩), he⟩
    · exact .inl ⟨e, h, he⟩
    · exact .inr (.inl ⟨p, hp, e, h, he⟩)
    · exact .inr (.inr ⟨p, hp, e, h, he⟩)
  · rintro (⟨e, h, he⟩ | ⟨p, hp, e, h, he⟩ | ⟨p, hp, e, h, he⟩)
    · exact ⟨e, .inl (.inl h), he⟩
    · exact ⟨e, .inl (.inr ⟨p, hp, h⟩), he⟩
    · exact ⟨e, .inr ⟨p, hp, h⟩, he⟩

theorem component_iff {k : Kinds} {read : Str → Bool} {r : Raw} :
    componentParses k read r = true ↔ ComponentOk k.expr k.cond (fun s => read s = true) r := by
  simp only [componentParses, Bool.and_eq_true, cond_iff, items_iff, List.all_eq_true, sub_iff, slice_iff]
  constructor
  · rintro ⟨⟨⟨h1, h2⟩, h3⟩, h4⟩
    refine ⟨fun s hs => ?_, fun e he => (h2 e he).2, fun p hp e he => (h3 p hp e he).2, fun p hp e he => (h4 p hp e he).2⟩
    rcases wheres_mem.1 hs with h | ⟨e, he, h⟩ | ⟨p, hp, e, he, h⟩ | ⟨p, hp, e, he, h⟩
    · exact h1 s h
    · exact (h2 e he).1 s h
    · exact (h3 p hp e he).1 s h
    · exact (h4 p hp e he).1 s h
  · rintro ⟨h1, h2, h3, h4⟩
    exact ⟨⟨⟨fun s hs => h1 s (wheres_mem.2 (.inl hs)),
      fun e he => ⟨fun s hs => h1 s (wheres_mem.2 (.inr (.inl ⟨e, he, hs⟩))), h2 e he⟩⟩,
      fun p hp e he => ⟨fun s hs => h1 s (wheres_mem.2 (.inr (.inr (.inl ⟨p, hp, e, he, hs⟩)))), h3 p hp e he⟩⟩,
      fun p hp e he => ⟨fun s hs => h1 s (wheres_mem.2 (.inr (.inr (.inr ⟨p, hp, e, he, hs⟩)))), h4 p hp e he⟩⟩

theorem ComponentOk.mono {names : Str → Bool} {w : Grammar.WNames} {ok ok' : Str → Prop} {r : Raw}
    (h : ComponentOk names w ok r) (hi : ∀ s, ok s → ok' s) : ComponentOk names w ok' r :=
  ⟨h.wheres, fun e he => hi _ (h.equations e he), h.subs, h.slices⟩

theorem parsesWith_iff {m : File} {k : Kinds} {p : Raw → Bool} : m.parsesWith k p = true ↔
    (∀ r ∈ m.vars, p r = true → ∀ s ∈ r.cond, WhereOk k.cond s) ∧
    (∀ r ∈ m.globals, p r = true → ComponentOk k.expr k.cond (ArithmeticOk k.expr) r) ∧
    (∀ r ∈ m.constraints, p r = true → ComponentOk k.expr k.cond (EquationOk k.expr) r) ∧
    (∀ r ∈ m.objectives, p r = true → ComponentOk k.expr k.cond (ArithmeticOk k.expr) r) := by
  simp only [File.parsesWith, Bool.and_eq_true, List.all_eq_true, List.mem_filter, cond_iff, component_iff, and_imp,
    arithmetic_iff, equation_iff, and_assoc]

/-- The strings of a math pass the validation exactly if each of them, in active and inactive variables, global
expressions, constraints and objectives, is well written with the names of the math, active or not. -/
theorem C104_accepts (m : File) (names : Str → Bool) (w : Grammar.WNames) (h : AllNames m names w) :
    m.validates = true ↔ StringsOk m names w := by
  have e := allNames_eq h
  unfold File.validates
  rw [← e, parsesWith_iff]
  constructor
  · rintro ⟨h1, h2, h3, h4⟩
    exact ⟨fun r hr => h1 r hr rfl, fun r hr => h2 r hr rfl, fun r hr => h3 r hr rfl, fun r hr => h4 r hr rfl⟩
  · rintro ⟨h1, h2, h3, h4⟩
    exact ⟨fun r hr _ => h1 r hr, fun r hr _ => h2 r hr, fun r hr _ => h3 r hr, fun r hr _ => h4 r hr⟩

/-- There are such names. -/
theorem C104_names (m : File) : ∃ names w, AllNames m names w :=
  ⟨m.validationKinds.expr, m.validationKinds.cond, fun _ => validation_expr, fun _ => sorts_has (k := .dim),
    fun _ => sorts_has (k := .input), fun _ => sorts_has (k := .result), fun _ => rfl, rfl⟩

/-! ### Building -/

theorem use_where {m : File} {r : Raw} (h : ActiveUse m r) {s : Str} (hs : s ∈ r.wheres) :
    Grammar.readWhere m.kinds.cond s = Grammar.readWhere m.validationKinds.cond s := by
  refine Grammar.C102_validated m.sorts s (fun n hu a ha => ?_) (fun n hu a a' ha ha' => ?_)
  · obtain ⟨x, hx, hn, _⟩ := sorts_mem.1 ha
    obtain ⟨y, hy, hyn, hya⟩ := h.dims s hs n hu ⟨x, hx, hn⟩
    exact sorts_mem.2 ⟨y, hy, hyn, active_iff.2 hya⟩
  · obtain ⟨x, hx, hn, _⟩ := sorts_mem.1 ha
    obtain ⟨x', hx', hn', _⟩ := sorts_mem.1 ha'
    obtain ⟨y, hy, hyn, hya⟩ := h.inputs s hs n hu ⟨x, hx, hn⟩ ⟨x', hx', hn'⟩
    exact sorts_mem.2 ⟨y, hy, hyn, active_iff.2 hya⟩

theorem use_expr {m : File} {r : Raw} (h : ActiveUse m r) {s : Str} (hs : s ∈ r.exprs) :
    ∀ n, Uses s n → m.kinds.expr n = m.validationKinds.expr n := by
  intro n hu
  apply Grammar.bool_iff
  rw [build_expr, validation_expr]
  exact ⟨fun ⟨x, hx, hn, _⟩ => ⟨x, hx, hn⟩, h.exprs s hs n hu⟩

theorem use_names {m : File} {r : Raw} (h : ActiveUse m r) {s : Str} (hs : s ∈ r.wheres) {ts : List Tok}
    (hw : Written false s ts) : SameNames m.kinds.cond m.validationKinds.cond (idsOf ts) := by
  refine Grammar.sameNames_validated (m := m.sorts) (fun n hn a ha => ?_) (fun n hn a a' ha ha' => ?_)
  · obtain ⟨x, hx, hxn, _⟩ := sorts_mem.1 ha
    obtain ⟨y, hy, hyn, hya⟩ := h.dims s hs n ⟨ts, hw, hn⟩ ⟨x, hx, hxn⟩
    exact sorts_mem.2 ⟨y, hy, hyn, active_iff.2 hya⟩
  · obtain ⟨x, hx, hxn, _⟩ := sorts_mem.1 ha
    obtain ⟨x', hx', hxn', _⟩ := sorts_mem.1 ha'
    obtain ⟨y, hy, hyn, hya⟩ := h.inputs s hs n ⟨ts, hw, hn⟩ ⟨x, hx, hxn⟩ ⟨x', hx', hxn'⟩
    exact sorts_mem.2 ⟨y, hy, hyn, active_iff.2 hya⟩

theorem use_cond {m : File} {r : Raw} (h : ActiveUse m r) {c : Option Str} (hc : ∀ s ∈ c, s ∈ r.wheres) :
    readCond m.kinds c = readCond m.validationKinds c :=
  readCond_same fun s hs _ hw => use_names h (hc s hs) hw

theorem use_items {α : Type} {m : File} {r : Raw} (h : ActiveUse m r) {f f' : Str → Option α} {l : List RawItem}
    (hc : ∀ e ∈ l, ∀ s ∈ e.cond, s ∈ r.wheres) (hf : ∀ e ∈ l, f e.expr = f' e.expr) :
    readItems m.kinds f l = readItems m.validationKinds f' l := by
  induction l with
  | nil => rfl
  | cons e l ih =>
    simp only [readItems, use_cond h (hc e List.mem_cons_self), hf e List.mem_cons_self,
      ih (fun x hx => hc x (List.mem_cons_of_mem _ hx)) (fun x hx => hf x (List.mem_cons_of_mem _ hx))]

theorem use_table {α : Type} {m : File} {r : Raw} (h : ActiveUse m r) {f f' : Str → Option α}
    {l : List (Str × List RawItem)} (hc : ∀ p ∈ l, ∀ e ∈ p.2, ∀ s ∈ e.cond, s ∈ r.wheres)
    (hf : ∀ p ∈ l, ∀ e ∈ p.2, f e.expr = f' e.expr) : readTable m.kinds f l = readTable m.validationKinds f' l := by
  induction l with
  | nil => rfl
  | cons p l ih =>
    obtain ⟨n, is⟩ := p
    simp only [readTable, use_items h (hc _ List.mem_cons_self) (hf _ List.mem_cons_self),
      ih (fun x hx => hc x (List.mem_cons_of_mem _ hx)) (fun x hx => hf x (List.mem_cons_of_mem _ hx))]

theorem use_component {m : File} {r : Raw} (h : ActiveUse m r) {f f' : Str → Option (Expand.Body Rat)}
    (hf : ∀ s ∈ r.exprs, f s = f' s) : readComponent m.kinds f r = readComponent m.validationKinds f' r := by
  have h1 : readCond m.kinds r.cond = readCond m.validationKinds r.cond :=
    use_cond h fun s hs => wheres_mem.2 (.inl hs)
  have h2 : readItems m.kinds f (r.equations.getD []) = readItems m.validationKinds f' (r.equations.getD []) :=
    use_items h (fun e he s hs => wheres_mem.2 (.inr (.inl ⟨e, he, hs⟩)))
      (fun e he => hf _ (exprs_mem.2 (.inl ⟨e, he, rfl⟩)))
  have h3 : readTable m.kinds (readSub m.kinds) r.subs = readTable m.validationKinds (readSub m.validationKinds) r.subs :=
    use_table h (fun p hp e he s hs => wheres_mem.2 (.inr (.inr (.inl ⟨p, hp, e, he, hs⟩))))
      (fun p hp e he => by
        simp only [readSub, Grammar.readSub_congr (use_expr h (exprs_mem.2 (.inr (.inl ⟨p, hp, e, he, rfl⟩))))])
  have h4 : readTable m.kinds (readSlice m.kinds) r.slices =
      readTable m.validationKinds (readSlice m.validationKinds) r.slices :=
    use_table h (fun p hp e he s hs => wheres_mem.2 (.inr (.inr (.inr ⟨p, hp, e, he, hs⟩))))
      (fun p hp e he => by
        simp only [readSlice, Grammar.readSlice_congr (use_expr h (exprs_mem.2 (.inr (.inr ⟨p, hp, e, he, rfl⟩))))])
  simp only [readComponent, h1, h2, h3, h4]

/-- A component that uses what is active is read in the backend as it was read by the validation. -/
theorem C104_same (m : File) (r : Raw) (h : ActiveUse m r) :
    readVariable m.kinds r = readVariable m.validationKinds r ∧
    readExpression m.kinds r = readExpression m.validationKinds r ∧
    readConstraint m.kinds r = readConstraint m.validationKinds r := by
  refine ⟨?_, ?_, ?_⟩
  · simp only [readVariable, use_cond h fun s hs => wheres_mem.2 (.inl hs)]
  · exact use_component h fun s hs => by simp only [readArithmetic, Grammar.readArithmetic_congr (use_expr h hs)]
  · exact use_component h fun s hs => by simp only [readEquation, Grammar.readEquation_congr (use_expr h hs)]

theorem use_ok {m : File} {r : Raw} (h : ActiveUse m r) {f f' : Str → Bool} (hf : ∀ s ∈ r.exprs, f s = f' s)
    (hr : componentParses m.validationKinds f' r = true) : componentParses m.kinds f r = true := by
  rw [component_iff] at hr ⊢
  refine ⟨fun s hs => ?_, fun e he => ?_, fun p hp e he => ?_, fun p hp e he => ?_⟩
  · rw [← where_iff, use_where h hs, where_iff]
    exact hr.wheres s hs
  · rw [hf _ (exprs_mem.2 (.inl ⟨e, he, rfl⟩))]
    exact hr.equations e he
  · rw [← sub_iff, Grammar.readSub_congr (use_expr h (exprs_mem.2 (.inr (.inl ⟨p, hp, e, he, rfl⟩)))), sub_iff]
    exact hr.subs p hp e he
  · rw [← slice_iff, Grammar.readSlice_congr (use_expr h (exprs_mem.2 (.inr (.inr ⟨p, hp, e, he, rfl⟩)))), slice_iff]
    exact hr.slices p hp e he

/-- If the strings of a math pass the validation, and what the active components use is active, no string is refused when
the problem is built. -/
theorem C104_builds (m : File) (h : m.validates = true)
    (hu : ∀ r ∈ m.vars ++ m.globals ++ m.constraints ++ m.objectives, r.active ≠ some false → ActiveUse m r) :
    m.builds = true := by
  unfold File.validates at h
  unfold File.builds
  have use : ∀ r, r ∈ m.vars ∨ r ∈ m.globals ∨ r ∈ m.constraints ∨ r ∈ m.objectives → r.isActive = true → ActiveUse m r :=
    fun r hr ha => hu r (by simp only [List.mem_append]; tauto) (active_iff.1 ha)
  simp only [File.parsesWith, Bool.and_eq_true, List.all_eq_true, List.mem_filter, and_imp, and_assoc] at h ⊢
  obtain ⟨h1, h2, h3, h4⟩ := h
  refine ⟨fun r hr ha => ?_, fun r hr ha => ?_, fun r hr ha => ?_, fun r hr ha => ?_⟩
  · have hr' := cond_iff.1 (h1 r hr trivial)
    refine cond_iff.2 fun s hs => ?_
    rw [← where_iff, use_where (use r (.inl hr) ha) (wheres_mem.2 (.inl hs)), where_iff]
    exact hr' s hs
  · exact use_ok (use r (.inr (.inl hr)) ha) (fun s hs => by
      simp only [arithmeticParses, Grammar.readArithmetic_congr (use_expr (use r (.inr (.inl hr)) ha) hs)]) (h2 r hr trivial)
  · exact use_ok (use r (.inr (.inr (.inl hr))) ha) (fun s hs => by
      simp only [equationParses, Grammar.readEquation_congr (use_expr (use r (.inr (.inr (.inl hr))) ha) hs)]) (h3 r hr trivial)
  · exact use_ok (use r (.inr (.inr (.inr hr))) ha) (fun s hs => by
      simp only [arithmeticParses, Grammar.readArithmetic_congr (use_expr (use r (.inr (.inr (.inr hr))) ha) hs)])
      (h4 r hr trivial)

/-! ### What is not looked at -/

/-- The strings of postprocessed arrays and of checks are not validated. -/
theorem C104_not_validated (m : File) (p c : List Raw) :
    ({ m with postprocessed := p, checks := c } : File).validates = m.validates := rfl

/-! ### The conditions, computed -/

def named' (l : List Raw) (n : Str) : Bool := l.any fun r => decide (r.name = n) && r.isActive

def activeUse (m : File) (r : Raw) : Bool :=
  (r.wheres.flatMap wordsOf).all (fun n => (!named m.dimensions n || named' m.dimensions n) &&
    (!named (m.parameters ++ m.lookups) n || !named (m.vars ++ m.globals) n || named' (m.parameters ++ m.lookups) n)) &&
  (r.exprs.flatMap wordsOf).all (fun n => !named m.operands n || named' m.operands n)

theorem word_mem {l : List Str} {s n : Str} (hs : s ∈ l) (h : Word s n) : n ∈ l.flatMap wordsOf := by
  obtain ⟨ts, hw, hn⟩ := h
  refine List.mem_flatMap.2 ⟨s, hs, ?_⟩
  rw [wordsOf, (Grammar.lex_iff _ _).2 hw]
  exact hn

theorem named_of {l : List Raw} {n : Str} (h : Has l n) : named l n = true := by
  obtain ⟨r, hr, hn⟩ := h
  exact List.any_eq_true.2 ⟨r, hr, decide_eq_true hn⟩

theorem hasActive_of {l : List Raw} {n : Str} (h : named' l n = true) : HasActive l n := by
  obtain ⟨r, hr, hn⟩ := List.any_eq_true.1 h
  simp only [Bool.and_eq_true, decide_eq_true_eq] at hn
  exact ⟨r, hr, hn.1, active_iff.1 hn.2⟩

theorem activeUse_sound {m : File} {r : Raw} (h : activeUse m r = true) : ActiveUse m r := by
  simp only [activeUse, Bool.and_eq_true, List.all_eq_true, Bool.or_eq_true, Bool.not_eq_true'] at h
  obtain ⟨h1, h2⟩ := h
  refine ⟨fun s hs n hw hn => ?_, fun s hs n hw hn hn' => ?_, fun s hs n hw hn => ?_⟩
  · rcases (h1 n (word_mem hs hw)).1 with h | h
    · rw [named_of hn] at h; cases h
    · exact hasActive_of h
  · rcases (h1 n (word_mem hs hw)).2 with (h | h) | h
    · rw [named_of hn] at h; cases h
    · rw [named_of hn'] at h; cases h
    · exact hasActive_of h
  · rcases h2 n (word_mem hs hw) with h | h
    · rw [named_of hn] at h; cases h
    · exact hasActive_of h

end

/-! ### Demo -/

section Demo

def demoLimit : Raw where
  name := chars! "limit"
  foreach := some [chars! "techs"]
  cond := some (chars! "cap and not old")
  equations := some [⟨some (chars! "cap_max > 0"), chars! "$twice <= cap_max"⟩]
  subs := [(chars! "twice", [⟨none, chars! "cap + cap"⟩])]

/-- A variable and a constraint on it; the dimension `nodes` and the expression `old` are not active. -/
def demoMath : File where
  dimensions := [{ name := chars! "techs" }, { name := chars! "nodes", active := some false }]
  parameters := [{ name := chars! "cap_max" }]
  vars := [{ name := chars! "cap", foreach := some [chars! "techs"], cond := some (chars! "cap_max") }]
  globals := [{ name := chars! "old", active := some false, equations := some [⟨none, chars! "2 * cap"⟩] }]
  constraints := [demoLimit]

def demoIn : Raw where
  name := chars! "none"
  cond := some (chars! "[a] in nodes")
  equations := some [⟨none, chars! "cap == 0"⟩]

/-- The same with a constraint on the dimension that is not active. -/
def demoDimension : File := { demoMath with constraints := [demoLimit, demoIn] }

def demoUse : Raw where
  name := chars! "none"
  equations := some [⟨none, chars! "old == 0"⟩]

/-- The same with a constraint on the expression that is not active. -/
def demoOld : File := { demoMath with constraints := [demoLimit, demoUse] }

/-- The same with a postprocessed array and a check whose strings cannot be read. -/
def demoUnread : File :=
  { demoMath with
    postprocessed := [{ name := chars! "share", equations := some [⟨none, chars! "cap / / cap"⟩] }]
    checks := [{ name := chars! "size", cond := some (chars! "cap_max >") }] }

/-- What `C104_builds` asks for. -/
example : demoMath.accepted = true ∧ demoMath.validates = true ∧
    ∀ r ∈ demoMath.vars ++ demoMath.globals ++ demoMath.constraints ++ demoMath.objectives,
      r.active ≠ some false → ActiveUse demoMath r := by
  refine ⟨by decide +kernel, by decide +kernel, fun r hr ha => activeUse_sound ?_⟩
  have key : (demoMath.vars ++ demoMath.globals ++ demoMath.constraints ++ demoMath.objectives).all
      (fun r => !r.isActive || activeUse demoMath r) = true := by decide +kernel
  have := List.all_eq_true.1 key r hr
  simp only [Bool.or_eq_true, Bool.not_eq_true', active_iff.2 ha, Bool.true_eq_false, false_or] at this
  exact this

/-- A component that uses what is not active: the math is accepted, and its strings are refused when the problem is
built. -/
theorem C104_inactive : (demoDimension.accepted = true ∧ demoDimension.validates = true ∧ demoDimension.builds = false) ∧
    (demoOld.accepted = true ∧ demoOld.validates = true ∧ demoOld.builds = false) := by
  refine ⟨⟨?_, ?_, ?_⟩, ?_, ?_, ?_⟩ <;> decide +kernel

/-- Strings that cannot be read in postprocessed arrays and checks: the math is accepted. -/
theorem C104_unread : demoUnread.accepted = true ∧ demoUnread.validates = true ∧
    (∀ r ∈ demoUnread.postprocessed, readExpression demoUnread.postKinds r = none) ∧
    ∀ r ∈ demoUnread.checks, readCheck demoUnread.kinds r = none := by
  refine ⟨by decide +kernel, by decide +kernel, ?_, ?_⟩
  · intro r hr
    simp only [demoUnread, List.mem_singleton] at hr
    subst hr
    have h : Grammar.readArithmetic demoUnread.postKinds.expr (chars! "cap / / cap") = none := by decide +kernel
    simp only [readExpression, readComponent, readItems, Option.getD_some, readArithmetic, h]
    generalize readCond _ _ = a
    cases a <;> rfl
  · intro r hr
    simp only [demoUnread, List.mem_singleton] at hr
    subst hr
    have h : Grammar.readWhere demoUnread.kinds.cond (chars! "cap_max >") = none := by decide +kernel
    simp only [readCheck, readCond, Option.getD_some, h]

def demoOff : Raw where
  name := chars! "off"
  active := some false
  equations := some [⟨none, chars! "cap < 1"⟩]

/-- A string that is refused by the validation although its component is not active. -/
example : ({ demoMath with constraints := [demoOff] } : File).validates = false := by decide +kernel

end Demo
end MathText
end Calliope
