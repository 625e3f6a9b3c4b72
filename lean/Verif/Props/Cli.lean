import Verif.Spec.Cli
import Verif.Props.Config

/-!
# C92: running a model from the command line
-/

namespace Calliope
namespace Cli

open Config (Cfg Pydantic update updWithDict updBase setField setField_same updWithDict_base)
open Runs (Str given)

section
variable {M τ : Type} {W : World M τ} {o : Options}

/-! ### Endings -/

theorem split_ne (sep : Char) : ∀ s, Text.splitChars sep s ≠ []
  | [] => by simp [Text.splitChars]
  | c :: cs => by
    unfold Text.splitChars
    split
    · simp
    · split <;> simp

theorem getLastD_cons_ne {α : Type} (x d : α) {l : List α} (h : l ≠ []) : (x :: l).getLastD d = l.getLastD d := by
  cases l with
  | nil => exact absurd rfl h
  | cons y l => rfl

theorem split_none {sep : Char} : ∀ {s}, sep ∉ s → Text.splitChars sep s = [s]
  | [], _ => rfl
  | c :: cs, h => by
    have hc : c ≠ sep := fun e => h (by simp [e])
    rw [Text.splitChars, if_neg hc, split_none (fun hm => h (by simp [hm]))]

theorem split_last {sep : Char} (e : List Char) (he : sep ∉ e) : ∀ a : List Char,
    (Text.splitChars sep (a ++ sep :: e)).getLastD [] = e
  | [] => by
    rw [List.nil_append, Text.splitChars, if_pos rfl, split_none he]
    rfl
  | c :: cs => by
    have ih := split_last e he cs
    rw [List.cons_append, Text.splitChars]
    split
    · rw [getLastD_cons_ne _ _ (split_ne sep _), ih]
    · rename_i hc
      have hne := split_ne sep (cs ++ sep :: e)
      revert ih
      cases hs : Text.splitChars sep (cs ++ sep :: e) with
      | nil => exact absurd hs hne
      | cons w ws =>
        intro ih
        cases ws with
        | nil =>
          -- a text with a separator has more than one part
          exfalso
          have : 2 ≤ (Text.splitChars sep (cs ++ sep :: e)).length := by
            clear ih hs hne
            induction cs with
            | nil =>
              rw [List.nil_append, Text.splitChars, if_pos rfl, split_none he]
              simp
            | cons d ds ih' =>
              have h2 := ih'
              rw [List.cons_append, Text.splitChars]
              split
              · simp only [List.length_cons]; omega
              · revert h2
                cases Text.splitChars sep (ds ++ sep :: e) with
                | nil => intro h2; simp at h2
                | cons x xs => intro h2; simpa using h2
          rw [hs] at this
          simp at this
        | cons v vs => simpa using ih

theorem split_parts {sep : Char} : ∀ s : List Char,
    sep ∉ (Text.splitChars sep s).getLastD [] ∧ (s = (Text.splitChars sep s).getLastD [] ∨
      ∃ a, s = a ++ sep :: (Text.splitChars sep s).getLastD []) := by
  intro s
  by_cases h : sep ∈ s
  · -- the last separator
    have : ∃ a e, s = a ++ sep :: e ∧ sep ∉ e := by
      induction s with
      | nil => simp at h
      | cons c cs ih =>
        by_cases hc : sep ∈ cs
        · obtain ⟨a, e, h1, h2⟩ := ih hc
          exact ⟨c :: a, e, by rw [h1]; rfl, h2⟩
        · have : c = sep := by
            rcases List.mem_cons.1 h with h | h
            · exact h.symm
            · exact absurd h hc
          exact ⟨[], cs, by rw [this]; rfl, hc⟩
    obtain ⟨a, e, rfl, he⟩ := this
    rw [split_last e he a]
    exact ⟨he, .inr ⟨a, rfl⟩⟩
  · rw [split_none h]
    exact ⟨h, .inl rfl⟩

theorem extension_iff {s : List Char} {e : String} (he : '.' ∉ e.toList) : extension s = e.toList ↔ Ends s e := by
  unfold extension Ends
  constructor
  · intro h
    have := (split_parts (sep := '.') s).2
    rw [h] at this
    exact this
  · rintro (h | ⟨a, h⟩)
    · rw [h, split_none he]; rfl
    · rw [h, split_last _ he]

/-! ### Reading -/

theorem formatOf_iff {f : String} : formatOf o = .ok f.toList ↔ Format o f := by
  have hy : ∀ e : String, e = "yaml" ∨ e = "yml" → '.' ∉ e.toList := by
    rintro e (rfl | rfl) <;> decide
  have hc : ∀ e : String, e = "nc" ∨ e = "nc4" ∨ e = "netcdf" → '.' ∉ e.toList := by
    rintro e (rfl | rfl | rfl) <;> decide
  have hinj : ∀ {a b : String}, a.toList = b.toList → a = b := fun h => String.ext h
  unfold formatOf
  cases hm : o.modelFormat with
  | some g =>
    constructor
    · intro h
      cases h
      exact .said f hm
    · rintro (⟨_, h⟩ | ⟨_, h, _⟩ | ⟨_, h, _⟩)
      · rw [hm] at h; cases h; rfl
      · rw [hm] at h; cases h
      · rw [hm] at h; cases h
  | none =>
    simp only []
    constructor
    · intro h
      split at h
      · rename_i hx
        have hf : f = "yaml" := hinj (by injection h with h; exact h.symm)
        subst hf
        simp only [List.mem_cons, List.not_mem_nil, or_false] at hx
        rcases hx with hx | hx
        · exact .yaml "yaml" hm (.inl rfl) ((extension_iff (hy _ (.inl rfl))).1 hx)
        · exact .yaml "yml" hm (.inr rfl) ((extension_iff (hy _ (.inr rfl))).1 hx)
      · split at h
        · rename_i hx
          have hf : f = "netcdf" := hinj (by injection h with h; exact h.symm)
          subst hf
          simp only [List.mem_cons, List.not_mem_nil, or_false] at hx
          rcases hx with hx | hx | hx
          · exact .netcdf "nc" hm (.inl rfl) ((extension_iff (hc _ (.inl rfl))).1 hx)
          · exact .netcdf "nc4" hm (.inr (.inl rfl)) ((extension_iff (hc _ (.inr (.inl rfl)))).1 hx)
          · exact .netcdf "netcdf" hm (.inr (.inr rfl)) ((extension_iff (hc _ (.inr (.inr rfl)))).1 hx)
        · cases h
    · rintro (⟨_, h⟩ | ⟨e, _, he, h⟩ | ⟨e, _, he, h⟩)
      · rw [hm] at h; cases h
      · have hx := (extension_iff (hy e he)).2 h
        rw [hx]
        rcases he with rfl | rfl <;> rfl
      · have hx := (extension_iff (hc e he)).2 h
        rw [hx]
        rcases he with rfl | rfl | rfl <;> decide

/-- C92, reading: the model file is read as the option or its ending says; a scenario and overrides are used with YAML
and not allowed with NetCDF; a file of another kind is not read. -/
theorem C92_reads {m : M} : setup W o = .ok m ↔ Reads W o m := by
  unfold setup
  constructor
  · intro h
    split at h
    · cases h
    · rename_i f hf
      split at h
      · cases h
      · rename_i ov hov
        have hf' : formatOf o = .ok (String.ofList f).toList := by rw [hf]; simp
        split at h
        · rename_i hy
          subst hy
          refine .yaml ov m (formatOf_iff.1 hf) ?_ ?_ h
          · intro hn
            unfold overridesOf at hov
            rw [hn] at hov
            cases hov
            rfl
          · intro t ht
            unfold overridesOf at hov
            rw [ht] at hov
            exact hov
        · split at h
          · rename_i hn
            subst hn
            split at h
            · cases h
            · rename_i hs
              simp only [Bool.or_eq_true, not_or, Bool.not_eq_true, Option.isSome_eq_false_iff,
                Option.isNone_iff_eq_none] at hs
              exact .netcdf m (formatOf_iff.1 hf) hs.1 hs.2 h
          · cases h
  · rintro (⟨ov, _, hf, h1, h2, h⟩ | ⟨_, hf, hs, ho, h⟩)
    · rw [formatOf_iff.2 hf]
      have hov : overridesOf W o = .ok ov := by
        unfold overridesOf
        cases hd : o.overrideDict with
        | none => rw [h1 hd]
        | some t => exact h2 t hd
      simp only [hov, if_true]
      exact h
    · rw [formatOf_iff.2 hf]
      have hov : overridesOf W o = .ok .nil := by
        unfold overridesOf
        rw [ho]
      simp only [hov, hs, ho]
      rw [if_neg (by decide)]
      simpa using h

/-! ### Options -/

theorem given_some {o : Option (List Char)} {p : List Char} : given o = some p ↔ Asked o p := by
  unfold given Asked
  cases o with
  | none => simp
  | some s =>
    cases s with
    | nil =>
      constructor
      · intro h; cases h
      · rintro ⟨h, hn⟩; cases h; exact absurd rfl hn
    | cons c cs =>
      constructor
      · intro h; cases h; exact ⟨rfl, by simp⟩
      · rintro ⟨h, _⟩; cases h; rfl

theorem given_none {o : Option (List Char)} : given o = none ↔ ∀ p, ¬ Asked o p := by
  constructor
  · intro h p hp
    rw [given_some.2 hp] at h
    cases h
  · intro h
    cases hg : given o with
    | none => rfl
    | some p => exact absurd (given_some.1 hg) (h p)

theorem saveOne_ok {p : Option Str} {file : Str → File} {save : Str → Except Err Unit} :
    (∃ f, saveOne p file save = .ok f) ↔ ∀ q, Asked p q → save q = .ok () := by
  unfold saveOne
  cases hg : given p with
  | none => simp [given_none.1 hg]
  | some q =>
    have hq := given_some.1 hg
    have : ∀ q', Asked p q' ↔ q' = q := by
      intro q'
      constructor
      · rintro h
        rw [← given_some, hg] at h
        exact (Option.some.inj h).symm
      · rintro rfl; exact hq
    simp only [this, forall_eq]
    cases save q <;> simp

theorem saveOne_mem {p : Option Str} {file : Str → File} {save : Str → Except Err Unit} {f : List File}
    (h : saveOne p file save = .ok f) (x : File) : x ∈ f ↔ ∃ q, Asked p q ∧ x = file q := by
  unfold saveOne at h
  split at h
  · rename_i hg
    cases h
    simp [given_none.1 hg]
  · rename_i q hg
    split at h
    · cases h
    · cases h
      simp only [List.mem_singleton]
      constructor
      · rintro rfl; exact ⟨q, given_some.1 hg, rfl⟩
      · rintro ⟨q', hq', rfl⟩
        rw [← given_some, hg] at hq'
        cases hq'
        rfl

/-! ### C92 -/

theorem reads_unique {m m' : M} (h : setup W o = .ok m) : Reads W o m' ↔ m' = m := by
  rw [← C92_reads, h]
  constructor
  · intro h; cases h; rfl
  · rintro rfl; rfl

/-- C92, LP file: when it is asked for, the command succeeds exactly if the model can be read and built and the file be
written; then it has written that file and nothing else, and has not solved the model. -/
theorem C92_lp {p : Str} (hp : Asked o.saveLp p) :
    ((run W o).exit = 0 ↔ ∃ m m', Reads W o m ∧ W.build m = .ok m' ∧ W.toLp m' p = .ok ()) ∧
    ((run W o).exit = 0 → (run W o).wrote = [.lp p]) ∧ (run W o).solvedWith = none := by
  unfold run
  cases hs : setup W o with
  | error e =>
    have : ∀ m, ¬ Reads W o m := by
      intro m hm
      rw [← C92_reads, hs] at hm
      cases hm
    simp [this, Outcome.exit]
  | ok m =>
    simp only [given_some.2 hp]
    cases hb : W.build m with
    | error e =>
      refine ⟨⟨fun h => by simp [Outcome.exit] at h, ?_⟩, fun h => by simp [Outcome.exit] at h, rfl⟩
      rintro ⟨m1, m2, h1, h2, _⟩
      rw [(reads_unique hs).1 h1, hb] at h2
      cases h2
    | ok m' =>
      simp only []
      cases hl : W.toLp m' p with
      | error e =>
        refine ⟨⟨fun h => by simp [Outcome.exit] at h, ?_⟩, fun h => by simp [Outcome.exit] at h, rfl⟩
        rintro ⟨m1, m2, h1, h2, h3⟩
        rw [(reads_unique hs).1 h1, hb] at h2
        cases h2
        rw [hl] at h3
        cases h3
      | ok u => exact ⟨⟨fun _ => ⟨m, m', C92_reads.1 hs, hb, hl⟩, fun _ => rfl⟩, fun _ => rfl, rfl⟩

theorem solveArgs_nil {m : M} (h1 : ∀ p, ¬ Asked o.saveLogs p)
    (h2 : (∀ p, ¬ Asked o.saveNetcdf p) ∨ W.perSpore m = false) : solveArgs W o m = [] := by
  unfold solveArgs
  rw [given_none.2 h1]
  rcases h2 with h2 | h2
  · rw [given_none.2 h2]; rfl
  · rw [h2]
    cases given o.saveNetcdf <;> rfl

/-- C92, exit code: when no LP file is asked for, the command succeeds exactly if the model can be read, built and
solved, and what is asked for be saved, and the solution is optimal or failing was not asked for.  Solver logs are not
asked for, and not both a NetCDF file and a file for each SPORES run. -/
theorem C92_exit_partial (hp : ∀ p, ¬ Asked o.saveLp p) (hl : ∀ p, ¬ Asked o.saveLogs p)
    (hsp : ∀ m, Reads W o m → (∀ p, ¬ Asked o.saveNetcdf p) ∨ W.perSpore m = false)
    (hv : ∀ m m', Reads W o m → W.build m = .ok m' → Valid W m') :
    (run W o).exit = 0 ↔ ∃ m m' m'' t, Reads W o m ∧ W.build m = .ok m' ∧ Solves W m' m'' t ∧ Saved W o m'' ∧
      (o.failWhenInfeasible = true → t = "optimal") := by
  unfold run
  cases hs : setup W o with
  | error e =>
    have : ∀ m, ¬ Reads W o m := by
      intro m hm
      rw [← C92_reads, hs] at hm
      cases hm
    simp [this, Outcome.exit]
  | ok m =>
    have hr := C92_reads.1 hs
    simp only [given_none.2 hp, solveArgs_nil hl (hsp m hr)]
    cases hb : W.build m with
    | error e =>
      refine ⟨fun h => by simp [Outcome.exit] at h, ?_⟩
      rintro ⟨m1, m2, _, _, h1, h2, _⟩
      rw [(reads_unique hs).1 h1, hb] at h2
      cases h2
    | ok m' =>
      have hc : configure W (W.config m') [] = .ok (W.config m') := hv m m' hr hb
      constructor
      · intro h
        simp only [] at h
        split at h
        · simp [Outcome.exit] at h
        · rename_i m'' t c hsol
          unfold solveWith at hsol
          rw [hc] at hsol
          split at hsol
          · cases hsol
          · rename_i u hmay
            simp only [] at hsol
            split at hsol
            · cases hsol
            · rename_i m3 t3 hsv
              cases hsol
              unfold finish at h
              split at h
              · simp [Outcome.exit] at h
              · rename_i f hf
                split at h
                · simp [Outcome.exit] at h
                · rename_i g hg
                  split at h
                  · simp [Outcome.exit] at h
                  · rename_i hfail
                    refine ⟨m, m', m'', t, hr, hb, ⟨hmay, hsv⟩, ⟨saveOne_ok.1 ⟨f, hf⟩, saveOne_ok.1 ⟨g, hg⟩⟩, ?_⟩
                    intro hw
                    simpa [hw] using hfail
      · rintro ⟨m1, m2, m'', t, h1, h2, ⟨h3, h4⟩, ⟨h5, h6⟩, h7⟩
        rw [(reads_unique hs).1 h1, hb] at h2
        cases h2
        obtain ⟨f, hf⟩ := (saveOne_ok (file := File.csv)).2 h5
        obtain ⟨g, hg⟩ := (saveOne_ok (file := File.netcdf)).2 h6
        simp only [solveWith, h3, hc, h4, finish, hf, hg]
        rw [if_neg]
        · rfl
        · cases hw : o.failWhenInfeasible with
          | false => simp
          | true => simp [h7 hw]

/-- C92, files: whatever happens, no file is written that was not asked for. -/
theorem C92_only (x : File) (h : x ∈ (run W o).wrote) : AskedFor o x := by
  unfold run at h
  split at h
  · simp at h
  · rename_i m hm
    split at h
    · rename_i p hp
      split at h
      · simp at h
      · split at h
        · simp at h
        · simp only [List.mem_singleton] at h
          subst h
          exact given_some.1 hp
    · rename_i hp
      have hno := given_none.1 hp
      split at h
      · simp at h
      · split at h
        · simp at h
        · unfold finish at h
          split at h
          · simp at h
          · rename_i f hf
            split at h
            · obtain ⟨q, hq, rfl⟩ := (saveOne_mem hf x).1 h
              exact ⟨hno, hq⟩
            · rename_i g hg
              have : x ∈ f ++ g := by split at h <;> exact h
              rcases List.mem_append.1 this with h | h
              · obtain ⟨q, hq, rfl⟩ := (saveOne_mem hf x).1 h
                exact ⟨hno, hq⟩
              · obtain ⟨q, hq, rfl⟩ := (saveOne_mem hg x).1 h
                exact ⟨hno, hq⟩

theorem finish_wrote {m : M} {t : String} {c : Cfg τ} (h : Saved W o m) (hno : ∀ p, ¬ Asked o.saveLp p) {x : File}
    (hx : AskedFor o x) : x ∈ (finish W o m t c).wrote := by
  obtain ⟨f, hf⟩ := (saveOne_ok (file := File.csv)).2 h.1
  obtain ⟨g, hg⟩ := (saveOne_ok (file := File.netcdf)).2 h.2
  have : x ∈ f ++ g := by
    cases x with
    | lp p => exact absurd hx (hno p)
    | csv p => exact List.mem_append.2 (.inl ((saveOne_mem hf _).2 ⟨p, hx.2, rfl⟩))
    | netcdf p => exact List.mem_append.2 (.inr ((saveOne_mem hg _).2 ⟨p, hx.2, rfl⟩))
  unfold finish
  rw [hf]
  simp only [hg]
  split <;> exact this

/-- C92, files: when the command succeeds, every file asked for has been written. -/
theorem C92_written (h : (run W o).exit = 0) (x : File) (hx : AskedFor o x) : x ∈ (run W o).wrote := by
  have hfin : ∀ m t c, (finish W o m t c).exit = 0 → (∀ p, ¬ Asked o.saveLp p) → x ∈ (finish W o m t c).wrote := by
    intro m t c h hno
    refine finish_wrote ⟨?_, ?_⟩ hno hx
    · unfold finish at h
      split at h
      · simp [Outcome.exit] at h
      · rename_i f hf
        exact saveOne_ok.1 ⟨f, hf⟩
    · unfold finish at h
      split at h
      · simp [Outcome.exit] at h
      · split at h
        · simp [Outcome.exit] at h
        · rename_i g hg
          exact saveOne_ok.1 ⟨g, hg⟩
  cases hg : given o.saveLp with
  | some p =>
    have hp := given_some.1 hg
    rw [(C92_lp hp).2.1 h]
    cases x with
    | lp q => rw [show q = p from Option.some.inj (hx.1.symm.trans hp.1)]; simp
    | csv q => exact absurd hp (hx.1 p)
    | netcdf q => exact absurd hp (hx.1 p)
  | none =>
    have hno := given_none.1 hg
    unfold run at h ⊢
    split
    · rename_i e he
      simp [he, Outcome.exit] at h
    · rename_i m hm
      simp only [hm, hg] at h ⊢
      split
      · rename_i e he
        simp [he, Outcome.exit] at h
      · rename_i m' hb
        simp only [hb] at h
        split
        · rename_i e he
          simp [he, Outcome.exit] at h
        · rename_i m'' t c hsol
          simp only [hsol] at h
          exact hfin m'' t c h hno

theorem run_solved {m m' m'' : M} {t : String} (hp : ∀ p, ¬ Asked o.saveLp p)
    (hl : ∀ p, ¬ Asked o.saveLogs p) (hr : Reads W o m)
    (hsp : (∀ p, ¬ Asked o.saveNetcdf p) ∨ W.perSpore m = false) (hb : W.build m = .ok m')
    (hv : Valid W m') (hs : Solves W m' m'' t) : run W o = finish W o m'' t (W.config m') := by
  have hcf : configure W (W.config m') [] = .ok (W.config m') := hv
  unfold run
  simp only [C92_reads.2 hr, given_none.2 hp, solveArgs_nil hl hsp, hb, solveWith, hs.may, hcf, hs.solve]

/-- C92: a solution that is not optimal makes the command fail, if failing was asked for, but every file asked for is
written. -/
theorem C92_not_optimal {m m' m'' : M} {t : String} (hp : ∀ p, ¬ Asked o.saveLp p)
    (hl : ∀ p, ¬ Asked o.saveLogs p) (hr : Reads W o m)
    (hsp : (∀ p, ¬ Asked o.saveNetcdf p) ∨ W.perSpore m = false) (hb : W.build m = .ok m')
    (hv : Valid W m') (hs : Solves W m' m'' t) (ht : t ≠ "optimal") (hsv : Saved W o m'') :
    (run W o).exit = (if o.failWhenInfeasible then 1 else 0) ∧ ∀ x, AskedFor o x → x ∈ (run W o).wrote := by
  rw [run_solved hp hl hr hsp hb hv hs]
  refine ⟨?_, fun x hx => finish_wrote hsv hp hx⟩
  obtain ⟨f, hf⟩ := (saveOne_ok (file := File.csv)).2 hsv.1
  obtain ⟨g, hg⟩ := (saveOne_ok (file := File.netcdf)).2 hsv.2
  unfold finish
  rw [hf]
  simp only [hg]
  cases o.failWhenInfeasible with
  | false => rfl
  | true =>
    rw [if_pos (by simpa using ht)]
    rfl

/-! ### Options that have no effect -/

theorem nested_args {W : World M τ} {o : Options} {m : M} {d : Def}
    (h : nested (solveArgs W o m) = .ok d) : d = .nil ∨ ∃ d', d = .sub "solve" d' .nil := by
  have e1 : Text.split '.' "solve.save_logs" = ["solve", "save_logs"] := by decide
  have e2 : Text.split '.' "solve.spores.save_per_spore_path" = ["solve", "spores", "save_per_spore_path"] := by decide
  unfold nested solveArgs at h
  cases hA : given o.saveLogs with
  | none =>
    rw [hA] at h
    cases hB : given o.saveNetcdf with
    | none => rw [hB] at h; cases h; exact .inl rfl
    | some q =>
      rw [hB] at h
      simp only [] at h
      split at h
      · simp only [List.nil_append, List.map_cons, List.map_nil, e2] at h
        cases h
        exact .inr ⟨_, rfl⟩
      · cases h; exact .inl rfl
  | some p =>
    rw [hA] at h
    cases hB : given o.saveNetcdf with
    | none =>
      rw [hB] at h
      simp only [List.append_nil, List.map_cons, List.map_nil, e1] at h
      cases h
      exact .inr ⟨_, rfl⟩
    | some q =>
      rw [hB] at h
      simp only [] at h
      split at h
      · simp only [List.cons_append, List.nil_append, List.map_cons, List.map_nil, e1, e2] at h
        cases h
        exact .inr ⟨_, rfl⟩
      · simp only [List.append_nil, List.map_cons, List.map_nil, e1] at h
        cases h
        exact .inr ⟨_, rfl⟩

theorem update_unknown {P : Pydantic τ} {c c' : Cfg τ} (hc : HasSolve c) {d : Def}
    (hd : d = .nil ∨ ∃ d', d = .sub "solve" d' .nil) (h : update P c (.sub "solve" d .nil) = .ok c') : c' = c := by
  obtain ⟨t, fs, ts, sf, rfl, h1, h2⟩ := hc
  unfold update at h
  obtain ⟨fs', hb, rfl, -⟩ := updWithDict_base h
  rw [updBase, h1] at hb
  simp only [] at hb
  split at hb
  · cases hb
  · rename_i r hr
    obtain ⟨sf', hs, rfl, -⟩ := updWithDict_base hr
    have hsf : sf' = sf := by
      rcases hd with rfl | ⟨d', rfl⟩
      · rw [updBase] at hs
        cases hs
        rfl
      · rw [updBase, h2] at hs
        simp only [] at hs
        split at hs
        · cases hs
        · rw [updBase] at hs
          cases hs
          rfl
    subst hsf
    rw [updBase] at hb
    cases hb
    rw [setField_same _ _ _ h1]

/-- C92 is false for solver logs: whatever the options `--save_logs` and `--save_netcdf` say, the command either fails or
solves the model with its own configuration. -/
theorem C92_logs_lost (hcfg : ∀ m m', Reads W o m → W.build m = .ok m' → HasSolve (W.config m')) {c : Cfg τ}
    (h : (run W o).solvedWith = some c) :
    ∃ m m', Reads W o m ∧ W.build m = .ok m' ∧ c = W.config m' := by
  unfold run at h
  split at h
  · cases h
  · rename_i m hm
    have hr := C92_reads.1 hm
    split at h
    · split at h
      · cases h
      · split at h <;> cases h
    · split at h
      · cases h
      · rename_i m' hb
        split at h
        · cases h
        · rename_i m'' t c' hsol
          have hcc : c = c' := by
            unfold finish at h
            split at h
            · cases h; rfl
            · split at h
              · cases h; rfl
              · split at h <;> (cases h; rfl)
          subst hcc
          refine ⟨m, m', hr, hb, ?_⟩
          unfold solveWith at hsol
          split at hsol
          · cases hsol
          · split at hsol
            · cases hsol
            · rename_i c1 hc1
              split at hsol
              · cases hsol
              · cases hsol
                unfold configure at hc1
                split at hc1
                · cases hc1
                · rename_i d hd
                  exact update_unknown (hcfg m m' hr hb) (nested_args hd) hc1

/-- C92: if saving the CSV files fails, as it does when the directory exists, the command fails and the NetCDF file
asked for is not written, although the model was solved. -/
theorem C92_csv_first {m m' m'' : M} {t : String} {p : Str} {e : Err} (hp : ∀ p, ¬ Asked o.saveLp p)
    (hl : ∀ p, ¬ Asked o.saveLogs p) (hr : Reads W o m) (hsp : W.perSpore m = false) (hb : W.build m = .ok m')
    (hv : Valid W m') (hs : Solves W m' m'' t) (hc : Asked o.saveCsv p) (he : W.toCsv m'' p = .error e) :
    (run W o).exit = 1 ∧ (run W o).wrote = [] ∧ (run W o).solvedWith = some (W.config m') := by
  have hf : saveOne o.saveCsv .csv (W.toCsv m'') = .error e := by
    simp only [saveOne, given_some.2 hc, he]
  rw [run_solved hp hl hr (.inr hsp) hb hv hs]
  unfold finish
  rw [hf]
  exact ⟨rfl, rfl, rfl⟩

end

/-! ### Examples -/

namespace Demo

/-- A configuration with `init.mode`, `solve.save_logs` and `solve.solver`. -/
def config : Cfg Unit :=
  .base () [("init", .base () [("mode", .leaf () (.leaf (some (.str "base"))))]),
    ("solve", .base () [("save_logs", .leaf () (.leaf none)), ("solver", .leaf () (.leaf (some (.str "cbc"))))])]

/-- Models are the strings "read", "built", "solved".  The directory `old` exists. -/
def world (termination : String) (strict : Bool) : World String Unit where
  pydantic := ⟨fun t v => .ok (.leaf t v), fun _ v => .ok v, fun _ _ => false, strict, fun _ _ => .ok ()⟩
  readText t := if t = [] then .error .valueError else .ok (.leaf "name" (some (.str "x")) .nil)
  readYaml _ s _ := if s = some "unknown".toList then .error .keyError else .ok "read"
  readNetcdf _ := .ok "read"
  config _ := config
  withConfig m _ := m
  perSpore _ := false
  build m := if m = "read" then .ok "built" else .error .modelError
  toLp _ _ := .ok ()
  mayS m := if m = "built" then .ok () else .error .modelError
  solve _ := .ok ("solved", termination)
  toCsv _ p := if p = "old".toList then .error .valueError else .ok ()
  toNetcdf _ _ := .ok ()

def options : Options :=
  ⟨"my.model.yaml".toList, some "high".toList, none, some "{name: x}".toList, some "out.nc".toList, some "new".toList,
    none, none, true⟩

theorem reads (t : String) (b : Bool) (csv logs lp : Option (List Char)) :
    Reads (world t b) { options with saveCsv := csv, saveLogs := logs, saveLp := lp } "read" :=
  .yaml _ _ (.yaml "yaml" rfl (.inl rfl) (.inr ⟨"my.model".toList, rfl⟩)) (fun h => by cases h)
    (fun t h => by cases h; rfl) (by rfl)

theorem asked {o : Option (List Char)} {p q : List Char} (h : o = some p) : Asked o q → q = p := by
  rintro ⟨h', _⟩
  rw [h] at h'
  exact (Option.some.inj h').symm

theorem valid (t : String) (b : Bool) (m : String) : Valid (world t b) m := by
  show update (world t b).pydantic config (.sub "solve" .nil .nil) = .ok config
  simp [update, updWithDict, updBase, config, world, setField, List.lookup]

theorem solves (t : String) (b : Bool) : Solves (world t b) "built" "solved" t := ⟨rfl, rfl⟩

theorem saved (t : String) (b : Bool) (m : String) : Saved (world t b) options m := by
  refine ⟨?_, fun _ _ => rfl⟩
  intro p hp
  rw [asked rfl hp]
  rfl

/-- Optimal: success, both files. -/
example : (run (world "optimal" true) options).exit = 0 ∧
    File.csv "new".toList ∈ (run (world "optimal" true) options).wrote ∧
    File.netcdf "out.nc".toList ∈ (run (world "optimal" true) options).wrote := by
  have h : (run (world "optimal" true) options).exit = 0 :=
    (C92_exit_partial (by rintro p ⟨h, _⟩; cases h) (by rintro p ⟨h, _⟩; cases h) (fun _ _ => .inr rfl)
      (fun _ _ _ _ => valid _ _ _)).2
      ⟨"read", "built", "solved", "optimal", reads _ _ _ _ _, rfl, solves _ _, saved _ _ _, fun _ => rfl⟩
  have hno : ∀ q, ¬ Asked options.saveLp q := by rintro p ⟨h, _⟩; cases h
  exact ⟨h, C92_written h _ ⟨hno, rfl, by decide⟩, C92_written h _ ⟨hno, rfl, by decide⟩⟩

/-- Infeasible: failure, but both files. -/
example : (run (world "infeasible" true) options).exit = 1 ∧
    File.netcdf "out.nc".toList ∈ (run (world "infeasible" true) options).wrote := by
  have hno : ∀ q, ¬ Asked options.saveLp q := by rintro p ⟨h, _⟩; cases h
  have h := C92_not_optimal (W := world "infeasible" true) (o := options) hno (by rintro p ⟨h, _⟩; cases h) (reads _ _ _ _ _)
    (.inr rfl) rfl (valid _ _ _) (solves _ _) (by decide) (saved _ _ _)
  exact ⟨h.1, h.2 _ ⟨hno, rfl, by decide⟩⟩

/-- The LP file only. -/
example : (run (world "optimal" true) { options with saveLp := some "m.lp".toList }).wrote = [.lp "m.lp".toList] :=
  (C92_lp ⟨rfl, by decide⟩).2.1 ((C92_lp ⟨rfl, by decide⟩).1.2 ⟨"read", "built", reads _ _ _ _ _, rfl, rfl⟩)

/-- No file is written for a scenario that does not exist. -/
example : (run (world "optimal" true) { options with scenario := some "unknown".toList }).exit = 1 := by decide

/-- A model in NetCDF is not read with a scenario. -/
example : ∀ m, ¬ Reads (world "optimal" true) { options with modelFile := "m.nc".toList } m := by
  intro m h
  rw [← C92_reads] at h
  have : (match setup (world "optimal" true) { options with modelFile := "m.nc".toList } with
    | .ok _ => false
    | .error _ => true) = true := by decide
  rw [h] at this
  cases this

theorem configure_logs (t : String) (b : Bool) (v : Option Scalar) :
    configure (world t b) config [("solve.save_logs", .leaf v)] =
      if b then .error .valueError else .ok config := by
  have hn : nested [("solve.save_logs", .leaf v)] = .ok (.sub "solve" (.leaf "save_logs" v .nil) .nil) := by
    have e1 : Text.split '.' "solve.save_logs" = ["solve", "save_logs"] := by decide
    simp only [nested, List.map_cons, List.map_nil, e1]
    rfl
  have e1 : ([("init", .base () [("mode", .leaf () (.leaf (some (.str "base"))))]),
      ("solve", .base () [("save_logs", .leaf () (.leaf none)), ("solver", .leaf () (.leaf (some (.str "cbc"))))])] :
      List (String × Cfg Unit)).lookup "solve" =
      some (.base () [("save_logs", .leaf () (.leaf none)), ("solver", .leaf () (.leaf (some (.str "cbc"))))]) := rfl
  have e2 : ([("save_logs", .leaf () (.leaf none)), ("solver", .leaf () (.leaf (some (.str "cbc"))))] :
      List (String × Cfg Unit)).lookup "solve" = none := rfl
  simp only [configure, hn]
  unfold update config
  rw [updWithDict, updBase]
  simp only [e1]
  rw [updWithDict, updBase]
  simp only [e2]
  cases b with
  | true => rfl
  | false =>
    simp only [updBase, world]
    rfl

def withLogs : Options := { options with saveLogs := some "logs".toList }

theorem run_logs (b : Bool) : run (world "optimal" b) withLogs =
    if b then ⟨[], none, .error .valueError⟩
    else ⟨[.csv "new".toList, .netcdf "out.nc".toList], some config, .ok ()⟩ := by
  have hs : setup (world "optimal" b) withLogs = .ok "read" := C92_reads.2 (reads "optimal" b _ _ _)
  have hl : given withLogs.saveLp = none := rfl
  have ha : solveArgs (world "optimal" b) withLogs "read" = [("solve.save_logs", .leaf (some (.str "logs")))] := rfl
  have hb : (world "optimal" b).build "read" = .ok "built" := rfl
  have hm : (world "optimal" b).mayS "built" = .ok () := rfl
  have hc : (world "optimal" b).config "built" = config := rfl
  simp only [run, hs, hl, hb, ha, solveWith, hm, hc, configure_logs]
  cases b <;> rfl

/-- With `--save_logs`, the model is not solved, or solved with a configuration that saves no logs. -/
theorem C92_logs_asked :
    (run (world "optimal" true) withLogs).exit = 1 ∧ (run (world "optimal" true) withLogs).wrote = [] ∧
    (run (world "optimal" false) withLogs).exit = 0 ∧
    (run (world "optimal" false) withLogs).solvedWith = some config ∧
    Config.sub config ["solve", "save_logs"] = some (.leaf () (.leaf none)) := by
  rw [run_logs, run_logs]
  exact ⟨rfl, rfl, rfl, rfl, rfl⟩

/-- The hypotheses of `C92_logs_lost` for it. -/
example (c : Cfg Unit)
    (h : (run (world "optimal" false) withLogs).solvedWith = some c) :
    ∃ m m', Reads (world "optimal" false) withLogs m ∧
      (world "optimal" false).build m = .ok m' ∧ c = (world "optimal" false).config m' :=
  C92_logs_lost (fun _ _ _ _ => ⟨_, _, _, _, rfl, rfl, by decide⟩) h

/-- An existing directory for the CSV files: nothing is saved. -/
example : (run (world "optimal" true) { options with saveCsv := some "old".toList }).exit = 1 ∧
    (run (world "optimal" true) { options with saveCsv := some "old".toList }).wrote = [] := by
  have h := C92_csv_first (W := world "optimal" true) (o := { options with saveCsv := some "old".toList })
    (p := "old".toList) (e := .valueError) (by rintro p ⟨h, _⟩; cases h) (by rintro p ⟨h, _⟩; cases h)
    (reads "optimal" true _ _ _) rfl rfl (valid _ _ _) (solves _ _) ⟨rfl, by decide⟩ rfl
  exact ⟨h.1, h.2.1⟩

end Demo
end Cli
end Calliope
