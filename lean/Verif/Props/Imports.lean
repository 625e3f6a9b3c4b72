import Verif.Proofs.Layers
import Verif.Proofs.Scenario

/-!
# Properties C15 (YAML imports) and C16 (layering of math files)
-/

namespace Calliope
namespace Imports
open Dict
open ModelDefinition (lookup_del1_ne lookup_del1_self)

/-! ## C15 -/

theorem importLoop_WF (read : String → Option (Except Err Def)) (ao : Bool)
    (hr : ∀ k r, read k = some (.ok r) → r.WF) (ks : List String) (d r : Def) (hd : d.WF)
    (h : importLoop read ao d ks = some (.ok r)) : r.WF := by
  induction ks generalizing d with
  | nil =>
    simp only [importLoop, Option.some.injEq, delKey] at h
    split at h
    · cases h; exact WF_del1 hd
    · cases h
  | cons k ks ih =>
    simp only [importLoop] at h
    rcases hk : read k with _ | (e | i)
    · simp [hk] at h
    · simp [hk] at h
    · simp only [hk] at h
      rcases hu : i.union d ao with e | d'
      · simp [hu] at h
      · simp only [hu] at h
        exact ih d' (WF_union _ _ _ _ (hr k i hk) hd hu) h

theorem readYaml_WF (fs : String → Option Def) (rel : String → String → String)
    (hfs : ∀ f d, fs f = some d → d.WF) (fuel : Nat) (path : String) (ao : Bool) (r : Def)
    (h : readYaml fs rel fuel path ao = some (.ok r)) : r.WF := by
  induction fuel generalizing path ao r with
  | zero => simp [readYaml] at h
  | succ fuel ih =>
    simp only [readYaml] at h
    split at h
    · cases h
    · rename_i d hf
      simp only [resolveImports] at h
      split at h
      · split at h
        · simp only [if_true] at h
          exact importLoop_WF _ ao (fun k r hk => ih _ _ r hk) _ _ r (hfs path _ hf) h
        · cases h
      · cases h; exact hfs path _ hf

theorem importLoop_layered (read : String → Option (Except Err Def)) (ao : Bool)
    (ks : List String) (rs layers : List Def) (acc : Def) (h : Layered layers acc)
    (hread : ks.map read = rs.map (fun r => some (.ok r)))
    (hw : ∀ r ∈ rs, r.WF)
    (hfit : (layers ++ rs).Pairwise FitsOn)
    (hao : ao = false → (layers ++ rs).Pairwise (fun a b => ∀ p v w, a.LeafAt p v → ¬ b.LeafAt p w)) :
    ∃ r, Layered (layers ++ rs) r ∧ importLoop read ao acc ks = some (r.delKey ["import"]) := by
  induction ks generalizing rs layers acc with
  | nil =>
    cases rs with
    | nil => exact ⟨acc, by simpa using h, rfl⟩
    | cons => simp at hread
  | cons k ks ih =>
    cases rs with
    | nil => simp at hread
    | cons r rs =>
      simp only [List.map_cons, List.cons.injEq] at hread
      have hfit' := hfit
      rw [List.pairwise_append] at hfit'
      obtain ⟨acc', h1, h2⟩ := layered_snoc h r (hw r (by simp))
        (fun near hn => hfit'.2.2 near hn r (by simp)) ao (by
          intro ha p v w hp hr
          obtain ⟨c, hc, hl⟩ := h.origin p v hp
          have := hao ha
          rw [List.pairwise_append] at this
          exact this.2.2 c hc r (by simp) p v w hl hr)
      obtain ⟨x, hx1, hx2⟩ := ih rs (layers ++ [r]) acc' h2 hread.2 (fun y hy => hw y (by simp [hy]))
        (by simpa using hfit) (by simpa using hao)
      refine ⟨x, by simpa using hx1, ?_⟩
      simp [importLoop, hread.1, h1, hx2]

theorem truthy_import {d : Def} {ks : List String} (hk : ks ≠ [])
    (himp : d.lookup ["import"] = some (.leaf (some (.list ks)))) (ao : Bool)
    (read : String → Option (Except Err Def)) :
    resolveImports read true ao d = importLoop read ao d ks := by
  rw [lookup_single] at himp
  simp [resolveImports, getKeyD, himp, truthy, hk]

/-- C15, partial: when the importing file and the imported files (nearest first) agree on which
paths are dictionaries - and, without `allow_override`, share no leaf - reading succeeds, the
`import` key is gone, every value comes from the nearest file defining it (the importing file
first, then its imports in the order listed), and nothing else appears.
Missing: a scalar in one file at a path that is a dictionary in another
(`C15_importer_loses_value`). -/
theorem C15_importer_wins_partial (fs : String → Option Def) (rel : String → String → String)
    (hfs : ∀ f d, fs f = some d → d.WF) (fuel : Nat) (path : String) (ao : Bool) (d : Def)
    (ks : List String) (rs : List Def) (hfile : fs path = some d)
    (himp : d.lookup ["import"] = some (.leaf (some (.list ks)))) (hk : ks ≠ [])
    (hread : ks.map (fun k => readYaml fs rel fuel (rel path k) false) = rs.map (fun r => some (.ok r)))
    (hfit : (d :: rs).Pairwise FitsOn)
    (hao : ao = false → (d :: rs).Pairwise (fun a b => ∀ p v w, a.LeafAt p v → ¬ b.LeafAt p w)) :
    ∃ r, readYaml fs rel (fuel + 1) path ao = some (.ok r) ∧
      r.lookup ["import"] = none ∧
      (∀ pre b post p a, d :: rs = pre ++ b :: post → (∀ c ∈ pre, c.Silent p) →
        b.LeafAt p (.leaf (some a)) → p.head? ≠ some "import" →
        r.lookup p = some (.leaf (some a))) ∧
      (∀ p, p ≠ [] → (∀ b ∈ d :: rs, b.Silent p) → r.lookup p = none) := by
  have hd := hfs path d hfile
  have hw : ∀ r ∈ rs, r.WF := by
    intro r hr
    have : some (.ok r) ∈ rs.map (fun r => (some (.ok r) : Option (Except Err Def))) :=
      List.mem_map.2 ⟨r, hr, rfl⟩
    rw [← hread] at this
    obtain ⟨k, _, hk⟩ := List.mem_map.1 this
    exact readYaml_WF fs rel hfs fuel _ _ r hk
  obtain ⟨x, hx, hl⟩ := importLoop_layered _ ao ks rs [d] d (layered_one d hd) hread hw
    (by simpa using hfit) (by simpa using hao)
  have hxi : x.lookup ["import"] = some (.leaf (some (.list ks))) :=
    hx.nearest [] d rs ["import"] _ rfl (by simp) (leafAt_scalar himp)
  have hne : ∀ p : Path, p ≠ [] → p.head? ≠ some "import" →
      (x.del1 "import").lookup p = x.lookup p := by
    intro p hp hh
    cases p with
    | nil => exact absurd rfl hp
    | cons k ps => exact lookup_del1_ne _ (by simpa using hh) _
  have hself : ∀ ps, (x.del1 "import").lookup ("import" :: ps) = none := by
    intro ps; exact lookup_del1_self _ hx.wf _ ps
  refine ⟨x.del1 "import", ?_, hself [], ?_, ?_⟩
  · simp only [readYaml, hfile]
    rw [truthy_import hk himp, hl]
    rw [lookup_single] at hxi
    simp [delKey, hxi]
  · intro pre b post p a heq hs hb hh
    rw [hne p hb.1 hh]
    exact hx.nearest pre b post p a (by simpa using heq) hs hb
  · intro p hp hs
    by_cases hh : p.head? = some "import"
    · cases p with
      | nil => exact absurd rfl hp
      | cons k ps => simp at hh; subst hh; exact hself ps
    · rw [hne p hp hh]
      exact hx.silent p hp (by simpa using hs)

/-- Files of the examples: `main` imports `techs` and `nodes`. -/
def exampleFs : String → Option Def
  | "main" => some (.leaf "import" (some (.list ["techs", "nodes"]))
      (.sub "techs" (.leaf "eff" (some (.int 2)) .nil) .nil))
  | "techs" => some (.sub "techs" (.leaf "eff" (some (.int 1)) (.leaf "cap" (some (.int 5)) .nil)) .nil)
  | "nodes" => some (.sub "nodes" (.leaf "n" (some (.int 3)) .nil) .nil)
  | "loop" => some (.leaf "import" (some (.list ["loop"])) .nil)
  | "deep" => some (.leaf "import" (some (.list ["main"])) .nil)
  | _ => none

theorem exampleFs_WF : ∀ f d, exampleFs f = some d → d.WF := by
  intro f d h
  unfold exampleFs at h
  split at h <;> first | (cases h; decide) | cases h

/-- The hypotheses of `C15_importer_wins_partial` hold of `main` with `allow_override`. -/
example : ∃ r, readYaml exampleFs (fun _ k => k) 2 "main" true = some (.ok r) ∧
    r.lookup ["techs", "eff"] = some (.leaf (some (.int 2))) ∧
    r.lookup ["techs", "cap"] = some (.leaf (some (.int 5))) ∧ r.lookup ["import"] = none := by
  let m : Def := .leaf "import" (some (.list ["techs", "nodes"]))
      (.sub "techs" (.leaf "eff" (some (.int 2)) .nil) .nil)
  let t : Def := .sub "techs" (.leaf "eff" (some (.int 1)) (.leaf "cap" (some (.int 5)) .nil)) .nil
  let n : Def := .sub "nodes" (.leaf "n" (some (.int 3)) .nil) .nil
  obtain ⟨r, h1, h2, h3, _⟩ := C15_importer_wins_partial exampleFs (fun _ k => k) exampleFs_WF 1
    "main" true m ["techs", "nodes"] [t, n] rfl (by decide) (by simp) rfl
    (by
      refine List.Pairwise.cons ?_ (List.Pairwise.cons ?_ (List.Pairwise.cons (by simp) .nil))
      · intro b hb
        simp at hb
        rcases hb with rfl | rfl
        · exact clear_all (by decide) (by decide)
        · exact clear_all (by decide) (by decide)
      · intro b hb
        simp at hb
        subst hb
        exact clear_all (by decide) (by decide))
    (by simp)
  refine ⟨r, h1, h3 [] m [t, n] _ _ rfl (by simp) (leafAt_scalar (by decide)) (by simp),
    h3 [m] t [n] _ _ rfl ?_ (leafAt_scalar (by decide)) (by simp), h2⟩
  intro c hc
  simp at hc; subst hc
  exact silent_of _ (by decide) _ (by decide)

/-- C15, partial: without `allow_override`, a value defined in two of the files raises
`KeyError`. -/
theorem C15_duplicate_raises_partial (fs : String → Option Def) (rel : String → String → String)
    (hfs : ∀ f d, fs f = some d → d.WF) (fuel : Nat) (path : String) (d : Def)
    (ks : List String) (rs : List Def) (hfile : fs path = some d)
    (himp : d.lookup ["import"] = some (.leaf (some (.list ks)))) (hk : ks ≠ [])
    (hread : ks.map (fun k => readYaml fs rel fuel (rel path k) false) = rs.map (fun r => some (.ok r)))
    (hfit : (d :: rs).Pairwise FitsOn)
    (pre mid post : List Def) (b c : Def) (heq : d :: rs = pre ++ b :: mid ++ c :: post)
    (p : Path) (a : Scalar) (w : Val Scalar) (hpre : ∀ x ∈ pre, x.Silent p)
    (hb : b.LeafAt p (.leaf (some a))) (hc : c.LeafAt p w) :
    readYaml fs rel (fuel + 1) path false = some (.error .keyError) := by
  have hd := hfs path d hfile
  have hw : ∀ r ∈ rs, r.WF := by
    intro r hr
    have : some (.ok r) ∈ rs.map (fun r => (some (.ok r) : Option (Except Err Def))) :=
      List.mem_map.2 ⟨r, hr, rfl⟩
    rw [← hread] at this
    obtain ⟨k, _, hk⟩ := List.mem_map.1 this
    exact readYaml_WF fs rel hfs fuel _ _ r hk
  have loop : ∀ (ks : List String) (rs layers mid pre : List Def) (acc : Def), Layered layers acc →
      ks.map (fun k => readYaml fs rel fuel (rel path k) false) = rs.map (fun r => some (.ok r)) →
      (∀ r ∈ rs, r.WF) → (layers ++ rs).Pairwise FitsOn →
      layers ++ rs = pre ++ b :: mid ++ c :: post → layers.length ≤ (pre ++ b :: mid).length →
      (∀ x ∈ pre, x.Silent p) →
      importLoop (fun k => readYaml fs rel fuel (rel path k) false) false acc ks =
        some (.error .keyError) := by
    intro ks
    induction ks with
    | nil =>
      intro rs layers mid pre acc _ hread _ _ heq hlen _
      cases rs with
      | nil =>
        simp at heq; subst heq
        simp at hlen
        omega
      | cons => simp at hread
    | cons k ks ih =>
      intro rs layers mid pre acc h hread hw hfit heq hlen hpre
      cases rs with
      | nil => simp at hread
      | cons r rs =>
        simp only [List.map_cons, List.cons.injEq] at hread
        simp only [importLoop, hread.1]
        rcases hu : r.union acc false with e | acc'
        · rw [union_err false r acc h.wf e hu]
        · simp only
          have hfit' := hfit
          rw [List.pairwise_append] at hfit'
          have hno : ∀ p v w, acc.LeafAt p v → ¬ r.LeafAt p w := by
            intro p v w h1 h2
            obtain ⟨e, he⟩ : ∃ e, r.union acc false = .error e :=
                unionLoop_twice _ _ _ _ ⟨p, (mem_keysNested acc h.wf p).2 ⟨v, h1⟩,
                  (mem_keysNested r (hw r (by simp)) p).2 ⟨w, h2⟩⟩
            rw [he] at hu; cases hu
          obtain ⟨acc2, h1, h2⟩ := layered_snoc h r (hw r (by simp))
            (fun near hn => hfit'.2.2 near hn r (by simp)) false (fun _ => hno)
          rw [hu] at h1; cases h1
          by_cases hl : layers.length = (pre ++ b :: mid).length
          · exfalso
            obtain ⟨h3, h4⟩ := List.append_inj heq hl
            cases h4
            apply hno p (.leaf (some a)) w _ hc
            apply leafAt_scalar
            exact h.nearest pre b mid p a (by rw [h3]) hpre hb
          · exact ih rs (layers ++ [r]) mid pre acc' h2 hread.2 (fun y hy => hw y (by simp [hy]))
              (by simpa using hfit) (by simpa using heq) (by simp at hlen hl ⊢; omega) hpre
  simp only [readYaml, hfile]
  rw [truthy_import hk himp]
  exact loop ks rs [d] mid pre d (layered_one d hd) hread hw (by simpa using hfit)
    (by simpa using heq) (by simp; omega) hpre

example : readYaml exampleFs (fun _ k => k) 2 "main" false = some (.error .keyError) := by decide

/-- C15: files that import each other in a circle are never read successfully, whatever else
they contain. -/
theorem C15_circular_never_succeeds (fs : String → Option Def) (rel : String → String → String)
    (S : String → Prop)
    (hS : ∀ f, S f → ∃ d ks k, fs f = some d ∧
      d.lookup ["import"] = some (.leaf (some (.list ks))) ∧ k ∈ ks ∧ S (rel f k))
    (f : String) (hf : S f) (fuel : Nat) (ao : Bool) (r : Def) :
    readYaml fs rel fuel f ao ≠ some (.ok r) := by
  induction fuel generalizing f ao r with
  | zero => simp [readYaml]
  | succ fuel ih =>
    obtain ⟨d, ks, k, h1, h2, h3, h4⟩ := hS f hf
    simp only [readYaml, h1]
    rw [truthy_import (by rintro rfl; simp at h3) h2]
    have loop : ∀ (ks : List String) (d : Def), k ∈ ks →
        importLoop (fun k => readYaml fs rel fuel (rel f k) false) ao d ks ≠ some (.ok r) := by
      intro ks
      induction ks with
      | nil => intro d h; simp at h
      | cons k' ks ihk =>
        intro d hk
        simp only [importLoop]
        rcases hr : readYaml fs rel fuel (rel f k') false with _ | (e | i)
        · simp
        · simp
        · simp only
          rcases hu : i.union d ao with e | d'
          · simp
          · simp only
            rw [List.mem_cons] at hk
            rcases hk with rfl | hk
            · exact absurd hr (ih _ h4 false i)
            · exact ihk d' hk
    exact loop ks d h3

example : ∃ S : String → Prop, S "loop" ∧ ∀ f, S f → ∃ d ks k, exampleFs f = some d ∧
    d.lookup ["import"] = some (.leaf (some (.list ks))) ∧ k ∈ ks ∧ S ((fun _ k => k) f k) :=
  ⟨(· = "loop"), rfl, by rintro _ rfl; exact ⟨_, _, "loop", rfl, rfl, by simp, rfl⟩⟩

/-- `allow_override` is not handed on to nested imports: a file that imports `main` cannot be
read with `allow_override=True`, although `main` itself can. -/
theorem C15_override_not_passed_on :
    readYaml exampleFs (fun _ k => k) 3 "deep" true = some (.error .keyError) ∧
    (∃ r, readYaml exampleFs (fun _ k => k) 3 "main" true = some (.ok r)) := by
  refine ⟨by decide, _, rfl⟩

/-- C15 is false of the code without the condition of the partial theorem: a file may set
`a.b.c`, import another file in which `a.x` is a number where the first has a dictionary, and
lose `a.b.c`, even though the importing file takes precedence. -/
theorem C15_importer_loses_value :
    ∃ (fs : String → Option Def) (d r : Def), fs "f" = some d ∧ d.WF ∧
      d.lookup ["a", "b"] = some (.leaf (some (.int 1))) ∧
      readYaml fs (fun _ k => k) 2 "f" true = some (.ok r) ∧ r.lookup ["a", "b"] = none := by
  refine ⟨fun n => if n = "f" then some (.leaf "import" (some (.list ["g"])) (.sub "a"
      (.leaf "b" (some (.int 1)) (.sub "x" (.leaf "y" (some (.int 2)) .nil) .nil)) .nil))
    else some (.sub "a" (.leaf "x" (some (.int 7)) .nil) .nil), _,
    .sub "a" (.sub "x" (.leaf "y" (some (.int 2)) .nil) .nil) .nil, rfl, ?_⟩
  refine ⟨by decide, by decide, by decide, by decide⟩

/-! ## C16 -/

theorem applyMath_layered (dataset : Def) (names : List String) (ms layers : List Def) (acc : Def)
    (h : Layered layers acc)
    (hget : names.map (fun n => dataset.lookup [n]) = ms.map (fun m => some (.dict m)))
    (hw : ∀ m ∈ ms, m.WF) (hfit : (ms.reverse ++ layers).Pairwise FitsOn) :
    ∃ r, applyMath dataset acc names = .ok r ∧ Layered (ms.reverse ++ layers) r := by
  induction names generalizing ms layers acc with
  | nil =>
    cases ms with
    | nil => exact ⟨acc, rfl, by simpa using h⟩
    | cons => simp at hget
  | cons n names ih =>
    cases ms with
    | nil => simp at hget
    | cons m ms =>
      simp only [List.map_cons, List.cons.injEq] at hget
      have hg : dataset.get1 n = some (.dict m) := by rw [← lookup_single]; exact hget.1
      have hfit' : (m :: layers).Pairwise FitsOn := by
        simp only [List.reverse_cons, List.append_assoc, List.singleton_append] at hfit
        exact (List.pairwise_append.1 hfit).2.1
      obtain ⟨acc', h1, h2⟩ := layered_cons h m (hw m (by simp)) (List.pairwise_cons.1 hfit').1
      obtain ⟨r, h3, h4⟩ := ih ms (m :: layers) acc' h2 hget.2 (fun x hx => hw x (by simp [hx]))
        (by simpa using hfit)
      refine ⟨r, by simp [applyMath, hg, h1, h3], by simpa using h4⟩

/-- C16, partial: when all requested math files exist and agree on which paths are
dictionaries, building succeeds and every value is the one of the overwrite dictionary if it
defines it, else of the last file in the priority list that does; nothing else appears.
`layers` lists overwrite (if given) and the files, last first.
Missing: the dictionary/scalar clashes of C02. -/
theorem C16_last_wins_partial (dataset : Def) (hd : dataset.WF) (priority : List String)
    (ms : List Def) (overwrite : Option Def) (hov : ∀ o, overwrite = some o → o.WF)
    (hget : priority.map (fun n => dataset.lookup [n]) = ms.map (fun m => some (.dict m)))
    (layers : List Def) (hl : layers = overwrite.toList ++ ms.reverse)
    (hfit : layers.Pairwise FitsOn) :
    ∃ r, buildMath priority dataset overwrite = .ok r ∧
      (∀ pre b post p a, layers = pre ++ b :: post → (∀ c ∈ pre, c.Silent p) →
        b.LeafAt p (.leaf (some a)) → r.lookup p = some (.leaf (some a))) ∧
      (∀ p, p ≠ [] → (∀ b ∈ layers, b.Silent p) → r.lookup p = none) := by
  have hw : ∀ m ∈ ms, m.WF := by
    intro m hm
    have : some (.dict m) ∈ ms.map (fun m => (some (.dict m) : Option (Val Scalar))) :=
      List.mem_map.2 ⟨m, hm, rfl⟩
    rw [← hget] at this
    obtain ⟨n, _, hn⟩ := List.mem_map.1 this
    rw [lookup_single] at hn
    exact WF_get1 hd hn
  have hfit0 : (ms.reverse ++ []).Pairwise FitsOn := by
    rw [hl] at hfit
    simpa using (List.pairwise_append.1 hfit).2.1
  obtain ⟨r, h1, h2⟩ := applyMath_layered dataset priority ms [] .nil layered_nil hget hw hfit0
  rw [List.append_nil] at h2
  cases overwrite with
  | none =>
    simp at hl; subst hl
    exact ⟨r, by simp [buildMath, h1], h2.nearest, h2.silent⟩
  | some o =>
    simp at hl; subst hl
    have ho := hov o rfl
    obtain ⟨r', h3, h4⟩ := layered_cons h2 o ho (List.pairwise_cons.1 hfit).1
    by_cases hon : o = .nil
    · subst hon
      refine ⟨r, by simp [buildMath, h1], ?_, ?_⟩
      · intro pre b post p a heq hs hb
        cases pre with
        | nil =>
          simp at heq
          obtain ⟨rfl, rfl⟩ := heq
          have := hb.2.1
          rw [lookup_emptyDict p hb.1] at this; cases this
        | cons x pre =>
          simp at heq
          obtain ⟨rfl, heq⟩ := heq
          exact h2.nearest pre b post p a (by rw [heq]; simp) (fun c hc => hs c (by simp [hc])) hb
      · intro p hp hs
        exact h2.silent p hp (fun b hb => hs b (by simp [hb]))
    · exact ⟨r', by simp [buildMath, h1, hon, h3], h4.nearest, h4.silent⟩

/-- Two math files, the second changing the domain of a variable; an overwrite dictionary adds
a bound. -/
def exampleMath : Def :=
  .sub "base" (.sub "variables" (.sub "cap" (.leaf "domain" (some (.str "real"))
      (.leaf "default" (some (.int 0)) .nil)) .nil) .nil)
    (.sub "milp" (.sub "variables" (.sub "cap" (.leaf "domain" (some (.str "integer")) .nil) .nil) .nil) .nil)

example : ∃ r, buildMath (mathPriority "base" ["milp"]) exampleMath
      (some (.sub "variables" (.sub "cap" (.leaf "max" (some (.int 9)) .nil) .nil) .nil)) = .ok r ∧
    r.lookup ["variables", "cap", "domain"] = some (.leaf (some (.str "integer"))) ∧
    r.lookup ["variables", "cap", "default"] = some (.leaf (some (.int 0))) ∧
    r.lookup ["variables", "cap", "max"] = some (.leaf (some (.int 9))) := by
  let b : Def := .sub "variables" (.sub "cap" (.leaf "domain" (some (.str "real"))
      (.leaf "default" (some (.int 0)) .nil)) .nil) .nil
  let m : Def := .sub "variables" (.sub "cap" (.leaf "domain" (some (.str "integer")) .nil) .nil) .nil
  let o : Def := .sub "variables" (.sub "cap" (.leaf "max" (some (.int 9)) .nil) .nil) .nil
  obtain ⟨r, h1, h2, _⟩ := C16_last_wins_partial exampleMath (by decide) (mathPriority "base" ["milp"])
    [b, m] (some o) (by rintro _ h; cases h; decide) (by decide) [o, m, b] rfl
    (by
      refine List.Pairwise.cons ?_ (List.Pairwise.cons ?_ (List.Pairwise.cons (by simp) .nil))
      · intro x hx
        simp at hx
        rcases hx with rfl | rfl <;> exact clear_all (by decide) (by decide)
      · intro x hx
        simp at hx
        subst hx
        exact clear_all (by decide) (by decide))
  refine ⟨r, h1, h2 [o] m [b] _ _ rfl ?_ (leafAt_scalar (by decide)),
    h2 [o, m] b [] _ _ rfl ?_ (leafAt_scalar (by decide)),
    h2 [] o [m, b] _ _ rfl (by simp) (leafAt_scalar (by decide))⟩
  · intro c hc; simp at hc; subst hc; exact silent_of _ (by decide) _ (by decide)
  · intro c hc; simp at hc
    rcases hc with rfl | rfl <;> exact silent_of _ (by decide) _ (by decide)

/-- C16: a name in the priority list that is not an initialised math file makes `build_math`
raise `ModelError`, whatever the other files contain. -/
theorem C16_unknown_name (dataset : Def) (hd : dataset.WF)
    (hdict : ∀ n v, dataset.lookup [n] = some v → ∃ m, v = .dict m)
    (priority : List String) (overwrite : Option Def)
    (n : String) (hn : n ∈ priority) (hmiss : dataset.lookup [n] = none) :
    buildMath priority dataset overwrite = .error .modelError := by
  have loop : ∀ (names : List String) (acc : Def), n ∈ names →
      applyMath dataset acc names = .error .modelError := by
    intro names
    induction names with
    | nil => intro _ h; simp at h
    | cons k names ih =>
      intro acc h
      simp only [applyMath]
      rcases hg : dataset.get1 k with _ | (x | m)
      · rfl
      · obtain ⟨m, hm⟩ := hdict k _ (by rw [lookup_single]; exact hg); cases hm
      · simp only
        have hne : n ≠ k := by
          rintro rfl; rw [lookup_single, hg] at hmiss; cases hmiss
        rcases hu : acc.union m true with e | acc'
        · rw [union_err true acc m (WF_get1 hd hg) e hu]
        · exact ih acc' (by simpa [hne] using h)
  simp [buildMath, loop priority .nil hn]

example : buildMath (mathPriority "operate" []) exampleMath none = .error .modelError :=
  C16_unknown_name exampleMath (by decide) (by
    intro n v h
    rw [lookup_single] at h
    simp only [exampleMath, get1] at h
    split at h
    · cases h; exact ⟨_, rfl⟩
    · split at h
      · cases h; exact ⟨_, rfl⟩
      · cases h) _ _ "operate" (by decide) (by decide)

/-- C16: the priority list is base, then the mode unless it is base, then the user's extra math
in the user's order. -/
theorem C16_priority (mode : String) (extra : List String) :
    (mode = "base" → mathPriority mode extra = "base" :: extra) ∧
    (mode ≠ "base" → mathPriority mode extra = "base" :: mode :: extra) := by
  constructor <;> intro h <;> simp [mathPriority, h]

end Imports
end Calliope
