import Verif.Proofs.LatexMeaning
import Verif.Proofs.LatexText

/-!
# C105: documented math has the indices with which arrays are evaluated
-/

namespace Calliope
namespace LatexIndex

open Grid (Label Arr)
open Expr

section

variable {V : Type} [AddCommMonoid V] {E : Env V} {it : String → String} {D : List String}
  {slices : String → Option SliceDef} {subs : String → Option (Ex V)} {t : Ex V} {a : Arr (Option V)}

theorem trueArr_nodup : trueArr.dims.Nodup := List.nodup_nil

/-- C105 (partial): what is printed for an expression says, at every point, what the array of the expression holds
there. -/
theorem C105_printed_partial (hE : WellFormed E) (hI : Iterators E it D) (hok : Ok (inline subs t))
    (hd : Documented E slices D (inline subs t)) (h : evalSide E slices subs trueArr t = .ok a)
    (ρ : Point) (hρ : In E D ρ) : (printed E slices it D (inline subs t)).says E ρ = a.at ρ := by
  have hl := (C68_returns hE trueArr_nodup hok).1 ⟨a, h⟩
  rw [(C68_meaning hE trueArr_nodup hok h).2 ρ]
  exact printed_says hE hI _ hok hl hd ρ hρ

/-- C105 (partial): the same of the string that the code writes, with regular expressions: it is the text of math that
says what the array holds. -/
theorem C105_latex_partial {num : V → String} (hE : WellFormed E) (hI : Iterators E it D) (hok : Ok (inline subs t))
    (hd : Documented E slices D (inline subs t)) (hw : ∀ d, Word (it d).toList)
    (ht : (printed E slices it D (inline subs t)).Tidy it num) (h : evalSide E slices subs trueArr t = .ok a) :
    ∃ T : Text V, latex E slices it D num (inline subs t) = (T.text it num).toList ∧
      ∀ ρ, In E D ρ → T.says E ρ = a.at ρ :=
  ⟨_, latex_text hw _ ht, fun ρ hρ => C105_printed_partial hE hI hok hd h ρ hρ⟩

mutual
theorem apart_nil : ∀ (t : Ex V), Apart [] t
  | .num _ | .comp _ | .sliced _ _ | .sub _ => by simp only [Apart]
  | .sign _ t => by simp only [Apart]; exact apart_nil t
  | .chain t r => by simp only [Apart]; exact ⟨apart_nil t, apartRest_nil r⟩
  | .cond t c => by simp only [Apart]; exact ⟨apart_nil t, apart_nil c⟩
  | .roll _ _ | .groupSum _ _ _ | .groupDatetime _ _ _ => by simp only [Apart]
  | .sum t over => by simp only [Apart]; exact .inr ⟨fun _ _ => List.not_mem_nil, apart_nil t⟩
  | .reduceCarrier t _ => by simp only [Apart]; exact .inr ⟨List.not_mem_nil, apart_nil t⟩
  | .sumNextN t over _ => by simp only [Apart]; exact .inr ⟨List.not_mem_nil, apart_nil t⟩
  | .select t ls => by simp only [Apart]; exact .inr ⟨fun _ _ => List.not_mem_nil, apart_nil t⟩
theorem apartRest_nil : ∀ (r : ExRest V), ApartRest [] r
  | .one _ t => by simp only [ApartRest]; exact apart_nil t
  | .more _ t r => by simp only [ApartRest]; exact ⟨apart_nil t, apartRest_nil r⟩
end

/-- C105 (partial): the same in an equation with a condition, at the points for which it holds, if whatever combines
several points does so along dimensions outside `foreach` or combines values without operators. -/
theorem C105_equation_partial (hE : WellFormed E) (hI : Iterators E it D) (hok : Ok (inline subs t))
    (hd : Documented E slices D (inline subs t)) {w : Arr Bool} {b : Arr (Option V)} (hw : w.dims.Nodup)
    (hap : Apart w.dims (inline subs t)) (h : evalSide E slices subs trueArr t = .ok a)
    (hb : evalSide E slices subs w t = .ok b) (ρ : Point) (hρ : In E D ρ) (hm : w.at ρ = true) :
    (printed E slices it D (inline subs t)).says E ρ = b.at ρ := by
  rw [C105_printed_partial hE hI hok hd h ρ hρ]
  exact (C68_independent_partial hE hw trueArr_nodup hok hap (apart_nil _) hb h ρ hm rfl).symm

/-! ### Indices are moved once -/

theorem addAll_twice {c c' : String → Option Suffix} (h : ∀ s, c s = none → c' s = none) :
    ∀ (a : Items), (a.addAll c).addAll c' = a.addAll c
  | .nil => rfl
  | .cons x r => by
      simp only [Items.addAll, addAll_twice h r]
      congr 1
      cases x with
      | it s =>
        cases hs : c s with
        | none => simp only [Item.add, hs, h s hs]
        | some u => cases u <;> simp only [Item.add, hs]
      | _ => rfl

mutual
theorem Item.inside_twice {c c' : String → Option Suffix} (h : ∀ s, c s = none → c' s = none)
    (hs : ∀ s n sub, c s ≠ some (.look n sub)) : ∀ (x : Item), (x.inside c).inside c' = x.inside c
  | .it _ | .moved _ _ | .fixed _ _ | .nth _ _ _ => by simp only [Item.inside]
  | .looked s n sub b => by
      simp only [Item.inside]
      by_cases hb : sub.braced = true
      · simp only [if_pos hb, braced_inside, Items.inside_twice h hs sub]
      · simp only [if_neg hb, braced_addAll hs, addAll_twice h sub]
theorem Items.inside_twice {c c' : String → Option Suffix} (h : ∀ s, c s = none → c' s = none)
    (hs : ∀ s n sub, c s ≠ some (.look n sub)) : ∀ (a : Items), (a.inside c).inside c' = a.inside c
  | .nil => by simp only [Items.inside]
  | .cons x r => by simp only [Items.inside, x.inside_twice h hs, r.inside_twice h hs]
end

theorem Items.update_twice {c c' : String → Option Suffix} (h : ∀ s, c s = none → c' s = none)
    (hs : ∀ s n sub, c s ≠ some (.look n sub)) (a : Items) : (a.update c).update c' = a.update c := by
  unfold Items.update
  by_cases hb : a.braced = true
  · simp only [if_pos hb, braced_inside, a.inside_twice h hs]
  · simp only [if_neg hb, braced_addAll hs, addAll_twice h a]

theorem Text.update_twice {c c' : String → Option Suffix} (h : ∀ s, c s = none → c' s = none)
    (hs : ∀ s n sub, c s ≠ some (.look n sub)) : ∀ (t : Text V), (t.update c).update c' = t.update c
  | .num _ | .name _ => rfl
  | .comp n sub => by simp only [Text.update, Items.update_twice h hs]
  | .un u t => by
      simp only [Text.update, Text.update_twice h hs t]
      cases u <;> simp only [Un.update, Items.update_twice h hs]
  | .bin b t u => by simp only [Text.update, Text.update_twice h hs t, Text.update_twice h hs u]

theorem shiftSuffix_one {d s : String} {n m : Int} (h : shiftSuffix it [(d, n)] s = none) :
    shiftSuffix it [(d, m)] s = none := by
  simp only [shiftSuffix, keyed, List.reverse_singleton, List.find?_singleton] at h ⊢
  split at h
  · cases h
  · rename_i hd
    simp only [hd]
    rfl

/-- C105 fails: an array that is rolled twice is printed as if it were rolled once, whatever the second number is. -/
theorem C105_roll_twice (t : Ex V) (d : String) (n m : Int) :
    printed E slices it D (.roll (.roll t [(d, n)]) [(d, m)]) = printed E slices it D (.roll t [(d, n)]) := by
  simp only [printed]
  exact Text.update_twice (fun s hs => shiftSuffix_one hs) (shiftSuffix_no_look _) _

/-- C105 fails: looking up labels in an array that is rolled is not printed at all. -/
theorem C105_select_rolled (t : Ex V) (d l : String) (n : Int) :
    printed E slices it D (.select (.roll t [(d, n)]) [(d, l)]) = printed E slices it D (.roll t [(d, n)]) := by
  simp only [printed]
  refine Text.update_twice (fun s hs => ?_) (shiftSuffix_no_look _) _
  simp only [shiftSuffix, lookSuffix, keyed, List.reverse_singleton, List.find?_singleton] at hs ⊢
  split at hs
  · cases hs
  · rename_i hd
    simp only [hd]
    rfl

/-- C105 fails: a sum over a dimension that the array does not have is printed as a sum of as many equal terms as the
dimension has labels, and evaluated as the array itself (`C46_absent`). -/
theorem C105_absent (hE : WellFormed E) (hI : Iterators E it D) (hok : Ok (inline subs t))
    (hd : Documented E slices D (inline subs t)) (h : evalSide E slices subs trueArr t = .ok a) {d : String}
    (hda : d ∉ a.dims) (ρ : Point) (hρ : In E D ρ) :
    (printed E slices it D (inline subs (.sum t [d]))).says E ρ =
      total (List.replicate (E.coords d).length (a.at ρ)) := by
  simp only [Expr.inline, printed, Text.says, Un.says, points]
  congr 1
  rw [List.map_flatMap]
  have : ∀ l ∈ E.coords d, List.map (Text.says E (printed E slices it D (inline subs t))) [set ρ d l] = [a.at ρ] := by
    intro l hl
    rw [List.map_singleton, C105_printed_partial hE hI hok hd h]
    · congr 1
      show a.val _ = a.val _
      congr 1
      apply List.map_congr_left
      intro e he
      exact set_other _ _ (fun hx => hda (hx ▸ he))
    · intro e he
      simp only [Expr.set]
      split
      · subst_vars; exact hl
      · exact hρ e he
  rw [List.flatMap_congr this]
  generalize E.coords d = l
  induction l with
  | nil => rfl
  | cons x l ih => rw [List.flatMap_cons, ih]; rfl

end

/-! ### Demo -/

section Demo

/-- Two nodes, three time steps; `x` over nodes and time steps, `y` over time steps; the lookup array `far` gives a time
step for each time step, `home` a node for each time step, `half` a group for each time step and `twin` a node for each
node. -/
def demoDoc : Env Int where
  coords := fun d => if d = "nodes" then ["n", "m"] else if d = "timesteps" then ["1", "2", "3"]
    else if d = "halves" then ["a", "b"] else if d = "techs" then ["p", "q"] else []
  comp := fun n =>
    if n = "x" then some ⟨⟨["nodes", "timesteps"], fun c =>
      if c = ["n", "1"] then some 1 else if c = ["n", "2"] then some 2 else if c = ["n", "3"] then some 4
      else if c = ["m", "1"] then some 10 else if c = ["m", "2"] then some 20 else some 40⟩, none⟩
    else if n = "y" then some ⟨⟨["timesteps"], fun c =>
      if c = ["1"] then some 1 else if c = ["2"] then some 2 else some 4⟩, none⟩
    else if n = "z" then some ⟨⟨["nodes"], fun c => if c = ["n"] then some 5 else some 7⟩, none⟩
    else none
  isDim := fun _ => false
  lookup := fun n =>
    if n = "far" then some ⟨["timesteps"], fun c => if c = ["1"] then some "3" else some "2"⟩
    else if n = "home" then some ⟨["timesteps"], fun c => if c = ["1"] then some "n" else some "m"⟩
    else if n = "half" then some ⟨["timesteps"], fun c => if c = ["3"] then some "b" else some "a"⟩
    else if n = "twin" then some ⟨["nodes"], fun _ => some "n"⟩
    else none
  carrier := fun _ => none
  period := fun _ l => l
  op := intOp
  neg := fun v => v.map (fun x => -x)
  truthy := fun x => x != 0

def demoSlices (n : String) : Option SliceDef := if n = "h" then some (.lookup "home" []) else none

/-- The iterator of a dimension, in the demo. -/
def singular (d : String) : String :=
  if d = "nodes" then "node" else if d = "timesteps" then "timestep" else if d = "halves" then "half" else "tech"

def demoDims : List String := ["nodes", "timesteps", "halves", "techs"]

/-- The point: node `n`, time step 1, half `a`. -/
def demoPoint : Point := fun d => if d = "nodes" then "n" else if d = "timesteps" then "1"
  else if d = "halves" then "a" else "p"

theorem demoDoc_wellFormed : WellFormed demoDoc := by
  refine ⟨?_, ?_, ?_⟩
  · intro n c h
    simp only [demoDoc] at h
    split at h
    · cases h; decide
    · split at h
      · cases h; decide
      · split at h
        · cases h; decide
        · cases h
  · intro n c h
    simp only [demoDoc] at h
    split at h
    · cases h; decide
    · split at h
      · cases h; decide
      · split at h
        · cases h; decide
        · split at h
          · cases h; decide
          · cases h
  · intro n c h
    cases h

theorem demoDoc_iterators : Iterators demoDoc singular demoDims := by
  refine ⟨by decide, by decide, ?_, ?_⟩
  · intro n c h
    simp only [demoDoc] at h
    split at h
    · cases h; decide
    · split at h
      · cases h; decide
      · split at h
        · cases h; decide
        · cases h
  · intro n c h
    simp only [demoDoc] at h
    split at h
    · cases h; decide
    · split at h
      · cases h; decide
      · split at h
        · cases h; decide
        · split at h
          · cases h; decide
          · cases h

/-- `sum(roll(x, timesteps=1), over=nodes) + group_sum(y, half, halves)`, where `y` is taken at another time step. -/
def demoTerm : Ex Int :=
  .chain (.sum (.roll (.comp "x") [("timesteps", 1)]) ["nodes"])
    (.one .plus (.groupSum (.select (.comp "y") [("timesteps", "far")]) "half" "halves"))

example : (printed demoDoc demoSlices singular demoDims demoTerm).text singular toString =
    "\\sum\\limits_{\\substack{\\text{node} \\in \\text{nodes}}} (\\textbf{x}_\\text{node,timestep-1}) + " ++
    "\\sum\\limits_{\\substack{\\text{timestep} \\in \\text{timesteps} \\\\ \\text{ if } " ++
    "\\textit{half}_\\text{timestep} = \\text{half}}} (\\textbf{y}_\\text{timestep=\\textit{far}_\\text{timestep}[timestep]})" := by
  decide +kernel

example : latex demoDoc demoSlices singular demoDims toString demoTerm =
    ((printed demoDoc demoSlices singular demoDims demoTerm).text singular toString).toList := by decide +kernel

/-- What `C105_printed_partial` asks for. -/
theorem demoTerm_documented : Documented demoDoc demoSlices demoDims demoTerm := by
  refine ⟨⟨⟨trivial, by decide, by decide, trivial⟩, by decide, by decide⟩, ⟨trivial, by decide, trivial, .inr ⟨_, rfl⟩⟩, ?_⟩
  rintro ⟨g, hg, hm⟩
  cases hg
  revert hm
  decide

example : Ok demoTerm ∧ In demoDoc demoDims demoPoint ∧
    (∃ a, evalSide demoDoc demoSlices (fun _ => none) trueArr demoTerm = .ok a ∧ a.at demoPoint = some 50) ∧
    (printed demoDoc demoSlices singular demoDims demoTerm).says demoDoc demoPoint = some 50 := by
  refine ⟨⟨trivial, trivial, by decide⟩, by unfold In; decide, ⟨_, rfl, by decide +kernel⟩, by decide +kernel⟩

/-- What `C105_latex_partial` asks for besides. -/
example : (∀ d, Word (singular d).toList) ∧
    (printed demoDoc demoSlices singular demoDims demoTerm).Tidy singular (fun v : Int => toString v) := by
  constructor
  · intro d
    unfold singular
    split
    · unfold Word Clean; decide
    · split
      · unfold Word Clean; decide
      · split <;> (unfold Word Clean; decide)
  · refine ⟨⟨?_, ?_, ?_, ?_, trivial⟩, ⟨?_, ?_, ⟨?_, trivial⟩, ?_⟩, ?_, ⟨?_, ?_, ?_, trivial⟩, trivial⟩
    all_goals first | (unfold Clean; decide +kernel) | skip
    · intro d hd
      obtain rfl : d = "nodes" := by simpa using hd
      unfold Clean; decide +kernel
    · show Clean (singular "nodes").toList
      unfold Clean; decide +kernel
    · show Clean (singular "timesteps").toList
      unfold Clean; decide +kernel
    · show Clean (singular "timesteps").toList
      unfold Clean; decide +kernel
    · show Clean (singular "timesteps").toList
      unfold Clean; decide +kernel

/-- A condition over time steps, which does not hold for time step 2. -/
def demoWhereDoc : Arr Bool := ⟨["timesteps"], fun c => c != ["2"]⟩

/-- What `C105_equation_partial` asks for besides: here with `x`, rolled, plus a sum over nodes. -/
example :
    let t : Ex Int := .chain (.roll (.comp "x") [("timesteps", 1)]) (.one .plus (.sum (.comp "x") ["nodes"]))
    Documented demoDoc demoSlices demoDims t ∧ Ok t ∧ Apart demoWhereDoc.dims t ∧ demoWhereDoc.dims.Nodup ∧
    (∃ a, evalSide demoDoc demoSlices (fun _ => none) trueArr t = .ok a) ∧
    (∃ b, evalSide demoDoc demoSlices (fun _ => none) demoWhereDoc t = .ok b ∧ b.at demoPoint = some 15) ∧
    demoWhereDoc.at demoPoint = true ∧ (printed demoDoc demoSlices singular demoDims t).says demoDoc demoPoint = some 15 := by
  refine ⟨⟨⟨trivial, by decide, by decide, trivial⟩, trivial, by decide, by decide⟩, ⟨trivial, trivial⟩,
    ⟨trivial, .inl trivial⟩, by decide, ⟨_, rfl⟩, ⟨_, rfl, by decide +kernel⟩, by decide, by decide +kernel⟩

/-- An array sliced by labels that depend on the time step. -/
example : (printed demoDoc demoSlices singular demoDims (.sliced "x" [("nodes", .ref "h")])).text singular toString =
    "\\textbf{x}_\\text{node=\\textit{home}_\\text{timestep},timestep}" := by decide +kernel

/-- What the array of an expression holds at a point, and what is printed says there. -/
def built (t : Ex Int) (ρ : Point) : Option (Option Int) :=
  match evalSide demoDoc demoSlices (fun _ => none) trueArr t with
  | .ok a => some (a.at ρ)
  | .error _ => none
def said (t : Ex Int) (ρ : Point) : Option Int := (printed demoDoc demoSlices singular demoDims t).says demoDoc ρ

/-- C105 fails: `roll(roll(y, timesteps=1), timesteps=1)` is `y` two time steps before, and printed as one. -/
theorem C105_roll_twice_value :
    let t : Ex Int := .roll (.roll (.comp "y") [("timesteps", 1)]) [("timesteps", 1)]
    built t demoPoint = some (some 2) ∧ said t demoPoint = some 4 := by
  constructor <;> decide +kernel

/-- C105 fails: what is sliced by an array of labels is printed without the number of places it is rolled by. -/
theorem C105_roll_sliced :
    let t : Ex Int := .roll (.sliced "x" [("nodes", .ref "h")]) [("timesteps", 1)]
    built t demoPoint = some (some 40) ∧ said t demoPoint = some 10 := by
  constructor <;> decide +kernel

/-- C105 fails: the labels that are looked up are printed below sums, too, though the sum is over all labels. -/
theorem C105_select_sum :
    let t : Ex Int := .select (.chain (.sum (.comp "y") ["timesteps"]) (.one .times (.comp "y"))) [("timesteps", "far")]
    built t demoPoint = some (some 28) ∧ said t demoPoint = some 32 := by
  constructor <;> decide +kernel

/-- C105 fails: groups that are labels of the grouped dimension are printed as the index of the sum. -/
theorem C105_group_same_dimension :
    let t : Ex Int := .groupSum (.comp "z") "twin" "nodes"
    built t demoPoint = some (some 12) ∧ said t demoPoint = some 5 := by
  constructor <;> decide +kernel

/-- C105 fails: an array of groups is printed without the number of places it is rolled by. -/
theorem C105_roll_groups :
    let t : Ex Int := .roll (.groupSum (.comp "y") "half" "halves") [("halves", 1)]
    built t demoPoint = some (some 4) ∧ said t demoPoint = some 3 := by
  constructor <;> decide +kernel

/-- C105 fails: dimensions without an iterator of their own are printed as rolled if one of them is. -/
theorem C105_shared_iterator :
    let t : Ex Int := .roll (.comp "x") [("timesteps", 1)]
    built t demoPoint = some (some 4) ∧
      (printed demoDoc demoSlices (fun _ => "NEEDS_ITERATOR") demoDims t).says demoDoc demoPoint = some 40 := by
  constructor <;> decide +kernel

/-- What `C105_absent` is about. -/
example : built (.sum (.comp "y") ["nodes"]) demoPoint = some (some 1) ∧
    said (.sum (.comp "y") ["nodes"]) demoPoint = some 2 := by
  constructor <;> decide +kernel

end Demo

end LatexIndex
end Calliope
