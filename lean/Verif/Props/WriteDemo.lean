import Verif.Props.Write

/-!
# C115: examples
-/

namespace Calliope
namespace Write
namespace Demo

open Grammar (Str)
open MathText (Ex ExRest Kinds Raw RawItem)

/-- Some components. -/
def known (s : Str) : Bool :=
  s ∈ [chars! "flow", chars! "size", chars! "flag", chars! "techs", chars! "nodes", chars! "timesteps"]

def wnames : Grammar.WNames where
  dims s := s ∈ [chars! "techs", chars! "nodes", chars! "timesteps"]
  inputs s := s ∈ [chars! "size", chars! "flag"]
  results s := s ∈ [chars! "flow"]
  post _ := false
  hasPost := false

def kinds : Kinds := ⟨known, wnames⟩

theorem n_flow : Name "flow" := by name!
theorem n_size : Name "size" := by name!
theorem n_flag : Name "flag" := by name!
theorem n_techs : Name "techs" := by name!
theorem n_nodes : Name "nodes" := by name!
theorem n_timesteps : Name "timesteps" := by name!
theorem n_group : Name "tech_group" := by name!
theorem n_groups : Name "groups" := by name!
theorem n_month : Name "month" := by name!
theorem n_wind : Name "wind" := by name!
theorem n_first : Name "first" := by name!

theorem digits_of {s : Str} (h : ∀ c ∈ s, c.isDigit = true) : Grammar.Digits s := h

/-- `sum(where(flow, flag), over=[techs, timesteps])`. -/
theorem total : Text known true (.sum (.cond (.comp "flow") (.comp "flag")) ["techs", "timesteps"])
    (chars! "sum(where(flow, flag), over=[techs, timesteps])") :=
  Text.sum (Text.cond (Text.comp n_flow (by decide)) (Text.comp n_flag (by decide)))
    (Over.list (by simp) (by
      intro d hd
      simp only [List.mem_cons, List.not_mem_nil, or_false] at hd
      rcases hd with rfl | rfl
      · exact n_techs
      · exact n_timesteps))

/-- `group_sum(roll(flow, timesteps=-1), tech_group, groups)`. -/
theorem grouped : Text known true (.groupSum (.roll (.comp "flow") [("timesteps", -1)]) "tech_group" "groups")
    (chars! "group_sum(roll(flow, timesteps=-1), tech_group, groups)") :=
  Text.groupSum (Text.roll (Text.comp n_flow (by decide))
    (Shifts.cons n_timesteps (Whole.minus (ds := ['1']) (by decide : ∀ c ∈ ['1'], c.isDigit = true) (by simp))
      Shifts.nil)) n_group n_groups

/-- `(flow[techs=wind, timesteps=$first]) * (2.5) / ($part)`. -/
theorem product : Text known true
    (.chain (.sliced "flow" [("techs", .label "wind"), ("timesteps", .ref "first")])
      (.more .times (.num (5 / 2)) (.one .div (.sub "part"))))
    (chars! "(flow[techs=wind, timesteps=$first]) * (2.5) / ($part)") := by
  have h : Number (5 / 2) (chars! "2.5") := by
    have := Number.point (ds := ['2']) (fs := ['5']) (by decide : ∀ c ∈ ['2'], c.isDigit = true) (by simp)
      (by decide : ∀ c ∈ ['5'], c.isDigit = true)
    have he : ((natural ['2'] : Rat) + (natural ['5'] : Rat) / (10 : Rat) ^ (['5'] : Str).length) = 5 / 2 := by
      rw [show natural ['2'] = 2 from rfl, show natural ['5'] = 5 from rfl]
      norm_num
    rw [he] at this
    exact this
  exact Text.chain (o := .times)
    (Text.sliced n_flow (by decide) (by simp)
      (Slices.cons n_techs (Slice.label n_wind (by decide)) (Slices.cons n_timesteps (Slice.ref n_first) Slices.nil)))
    (RestText.more (.inr (.inl ⟨by simp, by simp⟩)) (Text.num h)
      (RestText.one (.inr (.inl ⟨by simp, by simp⟩)) (Text.sub rfl (by name!))))

/-- `sum_next_n(group_datetime(-(flow), timesteps, month), nodes, 3)`. -/
theorem windows : Text known true
    (.sumNextN (.groupDatetime (.sign .minus (.comp "flow")) "timesteps" "month") "nodes" 3)
    (chars! "sum_next_n(group_datetime(-(flow), timesteps, month), nodes, 3)") :=
  Text.sumNextN (Text.groupDatetime (Text.sign (by simp) (Text.comp n_flow (by decide))) n_timesteps n_month) n_nodes
    (Whole.plain (ds := ['3']) (by decide : ∀ c ∈ ['3'], c.isDigit = true) (by simp))

/-- `select_from_lookup_arrays(reduce_carrier_dim(flow, out), nodes=home)`. -/
theorem looked : Text known true (.select (.reduceCarrier (.comp "flow") "out") [("nodes", "home")])
    (chars! "select_from_lookup_arrays(reduce_carrier_dim(flow, out), nodes=home)") :=
  Text.select (Text.reduceCarrier (Text.comp n_flow (by decide)) (by name!)) (by
    intro p hp
    simp only [List.mem_cons, List.not_mem_nil, or_false] at hp
    subst hp
    exact ⟨n_nodes, by name!⟩)

theorem p_flag : Plain "flag" := ⟨n_flag, by decide, by decide, by decide⟩
theorem p_size : Plain "size" := ⟨n_size, by decide, by decide, by decide⟩
theorem p_flow : Plain "flow" := ⟨n_flow, by decide, by decide, by decide⟩
theorem p_timesteps : Plain "timesteps" := ⟨n_timesteps, by decide, by decide, by decide⟩

/-- `(flag) and (not (size >= -2)) or (timesteps == get_val_at_index(timesteps=0)) or ([wind, 7] in techs)`. -/
theorem condition : CondText wnames
    (.chain (.atom (.input "flag")) (.more .and (.pre .not (.atom (.cmp (.input "size") .ge (.num (-2)))))
      (.more .or (.atom (.cmp (.dim "timesteps") .eq (.valAt "timesteps" 0)))
        (.one .or (.atom (.isIn [.str "wind", .num 7] "techs"))))))
    (chars! "(flag) and (not (size >= -2)) or (timesteps == get_val_at_index(timesteps=0)) or ([wind, 7] in techs)") := by
  have two : SignedNumber (-2) (chars! "-2") := by
    have := Number.whole (ds := ['2']) (by decide : ∀ c ∈ ['2'], c.isDigit = true) (by simp)
    have he : ((natural ['2'] : Nat) : Rat) = 2 := by rw [show natural ['2'] = 2 from rfl]; norm_num
    rw [he] at this
    exact .minus this
  have seven : SignedNumber 7 (chars! "7") := by
    have := Number.whole (ds := ['7']) (by decide : ∀ c ∈ ['7'], c.isDigit = true) (by simp)
    have he : ((natural ['7'] : Nat) : Rat) = 7 := by rw [show natural ['7'] = 7 from rfl]; norm_num
    rw [he] at this
    exact .plain this
  have zero : Whole 0 ['0'] := Whole.plain (ds := ['0']) (by decide : ∀ c ∈ ['0'], c.isDigit = true) (by simp)
  exact CondText.chain (.leaf (.input p_flag (by decide)))
    (.andNext (.not (.leaf (.cmp (.input p_size (by decide) (by decide)) (.num two))))
      (.orNext (.leaf (.cmp (.dim p_timesteps (by decide)) (.valAt n_timesteps zero)))
        (.orLast (.leaf (.isIn (by simp) (.cons (.str n_wind) (.cons (.num seven) .nil)) n_techs (by decide))))))

/-- `any(flow, over=techs)`. -/
theorem someFlow : CondText wnames (.atom (.anyResult "flow" ["techs"])) (chars! "any(flow, over=techs)") :=
  .leaf (.anyResult n_flow (by decide) (by decide) (.one n_techs) (by
    intro d hd
    simp only [List.mem_cons, List.not_mem_nil, or_false] at hd
    subst hd
    decide))

/-- A constraint. -/
def constraint : Build.Component Rat where
  foreach := ["nodes"]
  top := .chain (.atom (.input "flag")) (.more .and (.pre .not (.atom (.cmp (.input "size") .ge (.num (-2)))))
      (.more .or (.atom (.cmp (.dim "timesteps") .eq (.valAt "timesteps" 0)))
        (.one .or (.atom (.isIn [.str "wind", .num 7] "techs")))))
  defn := ⟨"limit",
    [(.atom (.anyResult "flow" ["techs"]), .cmp (.sum (.cond (.comp "flow") (.comp "flag")) ["techs", "timesteps"]) "<="
      (.chain (.sliced "flow" [("techs", .label "wind"), ("timesteps", .ref "first")])
        (.more .times (.num (5 / 2)) (.one .div (.sub "part")))))],
    [("part", [(.atom (.bool true), .comp "size")])],
    [("first", [(.atom (.bool true), .valAt "timesteps" 0)])]⟩

/-- It in a file. -/
def raw : Raw where
  name := chars! "limit"
  foreach := some [chars! "nodes"]
  cond := some (chars! "(flag) and (not (size >= -2)) or (timesteps == get_val_at_index(timesteps=0)) or ([wind, 7] in techs)")
  equations := some [⟨some (chars! "any(flow, over=techs)"),
    chars! "sum(where(flow, flag), over=[techs, timesteps]) <= (flow[techs=wind, timesteps=$first]) * (2.5) / ($part)"⟩]
  subs := [(chars! "part", [⟨none, chars! "size"⟩])]
  slices := [(chars! "first", [⟨some (chars! "True"), chars! "get_val_at_index(timesteps=0)"⟩])]

theorem written : ComponentText known wnames (EquationText known) constraint raw where
  name := by rfl
  foreach := by rfl
  cond := .some condition
  equations := ⟨_, rfl, .cons ⟨.some someFlow, .le total product⟩ .nil⟩
  subs := .cons ⟨by rfl, .cons ⟨.none, Text.comp n_size (by decide)⟩ .nil⟩ .nil
  slices := .cons ⟨by rfl, .cons ⟨.some (.leaf .yes), .valAt n_timesteps
    (Whole.plain (ds := ['0']) (by decide : ∀ c ∈ ['0'], c.isDigit = true) (by simp))⟩ .nil⟩ .nil

example : MathText.readConstraint kinds raw = some constraint := C115_constraint kinds written

/-- A global expression. -/
example : MathText.readArithmetic kinds (chars! "group_sum(roll(flow, timesteps=-1), tech_group, groups)") =
    some (.arith (.groupSum (.roll (.comp "flow") [("timesteps", -1)]) "tech_group" "groups")) :=
  C115_arithmetic kinds (.arith grouped)

example : MathText.readSlice kinds (chars! "roll(flag, timesteps=-1)") = some (.lookup "flag" [("timesteps", -1)]) :=
  C115_slice kinds (.rolled n_flag (by decide) (by simp) (.cons n_timesteps
    (Whole.minus (ds := ['1']) (by decide : ∀ c ∈ ['1'], c.isDigit = true) (by simp)) .nil))

/-- A variable in a file. -/
def rawVariable : Raw where
  name := chars! "units"
  foreach := some [chars! "techs"]
  cond := some (chars! "flag")
  domain := some (chars! "integer")
  lower := some (chars! "0")
  upper := some (chars! "size")

example : MathText.readVariable kinds rawVariable =
    some ⟨"units", ["techs"], .atom (.input "flag"), true, .num 0, .input "size"⟩ :=
  C115_variable kinds ⟨by rfl, by rfl, .some (.leaf (.input p_flag (by decide))), by rfl, by
    have := Number.whole (ds := ['0']) (by decide : ∀ c ∈ ['0'], c.isDigit = true) (by simp)
    have he : ((natural ['0'] : Nat) : Rat) = 0 := by rw [show natural ['0'] = 0 from rfl]; norm_num
    rw [he] at this
    exact .num this, .input n_size⟩

/-- A check in a file. -/
def rawCheck : Raw where
  name := chars! "odd"
  cond := some (chars! "flag")
  message := some (chars! "m")
  errors := some (chars! "warn")
  active := some true

example : MathText.readCheck kinds rawCheck = some ⟨"odd", .atom (.input "flag"), "m", false, true⟩ :=
  C115_check kinds ⟨by rfl, .some (.leaf (.input p_flag (by decide))), by rfl, by rfl, rfl⟩

/-- Different texts for different expressions. -/
example : (chars! "group_sum(roll(flow, timesteps=-1), tech_group, groups)") ≠
    (chars! "group_sum(roll(flow, timesteps=-1), groups, tech_group)") := by decide

end Demo
end Write
end Calliope
