import Verif.Proofs.Runs

/-!
# C59: the options of generated commands, and the Windows script
-/

namespace Calliope
namespace Runs

/-- Specification: text for an option, nothing if it is not given or empty. -/
def option (o : Option Str) (f : Str → Str) : Str :=
  match o with
  | none | some [] => []
  | some (c :: s) => f (c :: s)

theorem command_split {α : Type} (q : Request α) (n i : Nat) (run : Str) :
    command q n i run = command { q with overrideDict := none, additionalArgs := none } n i run ++
      option q.overrideDict (fun d => " --override_dict=\"".toList ++ d ++ "\"".toList) ++
      option q.additionalArgs (fun a => ' ' :: a) := by
  obtain ⟨f, s, a, o, c, d⟩ := q
  rcases o with _ | (_ | ⟨oc, os⟩) <;> rcases a with _ | (_ | ⟨ac, as⟩) <;>
    simp only [command, given, option, List.append_nil, List.append_assoc] <;> rfl

/-- C59: every command is `calliope run` with the model, the scenario and the file of the run, and after that the override
in quotes if one is given, and the further arguments as they are if there are some. -/
theorem C59_options {α : Type} (q : Request α) (runs : List Str) (hruns : runsOf q = .ok runs)
    (hm : Plain q.modelFile) (hr : ∀ r ∈ runs, Plain r) :
    ∃ commands : List Str, generateRuns q = .ok commands ∧ ∀ (k : Nat) run, runs[k]? = some run →
      ∃ base file, words base = ["calliope".toList, "run".toList, q.modelFile, "--scenario".toList, run,
          "--save_netcdf".toList, file] ∧
        commands[k]? = some (base ++ option q.overrideDict (fun d => " --override_dict=\"".toList ++ d ++ "\"".toList) ++
          option q.additionalArgs (fun a => ' ' :: a)) := by
  refine ⟨commandsFrom q runs.length 0 runs, by simp [generateRuns, hruns], ?_⟩
  intro k run hk
  obtain ⟨rest, hw, hrest⟩ := command_words { q with overrideDict := none, additionalArgs := none } runs.length (0 + k)
    run hm (hr run (List.mem_of_getElem? hk))
  rw [hrest rfl rfl, List.append_nil] at hw
  exact ⟨_, _, hw, by rw [commandsFrom_get, hk, Option.map_some, command_split]⟩

theorem block_assoc (a s x y r c : Str) (h : x = y ++ r) : a ++ s ++ x ++ c ++ r = a ++ s ++ y ++ r ++ (c ++ r) := by
  rw [h]
  simp only [List.append_assoc]

theorem linesOf_blocks (i : Nat) (cs : List Str) (v : Str) (hv : '\n' ∉ v) (hc : ∀ c ∈ cs, '\n' ∉ c) :
    linesOf (join "\r\n".toList ((v ++ "\r\n".toList) :: windowsBlocksFrom i cs)) =
      (v ++ ['\r']) :: (cs.zipIdx i).flatMap (fun c => [['\r'], "echo \"Run ".toList ++ numeral (c.2 + 1) ++ "\"\r".toList,
        c.1 ++ ['\r']]) ++ [[]] := by
  have hcr : ∀ w : Str, '\n' ∉ w → '\n' ∉ w ++ ['\r'] := by
    intro w hw h
    rw [List.mem_append] at h
    rcases h with h | h
    · exact hw h
    · revert h; decide
  have hsplit : ∀ w rest : Str, w ++ "\r\n".toList ++ rest = (w ++ ['\r']) ++ '\n' :: rest := by
    intro w rest
    have : "\r\n".toList = ['\r', '\n'] := rfl
    rw [this]; simp
  induction cs generalizing i v with
  | nil =>
    have e : join "\r\n".toList ((v ++ "\r\n".toList) :: windowsBlocksFrom i []) = (v ++ ['\r']) ++ '\n' :: [] := by
      rw [← hsplit v [], List.append_nil]; rfl
    rw [e, linesOf_cons _ _ (hcr v hv), linesOf_last [] (by simp)]
    rfl
  | cons c cs ih =>
    have hecho : '\n' ∉ "echo \"Run ".toList ++ str (i + 1) ++ "\"".toList := by
      simp only [List.mem_append]
      rintro ((h | h) | h)
      · revert h; decide
      · exact str_noBreak _ h
      · revert h; decide
    have e1 : windowsBlock i c =
        ("echo \"Run ".toList ++ str (i + 1) ++ "\"".toList) ++ "\r\n".toList ++ (c ++ "\r\n".toList) := by
      have e0 : "\"\r\n".toList = "\"".toList ++ "\r\n".toList := rfl
      exact block_assoc _ _ _ _ _ _ e0
    have hjoin : ∀ (x y : Str) (l : List Str), join "\r\n".toList ((x ++ y) :: l) = x ++ join "\r\n".toList (y :: l) := by
      intro x y l
      cases l <;> simp only [join, List.append_assoc]
    have e2 : join "\r\n".toList ((v ++ "\r\n".toList) :: windowsBlocksFrom i (c :: cs)) =
        (v ++ ['\r']) ++ '\n' :: (([] ++ ['\r']) ++ '\n' ::
          (("echo \"Run ".toList ++ str (i + 1) ++ "\"".toList ++ ['\r']) ++ '\n' ::
            join "\r\n".toList ((c ++ "\r\n".toList) :: windowsBlocksFrom (i + 1) cs))) := by
      rw [← hsplit, ← hsplit [], ← hsplit, ← hjoin, ← e1]
      simp only [windowsBlocksFrom, join, List.nil_append, List.append_assoc]
    rw [e2, linesOf_cons _ _ (hcr v hv), linesOf_cons _ _ (hcr [] (by simp)), linesOf_cons _ _ (hcr _ hecho),
      ih (i + 1) c (hc c (by simp)) (fun x hx => hc x (List.mem_cons_of_mem _ hx)), List.zipIdx_cons,
      List.flatMap_cons, ← str_eq]
    have e3 : "\"".toList ++ ['\r'] = "\"\r".toList := rfl
    simp only [List.append_assoc, e3, List.nil_append, List.cons_append]

/-- C59: the Windows script turns off echoing and then has, for every command in order, an empty line, a line that says the
number of the run and the command, each line ending in a carriage return and a line feed. -/
theorem C59_windows (commands : List Str) (hc : ∀ c ∈ commands, '\n' ∉ c) :
    linesOf (windowsScript commands) = "@echo off\r".toList ::
      commands.zipIdx.flatMap (fun c => [['\r'], "echo \"Run ".toList ++ numeral (c.2 + 1) ++ "\"\r".toList,
        c.1 ++ ['\r']]) ++ [[]] := by
  have h := linesOf_blocks 0 commands "@echo off".toList (by decide) hc
  have e : windowsScript commands =
      join "\r\n".toList (("@echo off".toList ++ "\r\n".toList) :: windowsBlocksFrom 0 commands) := by
    unfold windowsScript
    cases commands <;> rfl
  rw [e, h]
  rfl

example : linesOf (windowsScript ["calliope run a".toList, "calliope run b".toList]) =
    ["@echo off\r".toList, "\r".toList, "echo \"Run 1\"\r".toList, "calliope run a\r".toList, "\r".toList,
      "echo \"Run 2\"\r".toList, "calliope run b\r".toList, []] := by decide
example : option (some "a: 1".toList) (fun d => " --override_dict=\"".toList ++ d ++ "\"".toList) =
    " --override_dict=\"a: 1\"".toList := by decide

end Runs
end Calliope
