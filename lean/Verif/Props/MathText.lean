import Verif.Proofs.MathText

/-!
# C103: math that is added leaves the rest as it is
-/

namespace Calliope
namespace MathText

section

/-- If a file leaves the names in a component's strings as they are, the component is read as without the file. -/
theorem C103_unmentioned (b m : File) (r : Raw) (h : ∀ n, Mentions r n → Keeps b m n) :
    readConstraint (b.over m).kinds r = readConstraint b.kinds r ∧
    readExpression (b.over m).kinds r = readExpression b.kinds r ∧
    readVariable (b.over m).kinds r = readVariable b.kinds r ∧
    readCheck (b.over m).kinds r = readCheck b.kinds r ∧
    (b.postprocessed ≠ [] → readExpression (b.over m).postKinds r = readExpression b.postKinds r) :=
  ⟨readConstraint_congr (over_kinds h), readExpression_congr (over_kinds h), readVariable_congr (over_kinds h),
    readCheck_congr (over_kinds h), fun hb => readExpression_congr (over_post h hb)⟩

/-- Math that leaves the names as they are leaves all components as they are, and in their order. -/
theorem C103_extra (b m : File) (B M : Math) (hb : b.read = some B) (hm : (b.over m).read = some M) (h : New b m) :
    B.vars.Sublist M.vars ∧ B.globals.Sublist M.globals ∧ B.constraints.Sublist M.constraints ∧
    B.objectives.Sublist M.objectives ∧ B.postprocessed.Sublist M.postprocessed ∧ B.checks.Sublist M.checks := by
  obtain ⟨b1, b2, b3, b4, b5, b6⟩ := read_some hb
  obtain ⟨m1, m2, m3, m4, m5, m6⟩ := read_some hm
  refine ⟨readGroup_sublist (fun r hr => (h.vars r hr).1) (fun r hr => ?_) b1 m1,
    readGroup_sublist (fun r hr => (h.globals r hr).1) (fun r hr => ?_) b2 m2,
    readGroup_sublist (fun r hr => (h.constraints r hr).1) (fun r hr => ?_) b3 m3,
    readGroup_sublist (fun r hr => (h.objectives r hr).1) (fun r hr => ?_) b4 m4,
    readGroup_sublist (fun r hr => (h.postprocessed r hr).1) (fun r hr => ?_) b5 m5,
    readGroup_sublist (fun r hr => (h.checks r hr).1) (fun r hr => ?_) b6 m6⟩
  · exact (readVariable_congr (over_kinds (h.vars r hr).2)).symm
  · exact (readExpression_congr (over_kinds (h.globals r hr).2)).symm
  · exact (readConstraint_congr (over_kinds (h.constraints r hr).2)).symm
  · exact (readExpression_congr (over_kinds (h.objectives r hr).2)).symm
  · exact (readExpression_congr (over_post (h.postprocessed r hr).2 (fun e => by rw [e] at hr; cases hr))).symm
  · exact (readCheck_congr (over_kinds (h.checks r hr).2)).symm

end
end MathText
end Calliope
