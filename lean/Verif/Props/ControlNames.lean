import Verif.Props.Instruction

/-!
C45: the assembly-control classes by name.
-/

namespace H800

/-- C45, exactly, for the classes by name: whatever is passed to a constructor of one of these ten classes, it
raises TypeError. -/
theorem C45_names_partial (cls : Str) (hc : cls ∈ [py "AssignTag", py "End", py "Equals", py "Even",
      py "MaskGroup", py "Reserve", py "SetLocationCounter", py "SetLocationCounterModuloN", py "Simulate",
      py "TemporarilyAssignTag"]) (m : Str) (a b c : Option Int) :
    constructControl cls m a b c = .error .typeError := by
  have key : ∀ x ∈ [py "AssignTag", py "End", py "Equals", py "Even",
      py "MaskGroup", py "Reserve", py "SetLocationCounter", py "SetLocationCounterModuloN", py "Simulate",
      py "TemporarilyAssignTag"], x ∈ CONTROL_CLASSES := by decide +kernel
  exact C45_never_partial cls (key cls hc) m a b c

example : py "Reserve" ∈ CONTROL_CLASSES := by decide +kernel

end H800
