import Verif.Model.SceneSolvers
/-!
# Reading a scene file ends in success or in a reported error
-/

namespace Scisim

/-- The call returns: with a value, or with a failure that the caller sees. It does not end the program, and its behaviour is defined. -/
def Outcome.Returns {α : Type} (o : Outcome α) : Prop := o = .fail ∨ ∃ a, o = .ok a

/-- The options of the solvers that end the program, in the elements of `root`, do not occur -/
def SolverOptionsKnown (p : SceneProgram) (root : XmlNode) : Prop :=
  (p = .rigidBody2D → root.first "staggered_projections_friction_solver" = none) ∧
  ∀ nd, root.first "sobogus_friction_solver" = some nd →
    (∀ t, nd.attr "cache_impulses" = some t → t = "none" ∨ t = "normal" ∨ t = "normal_and_friction") ∧
    (p = .balls2D → nd.attr "staggering" = some "stabilized" → ∀ t, nd.attr "cache_impulses" = some t → t = "none")

end Scisim
