import Verif.Model.Boundary3D
import Verif.Spec.Geometry3D
import Verif.Spec.Portal3D
/-!
# Bodies inside the simulation boundary
-/

namespace Scisim

/-- Every point of every body is inside the boundary box or on its surface. -/
def World3.Inside (s : World3) : Prop := ∀ b ∈ s.posed, ∀ z ∈ b.points, ∀ i, s.boundaryMin i ≤ z i ∧ z i ≤ s.boundaryMax i

/-- All bodies are spheres, boxes or meshes, with sensible sizes. -/
def World3.AllSolid (s : World3) : Prop := ∀ b ∈ s.posed, b.Solid

/-- The boundary of `t` is the boundary of `s`. -/
def World3.SameBoundary (s t : World3) : Prop := t.behavior = s.behavior ∧ t.boundaryMin = s.boundaryMin ∧ t.boundaryMax = s.boundaryMax

/-- A callback or a map: whatever else it does, it keeps the boundary, and it keeps bodies solid. -/
def KeepsBoundary (f : Nat → World3 → Outcome World3) : Prop := ∀ it s s', f it s = .ok s' → s.SameBoundary s' ∧ (s.AllSolid → s'.AllSolid)

end Scisim
