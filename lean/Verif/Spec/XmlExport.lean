import Verif.Spec.SceneRigid3D
import Verif.Model.XmlExport
/-!
# What a written state is to be read as (C81)
-/

namespace Scisim

open Matrix

/-- Every number is written as a numeral; `val` is what that numeral denotes, which differs from the number by what is lost after the last digit. -/
def Formats (fmt : ℝ → List Char) (val : ℝ → ℚ) : Prop :=
  ∀ x, ∃ n : Numeral, n.Grammatical ∧ fmt x = n.text ∧ val x = n.value ∧ DoubleRange (val x)

/-- The angle and the axis of a rotation -/
def IsAngleAxis (aa : ℝ × Vec3) (R : Mat3) : Prop := 0 ≤ aa.1 ∧ aa.2 0 ^ 2 + aa.2 1 ^ 2 + aa.2 2 ^ 2 = 1 ∧ angleAxisMatrix aa.1 aa.2 = R

/-- Nothing of a number is lost -/
def Exact (val : ℝ → ℚ) (x : ℝ) : Prop := ((val x : ℚ) : ℝ) = x

/-- Nothing of a vector is lost -/
def ExactVec (val : ℝ → ℚ) (v : Vec3) : Prop := ∀ i, Exact val (v i)

/-- The body is a ball of uniform density with one of these geometries, and nothing of its numbers is lost when they are written. -/
def ExactBall (val : ℝ → ℚ) (aa : Mat3 → ℝ × Vec3) (geometry : List StoredGeometry) (b : StoredBody) : Prop :=
  ∃ r rho : ℝ, geometry[b.geo]? = some (.sphere r) ∧ b.state.M = (sphereMass r rho).M ∧ b.state.I = (sphereMass r rho).I ∧ Exact val rho ∧ ExactVec val b.state.x ∧
    ExactVec val b.state.v ∧ ExactVec val b.state.omega ∧ ExactVec val (rotationVector aa b.state.R) ∧ IsAngleAxis (aa b.state.R) b.state.R

/-- The six significant digits to which streams write numbers unless told otherwise: a whole number of at most six digits times a power of ten -/
def SixDigits (q : ℚ) : Prop := ∃ (m : ℤ) (e : ℤ), |m| < 10 ^ 6 ∧ q = m * (10 : ℚ) ^ e

/-- The element of the scene that stands for a geometry -/
def StandsFor (val : ℝ → ℚ) : StoredGeometry → Geometry3DElement → Prop
  | .sphere r, g => g = .sphere (val r)
  | .mesh f _, g => g = .mesh f
  | _, _ => False

/-- The numbers of a vector as they are written -/
def written (val : ℝ → ℚ) (v : Vec3) : ℚ × ℚ × ℚ := (val (v 0), val (v 1), val (v 2))

/-- The element of the scene that stands for a body: its density is its mass by its volume, its rotation is given as a vector -/
def StandsForBody (val : ℝ → ℚ) (aa : Mat3 → ℝ × Vec3) (geometry : List StoredGeometry) (b : StoredBody) (c : Body3DElement) : Prop :=
  c.x = written val b.state.x ∧ c.v = written val b.state.v ∧ c.omega = written val b.state.omega ∧ c.fixed = b.fixed ∧ c.geo = b.geo ∧
    (∃ g, geometry[b.geo]? = some g ∧ c.rho = val (b.state.M / g.volume)) ∧
    ∃ r, r = written val (rotationVector aa b.state.R) ∧ c.rotation = some (.finite r.1, .finite r.2.1, .finite r.2.2)

/-- A scene file without shapes and bodies, made of these elements -/
def EmptyScene (elements : List XmlNode) : Prop := ∀ nd ∈ elements, nd.name ≠ "geometry" ∧ nd.name ≠ "rigid_body_with_density"

/-- A file with these elements in its root -/
def sceneOf (elements : List XmlNode) : XmlNode := .mk "" [] [.mk "rigidbody3d_scene" [] elements]

end Scisim
