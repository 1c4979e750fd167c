import Mathlib.Algebra.Field.Defs
import Mathlib.Algebra.Ring.Basic
/-!
# Plane vectors

`Vector2s` (`Eigen::Matrix<scalar,2,1>`, scisim/Math/MathDefines.h) with the operations the code uses.
-/

namespace Scisim

/-- `Vector2s`, scisim/Math/MathDefines.h -/
@[ext] structure V2 (K : Type) where
  x : K
  y : K
deriving DecidableEq, Repr

namespace V2
variable {K : Type} [Field K]

instance : Add (V2 K) := ⟨fun a b => ⟨a.x + b.x, a.y + b.y⟩⟩
instance : Sub (V2 K) := ⟨fun a b => ⟨a.x - b.x, a.y - b.y⟩⟩
instance : Neg (V2 K) := ⟨fun a => ⟨-a.x, -a.y⟩⟩
instance : Zero (V2 K) := ⟨⟨0, 0⟩⟩
instance : SMul K (V2 K) := ⟨fun c a => ⟨c * a.x, c * a.y⟩⟩

@[simp] theorem add_x (a b : V2 K) : (a + b).x = a.x + b.x := rfl
@[simp] theorem add_y (a b : V2 K) : (a + b).y = a.y + b.y := rfl
@[simp] theorem sub_x (a b : V2 K) : (a - b).x = a.x - b.x := rfl
@[simp] theorem sub_y (a b : V2 K) : (a - b).y = a.y - b.y := rfl
@[simp] theorem neg_x (a : V2 K) : (-a).x = -a.x := rfl
@[simp] theorem neg_y (a : V2 K) : (-a).y = -a.y := rfl
@[simp] theorem zero_x : (0 : V2 K).x = 0 := rfl
@[simp] theorem zero_y : (0 : V2 K).y = 0 := rfl
@[simp] theorem smul_x (c : K) (a : V2 K) : (c • a).x = c * a.x := rfl
@[simp] theorem smul_y (c : K) (a : V2 K) : (c • a).y = c * a.y := rfl

/-- Eigen `dot` -/
def dot (a b : V2 K) : K := a.x * b.x + a.y * b.y

/-- Eigen `squaredNorm` -/
def normSq (a : V2 K) : K := a.x * a.x + a.y * a.y

/-- `MathUtilities::cross`, scisim/Math/MathUtilities.cpp -/
def cross (a b : V2 K) : K := a.x * b.y - a.y * b.x

/-- The rotation by a quarter turn used for tangents, `{ -n.y(), n.x() }`, e.g. ball2d/StaticGeometry/StaticPlane.cpp:14 -/
def perp (a : V2 K) : V2 K := ⟨-a.y, a.x⟩

@[simp] theorem perp_x (a : V2 K) : a.perp.x = -a.y := rfl
@[simp] theorem perp_y (a : V2 K) : a.perp.y = a.x := rfl

end V2

end Scisim
