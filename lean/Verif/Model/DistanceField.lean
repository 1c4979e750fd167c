import Mathlib.Algebra.Order.Floor.Ring
import Verif.Model.Maps
import Verif.Model.Snapshot
import Verif.Model.Edits
/-!
# The signed distance field of a mesh (rigidbody3d/Geometry/RigidBodyTriangleMesh.cpp)

Scalars are exact reals. The three dimensions are unsigned 32-bit numbers.
-/

namespace Scisim

/-- The members `m_cell_delta`, `m_grid_dimensions`, `m_grid_origin`, `m_signed_distance`, `m_grid_end`, rigidbody3d/Geometry/RigidBodyTriangleMesh.h:71-76 -/
structure DistanceGrid where
  delta : Vec3
  dimx : UInt32
  dimy : UInt32
  dimz : UInt32
  origin : Vec3
  samples : Arr ℝ
  gridEnd : Vec3

/-- rigidbody3d/Geometry/RigidBodyTriangleMesh.cpp:87-102: the end of the constructor. The dimensions minus one are computed in unsigned arithmetic. The
check that the samples are finite is true of reals. -/
noncomputable def DistanceGrid.make (delta : Vec3) (dimx dimy dimz : UInt32) (origin : Vec3) (samples : Arr ℝ) : DistanceGrid :=
  ⟨delta, dimx, dimy, dimz, origin, samples,
    ![origin 0 + (dimx - 1).toNat * delta 0, origin 1 + (dimy - 1).toNat * delta 1, origin 2 + (dimz - 1).toNat * delta 2]⟩

/-- rigidbody3d/Geometry/RigidBodyTriangleMesh.cpp:269-274 `v`: unsigned arithmetic; outside the vector is undefined -/
def DistanceGrid.v (g : DistanceGrid) (i j k : UInt32) : Outcome ℝ :=
  if ((k * g.dimy + j) * g.dimx + i).toNat < g.samples.size then .ok (g.samples.get ((k * g.dimy + j) * g.dimx + i).toNat) else .ub

/-- `floor( y )` cast to `unsigned`; out of range is undefined -/
noncomputable def floorUnsigned (y : ℝ) : Outcome UInt32 :=
  if 0 ≤ ⌊y⌋ ∧ ⌊y⌋ < 4294967296 then .ok (UInt32.ofNat ⌊y⌋.toNat) else .ub

/-- rigidbody3d/Geometry/RigidBodyTriangleMesh.cpp:312-313: trilinear interpolation -/
def trilinear (bc bci : Vec3) (v000 v100 v010 v110 v001 v101 v011 v111 : ℝ) : ℝ :=
  bci 2 * (bci 1 * (bci 0 * v000 + bc 0 * v100) + bc 1 * (bci 0 * v010 + bc 0 * v110)) +
    bc 2 * (bci 1 * (bci 0 * v001 + bc 0 * v101) + bc 1 * (bci 0 * v011 + bc 0 * v111))

/-- rigidbody3d/Geometry/RigidBodyTriangleMesh.cpp:321-330: its gradient, before it is scaled -/
def trilinearGradient (bc bci : Vec3) (v000 v100 v010 v110 v001 v101 v011 v111 : ℝ) : Vec3 :=
  ![bci 2 * (bci 1 * (v100 - v000) + bc 1 * (v110 - v010)) + bc 2 * (bci 1 * (v101 - v001) + bc 1 * (v111 - v011)),
    bci 2 * (bci 0 * (v010 - v000) + bc 0 * (v110 - v100)) + bc 2 * (bci 0 * (v011 - v001) + bc 0 * (v111 - v101)),
    bci 1 * (bci 0 * (v001 - v000) + bc 0 * (v101 - v100)) + bc 1 * (bci 0 * (v011 - v010) + bc 0 * (v111 - v110))]

open Classical in
/-- rigidbody3d/Geometry/RigidBodyTriangleMesh.cpp:276-335 `detectCollision`: the normal if there is a collision -/
noncomputable def DistanceGrid.detectCollision (g : DistanceGrid) (x : Vec3) : Outcome (Option Vec3) :=
  if x 0 < g.origin 0 ∨ x 1 < g.origin 1 ∨ x 2 < g.origin 2 then .ok none
  else if x 0 > g.gridEnd 0 ∨ x 1 > g.gridEnd 1 ∨ x 2 > g.gridEnd 2 then .ok none
  else
    (floorUnsigned ((x 0 - g.origin 0) / g.delta 0)).bind fun ix =>
    (floorUnsigned ((x 1 - g.origin 1) / g.delta 1)).bind fun iy =>
    (floorUnsigned ((x 2 - g.origin 2) / g.delta 2)).bind fun iz =>
    let bc : Vec3 := ![(x 0 - (g.origin 0 + ix.toNat * g.delta 0)) / g.delta 0, (x 1 - (g.origin 1 + iy.toNat * g.delta 1)) / g.delta 1,
      (x 2 - (g.origin 2 + iz.toNat * g.delta 2)) / g.delta 2]
    let bci : Vec3 := ![1 - bc 0, 1 - bc 1, 1 - bc 2]
    (g.v ix iy iz).bind fun v000 =>
    (g.v (ix + 1) iy iz).bind fun v100 =>
    (g.v ix (iy + 1) iz).bind fun v010 =>
    (g.v (ix + 1) (iy + 1) iz).bind fun v110 =>
    (g.v ix iy (iz + 1)).bind fun v001 =>
    (g.v (ix + 1) iy (iz + 1)).bind fun v101 =>
    (g.v ix (iy + 1) (iz + 1)).bind fun v011 =>
    (g.v (ix + 1) (iy + 1) (iz + 1)).bind fun v111 =>
    if trilinear bc bci v000 v100 v010 v110 v001 v101 v011 v111 > 0 then .ok none
    else
      let n := trilinearGradient bc bci v000 v100 v010 v110 v001 v101 v011 v111
      .ok (some (normalized3 ![n 0 / g.delta 0, n 1 / g.delta 1, n 2 / g.delta 2]))

end Scisim
