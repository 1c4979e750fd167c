import Verif.Model.Snapshot3D
import Verif.Spec.Snapshot
import Verif.Spec.ImpulseCache
/-!
# Sizes of 3D rigid body simulations
-/

namespace Scisim
namespace RB3D

/-- A matrix object with three rows. -/
def ThreeRows {α : Type} (m : Dense α) : Prop := m.Wf ∧ m.rows = 3

/-- Eigen objects of a mesh have the shapes of their types and sizes a process can hold. -/
structure Mesh.Fits (m : Mesh) : Prop where
  fileName : m.fileName.length < 18446744073709551616
  verts : ThreeRows m.verts
  faces : ThreeRows m.faces
  R : m.R.Wf ∧ m.R.rows = 3 ∧ m.R.cols = 3
  samples : ThreeRows m.samples
  hullSamples : ThreeRows m.hullSamples
  signedDistance : m.signedDistance.length < 9223372036854775808

def Geo.Fits : Geo → Prop
  | .mesh m => m.Fits
  | _ => True

structure State.Fits (s : State) : Prop where
  q : s.q.length < 9223372036854775808
  v : s.v.length < 9223372036854775808
  M0 : s.M0.Wf
  Minv0 : s.Minv0.Wf
  M : s.M.Wf
  Minv : s.Minv.Wf
  fixed : s.fixed.length < 18446744073709551616
  geometry : s.geometry.length < 18446744073709551616
  geos : ∀ g ∈ s.geometry, g.Fits
  geoIdx : s.geoIdx.length < 18446744073709551616
  forces : s.forces.length < 18446744073709551616
  planes : s.planes.length < 18446744073709551616
  cylinders : s.cylinders.length < 18446744073709551616
  portals : s.portals.length < 18446744073709551616

structure Sim.Fits (s : Sim) : Prop where
  state : s.state.Fits
  cache : s.cache.Wf

/-- Some body shape of the simulation is a staple. -/
def Sim.HasStaple (s : Sim) : Prop := Geo.staple ∈ s.state.geometry

end RB3D
end Scisim
