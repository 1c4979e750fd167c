import Verif.Model.Snapshot
import Verif.Spec.Codec
import Verif.Spec.ImpulseCache
/-!
# Which states and configurations the snapshot theorems speak about

`Fits` only bounds sizes by what the C++ containers can hold and asks matrices and maps to be well formed.
-/

namespace Scisim

/-- The program ends while reading what was written, whatever follows. -/
def LoadExits {α : Type} (d : Dec α) (bs : Bytes) : Prop := ∀ rest : Bytes, d.run (bs ++ rest) = .exit

namespace Ball2D

structure State.Fits (s : State) : Prop where
  q : s.q.length < 9223372036854775808
  v : s.v.length < 9223372036854775808
  r : s.r.length < 9223372036854775808
  fixed : s.fixed.length < 18446744073709551616
  M : s.M.Wf
  Minv : s.Minv.Wf
  drums : s.drums.length < 18446744073709551616
  planes : s.planes.length < 18446744073709551616
  portals : s.portals.length < 18446744073709551616
  forces : s.forces.length < 18446744073709551616

structure Sim.Fits (s : Sim) : Prop where
  state : s.state.Fits
  cache : s.cache.Wf

/-- Is the force a penalty force? -/
def Force.isPenalty : Force → Prop
  | .penalty _ _ => True
  | .gravity _ => False

end Ball2D

namespace RB2D

structure State.Fits (s : State) : Prop where
  q : s.q.length < 9223372036854775808
  v : s.v.length < 9223372036854775808
  M : s.M.Wf
  Minv : s.Minv.Wf
  fixed : s.fixed.length < 18446744073709551616
  geoIdx : s.geoIdx.length < 9223372036854775808
  geometry : s.geometry.length < 18446744073709551616
  forces : s.forces.length < 18446744073709551616
  planes : s.planes.length < 18446744073709551616
  portals : s.portals.length < 18446744073709551616

structure Sim.Fits (s : Sim) : Prop where
  state : s.state.Fits
  cache : s.cache.Wf

end RB2D

/-- A list of strings a process can hold. -/
def StrsFit (xs : List Bytes) : Prop :=
  xs.length < 18446744073709551616 ∧ ∀ s ∈ xs, s.length < 18446744073709551616

/-- Operators that exist in a program compiled with the given libraries, with parameters a process can hold. -/
def ImpactOp.Available (b : Build) : ImpactOp → Prop
  | .null => True
  | .gr _ inner => inner.Available b
  | .grr e i => e.Available b ∧ i.Available b
  | .gaussSeidel _ => True
  | .jacobi _ => True
  | .lcpQL _ => b.ql = true
  | .lcpQLVP _ => b.ql = true
  | .lcpIpopt ss _ => b.ipopt = true ∧ StrsFit ss
  | .lcpAPGD _ _ => True

/-- The operator contains no solver without a save format (Jacobi, `lcp_ql_vp`). -/
def ImpactOp.Savable : ImpactOp → Prop
  | .gr _ inner => inner.Savable
  | .grr e i => e.Savable ∧ i.Savable
  | .jacobi _ => False
  | .lcpQLVP _ => False
  | _ => True

def FrictionOp.Available (b : Build) : FrictionOp → Prop
  | .null => True
  | .linearMDPQL _ _ => b.ql = true
  | .boundConstrainedMDPQL _ => b.ql = true
  | .smoothMDPIpopt ss _ => b.ipopt = true ∧ StrsFit ss

def FrictionSolver.Available (b : Build) : FrictionSolver → Prop
  | .null => True
  | .staggered _ _ i f => i.Available b ∧ f.Available b
  | .sobogus _ _ => True
  | .grrFriction i f => i.Available b ∧ f.Available b

def FrictionSolver.Savable : FrictionSolver → Prop
  | .staggered _ _ i _ => i.Savable
  | .grrFriction i _ => i.Savable
  | _ => True

def FrictionSolver.isGRR : FrictionSolver → Prop
  | .grrFriction _ _ => True
  | _ => False

def ImpactFrictionMapCfg.Fits : ImpactFrictionMapCfg → Prop
  | .null => True
  | .geometric f _ _ _ => f.length < 9223372036854775808
  | .stabilized f _ _ _ _ => f.length < 9223372036854775808
  | .symplecticEuler f _ _ _ _ _ => f.length < 9223372036854775808

/-- Everything of a snapshot apart from the simulation state has a size a process can hold, solvers are available in the program
that loads it, and it was compiled with the same HDF5 option. -/
structure Snapshot.Fits {Sim : Type} (b : Build) (useHdf5 : Bool) (s : Snapshot Sim) : Prop where
  op : s.impactOp.Available b
  fs : s.frictionSolver.Available b
  ifm : s.impactFrictionMap.Fits
  path : s.scriptPath.length < 18446744073709551616
  mod : s.scriptModule.length < 18446744073709551616
  hdf5 : s.hdf5.isSome = useHdf5
  dir : ∀ d f, s.hdf5 = some (d, f) → d.length < 18446744073709551616

end Scisim
