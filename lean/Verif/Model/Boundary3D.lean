import Verif.Model.Float
import Verif.Model.Outcome
import Verif.Model.Geometry3D
import Verif.Model.Portal3D
/-!
# The simulation boundary of rigid bodies in space, and the order of a step
-/

namespace Scisim

/-- `SimBoundaryBehavior`, rigidbody3d/RigidBody3DState.h:14-18 -/
inductive SimBoundaryBehavior where
  | none
  | exit
  deriving DecidableEq

/-- The part of `RigidBody3DState` that the boundary treatment reads: the geometry and the state of each body, the portals, and the boundary -/
structure World3 where
  bodies : List (Geometry3D × Body3)
  portals : List Portal3
  behavior : SimBoundaryBehavior
  boundaryMin : Vec3
  boundaryMax : Vec3

/-- The geometry, the centre of mass and the orientation of each body, as read in rigidbody3d/RigidBody3DSim.cpp:366-375 -/
def World3.posed (s : World3) : List PosedBody3D := s.bodies.map fun b => ⟨b.1, b.2.x, b.2.R⟩

open Classical in
/-- The two tests of one body, rigidbody3d/RigidBody3DSim.cpp:377-387, on any type of scalars -/
noncomputable def boundaryTests {S : Type} [LT S] (lo hi : Fin 3 → S) (box : (Fin 3 → S) × (Fin 3 → S)) : Outcome Unit :=
  if ∃ i, box.1 i < lo i then .exit
  else if ∃ i, box.2 i > hi i then .exit
  else .ok ()

/-- `runBoundaryExitTreatment`, rigidbody3d/RigidBody3DSim.cpp:364-389. A mesh without vertices has its lower corner at plus infinity and its upper
corner at minus infinity, and passes both tests. -/
noncomputable def runBoundaryExitTreatment (lo hi : Vec3) : List PosedBody3D → Outcome Unit
  | [] => .ok ()
  | b :: bs =>
    (match b.geometry.aabb b.cm b.R with
      | Option.none => Outcome.ok ()
      | some box => boundaryTests lo hi box).bind fun _ => runBoundaryExitTreatment lo hi bs

/-- `treatSimulationBoundary`, rigidbody3d/RigidBody3DSim.cpp:391-405 -/
noncomputable def treatSimulationBoundary (s : World3) : Outcome Unit :=
  match s.behavior with
  | .none => .ok ()
  | .exit => runBoundaryExitTreatment s.boundaryMin s.boundaryMax s.posed

/-- `enforcePeriodicBoundaryConditions` on the state, rigidbody3d/RigidBody3DSim.cpp:642-663. Geometries are not touched. -/
noncomputable def World3.enforcePeriodic (axis : Vec3 → Vec3 → Vec3) (s : World3) : World3 :=
  { s with bodies := (s.bodies.map Prod.fst).zip (enforcePeriodicBoundaryConditions3 axis s.portals (s.bodies.map Prod.snd)) }

/-- The three overloads of `RigidBody3DSim::flow`, rigidbody3d/RigidBody3DSim.cpp:407-480, 482-555, 557-630. `startOfStep` and `endOfStep` are the
callbacks; `advance` is the map of the overload together with the exchange of `q` and `v`. They may change the state in any way and may end the program. The
update of the mass matrices is left out. -/
noncomputable def flow3 (axis : Vec3 → Vec3 → Vec3) (startOfStep advance endOfStep : Nat → World3 → Outcome World3) (iteration : Nat) (s : World3) :
    Outcome World3 :=
  (startOfStep iteration s).bind fun s => (advance iteration s).bind fun s =>
    let s := s.enforcePeriodic axis
    (treatSimulationBoundary s).bind fun _ => endOfStep iteration s

/-- Steps `iteration`, `iteration + 1`, ...: the loop around `flow` -/
noncomputable def run3 (axis : Vec3 → Vec3 → Vec3) (startOfStep advance endOfStep : Nat → World3 → Outcome World3) : Nat → Nat → World3 → Outcome World3
  | _, 0, s => .ok s
  | iteration, n + 1, s => (flow3 axis startOfStep advance endOfStep iteration s).bind fun s => run3 axis startOfStep advance endOfStep (iteration + 1) n s

open Classical in
/-- `loadSimulationBoundary`, rigidbody3dutils/RigidBody3DSceneParser.cpp:2126-2196. The arguments are the attributes; `min` and `max` have been read as lists
of three scalars, and are `some none` if that failed. -/
noncomputable def loadSimulationBoundary (violationBehavior : Option String) (min max : Option (Option Vec3)) (s : World3) : Option World3 :=
  match violationBehavior with
  | Option.none => Option.none
  | some name =>
    match (if name = "none" then some SimBoundaryBehavior.none else if name = "exit" then some SimBoundaryBehavior.exit else Option.none) with
    | Option.none => Option.none
    | some behavior =>
      match min with
      | some (some lo) =>
        match max with
        | some (some hi) => if ∃ i, lo i ≥ hi i then Option.none else some { s with behavior := behavior, boundaryMin := lo, boundaryMax := hi }
        | _ => Option.none
      | _ => Option.none

end Scisim
