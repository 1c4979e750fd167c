import Verif.Model.CCD
import Verif.Model.Grid
import Verif.Model.Portal
import Mathlib.Data.Fin.VecNotation
import Mathlib.Analysis.Real.Sqrt
import Mathlib.Algebra.Order.Archimedean.Real.Basic
/-!
# The contact list of a step of the 2D ball simulation

`Ball2DSim::computeActiveSet` and what it calls, `ball2d/Ball2DSim.cpp:151-173, 368-760`, without the debug-only checks. Scalars are real
numbers. The flat vectors `q0`, `q1`, `r` and the `fixed` flags are one list of balls.
-/

namespace Scisim

/-- One ball during a step: position at the start and at the end, radius, and the `fixed` flag of the state. -/
structure BallStep where
  q0 : V2 ℝ
  q1 : V2 ℝ
  r : ℝ
  fixed : Bool

/-- Eigen `normalized()` -/
noncomputable def V2.normalized (a : V2 ℝ) : V2 ℝ := if 0 < a.normSq then (1 / Real.sqrt a.normSq) • a else a

/-- `BallBallConstraint` / `KinematicKickBallBallConstraint`, ball2d/Constraints/BallBallConstraint.h, KinematicKickBallBallConstraint.h -/
structure BallBall where
  idx0 : Nat
  idx1 : Nat
  n : V2 ℝ
  r0 : ℝ
  r1 : ℝ
  teleported : Bool
  kick : Option (V2 ℝ)

/-- A contact of the ball simulation. -/
inductive Contact where
  | ballBall (c : BallBall)
  /-- `StaticDrumConstraint`: ball, normal, drum -/
  | drum (ball : Nat) (n : V2 ℝ) (drum : Nat)
  /-- `StaticPlaneConstraint`: ball, normal, plane -/
  | plane (ball : Nat) (n : V2 ℝ) (plane : Nat)

/-- ball2d/Constraints/BallBallConstraint.cpp:16-20 `isActive` -/
noncomputable def ballBallIsActive (x0 x1 : V2 ℝ) (r0 r1 : ℝ) : Bool := decide ((x0 - x1).normSq ≤ (r0 + r1) * (r0 + r1))

/-- ball2d/Constraints/BallBallConstraint.cpp:26-37, the constructor -/
noncomputable def mkBallBall (i j : Nat) (x0 x1 : V2 ℝ) (r0 r1 : ℝ) (teleported : Bool) : BallBall :=
  ⟨i, j, (x0 - x1).normalized, r0, r1, teleported, none⟩

/-- A box around a point, `{ x.array() - r, x.array() + r }` -/
noncomputable def boxAround (x : V2 ℝ) (r : ℝ) : Box 2 ℝ := ⟨![x.x - r, x.y - r], ![x.x + r, x.y + r]⟩

/-- ball2d/Ball2DSim.cpp:568-571: the box of a ball moving through the step -/
noncomputable def sweptBox (b : BallStep) : Box 2 ℝ :=
  ⟨![min b.q1.x b.q0.x - b.r, min b.q1.y b.q0.y - b.r], ![max b.q1.x b.q0.x + b.r, max b.q1.y b.q0.y + b.r]⟩

/-- ball2d/Ball2DSim.cpp:585-606: narrow phase of one candidate pair -/
noncomputable def narrowPhase (bs : List BallStep) (p : Nat × Nat) : Option Contact :=
  match bs[p.1]?, bs[p.2]? with
  | some a, some b =>
    match ballBallCCD a.q0 a.q1 a.r b.q0 b.q1 b.r with
    | some _ => some (.ballBall (mkBallBall p.1 p.2 a.q0 b.q0 a.r b.r false))
    | none => none
  | _, _ => none

/-- ball2d/Ball2DSim.cpp:553-608 `computeBallBallActiveSetSpatialGrid` -/
noncomputable def computeBallBallActiveSetSpatialGrid (bs : List BallStep) : Outcome (List Contact) :=
  (getPotentialOverlaps (bs.map sweptBox)).bind fun pairs => .ok (pairs.filterMap (narrowPhase bs))

/-! ## With portals -/

/-- `TeleportedBall`, ball2d/Portals/PlanarPortal.h:13-32 -/
structure TeleportedBall where
  body : Nat
  portal : Nat
  /-- `false` is plane A, `true` is plane B -/
  plane : Bool
deriving DecidableEq

/-- ball2d/Portals/PlanarPortal.cpp:108-128 `ballTouchesPortal`: the plane touched, if any; exits if the ball touches both -/
noncomputable def ballTouchesPortal (p : PlanarPortal ℝ) (x : V2 ℝ) (r : ℝ) : Outcome (Option Bool) :=
  let a := p.planeA.distanceLessThanOrEqualZero x r
  let b := p.planeB.distanceLessThanOrEqualZero x r
  if a && b then .exit
  else if b then .ok (some true)
  else if a then .ok (some false)
  else .ok none

/-- ball2d/Ball2DSim.cpp:396-410: the loop over balls for one portal, from ball `idx` on -/
noncomputable def teleportedOf (junk : ℝ → ℤ) (prtl : Nat) (p : PlanarPortal ℝ) : (idx : Nat) → List BallStep →
    Outcome (List (TeleportedBall × Box 2 ℝ))
  | _, [] => .ok []
  | idx, b :: bs =>
    (ballTouchesPortal p b.q1 b.r).bind fun touched =>
    (teleportedOf junk prtl p (idx + 1) bs).bind fun rest =>
    match touched with
    | some plane => .ok ((⟨idx, prtl, plane⟩, boxAround (p.teleportBall junk b.q1 b.r) b.r) :: rest)
    | none => .ok rest

/-- ball2d/Ball2DSim.cpp:392-411: the loop over portals, from portal `idx` on. The entry at position `k` belongs to the box of index
`nbodies + k`, as in the map `teleported_aabb_body_indices`. -/
noncomputable def teleportedBalls (junk : ℝ → ℤ) (bs : List BallStep) : (idx : Nat) → List (PlanarPortal ℝ) →
    Outcome (List (TeleportedBall × Box 2 ℝ))
  | _, [] => .ok []
  | idx, p :: ps =>
    (teleportedOf junk idx p 0 bs).bind fun here =>
    (teleportedBalls junk bs (idx + 1) ps).bind fun rest => .ok (here ++ rest)

/-- One side of a collision: the body and, if it was teleported, the portal and the plane. In the code the absence of a portal is
`std::numeric_limits<unsigned>::max()`. -/
structure Image where
  body : Nat
  via : Option (Nat × Bool)
deriving DecidableEq

/-- `TeleportedCollision`, ball2d/Portals/PlanarPortal.h:35-84 -/
structure TeleportedCollision where
  fst : Image
  snd : Image
deriving DecidableEq

/-- ball2d/Portals/PlanarPortal.cpp:33-48: the constructor orders the two sides by body index -/
def mkTeleportedCollision (a b : Image) : TeleportedCollision := if a.body > b.body then ⟨b, a⟩ else ⟨a, b⟩

/-- ball2d/Portals/PlanarPortal.cpp:50-54 `operator<` -/
def TeleportedCollision.lt (a b : TeleportedCollision) : Prop :=
  a.fst.body < b.fst.body ∨ (a.fst.body = b.fst.body ∧ a.snd.body < b.snd.body)

instance TeleportedCollision.decidableLt (a b : TeleportedCollision) : Decidable (a.lt b) := by unfold TeleportedCollision.lt; infer_instance

/-- `std::set<TeleportedCollision>::insert`: an equivalent element is kept -/
def insertCollision (c : TeleportedCollision) : List TeleportedCollision → List TeleportedCollision
  | [] => [c]
  | d :: s => if c.lt d then c :: d :: s else if d.lt c then d :: insertCollision c s else d :: s

/-- ball2d/Ball2DSim.cpp:610-643 `getTeleportedBallBallCenters`, one of the two balls; `q` selects the start or the end of the step -/
noncomputable def imageCenter (junk : ℝ → ℤ) (portals : List (PlanarPortal ℝ)) (q : BallStep → V2 ℝ) (b : BallStep) (i : Image) : V2 ℝ :=
  match i.via with
  | none => q b
  | some (prtl, plane) =>
    match portals[prtl]? with
    | none => q b
    | some p => if plane = false then p.teleportPointThroughPlaneA junk (q b) else p.teleportPointThroughPlaneB junk (q b)

/-- ball2d/Ball2DSim.cpp:645-652 `teleportedBallBallCollisionHappens`, at the end of the step -/
noncomputable def teleportedBallBallCollisionHappens (junk : ℝ → ℤ) (portals : List (PlanarPortal ℝ)) (bs : List BallStep)
    (c : TeleportedCollision) : Bool :=
  match bs[c.fst.body]?, bs[c.snd.body]? with
  | some a, some b =>
    ballBallIsActive (imageCenter junk portals BallStep.q1 a c.fst) (imageCenter junk portals BallStep.q1 b c.snd) a.r b.r
  | _, _ => false

/-- ball2d/Ball2DSim.cpp:426-470: which body (and portal) a box index stands for. The box list has `nbodies` boxes of the balls
themselves, followed by the teleported ones. -/
def imageOf (nbodies : Nat) (tele : List TeleportedBall) (idx : Nat) : Image :=
  if idx < nbodies then ⟨idx, none⟩
  else match tele[idx - nbodies]? with
    | some t => ⟨t.body, some (t.portal, t.plane)⟩
    | none => ⟨idx, none⟩

/-- direct narrow phase at the end of the step, ball2d/Ball2DSim.cpp:434, 475 -/
noncomputable def directlyActive (bs : List BallStep) (i j : Nat) : Bool :=
  match bs[i]?, bs[j]? with
  | some a, some b => ballBallIsActive a.q1 b.q1 a.r b.r
  | _, _ => false

/-- ball2d/Ball2DSim.cpp:424-492: the loop over candidate pairs. Collects the ordinary contacts and the set of teleported collisions. -/
noncomputable def classify (junk : ℝ → ℤ) (portals : List (PlanarPortal ℝ)) (bs : List BallStep) (tele : List TeleportedBall)
    (acc : List Contact × List TeleportedCollision) (p : Nat × Nat) : List Contact × List TeleportedCollision :=
  let i := imageOf bs.length tele p.1
  let j := imageOf bs.length tele p.2
  match i.via, j.via with
  | none, none =>
    if directlyActive bs p.1 p.2 then
      match bs[p.1]?, bs[p.2]? with
      | some a, some b => (acc.1 ++ [.ballBall (mkBallBall p.1 p.2 a.q0 b.q0 a.r b.r false)], acc.2)
      | _, _ => acc
    else acc
  | some _, some _ =>
    if directlyActive bs i.body j.body then acc
    else if teleportedBallBallCollisionHappens junk portals bs (mkTeleportedCollision i j) then
      (acc.1, insertCollision (mkTeleportedCollision i j) acc.2)
    else acc
  | _, _ =>
    if teleportedBallBallCollisionHappens junk portals bs (mkTeleportedCollision i j) then
      (acc.1, insertCollision (mkTeleportedCollision i j) acc.2)
    else acc

/-- is the portal an image went through sliding? ball2d/Ball2DSim.cpp:669-700 -/
noncomputable def Image.slides (portals : List (PlanarPortal ℝ)) (i : Image) : Option (PlanarPortal ℝ) :=
  match i.via with
  | none => none
  | some (prtl, _) =>
    match portals[prtl]? with
    | none => none
    | some p => if p.isLeesEdwards then some p else none

/-- ball2d/Ball2DSim.cpp:654-728 `generateTeleportedBallBallCollision` -/
noncomputable def generateTeleported (junk : ℝ → ℤ) (portals : List (PlanarPortal ℝ)) (bs : List BallStep) (c : TeleportedCollision) :
    Option Contact :=
  match bs[c.fst.body]?, bs[c.snd.body]? with
  | some a, some b =>
    let base := mkBallBall c.fst.body c.snd.body (imageCenter junk portals BallStep.q0 a c.fst)
      (imageCenter junk portals BallStep.q0 b c.snd) a.r b.r true
    match c.snd.slides portals with
    | some p => some (.ballBall { base with kick := some (p.getKinematicVelocityOfBall b.q1 b.r) })
    | none =>
      match c.fst.slides portals with
      | some p => some (.ballBall { base with kick := some (-p.getKinematicVelocityOfBall a.q1 a.r) })
      | none => some (.ballBall base)
  | _, _ => none

/-- ball2d/Ball2DSim.cpp:368-550 `computeBallBallActiveSetSpatialGridWithPortals`: ordinary contacts and teleported collisions -/
noncomputable def portalCollisions (junk : ℝ → ℤ) (portals : List (PlanarPortal ℝ)) (bs : List BallStep) :
    Outcome (List Contact × List TeleportedCollision) :=
  (teleportedBalls junk bs 0 portals).bind fun tele =>
  (getPotentialOverlaps (bs.map (fun b => boxAround b.q1 b.r) ++ tele.map (·.2))).bind fun pairs =>
  .ok (pairs.foldl (classify junk portals bs (tele.map (·.1))) ([], []))

/-- ball2d/Ball2DSim.cpp:368-550, the contacts -/
noncomputable def computeBallBallActiveSetSpatialGridWithPortals (junk : ℝ → ℤ) (portals : List (PlanarPortal ℝ)) (bs : List BallStep) :
    Outcome (List Contact) :=
  (portalCollisions junk portals bs).bind fun r => .ok (r.1 ++ r.2.filterMap (generateTeleported junk portals bs))

/-! ## Static geometry -/

/-- `StaticDrum`, ball2d/StaticGeometry/StaticDrum.h -/
structure Drum where
  x : V2 ℝ
  r : ℝ

/-- ball2d/Constraints/BallStaticDrumConstraint.cpp:8-16 `isActive` -/
noncomputable def drumIsActive (q : V2 ℝ) (r : ℝ) (d : Drum) : Bool := decide ((d.x - q).normSq ≥ (d.r - r) * (d.r - r))

/-- ball2d/Constraints/BallStaticPlaneConstraint.cpp:10-15 `isActive` -/
noncomputable def planeIsActive (q : V2 ℝ) (r : ℝ) (p : HalfPlane ℝ) : Bool := decide (p.n.dot (q - p.x) ≤ r)

/-- ball2d/Ball2DSim.cpp:730-745 `computeBallDrumActiveSetAllPairs` -/
noncomputable def drumContacts (bs : List BallStep) (drums : List Drum) : List Contact :=
  drums.zipIdx.flatMap fun (d, di) =>
    bs.zipIdx.filterMap fun (b, bi) =>
      if drumIsActive b.q1 b.r d then some (.drum bi (d.x - b.q0).normalized di) else none

/-- ball2d/Ball2DSim.cpp:747-762 `computeBallPlaneActiveSetAllPairs` -/
noncomputable def planeContacts (bs : List BallStep) (planes : List (HalfPlane ℝ)) : List Contact :=
  planes.zipIdx.flatMap fun (p, pi) =>
    bs.zipIdx.filterMap fun (b, bi) =>
      if planeIsActive b.q1 b.r p then some (.plane bi p.n pi) else none

/-- ball2d/Ball2DSim.cpp:151-173 `computeActiveSet` -/
noncomputable def computeActiveSet (junk : ℝ → ℤ) (bs : List BallStep) (planes : List (HalfPlane ℝ)) (drums : List Drum)
    (portals : List (PlanarPortal ℝ)) : Outcome (List Contact) :=
  (if portals.length = 0 then computeBallBallActiveSetSpatialGrid bs
    else computeBallBallActiveSetSpatialGridWithPortals junk portals bs).bind fun balls =>
  .ok (balls ++ drumContacts bs drums ++ planeContacts bs planes)

end Scisim
