import Verif.Model.BallContacts
import Verif.Spec.CCD
import Verif.Spec.Grid
import Verif.Spec.Portal
/-!
# What the contact list of a ball simulation should contain
-/

namespace Scisim

/-- The two balls, moved linearly from their start to their end positions, touch or overlap at some time of the step. -/
def SweptCollide (a b : BallStep) : Prop := ∃ t, CollideAt a.q0 a.q1 a.r b.q0 b.q1 b.r t

/-- The end-of-step disc of the ball has a point on the solid side of the plane. -/
def MeetsSolid (b : BallStep) (p : HalfPlane ℝ) : Prop := ∃ x, InDisc x b.q1 b.r ∧ p.height x ≤ 0

/-- The end-of-step disc of the ball has a point that is not strictly inside the drum. -/
def MeetsOutside (b : BallStep) (d : Drum) : Prop := ∃ x, InDisc x b.q1 b.r ∧ d.r ^ 2 ≤ distSq x d.x

/-- Ball pairs of the ordinary (`teleported = false`) or teleported contacts of a list, in order. -/
def ballPairs (teleported : Bool) (cs : List Contact) : List (Nat × Nat) :=
  cs.filterMap fun c => match c with
    | .ballBall c => if c.teleported = teleported then some (c.idx0, c.idx1) else none
    | _ => none

/-- (ball, plane) pairs of the plane contacts of a list. -/
def planePairs (cs : List Contact) : List (Nat × Nat) :=
  cs.filterMap fun c => match c with
    | .plane b _ p => some (b, p)
    | _ => none

/-- (ball, drum) pairs of the drum contacts of a list. -/
def drumPairs (cs : List Contact) : List (Nat × Nat) :=
  cs.filterMap fun c => match c with
    | .drum b _ d => some (b, d)
    | _ => none

/-- `i` is an image of a ball at the end of the step, with its centre: the ball itself, or the ball seen through a plane of a
portal that its disc touches. -/
def IsImage (junk : ℝ → ℤ) (portals : List (PlanarPortal ℝ)) (bs : List BallStep) (i : Image) (b : BallStep) (center : V2 ℝ) : Prop :=
  bs[i.body]? = some b ∧
  match i.via with
  | none => center = b.q1
  | some (k, plane) => ∃ p, portals[k]? = some p ∧
      ((plane = false ∧ p.planeA.height b.q1 ≤ b.r ∧ center = p.teleportPointThroughPlaneA junk b.q1) ∨
       (plane = true ∧ p.planeB.height b.q1 ≤ b.r ∧ center = p.teleportPointThroughPlaneB junk b.q1))

/-- Two images collide through a portal: at least one of them is teleported, their discs meet, and it is not the case that both are
teleported while the balls touch directly. -/
def CollideThroughPortal (junk : ℝ → ℤ) (portals : List (PlanarPortal ℝ)) (bs : List BallStep) (i j : Image) : Prop :=
  ∃ a b ca cb, IsImage junk portals bs i a ca ∧ IsImage junk portals bs j b cb ∧
    (i.via ≠ none ∨ j.via ≠ none) ∧ DiscsMeet ca a.r cb b.r ∧
    ¬(i.via ≠ none ∧ j.via ≠ none ∧ DiscsMeet a.q1 a.r b.q1 b.r)

/-- A point seen the way an image is seen: unchanged, or through a plane of a portal. -/
noncomputable def Image.see (junk : ℝ → ℤ) (portals : List (PlanarPortal ℝ)) (i : Image) (x : V2 ℝ) : V2 ℝ :=
  match i.via with
  | none => x
  | some (k, plane) =>
    match portals[k]? with
    | none => x
    | some p => if plane then p.teleportPointThroughPlaneB junk x else p.teleportPointThroughPlaneA junk x

/-- The portal of an image, if it is a sliding one, and whether the image went through plane A. -/
def Image.slidesThrough (portals : List (PlanarPortal ℝ)) (i : Image) (p : PlanarPortal ℝ) (plane : Bool) : Prop :=
  ∃ k, i.via = some (k, plane) ∧ portals[k]? = some p ∧ p.v ≠ 0

/-- The velocity a sliding portal adds to what is seen through one of its planes. -/
noncomputable def kickOf (p : PlanarPortal ℝ) (plane : Bool) : V2 ℝ := if plane then (-p.v) • p.planeB.t else (-p.v) • p.planeA.t

end Scisim
