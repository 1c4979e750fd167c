import Verif.Model.Edits
/-!
# What a state contains

A body or ball as seen from outside: everything the state says about it.
-/

namespace Scisim

/-- Everything a 2D rigid body state says about one body -/
structure BodyView (S G : Type) where
  x : S
  y : S
  theta : S
  vx : S
  vy : S
  omega : S
  mass : S × S × S
  invMass : S × S × S
  fixed : Bool
  geometry : Option G
deriving DecidableEq

/-- The body with index `i` -/
def RbStore.body {S G : Type} (s : RbStore S G) (i : Nat) : BodyView S G :=
  { x := s.q.get (3 * i), y := s.q.get (3 * i + 1), theta := s.q.get (3 * i + 2)
    vx := s.v.get (3 * i), vy := s.v.get (3 * i + 1), omega := s.v.get (3 * i + 2)
    mass := (s.M.get (3 * i), s.M.get (3 * i + 1), s.M.get (3 * i + 2))
    invMass := (s.Minv.get (3 * i), s.Minv.get (3 * i + 1), s.Minv.get (3 * i + 2))
    fixed := s.fixed.get i
    geometry := s.geo.get (s.geoIdx.get i) }

/-- All bodies in order -/
def RbStore.bodies {S G : Type} (s : RbStore S G) : List (BodyView S G) := (List.range (s.q.size / 3)).map s.body

/-- All geometry instances in order -/
def RbStore.geometries {S G : Type} (s : RbStore S G) : List (Option G) := s.geo.toList

/-- The sizes of all arrays agree and every body refers to an existing geometry (rigidbody2d/RigidBody2DState.cpp:46-79) -/
structure RbStore.Consistent {S G : Type} (s : RbStore S G) : Prop where
  q : s.q.size % 3 = 0
  v : s.v.size = s.q.size
  M : s.M.size = s.q.size
  Minv : s.Minv.size = s.q.size
  fixed : s.fixed.size = s.q.size / 3
  geoIdx : s.geoIdx.size = s.q.size / 3
  inRange : ∀ i < s.q.size / 3, s.geoIdx.get i < s.geo.size
  present : ∀ g < s.geo.size, (s.geo.get g).isSome

/-- Everything a ball state says about one ball -/
structure BallView (S : Type) where
  x : S
  y : S
  vx : S
  vy : S
  r : S
  mass : S × S
  invMass : S × S
  fixed : Bool
deriving DecidableEq

/-- The ball with index `i` -/
def BallStore.ball {S : Type} (s : BallStore S) (i : Nat) : BallView S :=
  { x := s.q.get (2 * i), y := s.q.get (2 * i + 1), vx := s.v.get (2 * i), vy := s.v.get (2 * i + 1), r := s.r.get i
    mass := (s.M.get (2 * i), s.M.get (2 * i + 1)), invMass := (s.Minv.get (2 * i), s.Minv.get (2 * i + 1)), fixed := s.fixed.get i }

/-- All balls in order -/
def BallStore.balls {S : Type} (s : BallStore S) : List (BallView S) := (List.range (s.q.size / 2)).map s.ball

/-- The sizes of all arrays agree -/
structure BallStore.Consistent {S : Type} (s : BallStore S) : Prop where
  q : s.q.size % 2 = 0
  v : s.v.size = s.q.size
  r : s.r.size = s.q.size / 2
  fixed : s.fixed.size = s.q.size / 2
  M : s.M.size = s.q.size
  Minv : s.Minv.size = s.q.size

/-- The elements of a list whose positions are not listed, in their original order -/
def withoutPositions {α : Type} (l : List α) (positions : List Nat) : List α :=
  (l.zipIdx.filter fun p => decide (p.2 ∉ positions)).map Prod.fst

/-! ## Scripts that edit the state -/

/-- The edits a script can make -/
inductive EditOp (S : Type) where
  | addCircle (r : S)
  | addBody (x y theta vx vy omega rho : S) (geometry : Int) (fixed : Int)
  | deleteBodies (indices : List Nat)
  | deleteGeometry (indices : List Nat)

/-- What a script does to the state; it stops at the first edit that stops the program -/
def RbStore.edit {S G : Type} [HasNaN S] [One S] [Div S] [Zero S] [LE S] [DecidableLE S] (junk : Nat → Nat) (circle : S → G)
    (massInertia : G → S → S × S) : List (EditOp S) → RbStore S G → Outcome (RbStore S G)
  | [], s => .ok s
  | .addCircle r :: ops, s => (s.scriptAddCircle circle r).bind (RbStore.edit junk circle massInertia ops)
  | .addBody x y theta vx vy omega rho g f :: ops, s =>
    (s.scriptAddBody massInertia x y theta vx vy omega rho g f).bind (RbStore.edit junk circle massInertia ops)
  | .deleteBodies is :: ops, s => (s.scriptDeleteBodies is).bind (RbStore.edit junk circle massInertia ops)
  | .deleteGeometry is :: ops, s => (s.scriptDeleteGeometry junk is).bind (RbStore.edit junk circle massInertia ops)

/-- The state as a script's author thinks of it: a list of bodies, for each the number of its geometry, and a list of geometries -/
structure World (S G : Type) where
  bodies : List (BodyView S G)
  uses : List Nat
  geometries : List G

/-- What an edit means; `none` if its arguments are not acceptable: a radius or density that is not positive, an index that does not exist, a flag other
than 0 and 1, a position that is not a number, or a geometry that is still in use -/
def World.step {S G : Type} [HasNaN S] [One S] [Div S] [Zero S] [LE S] [DecidableLE S] (circle : S → G) (massInertia : G → S → S × S)
    (w : World S G) : EditOp S → Option (World S G)
  | .addCircle r => if r ≤ 0 then none else some { w with geometries := w.geometries ++ [circle r] }
  | .addBody x y theta vx vy omega rho g f =>
    if rho ≤ 0 ∨ g < 0 ∨ (f ≠ 0 ∧ f ≠ 1) ∨ HasNaN.isNaN x = true then none else
      match w.geometries[g.toNat]? with
      | none => none
      | some geo =>
        let m := (massInertia geo rho).1
        let i := (massInertia geo rho).2
        some { w with
          bodies := w.bodies ++ [{ x := x, y := y, theta := theta, vx := vx, vy := vy, omega := omega, mass := (m, m, i),
                                   invMass := (1 / m, 1 / m, 1 / i), fixed := decide (f = 1), geometry := some geo }]
          uses := w.uses ++ [g.toNat] }
  | .deleteBodies is =>
    if ∀ i ∈ is, i < w.bodies.length then some { w with bodies := withoutPositions w.bodies is, uses := withoutPositions w.uses is } else none
  | .deleteGeometry is =>
    if (∀ i ∈ is, i < w.geometries.length) ∧ ∀ u ∈ w.uses, u ∉ is then
      some { w with geometries := withoutPositions w.geometries is
                    uses := w.uses.map fun u => ((List.range u).filter fun i => decide (i ∉ is)).length }
    else none

/-- A sequence of edits -/
def World.run {S G : Type} [HasNaN S] [One S] [Div S] [Zero S] [LE S] [DecidableLE S] (circle : S → G) (massInertia : G → S → S × S) :
    List (EditOp S) → World S G → Option (World S G)
  | [], w => some w
  | op :: ops, w => (w.step circle massInertia op).bind (World.run circle massInertia ops)

/-- The state holds exactly these bodies and geometries, and the positions are numbers -/
structure RbStore.Holds {S G : Type} [HasNaN S] (s : RbStore S G) (w : World S G) : Prop where
  consistent : s.Consistent
  bodies : s.bodies = w.bodies
  uses : s.geoIdx.toList = w.uses
  geometries : s.geometries = w.geometries.map some
  numbers : ∀ b ∈ s.bodies, HasNaN.isNaN b.x = false

end Scisim
