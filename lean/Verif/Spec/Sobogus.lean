import Mathlib.Data.Matrix.Mul
import Mathlib.LinearAlgebra.Matrix.NonsingularInverse
import Verif.Model.Sobogus
/-!
# What a group of contacts does to the bodies

The physics `Sobogus::solve` stands for, in terms of the whole system: every body has a position, a velocity and a mass block, every contact has a basis
(normal first) and one or two bodies it acts on.
-/

namespace Scisim
namespace Sobogus

open Matrix

variable {K : Type}

/-- The velocity of body `b` of `n`. In 3D all linear velocities are stored first, then all angular ones. -/
def bodyVel : (k : Kind) → Nat → DVec K → Nat → Fin k.dof → K
  | .balls2D, _, v, b => ![v.val (2 * b), v.val (2 * b + 1)]
  | .rigidBody2D, _, v, b => ![v.val (3 * b), v.val (3 * b + 1), v.val (3 * b + 2)]
  | .rigidBodies3D, n, v, b =>
    ![v.val (3 * b), v.val (3 * b + 1), v.val (3 * b + 2), v.val (3 * n + 3 * b), v.val (3 * n + 3 * b + 1), v.val (3 * n + 3 * b + 2)]

/-- The position of body `b` of `n`. In 3D all centres of mass are stored first, then all rotation matrices. -/
def bodyPos : (k : Kind) → Nat → DVec K → Nat → Fin k.qdof → K
  | .balls2D, _, q, b => ![q.val (2 * b), q.val (2 * b + 1)]
  | .rigidBody2D, _, q, b => ![q.val (3 * b), q.val (3 * b + 1), q.val (3 * b + 2)]
  | .rigidBodies3D, n, q, b =>
    ![q.val (3 * b), q.val (3 * b + 1), q.val (3 * b + 2),
      q.val (3 * n + 9 * b), q.val (3 * n + 9 * b + 1), q.val (3 * n + 9 * b + 2), q.val (3 * n + 9 * b + 3), q.val (3 * n + 9 * b + 4),
      q.val (3 * n + 9 * b + 5), q.val (3 * n + 9 * b + 6), q.val (3 * n + 9 * b + 7), q.val (3 * n + 9 * b + 8)]

/-- The mass block of body `b` of `n`, given the values of the mass matrix column by column: diagonal in 2D; in 3D the masses of all bodies come first,
then their inertia tensors. -/
def bodyMass [Zero K] : (k : Kind) → Nat → DVec K → Nat → Matrix (Fin k.dof) (Fin k.dof) K
  | .balls2D, _, M, b => !![M.val (2 * b), 0; 0, M.val (2 * b + 1)]
  | .rigidBody2D, _, M, b => !![M.val (3 * b), 0, 0; 0, M.val (3 * b + 1), 0; 0, 0, M.val (3 * b + 2)]
  | .rigidBodies3D, n, M, b =>
    let I := fun i => M.val (3 * n + 9 * b + i)
    !![M.val (3 * b), 0, 0, 0, 0, 0;
       0, M.val (3 * b + 1), 0, 0, 0, 0;
       0, 0, M.val (3 * b + 2), 0, 0, 0;
       0, 0, 0, I 0, I 3, I 6;
       0, 0, 0, I 1, I 4, I 7;
       0, 0, 0, I 2, I 5, I 8]

/-- Number of values stored in the mass matrix of `n` bodies -/
def massSize : Kind → Nat → Nat
  | .balls2D, n => 2 * n
  | .rigidBody2D, n => 3 * n
  | .rigidBodies3D, n => 12 * n

/-- The mass of a body is the same in every direction. -/
def IsotropicMass : Kind → DVec K → Nat → Prop
  | .balls2D, M, b => M.val (2 * b + 1) = M.val (2 * b)
  | .rigidBody2D, M, b => M.val (3 * b + 1) = M.val (3 * b)
  | .rigidBodies3D, _, _ => True

variable {k : Kind}

/-- A contact acts on body `b`. -/
def Contact.Touches (c : Contact K k) (b : Nat) : Prop := c.body0 = b ∨ c.body1 = some b

/-- The velocity of the first body relative to the second in the basis of a contact with blocks `HA`, `HB`, when the bodies move with `V` -/
def relativeVelocity [NonUnitalNonAssocRing K] (HA HB : Matrix (Fin k.amb) (Fin k.dof) K) (a : Nat) (b : Option Nat) (V : Nat → Fin k.dof → K) :
    Fin k.amb → K :=
  HA *ᵥ V a - b.elim 0 fun b => HB *ᵥ V b

/-- The generalised impulse body `o` gets from the impulse `r` (in the basis of the contact): the first body gets it, the second body the opposite. -/
def impulseOn [NonUnitalNonAssocRing K] (HA HB : Matrix (Fin k.amb) (Fin k.dof) K) (a : Nat) (b : Option Nat) (r : Fin k.amb → K) (o : Nat) :
    Fin k.dof → K :=
  (if a = o then HAᵀ *ᵥ r else 0) - (if b = some o then HBᵀ *ᵥ r else 0)

/-- The state the contact sees -/
def Input.viewOf (x : Input K k) (c : Contact K k) : View K k :=
  ⟨bodyPos k x.nbodies x.q0 c.body0, bodyVel k x.nbodies x.v0 c.body0,
    c.body1.map fun b => (bodyPos k x.nbodies x.q0 b, bodyVel k x.nbodies x.v0 b)⟩

/-- The basis of contact number `i`; its columns are the normal and the tangents. -/
def Input.basis (x : Input K k) (i : Nat) : Matrix (Fin k.amb) (Fin k.amb) K := Matrix.of fun a j => x.bases.val a (k.amb * i + j)

/-- The two blocks of contact `c`, number `i` -/
def Input.hA (x : Input K k) (i : Nat) (c : Contact K k) : Matrix (Fin k.amb) (Fin k.dof) K := (c.hMat (x.viewOf c) (x.basis i)).1
@[inherit_doc Input.hA]
def Input.hB (x : Input K k) (i : Nat) (c : Contact K k) : Matrix (Fin k.amb) (Fin k.dof) K := (c.hMat (x.viewOf c) (x.basis i)).2

/-- An additional term, which may be left out -/
def extra [Zero K] (e : DVec K) (i : Nat) : K := if e.size = 0 then 0 else e.val i

/-- What is added to the relative velocity after the impact before the contact law is applied: minus the velocity of the object hit (kinematic
contacts), what the caller adds, and in the normal direction `CoR` times the approach velocity before the impact (so that a contact at rest afterwards has
bounced) -/
def Input.prescribed [Ring K] (x : Input K k) (i : Nat) (c : Contact K k) : Fin k.amb → K :=
  Fin.cons
    (x.CoR.val i * c.nDotV (x.viewOf c) - (c.kinVel (x.viewOf c) ⬝ᵥ (x.basis i).col 0) + extra x.nrelExtra i)
    fun s : Fin k.tan => - (c.kinVel (x.viewOf c) ⬝ᵥ (x.basis i).col s.succ) + extra x.drelExtra (k.tan * i + s)

/-- Sizes and indices fit together, as they do when the maps call the solver. -/
structure Input.WellFormed (x : Input K k) : Prop where
  some_contact : x.active ≠ []
  body0 : ∀ c ∈ x.active, c.body0 < x.nbodies
  body1 : ∀ c ∈ x.active, ∀ b, c.body1 = some b → b < x.nbodies ∧ b ≠ c.body0
  v0 : x.v0.size = k.dof * x.nbodies
  q0 : x.q0.size = k.qdof * x.nbodies
  M : x.M.size = massSize k x.nbodies
  isotropic : ∀ b < x.nbodies, IsotropicMass k x.M b
  CoR : x.CoR.size = x.active.length
  mu : x.mu.size = x.active.length
  alpha : x.alpha.size = x.active.length
  beta : x.beta.size = k.tan * x.active.length
  f : x.f.size = k.dof * x.nbodies
  bases : x.bases.cols = k.amb * x.active.length
  nrelExtra : x.nrelExtra.size = 0 ∨ x.nrelExtra.size = x.active.length
  drelExtra : x.drelExtra.size = 0 ∨ x.drelExtra.size = k.tan * x.active.length

/-- The bases are orthonormal, and the blocks of a contact begin with the basis. -/
structure Input.ContactsOk [NonUnitalNonAssocSemiring K] [One K] (x : Input K k) : Prop where
  orthonormal : ∀ i, i < x.active.length → (x.basis i)ᵀ * x.basis i = 1
  hA : ∀ i c, x.active[i]? = some c → ∀ s j, x.hA i c s (k.tr j) = x.basis i j s
  hB : ∀ i c, x.active[i]? = some c → c.body1 ≠ none → ∀ s j, x.hB i c s (k.tr j) = x.basis i j s

/-- The library inverts mass blocks. -/
def Library.InvertsMass [CommRing K] (lib : Library K k) : Prop :=
  ∀ (p : Primal K k) (b : Nat), b < p.nbodies → IsUnit (p.M b) → p.M b * lib.mInv p b = 1

/-- The library returns no friction for contacts with friction coefficient zero. -/
def Library.Frictionless [Zero K] (lib : Library K k) : Prop :=
  ∀ (p : Primal K k) r tol m e c, c < p.ncontacts → p.mu.val c = 0 → ∀ s : Fin k.tan, (lib.gaussSeidel p r tol m e).2 (k.amb * c + s.succ) = 0

/-- What the library promises: whenever it reports an error below the tolerance, the impulses and the velocities of its problem
`M v + f = Hᵀ r`, `u = H v + Eᵀ w` satisfy the contact law at every contact. The law relates friction coefficient, velocity and impulse. -/
def Library.Solves [CommRing K] [LT K] (lib : Library K k) (Law : K → (Fin k.amb → K) → (Fin k.amb → K) → Prop) : Prop :=
  ∀ (p : Primal K k) r tol m e (V : Nat → Fin k.dof → K),
    (lib.gaussSeidel p r tol m e).1 < tol →
    let rOf := fun c (s : Fin k.amb) => (lib.gaussSeidel p r tol m e).2 (k.amb * c + s)
    (∀ b < p.nbodies, ∀ j : Fin k.dof, (p.M b *ᵥ V b) j + p.f.val (k.dof * b + j) =
      (∑ c ∈ Finset.range p.ncontacts, impulseOn (p.row c).HA (p.row c).HB (p.row c).objA (p.row c).objB (rOf c) b) j) →
    ∀ c < p.ncontacts,
      Law (p.mu.val c) (relativeVelocity (p.row c).HA (p.row c).HB (p.row c).objA (p.row c).objB V + (p.row c).Eᵀ *ᵥ (p.row c).w) (rOf c)

/-- The impulse of contact `i` in its basis: normal part, tangential parts -/
def Output.impulse (out : Output K k) (i : Nat) : Fin k.amb → K := Fin.cons (out.alpha.val i) fun s : Fin k.tan => out.beta.val (k.tan * i + s)

/-- Only its tangential parts -/
def Output.friction [Zero K] (out : Output K k) (i : Nat) : Fin k.amb → K := Fin.cons 0 fun s : Fin k.tan => out.beta.val (k.tan * i + s)

/-- Sum over the contacts, with their numbers -/
def Input.sumContacts {A : Type} [AddCommMonoid A] (x : Input K k) (g : Nat → Contact K k → A) : A :=
  ∑ i ∈ Finset.range x.active.length, (x.active[i]?).elim 0 (g i)

end Sobogus
end Scisim
