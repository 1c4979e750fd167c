import Verif.Model.StaggeredError
import Verif.Spec.Sobogus
/-!
# When impulses violate the contact law by no more than a tolerance

`Law tol mu u r` says that the velocity `u` and the impulse `r` of a contact with friction coefficient `mu` satisfy the law of contact up to `tol`. Nothing
is assumed about it.
-/

namespace Scisim
namespace Sobogus

open Matrix

variable {K : Type} {k : Kind}

/-- The impulse of contact `i`: normal part, tangential parts -/
def impulseOf (alpha beta : DVec K) (i : Nat) : Fin k.amb → K := Fin.cons (alpha.val i) fun s : Fin k.tan => beta.val (k.tan * i + s)

/-- The bodies move with `V` after they got the impulses of all contacts: momentum afterwards is momentum before plus impulses. -/
def Input.MovesWith [Ring K] (x : Input K k) (alpha beta : DVec K) (V : Nat → Fin k.dof → K) : Prop :=
  ∀ b < x.nbodies, bodyMass k x.nbodies x.M b *ᵥ V b = bodyMass k x.nbodies x.M b *ᵥ bodyVel k x.nbodies x.v0 b +
    x.sumContacts fun i c => impulseOn (x.hA i c) (x.hB i c) c.body0 c.body1 (impulseOf alpha beta i) b

/-- Every contact of the system satisfies the law up to `tol`. -/
def Input.Obeys [Ring K] (x : Input K k) (Law : K → K → (Fin k.amb → K) → (Fin k.amb → K) → Prop) (tol : K) (alpha beta : DVec K)
    (V : Nat → Fin k.dof → K) : Prop :=
  ∀ i c, x.active[i]? = some c →
    Law tol (x.mu.val i) (relativeVelocity (x.hA i c) (x.hB i c) c.body0 c.body1 V + x.prescribed i c) (impulseOf alpha beta i)

/-- What the library promises: the error of the impulses `r` of a problem `M v + f = Hᵀ r`, `u = H v + Eᵀ w` with invertible mass blocks is at most
`tol` exactly when every contact satisfies the law up to `tol` (the infinity norm is used). -/
def Measures [CommRing K] [LE K] (eval : Primal K k → (Nat → K) → K) (Law : K → K → (Fin k.amb → K) → (Fin k.amb → K) → Prop) : Prop :=
  ∀ (p : Primal K k) (r : Nat → K) (tol : K) (V : Nat → Fin k.dof → K), 0 ≤ tol →
    (∀ b < p.nbodies, IsUnit (p.M b)) → (∀ c < p.ncontacts, (p.row c).objA < p.nbodies ∧ ∀ b, (p.row c).objB = some b → b < p.nbodies) →
    let rOf := fun c (s : Fin k.amb) => r (k.amb * c + s)
    (∀ b < p.nbodies, ∀ j : Fin k.dof, (p.M b *ᵥ V b) j + p.f.val (k.dof * b + j) =
      (∑ c ∈ Finset.range p.ncontacts, impulseOn (p.row c).HA (p.row c).HB (p.row c).objA (p.row c).objB (rOf c) b) j) →
    (eval p r ≤ tol ↔ ∀ c < p.ncontacts,
      Law tol (p.mu.val c) (relativeVelocity (p.row c).HA (p.row c).HB (p.row c).objA (p.row c).objB V + (p.row c).Eᵀ *ᵥ (p.row c).w) (rOf c))

end Sobogus
end Scisim
