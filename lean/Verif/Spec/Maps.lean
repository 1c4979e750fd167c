import Verif.Model.Maps
/-!
# What contact-aware steps and warm starting should do
-/

namespace Scisim

variable {Q V C K S P D : Type}

/-- A cache of impulses that answers like a map from contact identities (values of `ident`) to impulses: everything is forgotten by `clear`; a successful
`store` adds an impulse for the identity of the contact unless there is one; a successful `get` returns the impulse of the contact's identity, or
zeros. (The first part of the conjunction is the internal invariant of the cache.) -/
def CacheSys.Lawful [Zero S] [DecidableEq D] (cs : CacheSys C K S) (ident : C → D) : Prop :=
  ∃ (Inv : K → Prop) (look : K → D → Option (List S)),
    (Inv cs.clear ∧ ∀ d, look cs.clear d = none) ∧
    (∀ k c r k', Inv k → cs.store k c r = .ok k' →
      Inv k' ∧ ∀ d, look k' d = if d = ident c then (look k d).or (some r) else look k d) ∧
    (∀ k c n r, Inv k → cs.get k c n = .ok r → r = (look k (ident c)).getD (List.replicate n 0))

/-- The contact in place `i` of the earlier problem and the contact in place `j` of the later problem are the same. -/
def SamePlace (ident : C → D) (p r : SolveRecord Q V C S) (i j : Nat) : Prop :=
  ∃ c c', p.contacts[i]? = some c ∧ r.contacts[j]? = some c' ∧ ident c = ident c'

/-- The contact in place `j` of the later problem is not a contact of the earlier step. -/
def NewPlace (ident : C → D) (prev : Option (SolveRecord Q V C S)) (r : SolveRecord Q V C S) (j : Nat) : Prop :=
  ∃ c', r.contacts[j]? = some c' ∧ ∀ p, prev = some p → ∀ c ∈ p.contacts, ident c ≠ ident c'

/-- Normal impulses: a persisting contact starts from the impulse the previous step ended with, a new one from zero. -/
def WarmNormal [Zero S] (ident : C → D) (prev : Option (SolveRecord Q V C S)) (r : SolveRecord Q V C S) : Prop :=
  (∀ p i j, prev = some p → SamePlace ident p r i j → ∃ a, p.final.alpha[i]? = some a ∧ r.start.alpha[j]? = some a) ∧
  (∀ j, NewPlace ident prev r j → r.start.alpha[j]? = some 0)

/-- The same for friction impulses, one for each contact. -/
def WarmFriction [Zero S] (ident : C → D) (prev : Option (SolveRecord Q V C S)) (r : SolveRecord Q V C S) : Prop :=
  (∀ p i j, prev = some p → SamePlace ident p r i j → ∃ b, p.final.beta[i]? = some b ∧ r.start.beta[j]? = some b) ∧
  (∀ j, NewPlace ident prev r j → r.start.beta[j]? = some 0)

/-- The three impulses in place `i`: normal and two tangential ones. -/
def Impulses.HasTriple (x : Impulses S) (i : Nat) (abb : S × S × S) : Prop :=
  x.alpha[i]? = some abb.1 ∧ x.beta[2 * i]? = some abb.2.1 ∧ x.beta[2 * i + 1]? = some abb.2.2

/-- Three impulses for each contact: those of a persisting contact are related to the ones the previous step ended with by `rel`, those of a new one
are zero. -/
def WarmTriple [Zero S] (ident : C → D) (rel : Q → V → C → S × S × S → Q → V → C → S × S × S → Prop) (prev : Option (SolveRecord Q V C S))
    (r : SolveRecord Q V C S) : Prop :=
  (∀ p i j c c', prev = some p → p.contacts[i]? = some c → r.contacts[j]? = some c' → ident c = ident c' →
    ∃ x y, p.final.HasTriple i x ∧ r.start.HasTriple j y ∧ rel p.q p.v c x r.q r.v c' y) ∧
  (∀ j, NewPlace ident prev r j → r.start.HasTriple j (0, 0, 0))

/-- Every two consecutive steps of a run, of which the second one has contacts, satisfy a relation. -/
def Consecutive {R : Type} (rs : List (Option R)) (rel : Option R → R → Prop) : Prop :=
  ∀ t prev r, rs[t]? = some prev → rs[t + 1]? = some (some r) → rel prev r

/-- All contacts of a list are different. -/
def DifferentContacts (ident : C → D) (cs : List C) : Prop := (cs.map ident).Nodup

/-- Physical identity of a contact of the ball simulation. -/
inductive BallContactId where
  | balls (i j : Nat) (teleported : Bool)
  | plane (plane ball : Nat)
  | drum (drum ball : Nat)
deriving DecidableEq

/-- which objects touch -/
def Contact.who : Contact → BallContactId
  | .ballBall c => .balls c.idx0 c.idx1 c.teleported
  | .plane i _ k => .plane k i
  | .drum i _ k => .drum k i

/-- The columns of a contact basis are orthonormal. -/
def OrthonormalBasis3 (B : Mat3) : Prop := B.transpose * B = 1

end Scisim
