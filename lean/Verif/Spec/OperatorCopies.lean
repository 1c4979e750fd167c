import Verif.Model.OperatorCopies
/-! # What it means that an operator is in memory -/

namespace Scisim.OperatorCopies

/-- The impact operator described by `op` is at address `a` of `m` and owns exactly the objects at the addresses in the list, each only once. -/
inductive Holds (m : Mem) : ℕ → ImpactOp → List ℕ → Prop
  | gr {a v b op l} : m.objs a = some (.gr v b) → Holds m b op l → a ∉ l → Holds m a (.gr v op) (a :: l)
  | grr {a b c e i l l'} : m.objs a = some (.grr b c) → Holds m b e l → Holds m c i l' → a ∉ l → a ∉ l' → l.Disjoint l' → Holds m a (.grr e i) (a :: (l ++ l'))
  | gaussSeidel {a v} : m.objs a = some (.gaussSeidel v) → Holds m a (.gaussSeidel v) [a]
  | jacobi {a v} : m.objs a = some (.jacobi v) → Holds m a (.jacobi v) [a]
  | lcpQL {a t} : m.objs a = some (.lcpQL t) → Holds m a (.lcpQL t) [a]
  | lcpQLVP {a t} : m.objs a = some (.lcpQLVP t) → Holds m a (.lcpQLVP t) [a]
  | lcpIpopt {a ss t} : m.objs a = some (.lcpIpopt ss t) → Holds m a (.lcpIpopt ss t) [a]
  | lcpAPGD {a t n} : m.objs a = some (.lcpAPGD t n) → Holds m a (.lcpAPGD t n) [a]

/-- The friction operator described by the second argument is at address `a`. -/
inductive HoldsFriction (m : Mem) : ℕ → FrictionOp → Prop
  | linear {a n t} : m.objs a = some (.linearMDPQL n t) → HoldsFriction m a (.linearMDPQL n t)
  | bound {a t} : m.objs a = some (.boundConstrainedMDPQL t) → HoldsFriction m a (.boundConstrainedMDPQL t)
  | smooth {a ss t} : m.objs a = some (.smoothMDPIpopt ss t) → HoldsFriction m a (.smoothMDPIpopt ss t)

/-- Objects are only at addresses that were given out. -/
def Mem.Wf (m : Mem) : Prop := ∀ a, m.objs a ≠ none → a < m.next

/-- The two memories hold the same objects, except at the listed addresses. -/
def SameBut (l : List ℕ) (m m' : Mem) : Prop := ∀ x, x ∉ l → m'.objs x = m.objs x

/-- The listed addresses were not given out in `m`. -/
def Fresh (m : Mem) (l : List ℕ) : Prop := ∀ x ∈ l, m.next ≤ x

/-- A list of linear solvers that Ipopt can be asked to try -/
def GoodSolvers (ss : List Bytes) : Prop :=
  ss ≠ [] ∧ ss.Nodup ∧ ∀ s ∈ ss, s = ascii "ma27" ∨ s = ascii "ma57" ∨ s = ascii "mumps" ∨ s = ascii "ma86" ∨ s = ascii "ma97"

/-- No part of the operator is missing. -/
def Whole : ImpactOp → Prop
  | .null => False
  | .gr _ op => Whole op
  | .grr e i => Whole e ∧ Whole i
  | _ => True

/-- Every list of linear solvers in the operator is one that Ipopt can be asked to try. -/
def Good : ImpactOp → Prop
  | .gr _ op => Good op
  | .grr e i => Good e ∧ Good i
  | .lcpIpopt ss _ => GoodSolvers ss
  | _ => True

/-- The same for friction operators -/
def GoodFriction : FrictionOp → Prop
  | .smoothMDPIpopt ss _ => GoodSolvers ss
  | _ => True

end Scisim.OperatorCopies
