import Mathlib.Logic.Function.Basic
import Verif.Model.Snapshot
/-!
# Copies of impact and friction operators

Operators are objects in memory. A compound operator or a friction solver is constructed from references to other operators: it clones them and keeps the clones behind `std::unique_ptr`. The parsers construct
the parts in local variables, which are destroyed when the scope ends.

Simplified: an address is not used again after `delete`; no allocation fails; null pointers do not occur (the parsers return before they construct a compound from one; a file with a nested `NULL` is outside the model).
-/

namespace Scisim.OperatorCopies

/-- Objects by class with their members, scisim/ConstrainedMaps/ImpactMaps/GROperator.h:33-35, GRROperator.h:32-33, GaussSeidelOperator.h:31, JacobiOperator.h:30, LCPOperatorQL.h:31, LCPOperatorQLVP.h:30,
LCPOperatorIpopt.h:37-38, LCPOperatorAPGD.h:26-27, FrictionMaps/LinearMDPOperatorQL.h:38-39, BoundConstrainedMDPOperatorQL.h:42, SmoothMDPOperatorIpopt.h:44-45. Operators inside are addresses. -/
inductive Node where
  | gr (vTol : F64) (impact : ℕ)
  | grr (elastic inelastic : ℕ)
  | gaussSeidel (vTol : F64)
  | jacobi (vTol : F64)
  | lcpQL (tol : F64)
  | lcpQLVP (tol : F64)
  | lcpIpopt (solvers : List Bytes) (tol : F64)
  | lcpAPGD (tol : F64) (maxIters : UInt32)
  | linearMDPQL (samples : Int32) (tol : F64)
  | boundConstrainedMDPQL (tol : F64)
  | smoothMDPIpopt (solvers : List Bytes) (tol : F64)
deriving DecidableEq

/-- Memory: the objects that exist, by address, and the next address -/
structure Mem where
  objs : ℕ → Option Node
  next : ℕ

/-- Nothing allocated -/
def Mem.start : Mem := ⟨fun _ => none, 0⟩

/-- `new` -/
def new (n : Node) (m : Mem) : Outcome (ℕ × Mem) := .ok (m.next, ⟨Function.update m.objs m.next (some n), m.next + 1⟩)

/-- The memory of an object is given back; doing so twice is undefined. -/
def free (a : ℕ) (m : Mem) : Outcome Mem :=
  match m.objs a with
  | none => .ub
  | some _ => .ok ⟨Function.update m.objs a none, m.next⟩

/-- `IpoptUtilities::linearSolverSupported`, scisim/ConstrainedMaps/IpoptUtilities.cpp:10-17 -/
def linearSolverSupported (s : Bytes) : Bool :=
  if s ≠ ascii "ma27" ∧ s ≠ ascii "ma57" ∧ s ≠ ascii "mumps" ∧ s ≠ ascii "ma86" ∧ s ≠ ascii "ma97" then false else true

/-- `IpoptUtilities::containsDuplicates`, IpoptUtilities.cpp:19-32 -/
def containsDuplicates : List Bytes → Bool
  | [] => false
  | s :: rest => if rest.any fun t => s = t then true else containsDuplicates rest

/-- The checks in the constructors LCPOperatorIpopt.cpp:25-50 and SmoothMDPOperatorIpopt.cpp:24-49, before `after` -/
def checkSolvers (solvers : List Bytes) (after : Outcome (ℕ × Mem)) : Outcome (ℕ × Mem) :=
  if solvers = [] then .exit
  else if containsDuplicates solvers then .exit
  else if solvers.any fun s => !linearSolverSupported s then .exit
  else after

/-- `GROperator::GROperator( v_tol, impact_operator )`, GROperator.cpp:14-20; `clone`: what the argument's `clone` does -/
def makeGR (clone : ℕ → Mem → Outcome (ℕ × Mem)) (vTol : F64) (impact : ℕ) (m : Mem) : Outcome (ℕ × Mem) :=
  (clone impact m).bind fun r => new (.gr vTol r.1) r.2

/-- `GRROperator::GRROperator( elastic_operator, inelastic_operator )`, GRROperator.cpp:12-18 -/
def makeGRR (clone : ℕ → Mem → Outcome (ℕ × Mem)) (elastic inelastic : ℕ) (m : Mem) : Outcome (ℕ × Mem) :=
  (clone elastic m).bind fun r => (clone inelastic r.2).bind fun s => new (.grr r.1 s.1) s.2

/-- `clone` of the impact operators, by class: GROperator.cpp:138-141, GRROperator.cpp:76-79, GaussSeidelOperator.cpp:64-67, JacobiOperator.cpp:59-62, LCPOperatorQL.cpp:132-135, LCPOperatorQLVP.cpp:178-181,
LCPOperatorIpopt.cpp:202-205, LCPOperatorAPGD.cpp:51-54, to the given depth of nesting. Calling it where there is no impact operator is undefined. -/
def cloneImpactAux : ℕ → ℕ → Mem → Outcome (ℕ × Mem)
  | 0, _, _ => .ub
  | k + 1, a, m =>
    match m.objs a with
    | some (.gr vTol impact) => makeGR (cloneImpactAux k) vTol impact m
    | some (.grr elastic inelastic) => makeGRR (cloneImpactAux k) elastic inelastic m
    | some (.gaussSeidel vTol) => new (.gaussSeidel vTol) m
    | some (.jacobi vTol) => new (.jacobi vTol) m
    | some (.lcpQL tol) => new (.lcpQL tol) m
    | some (.lcpQLVP tol) => new (.lcpQLVP tol) m
    | some (.lcpIpopt solvers tol) => checkSolvers solvers (new (.lcpIpopt solvers tol) m)
    | some (.lcpAPGD tol maxIters) => new (.lcpAPGD tol maxIters) m
    | _ => .ub

/-- `clone` of an impact operator; no chain of pointers visits more objects than were ever made. -/
def cloneImpact (a : ℕ) (m : Mem) : Outcome (ℕ × Mem) := cloneImpactAux m.next a m

/-- `clone` of the friction operators: LinearMDPOperatorQL.cpp:197-200, BoundConstrainedMDPOperatorQL.cpp:145-148, SmoothMDPOperatorIpopt.cpp:69-72 -/
def cloneFriction (a : ℕ) (m : Mem) : Outcome (ℕ × Mem) :=
  match m.objs a with
  | some (.linearMDPQL samples tol) => new (.linearMDPQL samples tol) m
  | some (.boundConstrainedMDPQL tol) => new (.boundConstrainedMDPQL tol) m
  | some (.smoothMDPIpopt solvers tol) => checkSolvers solvers (new (.smoothMDPIpopt solvers tol) m)
  | _ => .ub

/-- The virtual destructor and `delete` through `std::unique_ptr`: GROperator.cpp:30, GRROperator.cpp:28 and the defaulted destructors of the other classes. Members go in the reverse of the order in which they
are declared, then the object itself. -/
def deleteAux : ℕ → ℕ → Mem → Outcome Mem
  | 0, _, _ => .ub
  | k + 1, a, m =>
    match m.objs a with
    | none => .ub
    | some (.gr _ impact) => (deleteAux k impact m).bind fun m1 => free a m1
    | some (.grr elastic inelastic) => (deleteAux k inelastic m).bind fun m1 => (deleteAux k elastic m1).bind fun m2 => free a m2
    | some _ => free a m

/-- `delete` of an operator -/
def delete (a : ℕ) (m : Mem) : Outcome Mem := deleteAux m.next a m

/-- `serialize` of an impact operator with the name before it, ConstrainedMapUtilities.cpp:36-50 and the functions of the classes (see `serImpactOp`), which read the objects in memory -/
def writeAux : ℕ → ℕ → Mem → Outcome Bytes
  | 0, _, _ => .ub
  | k + 1, a, m =>
    match m.objs a with
    | some (.gr tol impact) => andThen (.ok (serStr (ascii "gr") ++ serPod tol)) (writeAux k impact m)
    | some (.grr e i) => andThen (.ok (serStr (ascii "grr"))) (andThen (writeAux k e m) (writeAux k i m))
    | some (.gaussSeidel tol) => .ok (serStr (ascii "gauss_seidel") ++ serPod tol)
    | some (.jacobi _) => .exit
    | some (.lcpQL tol) => .ok (serStr (ascii "lcp_ql") ++ serPod tol)
    | some (.lcpQLVP _) => .exit
    | some (.lcpIpopt ss tol) => .ok (serStr (ascii "lcp_ipopt") ++ (serStrs ss ++ serPod tol))
    | some (.lcpAPGD tol n) => .ok (serStr (ascii "lcp_apgd") ++ (serPod tol ++ serPod n))
    | _ => .ub

/-- `serialize` of an impact operator -/
def write (a : ℕ) (m : Mem) : Outcome Bytes := writeAux m.next a m

/-- How the parsers construct an operator, ball2dutils/Ball2DSceneParser.cpp:642-895, rigidbody2dutils/RigidBody2DSceneParser.cpp:562-790, rigidbody3dutils/RigidBody3DSceneParser.cpp:1211-1440: the parts of a
compound in local variables, then the compound from them; then the local variables are destroyed, the last one first. -/
def parseImpact : ImpactOp → Mem → Outcome (ℕ × Mem)
  | .null, _ => .fail
  | .gr vTol inner, m =>
    (parseImpact inner m).bind fun r => (makeGR cloneImpact vTol r.1 r.2).bind fun s => (delete r.1 s.2).bind fun m' => .ok (s.1, m')
  | .grr elastic inelastic, m =>
    (parseImpact elastic m).bind fun r => (parseImpact inelastic r.2).bind fun s => (makeGRR cloneImpact r.1 s.1 s.2).bind fun t =>
      (delete s.1 t.2).bind fun m1 => (delete r.1 m1).bind fun m2 => .ok (t.1, m2)
  | .gaussSeidel vTol, m => new (.gaussSeidel vTol) m
  | .jacobi vTol, m => new (.jacobi vTol) m
  | .lcpQL tol, m => new (.lcpQL tol) m
  | .lcpQLVP tol, m => new (.lcpQLVP tol) m
  | .lcpIpopt solvers tol, m => checkSolvers solvers (new (.lcpIpopt solvers tol) m)
  | .lcpAPGD tol maxIters, m => new (.lcpAPGD tol maxIters) m

/-- The same for friction operators, RigidBody3DSceneParser.cpp:1459-1530 -/
def parseFriction : FrictionOp → Mem → Outcome (ℕ × Mem)
  | .null, _ => .fail
  | .linearMDPQL samples tol, m => new (.linearMDPQL samples tol) m
  | .boundConstrainedMDPQL tol, m => new (.boundConstrainedMDPQL tol) m
  | .smoothMDPIpopt solvers tol, m => checkSolvers solvers (new (.smoothMDPIpopt solvers tol) m)

/-- The two pointers of `StaggeredProjections`, StaggeredProjections.h:42-43, and of `GRRFriction`, GRRFriction.h:39-40 -/
structure Solver where
  impact : ℕ
  friction : ℕ
deriving DecidableEq

/-- The constructors StaggeredProjections.cpp:25-30 and GRRFriction.cpp:16-19 -/
def makeSolver (impact friction : ℕ) (m : Mem) : Outcome (Solver × Mem) :=
  (cloneImpact impact m).bind fun r => (cloneFriction friction r.2).bind fun s => .ok (⟨r.1, s.1⟩, s.2)

/-- The destructors StaggeredProjections.cpp:39-40 and GRRFriction.cpp:26-27 -/
def deleteSolver (s : Solver) (m : Mem) : Outcome Mem :=
  (delete s.friction m).bind fun m1 => delete s.impact m1

/-- How the parsers construct a friction solver, RigidBody3DSceneParser.cpp:1627-1660 and 2030-2063, RigidBody2DSceneParser.cpp:960-991, Ball2DSceneParser.cpp:1076-1107 -/
def parseSolver (i : ImpactOp) (f : FrictionOp) (m : Mem) : Outcome (Solver × Mem) :=
  (parseImpact i m).bind fun r => (parseFriction f r.2).bind fun s => (makeSolver r.1 s.1 s.2).bind fun t =>
    (delete s.1 t.2).bind fun m1 => (delete r.1 m1).bind fun m2 => .ok (t.1, m2)

end Scisim.OperatorCopies
