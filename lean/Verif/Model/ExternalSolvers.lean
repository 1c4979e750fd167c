import Mathlib.Analysis.Real.Sqrt
import Verif.Model.Frames
import Verif.Model.Impact
import Verif.Model.MassMatrix
import Verif.Model.SparseMatrix
/-!
# What is handed to Ipopt and QL, and what is done with their answers

scisim/ConstrainedMaps/IpoptUtilities.cpp, ImpactMaps/LCPOperatorIpopt.cpp, FrictionMaps/SmoothMDPOperatorIpopt.cpp, ImpactMaps/LCPOperatorQL.cpp,
FrictionMaps/LinearMDPOperatorQL.cpp, FrictionMaps/BoundConstrainedMDPOperatorQL.cpp and scisim/Math/QL/QLUtilities.cpp. The two libraries are parameters.
Memory that the libraries own and that is written through pointers is modelled by lists of the length the library was told. Vectors are functions from
indices. Numbers are exact; the sizes are not bounded by `int`.
-/

namespace Scisim

/-! ## IpoptUtilities.cpp -/

/-- `IpoptUtilities::linearSolverSupported`, IpoptUtilities.cpp:10-17 -/
def linearSolverSupported (s : String) : Bool :=
  if s ≠ "ma27" ∧ s ≠ "ma57" ∧ s ≠ "mumps" ∧ s ≠ "ma86" ∧ s ≠ "ma97" then false else true

/-- `IpoptUtilities::containsDuplicates`, IpoptUtilities.cpp:19-32: the first element against all later ones, then the second, and so on -/
def containsDuplicates : List String → Bool
  | [] => false
  | s :: rest => if rest.any fun t => s = t then true else containsDuplicates rest

/-- The constructor of `LCPOperatorIpopt`, LCPOperatorIpopt.cpp:25-50, and of `SmoothMDPOperatorIpopt`, SmoothMDPOperatorIpopt.cpp:24-49: the linear solvers
the operator will try -/
def ipoptOperator (solvers : List String) : Outcome (List String) :=
  if solvers = [] then .exit
  else if containsDuplicates solvers then .exit
  else if solvers.any fun s => !linearSolverSupported s then .exit
  else .ok solvers

section Sparse

variable {K : Type}

/-- `IpoptUtilities::nzLowerTriangular`, IpoptUtilities.cpp:110-126; a stored entry is its row, its column and its value. -/
def nzLowerTriangular (A : Csc K) : Outcome Nat :=
  A.stored.bind fun es => .ok (es.foldl (fun num e => if e.2.1 > e.1 then num else num + 1) 0)

/-- The loops of `IpoptUtilities::sparsityPatternLowerTriangular`, IpoptUtilities.cpp:133-146. Writing past the end of the arrays is undefined behaviour. -/
def patternLoop : List (Nat × Nat × K) → Nat → List Nat → List Nat → Outcome (List Nat × List Nat × Nat)
  | [], curel, rows, cols => .ok (rows, cols, curel)
  | e :: es, curel, rows, cols =>
    if e.2.1 > e.1 then patternLoop es curel rows cols
    else if curel < rows.length ∧ curel < cols.length then patternLoop es (curel + 1) (rows.set curel e.1) (cols.set curel e.2.1)
    else .ub

/-- `IpoptUtilities::sparsityPatternLowerTriangular`, IpoptUtilities.cpp:128-149: the arrays afterwards and the number of entries -/
def sparsityPatternLowerTriangular (A : Csc K) (rows cols : List Nat) : Outcome (List Nat × List Nat × Nat) :=
  A.stored.bind fun es => patternLoop es 0 rows cols

/-- The loops of `IpoptUtilities::valuesLowerTriangular`, IpoptUtilities.cpp:173-186 -/
def valuesLoop : List (Nat × Nat × K) → Nat → List K → Outcome (List K × Nat)
  | [], curel, vals => .ok (vals, curel)
  | e :: es, curel, vals =>
    if e.2.1 > e.1 then valuesLoop es curel vals
    else if curel < vals.length then valuesLoop es (curel + 1) (vals.set curel e.2.2)
    else .ub

/-- `IpoptUtilities::valuesLowerTriangular`, IpoptUtilities.cpp:169-188 -/
def valuesLowerTriangular (A : Csc K) (vals : List K) : Outcome (List K × Nat) := A.stored.bind fun es => valuesLoop es 0 vals

/-! ## The problems that Ipopt is given -/

/-- What `get_nlp_info` reports: the number of variables, of constraints, of entries of the Jacobian and of the lower half of the Hessian. Indices count
from zero. -/
structure NlpInfo where
  n : Nat
  m : Nat
  nnzJac : Nat
  nnzHess : Nat
deriving DecidableEq

/-- What `get_bounds_info` writes: bounds on the variables and on the constraints -/
structure NlpBounds (K : Type) where
  xl : List K
  xu : List K
  gl : List K
  gu : List K

/-- The functions of a problem that Ipopt calls (`Ipopt::TNLP`). Arrays for results are passed in; the sizes are those that `info` has announced.
The structure of the Hessian has been asked for before its values are. -/
structure Nlp (K : Type) where
  info : Outcome NlpInfo
  bounds : NlpBounds K
  /-- the variables at the start -/
  start : List K
  evalF : (Nat → K) → Outcome K
  evalGradF : (Nat → K) → Outcome (List K)
  evalG : (Nat → K) → Outcome (List K)
  jacPattern : List Nat → List Nat → Outcome (List Nat × List Nat)
  jacValues : (Nat → K) → List K → Outcome (List K)
  hessPattern : List Nat → List Nat → Outcome (List Nat × List Nat)
  hessValues : (Nat → K) → K → (Nat → K) → List K → Outcome (List K)

/-- `0.5 * x_map.transpose() * m_Q * x_map + m_A.dot( x_map )`, LCPOperatorIpopt.cpp:303, SmoothMDPOperatorIpopt.cpp:320 -/
def quadraticObjective [Field K] (n : Nat) (Q : Csc K) (A x : Nat → K) : Outcome K :=
  (spmv Q x (List.range Q.cols) fun _ => 0).bind fun y => .ok (1 / 2 * vdotTo n x y + vdotTo n A x)

/-- `m_Q * x_map + m_A`, LCPOperatorIpopt.cpp:320, SmoothMDPOperatorIpopt.cpp:338 -/
def quadraticGradient [Field K] (n : Nat) (Q : Csc K) (A x : Nat → K) : Outcome (List K) :=
  (spmv Q x (List.range Q.cols) fun _ => 0).bind fun y => .ok ((List.range n).map fun i => y i + A i)

/-- `QPNLP`, LCPOperatorIpopt.cpp:217-388, for the `n` impulses `alpha`, the matrix `Q` and the linear term `A`. `eval_g` exits. -/
def qpNlp [Field K] (n : Nat) (Q : Csc K) (A alpha : Nat → K) : Nlp K where
  info := (nzLowerTriangular Q).bind fun nz => .ok ⟨n, 0, 0, nz⟩
  bounds := ⟨List.replicate n 0, List.replicate n (2 * 10 ^ 19), [], []⟩
  start := (List.range n).map alpha
  evalF := quadraticObjective n Q A
  evalGradF := quadraticGradient n Q A
  evalG := fun _ => .exit
  jacPattern := fun iRow jCol => .ok (iRow, jCol)
  jacValues := fun _ values => .ok values
  hessPattern := fun iRow jCol => (sparsityPatternLowerTriangular Q iRow jCol).bind fun p => .ok (p.1, p.2.1)
  hessValues := fun _ objFactor _ values => (valuesLowerTriangular Q values).bind fun p => .ok (p.1.map (· * objFactor))

/-- SmoothMDPOperatorIpopt.cpp:424-431: `m_diagonal_indices`, from the positions of the entries; `k` is the number of the first one. -/
def diagonalIndices : List (Nat × Nat) → Nat → List Nat → Outcome (List Nat)
  | [], _, d => .ok d
  | p :: ps, k, d =>
    if p.1 = p.2 then
      if p.1 < d.length then diagonalIndices ps (k + 1) (d.set p.1 k) else .ub
    else diagonalIndices ps (k + 1) d

/-- `values[ i ] += x` -/
def addAt [Add K] (values : List K) (i : Nat) (x : K) : Outcome (List K) :=
  match values[i]? with
  | some y => .ok (values.set i (y + x))
  | none => .ub

/-- `values[ m_diagonal_indices[ j ] ] += x`, SmoothMDPOperatorIpopt.cpp:456-457 -/
def addDiagonal [Add K] (diag : List Nat) (values : List K) (j : Nat) (x : K) : Outcome (List K) :=
  match diag[j]? with
  | some d => addAt values d x
  | none => .ub

/-- The loop over the constraints, SmoothMDPOperatorIpopt.cpp:454-458, over the given ones -/
def addMultipliers [Field K] (diag : List Nat) (lambda : Nat → K) : List Nat → List K → Outcome (List K)
  | [], values => .ok values
  | i :: is, values =>
    (addDiagonal diag values (2 * i + 0) (2 * lambda i)).bind fun values =>
      (addDiagonal diag values (2 * i + 1) (2 * lambda i)).bind fun values => addMultipliers diag lambda is values

/-- `SmoothMDPNLP::eval_h` asked for the structure, SmoothMDPOperatorIpopt.cpp:411-432: the structure and `m_diagonal_indices`, which `resize` has filled
with zeros -/
def smoothHessPattern (n : Nat) (Q : Csc K) (iRow jCol : List Nat) : Outcome ((List Nat × List Nat) × List Nat) :=
  (sparsityPatternLowerTriangular Q iRow jCol).bind fun p =>
    (diagonalIndices (p.1.zip p.2.1) 0 (List.replicate n 0)).bind fun d => .ok ((p.1, p.2.1), d)

/-- `SmoothMDPNLP::eval_h` asked for the values, SmoothMDPOperatorIpopt.cpp:433-459 -/
def smoothHessValues [Field K] (n : Nat) (Q : Csc K) (diag : List Nat) (objFactor : K) (lambda : Nat → K) (values : List K) : Outcome (List K) :=
  (valuesLowerTriangular Q values).bind fun p => addMultipliers diag lambda (List.range (n / 2)) (p.1.map (· * objFactor))

/-- `SmoothMDPNLP`, SmoothMDPOperatorIpopt.cpp:236-462, for `n` friction impulses `beta`, two for each contact, with the matrix `Q`, the linear term `A`
and the bounds `C` -/
def smoothMdpNlp [Field K] (n : Nat) (Q : Csc K) (A C beta : Nat → K) : Nlp K where
  info := (nzLowerTriangular Q).bind fun nz => .ok ⟨n, n / 2, n, nz⟩
  bounds := ⟨List.replicate n (-(2 * 10 ^ 19)), List.replicate n (2 * 10 ^ 19), List.replicate (n / 2) (-(2 * 10 ^ 19)), (List.range (n / 2)).map C⟩
  start := (List.range n).map beta
  evalF := quadraticObjective n Q A
  evalGradF := quadraticGradient n Q A
  evalG := fun x => .ok ((List.range (n / 2)).map fun i => x (2 * i + 0) * x (2 * i + 0) + x (2 * i + 1) * x (2 * i + 1))
  jacPattern := fun _ _ => .ok ((List.range (n / 2)).flatMap fun i => [i, i], List.range n)
  jacValues := fun x _ => .ok ((List.range n).map fun i => 2 * x i)
  hessPattern := fun iRow jCol => (smoothHessPattern n Q iRow jCol).bind fun p => .ok p.1
  hessValues := fun _ objFactor lambda values =>
    (smoothHessPattern n Q (List.replicate values.length 0) (List.replicate values.length 0)).bind fun p =>
      smoothHessValues n Q p.2 objFactor lambda values

end Sparse

/-! ## Calling Ipopt -/

/-- `Ipopt::SolverReturn`, in the order of Ipopt's header: the value 0 is `SUCCESS`. The cases are those of IpoptUtilities.cpp:36-107. -/
inductive SolverReturn
  | success | maxiterExceeded | cputimeExceeded | stopAtTinyStep | stopAtAcceptablePoint | localInfeasibility | userRequestedStop | feasiblePointFound
  | divergingIterates | restorationFailure | errorInStepComputation | invalidNumberDetected | tooFewDegreesOfFreedom | invalidOption | outOfMemory
  | internalError | unassigned
deriving DecidableEq

/-- `IpoptUtilities::ipoptReturnStatusToString`, IpoptUtilities.cpp:34-108 -/
def ipoptReturnStatusToString : SolverReturn → String
  | .success => "SUCCESS"
  | .maxiterExceeded => "MAXITER_EXCEEDED"
  | .cputimeExceeded => "CPUTIME_EXCEEDED"
  | .stopAtTinyStep => "STOP_AT_TINY_STEP"
  | .stopAtAcceptablePoint => "STOP_AT_ACCEPTABLE_POINT"
  | .localInfeasibility => "LOCAL_INFEASIBILITY"
  | .userRequestedStop => "USER_REQUESTED_STOP"
  | .feasiblePointFound => "FEASIBLE_POINT_FOUND"
  | .divergingIterates => "DIVERGING_ITERATES"
  | .restorationFailure => "RESTORATION_FAILURE"
  | .errorInStepComputation => "ERROR_IN_STEP_COMPUTATION"
  | .invalidNumberDetected => "INVALID_NUMBER_DETECTED"
  | .tooFewDegreesOfFreedom => "TOO_FEW_DEGREES_OF_FREEDOM"
  | .invalidOption => "INVALID_OPTION"
  | .outOfMemory => "OUT_OF_MEMORY"
  | .internalError => "INTERNAL_ERROR"
  | .unassigned => "UNASSIGNED"

/-- `OptimizeTNLP`: for the number of the call, the linear solver and the problem, the status and the variables that `finalize_solution` was called with.
`none`: it was not called, which happens when Ipopt gives up before it has set up its algorithm. -/
abbrev Ipopt := Nat → String → Nlp ℝ → Option (SolverReturn × (Nat → ℝ))

/-- Members of the problem that `finalize_solution` sets, LCPOperatorIpopt.cpp:390-417 and SmoothMDPOperatorIpopt.cpp:464-474, and the impulses.
`achieved` is `none` for infinity. -/
structure NlpState where
  status : SolverReturn
  x : Nat → ℝ
  achieved : Option ℝ

/-- `finalize_solution`; `term` is the termination operator, `none` if the built in one is used. -/
noncomputable def finalizeSolution (term : Option ((Nat → ℝ) → Outcome ℝ)) (s : NlpState) : Option (SolverReturn × (Nat → ℝ)) → Outcome NlpState
  | none => .ok s
  | some (st, x) =>
    match term with
    | none => .ok ⟨st, x, s.achieved⟩
    | some t => (t x).bind fun a => .ok ⟨st, x, some a⟩

/-- The loop over the linear solvers, LCPOperatorIpopt.cpp:111-140 and 163-192, SmoothMDPOperatorIpopt.cpp:131-160 and 193-221. `accept`: which statuses
end the loop. `exits`: whether the program ends when the last solver has failed; `last` is its name. `problem` is the problem with given initial values. -/
noncomputable def ipoptLoop (ipopt : Ipopt) (problem : (Nat → ℝ) → Nlp ℝ) (term : Option ((Nat → ℝ) → Outcome ℝ)) (accept : SolverReturn → Bool)
    (exits : Bool) (last : String) (x0 : Nat → ℝ) : Nat → List String → NlpState → Outcome NlpState
  | _, [], s => .ok s
  | call, solver :: rest, s =>
    (finalizeSolution term { s with x := x0 } (ipopt call solver (problem x0))).bind fun s =>
      if accept s.status then .ok s
      else if solver = last ∧ exits then .exit
      else ipoptLoop ipopt problem term accept exits last x0 (call + 1) rest s

/-- Statuses with which `flow` is content, LCPOperatorIpopt.cpp:124, SmoothMDPOperatorIpopt.cpp:144 -/
def flowAccepts (s : SolverReturn) : Bool := ¬ (s ≠ .success ∧ s ≠ .stopAtAcceptablePoint)

/-- Statuses with which `solveQP` is content, LCPOperatorIpopt.cpp:176, SmoothMDPOperatorIpopt.cpp:206 -/
def solveQPAccepts (s : SolverReturn) : Bool := ¬ (s ≠ .success ∧ s ≠ .stopAtAcceptablePoint ∧ s ≠ .userRequestedStop)

/-- `LCPOperatorIpopt::flow`, LCPOperatorIpopt.cpp:91-141, with the linear term `b` (`lcpLinearTerm`). `m_solve_return_status` starts as `INTERNAL_ERROR`
(line 221). An empty list of solvers cannot be constructed. -/
noncomputable def lcpIpoptFlow (ipopt : Ipopt) (solvers : List String) (k : Nat) (Q : Csc ℝ) (b : Nat → ℝ) (alpha : Nat → ℝ) : Outcome (Nat → ℝ) :=
  (ipoptLoop ipopt (qpNlp k Q b) none flowAccepts true (solvers.getLastD "") alpha 0 solvers ⟨.internalError, alpha, none⟩).bind fun s => .ok s.x

/-- `LCPOperatorIpopt::solveQP`, LCPOperatorIpopt.cpp:143-195, for `Q = N^T M^-1 N`: the impulses and the achieved tolerance -/
noncomputable def lcpIpoptSolveQP (ipopt : Ipopt) (solvers : List String) (k : Nat) (term : (Nat → ℝ) → List ℝ → ℝ) (Q : Csc ℝ) (b : Nat → ℝ)
    (alpha : Nat → ℝ) : Outcome ((Nat → ℝ) × Option ℝ) :=
  (ipoptLoop ipopt (qpNlp k Q b) (some fun x => (quadraticGradient k Q b x).bind fun y => .ok (term x y)) solveQPAccepts true (solvers.getLastD "") alpha 0
    solvers ⟨.internalError, alpha, none⟩).bind fun s => .ok (s.x, s.achieved)

/-- `lambda( i ) = vrel.segment<2>( 2 * i ).norm()` with `vrel = Q * beta + A`, SmoothMDPOperatorIpopt.cpp:164-170 and 224-230 -/
noncomputable def frictionMultipliers (c : Nat) (Q : Csc ℝ) (A beta : Nat → ℝ) : Outcome (List ℝ) :=
  (spmv Q beta (List.range Q.cols) fun _ => 0).bind fun y =>
    .ok ((List.range c).map fun i => √((y (2 * i) + A (2 * i)) * (y (2 * i) + A (2 * i)) + (y (2 * i + 1) + A (2 * i + 1)) * (y (2 * i + 1) + A (2 * i + 1))))

/-- `SmoothMDPOperatorIpopt::flow`, SmoothMDPOperatorIpopt.cpp:111-171, for `c` contacts, with the linear term `A = D^T v0 + gdotD`: the friction impulses
and `lambda`. `m_solve_return_status` is initialized with zero, which is `SUCCESS` (line 242). -/
noncomputable def smoothMdpFlow (ipopt : Ipopt) (solvers : List String) (c : Nat) (Q : Csc ℝ) (A mu alpha beta : Nat → ℝ) : Outcome ((Nat → ℝ) × List ℝ) :=
  (ipoptLoop ipopt (smoothMdpNlp (2 * c) Q A fun i => mu i * mu i * alpha i * alpha i) none flowAccepts true (solvers.getLastD "") beta 0 solvers
    ⟨.success, beta, none⟩).bind fun s => (frictionMultipliers c Q A s.x).bind fun l => .ok (s.x, l)

/-- `SmoothMDPOperatorIpopt::solveQP`, SmoothMDPOperatorIpopt.cpp:173-233, with the bounds `b` on the lengths of the impulses. When all solvers have failed
a message says that the program exits, but it does not. -/
noncomputable def smoothMdpSolveQP (ipopt : Ipopt) (solvers : List String) (c : Nat) (term : (Nat → ℝ) → List ℝ → ℝ) (Q : Csc ℝ) (A b beta : Nat → ℝ) :
    Outcome ((Nat → ℝ) × List ℝ × Option ℝ) :=
  (ipoptLoop ipopt (smoothMdpNlp (2 * c) Q A fun i => b i * b i) (some fun x => (quadraticGradient (2 * c) Q A x).bind fun y => .ok (term x y)) solveQPAccepts
    false (solvers.getLastD "") beta 0 solvers ⟨.success, beta, none⟩).bind fun s =>
      (frictionMultipliers c Q A s.x).bind fun l => .ok (s.x, l, s.achieved)

/-! ## Calling QL -/

/-- The arguments of `ql_`, scisim/Math/QL/QLUtilities.h:12-23: the sizes, the arrays (matrices by columns), and the lengths of the work arrays. `none` is
a null pointer, and infinity for an upper bound. -/
structure QlCall where
  m : Nat
  me : Nat
  mmax : Nat
  n : Nat
  nmax : Nat
  mnn : Nat
  C : List ℝ
  d : List ℝ
  A : Option (List ℝ)
  b : Option (List ℝ)
  xl : List ℝ
  xu : List (Option ℝ)
  lwar : Nat
  liwar : Nat

/-- `ql_`: the variables, the multipliers and `ifail` -/
abbrev QlSolver := QlCall → (Nat → ℝ) → (Nat → ℝ) × (Nat → ℝ) × Int

/-- A dense matrix by columns, as `data()` of `MatrixXXsc` -/
def byColumns (rows cols : Nat) (M : Nat → Nat → ℝ) : List ℝ := (List.range cols).flatMap fun j => (List.range rows).map fun i => M i j

/-- `QLUtilities::QLReturnStatusToString`, QLUtilities.cpp:10-40: does it return, or exit the program? -/
def qlStatusMessage (status : Int) : Outcome Unit :=
  if status = 0 ∨ status = 1 ∨ status = 2 ∨ status = 3 ∨ status = 5 ∨ 100 < status then .ok () else .exit

/-- The call in `LCPOperatorQL`, LCPOperatorQL.cpp:34-96 and 106-116 -/
def lcpQlCall (k : Nat) (Q : Nat → Nat → ℝ) (b : Nat → ℝ) : QlCall where
  m := 0
  me := 0
  mmax := 0
  n := k
  nmax := k
  mnn := 0 + k + k
  C := byColumns k k Q
  d := (List.range k).map b
  A := none
  b := none
  xl := List.replicate k 0
  xu := List.replicate k none
  lwar := 3 * (k * k) / 2 + 10 * k + 2
  liwar := k

/-- `LCPOperatorQL::flow`, LCPOperatorQL.cpp:104-125: a failure is a warning, if there is a message for it. -/
def lcpQlFlow (ql : QlSolver) (k : Nat) (Q : Nat → Nat → ℝ) (b alpha : Nat → ℝ) : Outcome (Nat → ℝ) :=
  let r := ql (lcpQlCall k Q b) alpha
  if 0 ≠ r.2.2 then (qlStatusMessage r.2.2).bind fun _ => .ok r.1 else .ok r.1

/-- The call in `LinearMDPOperatorQL`, LinearMDPOperatorQL.cpp:34-108 and 110-140; `s` is the number of samples, `c` the number of contacts -/
def linearMdpQlCall (s c : Nat) (Q : Nat → Nat → ℝ) (d mu alpha : Nat → ℝ) : QlCall where
  m := c
  me := 0
  mmax := c
  n := s * c
  nmax := s * c
  mnn := c + s * c + s * c
  C := byColumns (s * c) (s * c) Q
  d := (List.range (s * c)).map d
  A := some (byColumns c (s * c) fun i j => -formLinearFrictionDiskConstraint s c j i)
  b := some ((List.range c).map fun i => mu i * alpha i)
  xl := List.replicate (s * c) 0
  xu := List.replicate (s * c) none
  lwar := 3 * (s * c) * (s * c) / 2 + 10 * (s * c) + c + c + 2
  liwar := s * c

/-- `LinearMDPOperatorQL::flow`, LinearMDPOperatorQL.cpp:110-178, with the linear term `d = D^T v0 + gdotD`: the friction impulses and `lambda` (line 105) -/
def linearMdpQlFlow (ql : QlSolver) (s c : Nat) (Q : Nat → Nat → ℝ) (d mu alpha beta : Nat → ℝ) : Outcome ((Nat → ℝ) × List ℝ) :=
  let r := ql (linearMdpQlCall s c Q d mu alpha) beta
  let res := (r.1, (List.range c).map fun i => r.2.1 i)
  if 0 ≠ r.2.2 then (qlStatusMessage r.2.2).bind fun _ => .ok res else .ok res

/-- The call in `BoundConstrainedMDPOperatorQL`, BoundConstrainedMDPOperatorQL.cpp:30-88 and 90-107, for `c` contacts -/
def boundMdpQlCall (c : Nat) (Q : Nat → Nat → ℝ) (d mu alpha : Nat → ℝ) : QlCall where
  m := 0
  me := 0
  mmax := 0
  n := c
  nmax := c
  mnn := 0 + c + c
  C := byColumns c c Q
  d := (List.range c).map d
  A := none
  b := none
  xl := (List.range c).map fun i => -mu i * alpha i
  xu := (List.range c).map fun i => some (-(-mu i * alpha i))
  lwar := 3 * (c * c) / 2 + 10 * c + 2
  liwar := c

/-- `BoundConstrainedMDPOperatorQL::flow`, BoundConstrainedMDPOperatorQL.cpp:90-127: the friction impulses and `lambda`, the larger of the two multipliers of
the bounds (line 85) -/
noncomputable def boundMdpQlFlow (ql : QlSolver) (c : Nat) (Q : Nat → Nat → ℝ) (d mu alpha beta : Nat → ℝ) : Outcome ((Nat → ℝ) × List ℝ) :=
  let r := ql (boundMdpQlCall c Q d mu alpha) beta
  let res := (r.1, (List.range c).map fun i => max (r.2.1 i) (r.2.1 (c + i)))
  if 0 ≠ r.2.2 then (qlStatusMessage r.2.2).bind fun _ => .ok res else .ok res

end Scisim
