import Mathlib.Algebra.Field.Defs
import Mathlib.Algebra.BigOperators.Fin
import Mathlib.Data.Matrix.Basic
import Mathlib.Algebra.Order.Field.Rat
import Verif.Model.Outcome
/-!
# The friction solver that hands a group of contacts to So-bogus

`Sobogus::solve` cuts the bodies in contact out of the system, renumbers them, writes the contact problem in the form the So-bogus library expects,
calls the library, and copies the answer back into the whole system.  The library's Gauss–Seidel iteration and its inverse of a mass block are arbitrary
functions (`Library`); everything the project itself computes is modelled.  The code is written out three times, for 2D balls, 2D rigid bodies and 3D
rigid bodies; where the three copies differ only in the dimensions the model has one function of the kind.
-/

namespace Scisim
namespace Sobogus

/-! ## Vectors -/

/-- A vector of run-time size. Only the entries below `size` exist. -/
structure DVec (K : Type) where
  size : Nat
  val : Nat → K

/-- `x( i )` -/
def DVec.get {K : Type} (x : DVec K) (i : Nat) : Outcome K := if i < x.size then .ok (x.val i) else .ub

/-- `x( i ) = a` -/
def DVec.set {K : Type} (x : DVec K) (i : Nat) (a : K) : Outcome (DVec K) :=
  if i < x.size then .ok { x with val := Function.update x.val i a } else .ub

/-- `x.resize( n )`: nothing is known of the entries (`junk`) -/
def DVec.alloc {K : Type} (junk : K) (n : Nat) : DVec K := ⟨n, fun _ => junk⟩

/-- Reads the entries `idx 0, …, idx (d-1)` (one segment, or several one after another) -/
def DVec.block {K : Type} {d : Nat} (x : DVec K) (idx : Fin d → Nat) : Outcome (Fin d → K) :=
  if ∀ c, idx c < x.size then .ok fun c => x.val (idx c) else .ub

/-- One write after another -/
def DVec.setMany {K : Type} : DVec K → List (Nat × K) → Outcome (DVec K)
  | x, [] => .ok x
  | x, (i, a) :: l => (x.set i a).bind fun x => x.setMany l

/-- Writes the entries `idx 0, …, idx (d-1)` -/
def DVec.setBlock {K : Type} {d : Nat} (x : DVec K) (idx : Fin d → Nat) (b : Fin d → K) : Outcome (DVec K) :=
  x.setMany (List.ofFn fun c => (idx c, b c))

/-- `for( unsigned i = 0; i < n; ++i )` -/
def loopTo {S : Type} (body : Nat → S → Outcome S) : Nat → S → Outcome S
  | 0, s => .ok s
  | n + 1, s => (loopTo body n s).bind fun s => body n s

/-- Applies a call to each element of a vector in turn -/
def mapO {α β : Type} (f : α → Outcome β) : List α → Outcome (List β)
  | [] => .ok []
  | a :: l => (f a).bind fun b => (mapO f l).bind fun l => .ok (b :: l)

/-! ## Kinds of system -/

/-- `SobogusSolverType`, scisim/ConstrainedMaps/Sobogus.h:21-26 -/
inductive Kind where
  | balls2D
  | rigidBody2D
  | rigidBodies3D
deriving DecidableEq, Repr

/-- Number of tangent directions: `numFrictionImpulsesPerNormal`, scisim/ConstrainedMaps/Sobogus.cpp:1090-1093 -/
def Kind.tan : Kind → Nat
  | .balls2D => 1
  | .rigidBody2D => 1
  | .rigidBodies3D => 2

/-- Dimension of the ambient space -/
abbrev Kind.amb (k : Kind) : Nat := k.tan + 1

/-- Velocity components of a body -/
def Kind.dof : Kind → Nat
  | .balls2D => 2
  | .rigidBody2D => 3
  | .rigidBodies3D => 6

/-- Position components of a body -/
def Kind.qdof : Kind → Nat
  | .balls2D => 2
  | .rigidBody2D => 3
  | .rigidBodies3D => 12

theorem Kind.amb_le_dof (k : Kind) : k.amb ≤ k.dof := by cases k <;> decide

/-- The translational components come first. -/
def Kind.tr (k : Kind) (i : Fin k.amb) : Fin k.dof := i.castLE k.amb_le_dof

/-- Where component `c` of the velocity of body `b` of `n` is stored: the indices of `extractv2D`, `extractv2DRigidBody` and `extractv3D`,
scisim/ConstrainedMaps/Sobogus.cpp:843-876, and of the copies at 1012-1035 and 1041-1067 -/
def Kind.vIdx : Kind → Nat → Nat → Nat → Nat
  | .balls2D, _, b, c => 2 * b + c
  | .rigidBody2D, _, b, c => 3 * b + c
  | .rigidBodies3D, n, b, c => if c < 3 then 3 * b + c else 3 * n + 3 * b + (c - 3)

/-- The same for positions: `extractq2D`, `extractq2DRigidBody` and `extractq3D`, scisim/ConstrainedMaps/Sobogus.cpp:812-841 -/
def Kind.qIdx : Kind → Nat → Nat → Nat → Nat
  | .balls2D, _, b, c => 2 * b + c
  | .rigidBody2D, _, b, c => 3 * b + c
  | .rigidBodies3D, n, b, c => if c < 3 then 3 * b + c else 3 * n + 9 * b + (c - 3)

/-! ## Contacts -/

/-- What a contact reads of the state: position and velocity of its first body, and of its second if it has one -/
structure View (K : Type) (k : Kind) where
  q0 : Fin k.qdof → K
  v0 : Fin k.dof → K
  other : Option ((Fin k.qdof → K) × (Fin k.dof → K))

/-- A contact: the indices of its simulated bodies (`getSimulatedBodyIndices`; the second is -1, here `none`, for a contact with a static or kinematic
object), and its virtual functions.  Every class of contact reads the position and velocity vectors at its own bodies only, so that these are functions
of a `View`. -/
structure Contact (K : Type) (k : Kind) where
  body0 : Nat
  body1 : Option Nat
  /-- `evalNdotV` -/
  nDotV : View K k → K
  /-- `evalH( q, basis, H0, H1 )` -/
  hMat : View K k → Matrix (Fin k.amb) (Fin k.amb) K → Matrix (Fin k.amb) (Fin k.dof) K × Matrix (Fin k.amb) (Fin k.dof) K
  /-- `computeKinematicRelativeVelocity` -/
  kinVel : View K k → Fin k.amb → K

variable {K : Type} {k : Kind}

/-- What a contact reads of the vectors `q` and `v`, through its body indices. The number of bodies, which the 3D layout depends on, is taken from the
sizes of the vectors, as the classes of contact do (e.g. rigidbody3d/Constraints/StaticCylinderBodyConstraint.cpp:139). -/
def Contact.view (c : Contact K k) (q v : DVec K) : Outcome (View K k) :=
  (q.block fun i : Fin k.qdof => k.qIdx (q.size / k.qdof) c.body0 i).bind fun qa =>
  (v.block fun i : Fin k.dof => k.vIdx (v.size / k.dof) c.body0 i).bind fun va =>
  match c.body1 with
  | none => .ok ⟨qa, va, none⟩
  | some b =>
    (q.block fun i : Fin k.qdof => k.qIdx (q.size / k.qdof) b i).bind fun qb =>
    (v.block fun i : Fin k.dof => k.vIdx (v.size / k.dof) b i).bind fun vb =>
    .ok ⟨qa, va, some (qb, vb)⟩

/-- `contact_bases`: `k.amb` rows, and `k.amb` columns for each contact -/
structure Bases (K : Type) (k : Kind) where
  cols : Nat
  val : Fin k.amb → Nat → K

/-- `bases.col( j )` -/
def Bases.col (B : Bases K k) (j : Nat) : Outcome (Fin k.amb → K) := if j < B.cols then .ok fun i => B.val i j else .ub

/-- `contact_bases.block<2,2>( 0, 2 * clsn_idx )`, `contact_bases.block<3,3>( 0, 3 * clsn_idx )` -/
def Bases.block (B : Bases K k) (c : Nat) : Outcome (Matrix (Fin k.amb) (Fin k.amb) K) :=
  if k.amb * c + k.amb ≤ B.cols then .ok (Matrix.of fun i j => B.val i (k.amb * c + j)) else .ub

/-- `a.dot( b )` -/
def dotF [AddCommMonoid K] [Mul K] {d : Nat} (a b : Fin d → K) : K := ∑ i, a i * b i

/-- `Constraint::evalKinematicRelVelGivenBases`, scisim/Constraints/Constraint.cpp:92-126. With no contact the number of friction samples per contact
is computed by an integer division by zero. -/
def kinematicRelVel [AddCommGroup K] [Mul K] (q v : DVec K) (active : List (Contact K k)) (B : Bases K k) (nrel drel : DVec K) : Outcome (DVec K × DVec K) :=
  if active.length = 0 then .ub
  else
    let per := drel.size / active.length
    loopTo (fun c (s : DVec K × DVec K) =>
      match active[c]? with
      | none => .ub
      | some con =>
        (con.view q v).bind fun w =>
        (B.col ((per + 1) * c)).bind fun n =>
        (s.1.set c (- dotF (con.kinVel w) n)).bind fun nrel =>
        (loopTo (fun j (drel : DVec K) =>
          (B.col ((per + 1) * c + j + 1)).bind fun t => drel.set (per * c + j) (- dotF (con.kinVel w) t)) per s.2).bind fun drel =>
        .ok (nrel, drel)) active.length (nrel, drel)

/-- `if( nrel_extra.size() != 0 ) { nrel += nrel_extra; }`, scisim/ConstrainedMaps/Sobogus.cpp:895-904 -/
def addExtra [Add K] (x e : DVec K) : Outcome (DVec K) :=
  if e.size = 0 then .ok x else if e.size = x.size then .ok ⟨x.size, fun i => x.val i + e.val i⟩ else .ub

/-! ## Renumbering -/

/-- The first loop of `buildLocalToGlobalMap`, scisim/ConstrainedMaps/Sobogus.cpp:658-672 -/
def markPresent : List (Contact K k) → DVec Bool → Outcome (DVec Bool)
  | [], p => .ok p
  | c :: cs, p =>
    (p.set c.body0 true).bind fun p =>
    match c.body1 with
    | none => markPresent cs p
    | some b => (p.set b true).bind fun p => markPresent cs p

/-- `buildLocalToGlobalMap`, scisim/ConstrainedMaps/Sobogus.cpp:655-688. Counting the bodies and writing their indices one after another into a vector
of that size is one filter here. -/
def buildLtg (n : Nat) (active : List (Contact K k)) : Outcome (List Nat) :=
  (markPresent active ⟨n, fun _ => false⟩).bind fun p => .ok ((List.range n).filter fun b => p.val b)

/-- `gtl.find( g )->second`, where `gtl` maps each entry of `ltg` to its position; `->` of the end iterator is undefined.
scisim/ConstrainedMaps/Sobogus.cpp:910-915, 924-926, 932-934 -/
def gtlFind (ltg : List Nat) (g : Nat) : Outcome Nat :=
  match ltg.findIdx? (fun x => x == g) with
  | some l => .ok l
  | none => .ub

/-- `ltg( l )`, scisim/ConstrainedMaps/Sobogus.cpp:1075, 1083 -/
def ltgGet (ltg : List Nat) (l : Nat) : Outcome Nat :=
  match ltg[l]? with
  | some g => .ok g
  | none => .ub

/-- `setSimulatedBody0( … ); if( simulatedBody1() >= 0 ) { setSimulatedBody1( … ); }`, scisim/ConstrainedMaps/Sobogus.cpp:918-937 and 1070-1086 -/
def Contact.remap (ρ : Nat → Outcome Nat) (c : Contact K k) : Outcome (Contact K k) :=
  (ρ c.body0).bind fun a =>
  match c.body1 with
  | none => .ok { c with body0 := a }
  | some b => (ρ b).bind fun b => .ok { c with body0 := a, body1 := some b }

/-! ## Cutting out the bodies in contact -/

/-- The mass block of body `g` of `n` in column-major order, from the values of the mass matrix: the right-hand sides in `extractMass2D`,
`extractMass2DRigidBody` and `extractMass3D`, scisim/ConstrainedMaps/Sobogus.cpp:690-752 -/
def massBlock [Zero K] : (k : Kind) → Nat → DVec K → Nat → Outcome (Fin k.dof → Fin k.dof → K)
  | .balls2D, _, M, g => (M.get (2 * g + 0)).bind fun m => .ok (Matrix.of ![![m, 0], ![0, m]])
  | .rigidBody2D, _, M, g =>
    (M.get (3 * g + 0)).bind fun m0 => (M.get (3 * g + 1)).bind fun m1 => (M.get (3 * g + 2)).bind fun m2 =>
    .ok (Matrix.of ![![m0, 0, 0], ![0, m1, 0], ![0, 0, m2]])
  | .rigidBodies3D, n, M, g =>
    (M.block fun i : Fin 3 => 3 * g + i).bind fun m =>
    (M.block fun i : Fin 9 => 3 * n + 9 * g + i).bind fun I =>
    .ok fun (i j : Fin 6) =>
      if h : i.val < 3 then (if i = j then m ⟨i, h⟩ else 0)
      else if j.val < 3 then 0 else I ⟨3 * (j - 3) + (i - 3), by omega⟩

/-- `extractMass2D`, `extractMass2DRigidBody`, `extractMass3D`, scisim/ConstrainedMaps/Sobogus.cpp:690-752 -/
def extractMass [Zero K] (junk : K) (k : Kind) (n : Nat) (ltg : List Nat) (M : DVec K) : Outcome (DVec K) :=
  loopTo (fun l masses =>
    (ltgGet ltg l).bind fun g => (massBlock k n M g).bind fun A =>
    masses.setBlock (fun e : Fin (k.dof * k.dof) => k.dof * k.dof * l + e) fun e => A e.modNat e.divNat)
    ltg.length (.alloc junk (k.dof * k.dof * ltg.length))

/-- `extractq2D`, `extractq2DRigidBody`, `extractq3D`, scisim/ConstrainedMaps/Sobogus.cpp:812-841 -/
def extractQ (junk : K) (k : Kind) (n : Nat) (ltg : List Nat) (q : DVec K) : Outcome (DVec K) :=
  loopTo (fun l out =>
    (ltgGet ltg l).bind fun g => (q.block fun c : Fin k.qdof => k.qIdx n g c).bind fun b =>
    out.setBlock (fun c : Fin k.qdof => k.qIdx ltg.length l c) b)
    ltg.length (.alloc junk (k.qdof * ltg.length))

/-- `extractv2D`, `extractv2DRigidBody`, `extractv3D`, scisim/ConstrainedMaps/Sobogus.cpp:843-876 -/
def extractV (junk : K) (k : Kind) (n : Nat) (ltg : List Nat) (v : DVec K) : Outcome (DVec K) :=
  loopTo (fun l out =>
    (ltgGet ltg l).bind fun g => (v.block fun c : Fin k.dof => k.vIdx n g c).bind fun b =>
    out.setBlock (fun c : Fin k.dof => k.vIdx ltg.length l c) b)
    ltg.length (.alloc junk (k.dof * ltg.length))

/-- Copying the local solution `x` over the entries of the bodies in contact of the global vector `out`,
scisim/ConstrainedMaps/Sobogus.cpp:1010-1035 (velocities) and 1037-1067 (friction impulses) -/
def scatter (k : Kind) (n : Nat) (ltg : List Nat) (x out : DVec K) : Outcome (DVec K) :=
  loopTo (fun l out =>
    (ltgGet ltg l).bind fun g => (x.block fun c : Fin k.dof => k.vIdx ltg.length l c).bind fun b =>
    out.setBlock (fun c : Fin k.dof => k.vIdx n g c) b)
    ltg.length out

/-! ## The contact problem -/

/-- What the problem holds for one contact: its contact basis (a block of `E`), its forcing term (a segment of `w_in`), the bodies involved (`obj_A`,
`obj_B`) and its blocks of `m_H_0_store` and `m_H_1_store` -/
structure Row (K : Type) (k : Kind) where
  E : Matrix (Fin k.amb) (Fin k.amb) K
  w : Fin k.amb → K
  objA : Nat
  objB : Option Nat
  HA : Matrix (Fin k.amb) (Fin k.dof) K
  HB : Matrix (Fin k.amb) (Fin k.dof) K

/-- The problem passed to the library: `PrimalFrictionProblem` as filled in by `fromPrimal`, scisim/ConstrainedMaps/bogus/Ball2DSobogusInterface.cpp:31-91,
RigidBody2DSobogusInterface.cpp:31-86, RigidBody3DSobogusInterface.cpp:31-86. Row `c` of `H` has the block `HA` at column `objA` and, if there is a
second body, the block `- HB` at column `objB`. -/
structure Primal (K : Type) (k : Kind) where
  nbodies : Nat
  M : Nat → Matrix (Fin k.dof) (Fin k.dof) K
  f : DVec K
  ncontacts : Nat
  mu : DVec K
  row : Nat → Row K k

/-- The momentum of local body `b` with the sign turned: the right-hand sides of the first loops of `initialize2D`, `initializeRigidBody2D` and
`initialize3D`, scisim/ConstrainedMaps/Sobogus.cpp:48-58, 123-134, 195-204 -/
def negMomentum [Ring K] : (k : Kind) → Nat → DVec K → DVec K → Nat → Outcome (Fin k.dof → K)
  | .balls2D, _, masses, v, b =>
    (masses.get (4 * b)).bind fun m => (v.block fun c : Fin 2 => 2 * b + c).bind fun x => .ok fun c : Fin 2 => - m * x c
  | .rigidBody2D, _, masses, v, b =>
    (masses.get (9 * b + 0)).bind fun m => (masses.get (9 * b + 8)).bind fun I => (v.block fun c : Fin 3 => 3 * b + c).bind fun x =>
    .ok fun c : Fin 3 => if c.val < 2 then - m * x c else - I * x c
  | .rigidBodies3D, n, masses, v, b =>
    (v.block fun c : Fin 3 => 3 * b + c).bind fun x => (v.block fun c : Fin 3 => 3 * n + 3 * b + c).bind fun ω =>
    (masses.block fun e : Fin 36 => 36 * b + e).bind fun A =>
    .ok fun i : Fin 6 => - ∑ j : Fin 6, A ⟨6 * j + i, by omega⟩ * (Fin.append x ω : Fin (3 + 3) → K) j

/-- `m_f_in`, scisim/ConstrainedMaps/Sobogus.cpp:47-58, 122-134, 193-204 -/
def fIn [Ring K] (junk : K) (k : Kind) (nbodies : Nat) (masses v : DVec K) : Outcome (DVec K) :=
  loopTo (fun b f => (negMomentum k nbodies masses v b).bind fun p => f.setBlock (fun c : Fin k.dof => k.dof * b + c) p)
    nbodies (.alloc junk (k.dof * nbodies))

/-- `Constraint::computeForcingTerm`, scisim/Constraints/Constraint.cpp:18-34 -/
def forcingTerm [Ring K] (con : Contact K k) (q v : DVec K) (E : Matrix (Fin k.amb) (Fin k.amb) K) (CoR nrel : K) (drel : Fin k.tan → K) :
    Outcome (Fin k.amb → K) :=
  (con.view q v).bind fun w => .ok fun i => E i 0 * (CoR * con.nDotV w + nrel) + ∑ s : Fin k.tan, E i s.succ * drel s

/-- What `initialize2D`, `initializeRigidBody2D` and `initialize3D` compute for contact number `c`, scisim/ConstrainedMaps/Sobogus.cpp:66-104, 142-178,
210-251; `E` is the block `fromPrimal` takes -/
def mkRow [Ring K] (B : Bases K k) (q v CoR nrel drel : DVec K) (c : Nat) (con : Contact K k) : Outcome (Row K k) :=
  (B.block c).bind fun E =>
  (CoR.get c).bind fun e => (nrel.get c).bind fun nr => (drel.block fun s : Fin k.tan => k.tan * c + s).bind fun dr =>
  (forcingTerm con q v E e nr dr).bind fun w =>
  (con.view q v).bind fun vw =>
  .ok ⟨E, w, con.body0, con.body1, (con.hMat vw E).1, (con.hMat vw E).2⟩

/-- The loop over the contacts -/
def mkRows [Ring K] (B : Bases K k) (q v CoR nrel drel : DVec K) (active : List (Contact K k)) : Outcome (Nat → Row K k) :=
  loopTo (fun c rows =>
    match active[c]? with
    | none => .ub
    | some con => (mkRow B q v CoR nrel drel c con).bind fun r => .ok (Function.update rows c r))
    active.length fun _ => ⟨fun _ _ => 0, fun _ => 0, 0, none, fun _ _ => 0, fun _ _ => 0⟩

/-- `SobogusFrictionProblem::initialize`, scisim/ConstrainedMaps/Sobogus.cpp:39-275, with `fromPrimal`. The mass block of body `b` is mapped in
column-major order from `masses`. -/
def setUp [Ring K] (junk : K) (active : List (Contact K k)) (B : Bases K k) (masses q v CoR mu nrel drel : DVec K) : Outcome (Primal K k) :=
  let nbodies := masses.size / (k.dof * k.dof)
  (fIn junk k nbodies masses v).bind fun f =>
  (mkRows B q v CoR nrel drel active).bind fun rows =>
  .ok ⟨nbodies, fun b => Matrix.of fun i j => masses.val (k.dof * k.dof * b + (k.dof * j + i)), f, active.length, mu, rows⟩

/-! ## The library -/

/-- The parts of the So-bogus library the model knows nothing about -/
structure Library (K : Type) (k : Kind) where
  /-- The Gauss–Seidel solver: given the problem, the first guess in local coordinates, the tolerance, the maximal number of iterations and how often the
  error is evaluated, gives the error and the solution in local coordinates -/
  gaussSeidel : Primal K k → DVec K → K → Nat → Nat → K × (Nat → K)
  /-- `computeMInv()` -/
  mInv : Primal K k → Nat → Matrix (Fin k.dof) (Fin k.dof) K

/-- `E.transpose() * r` -/
def toLocal [Ring K] (p : Primal K k) (r : DVec K) : DVec K :=
  ⟨r.size, fun x => ∑ j : Fin k.amb, (p.row (x / k.amb)).E j (Fin.ofNat _ x) * r.val (k.amb * (x / k.amb) + j)⟩

/-- `E * r_loc` -/
def toWorld [Ring K] (p : Primal K k) (r : DVec K) : DVec K :=
  ⟨r.size, fun x => ∑ j : Fin k.amb, (p.row (x / k.amb)).E (Fin.ofNat _ x) j * r.val (k.amb * (x / k.amb) + j)⟩

/-- Component `j` of the part of body `b` of `H.transpose() * r_loc` -/
def hTransposeMul [Ring K] (p : Primal K k) (r : DVec K) (b : Nat) (j : Fin k.dof) : K :=
  ∑ c ∈ Finset.range p.ncontacts,
    ((if (p.row c).objA = b then ∑ s : Fin k.amb, (p.row c).HA s j * r.val (k.amb * c + s) else 0)
      + (if (p.row c).objB = some b then ∑ s : Fin k.amb, - (p.row c).HB s j * r.val (k.amb * c + s) else 0))

instance (k : Kind) : NeZero k.dof := ⟨by cases k <;> decide⟩

/-- `MInv * ( H.transpose() * r_loc - f )`, six (three, two) components per body -/
def outVelocity [Ring K] (lib : Library K k) (p : Primal K k) (r : DVec K) : DVec K :=
  ⟨k.dof * p.nbodies, fun x =>
    ∑ j : Fin k.dof, lib.mInv p (x / k.dof) (Fin.ofNat _ x) j * (hTransposeMul p r (x / k.dof) j - p.f.val (k.dof * (x / k.dof) + j))⟩

/-- `Balls2DSobogusInterface::solve`, scisim/ConstrainedMaps/bogus/Ball2DSobogusInterface.cpp:99-145, and RigidBody2DSobogusInterface.cpp:94-140,
RigidBody3DSobogusInterface.cpp:94-140: gives the error, the impulses in world coordinates and the velocities -/
def interfaceSolve [Ring K] (lib : Library K k) (p : Primal K k) (r : DVec K) (tol : K) (maxIters evalEvery : Nat) : K × DVec K × DVec K :=
  let rLoc := toLocal p r
  let g := lib.gaussSeidel p rLoc tol maxIters evalEvery
  let rLoc : DVec K := ⟨rLoc.size, g.2⟩
  (g.1, toWorld p rLoc, outVelocity lib p rLoc)

/-! ## Calling it -/

/-- The first loops of `solve2D`, `solveRigidBody2D` and `solve3D`: the warm start in world coordinates, scisim/ConstrainedMaps/Sobogus.cpp:277-302,
377-405, 494-520 -/
def warmStart [Ring K] (junk : K) (p : Primal K k) (alpha beta : DVec K) : Outcome (DVec K) :=
  loopTo (fun c r =>
    (alpha.get c).bind fun a => (beta.block fun s : Fin k.tan => k.tan * c + s).bind fun b =>
    r.setBlock (fun i : Fin k.amb => k.amb * c + i) fun i =>
      a * (p.row c).HA 0 (k.tr i) + ∑ s : Fin k.tan, b s * (p.row c).HA s.succ (k.tr i))
    p.ncontacts (.alloc junk (k.amb * p.ncontacts))

/-- `x.segment( … ) += b` -/
def addBlock [Add K] {d : Nat} (x : DVec K) (idx : Fin d → Nat) (b : Fin d → K) : Outcome (DVec K) :=
  (x.block idx).bind fun a => x.setBlock idx fun i => a i + b i

/-- The second loops of `solve2D`, `solveRigidBody2D` and `solve3D`, scisim/ConstrainedMaps/Sobogus.cpp:308-348, 410-464, 525-573: the impulses along
the normal and the tangents, and what friction does to the momenta of the bodies.  The frictionless case is special in 2D only. The second body's
translational part is taken from `m_H_0_store`, its torque from `m_H_1_store`.  Translational and angular parts are added in one go. -/
def extractImpulses [Ring K] [DecidableEq K] (p : Primal K k) (r : DVec K) (f alpha beta : DVec K) : Outcome (DVec K × DVec K × DVec K) :=
  loopTo (fun c (s : DVec K × DVec K × DVec K) =>
    let row := p.row c
    (r.block fun i : Fin k.amb => k.amb * c + i).bind fun rc =>
    (s.2.1.set c (∑ i, rc i * row.HA 0 (k.tr i))).bind fun alpha =>
    (p.mu.get c).bind fun m =>
    let b : Fin k.tan → K := fun t => if k ≠ .rigidBodies3D ∧ m = 0 then 0 else ∑ i, rc i * row.HA t.succ (k.tr i)
    (s.2.2.setBlock (fun t : Fin k.tan => k.tan * c + t) b).bind fun beta =>
    (addBlock s.1 (fun j : Fin k.dof => k.vIdx p.nbodies row.objA j) fun j => ∑ t : Fin k.tan, b t * row.HA t.succ j).bind fun f =>
    (match row.objB with
      | none => Outcome.ok f
      | some o => addBlock f (fun j : Fin k.dof => k.vIdx p.nbodies o j) fun j =>
          - ∑ t : Fin k.tan, b t * (if j.val < k.amb then row.HA t.succ j else row.HB t.succ j)).bind fun f =>
    .ok (f, alpha, beta)) p.ncontacts (f, alpha, beta)

/-- The reordering of the velocities, scisim/ConstrainedMaps/Sobogus.cpp:350-358, 466-474, 575-582 -/
def reorder (junk : K) (k : Kind) (nbodies : Nat) (v : DVec K) : Outcome (DVec K) :=
  loopTo (fun b out =>
    (v.block fun c : Fin k.dof => k.dof * b + c).bind fun x => out.setBlock (fun c : Fin k.dof => k.vIdx nbodies b c) x)
    nbodies (.alloc junk v.size)

/-- Results of `SobogusFrictionProblem::solve` -/
structure LocalResult (K : Type) where
  alpha : DVec K
  beta : DVec K
  f : DVec K
  vout : DVec K
  succeeded : Bool
  error : K

/-- `SobogusFrictionProblem::solve`, scisim/ConstrainedMaps/Sobogus.cpp:277-613. `f` is set to zero at the start of the second loop. -/
def solveLocal [Ring K] [DecidableEq K] [LT K] [DecidableLT K] (junk : K) (lib : Library K k) (p : Primal K k) (tol : K) (maxIters evalEvery : Nat)
    (alpha beta : DVec K) (fsize : Nat) : Outcome (LocalResult K) :=
  (warmStart junk p alpha beta).bind fun r =>
  let g := interfaceSolve lib p r tol maxIters evalEvery
  (extractImpulses p g.2.1 ⟨fsize, fun _ => 0⟩ alpha beta).bind fun s =>
  (reorder junk k p.nbodies g.2.2).bind fun v =>
  .ok ⟨s.2.1, s.2.2, s.1, v, decide (g.1 < tol), g.1⟩

/-- The arguments of `Sobogus::solve` that matter; `M` are the values of the mass matrix (`M.valuePtr()`) -/
structure Input (K : Type) (k : Kind) where
  nbodies : Nat
  M : DVec K
  CoR : DVec K
  mu : DVec K
  q0 : DVec K
  v0 : DVec K
  active : List (Contact K k)
  bases : Bases K k
  nrelExtra : DVec K
  drelExtra : DVec K
  maxIters : Nat
  evalEvery : Nat
  tol : K
  f : DVec K
  alpha : DVec K
  beta : DVec K

/-- What `Sobogus::solve` leaves behind; `active` are the contacts afterwards -/
structure Output (K : Type) (k : Kind) where
  f : DVec K
  alpha : DVec K
  beta : DVec K
  vout : DVec K
  succeeded : Bool
  error : K
  active : List (Contact K k)

/-- `Sobogus::solve`, scisim/ConstrainedMaps/Sobogus.cpp:878-1088 -/
def solve [Ring K] [DecidableEq K] [LT K] [DecidableLT K] (junk : K) (lib : Library K k) (x : Input K k) : Outcome (Output K k) :=
  (buildLtg x.nbodies x.active).bind fun ltg =>
  (kinematicRelVel x.q0 x.v0 x.active x.bases (.alloc junk x.alpha.size) (.alloc junk x.beta.size)).bind fun rel =>
  (addExtra rel.1 x.nrelExtra).bind fun nrel =>
  (addExtra rel.2 x.drelExtra).bind fun drel =>
  (mapO (Contact.remap (gtlFind ltg)) x.active).bind fun active =>
  (extractMass junk k x.nbodies ltg x.M).bind fun masses =>
  (extractQ junk k x.nbodies ltg x.q0).bind fun q =>
  (extractV junk k x.nbodies ltg x.v0).bind fun v =>
  (setUp junk active x.bases masses q v x.CoR x.mu nrel drel).bind fun p =>
  (solveLocal junk lib p x.tol x.maxIters x.evalEvery x.alpha x.beta (k.dof * ltg.length)).bind fun res =>
  (scatter k x.nbodies ltg res.vout x.v0).bind fun vout =>
  (scatter k x.nbodies ltg res.f ⟨x.f.size, fun _ => 0⟩).bind fun f =>
  (mapO (Contact.remap (ltgGet ltg)) active).bind fun active =>
  .ok ⟨f, res.alpha, res.beta, vout, res.succeeded, res.error, active⟩

end Sobogus
end Scisim
