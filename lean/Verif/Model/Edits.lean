import Verif.Model.Outcome
/-!
# Editing the state of a running simulation

Deleting and adding bodies, balls and geometry instances, as scripts do through the Python interface.
-/

namespace Scisim

/-- A resizable array (`VectorXs`, `VectorXu`, `std::vector`): `size` cells; what lies beyond is memory without a defined value. -/
structure Arr (α : Type) where
  size : Nat
  get : Nat → α

namespace Arr
variable {α : Type}

/-- `a[i] = x` -/
def set (a : Arr α) (i : Nat) (x : α) : Arr α := ⟨a.size, fun k => if k = i then x else a.get k⟩

/-- `a.segment<3>( to ) = a.segment<3>( from )`: coefficient by coefficient -/
def copy3 (a : Arr α) (to «from» : Nat) : Arr α :=
  ((a.set to (a.get «from»)).set (to + 1) ((a.set to (a.get «from»)).get («from» + 1))).set (to + 2)
    (((a.set to (a.get «from»)).set (to + 1) ((a.set to (a.get «from»)).get («from» + 1))).get («from» + 2))

/-- Eigen `conservativeResize`, `std::vector::resize`: cells within both sizes keep their values -/
def resize (a : Arr α) (n : Nat) : Arr α := ⟨n, a.get⟩

/-- `std::vector::push_back` -/
def pushBack (a : Arr α) (x : α) : Arr α := ⟨a.size + 1, fun k => if k = a.size then x else a.get k⟩

/-- The cells in order -/
def toList (a : Arr α) : List α := (List.range a.size).map a.get

/-- An array with the given cells -/
def ofList [Inhabited α] (l : List α) : Arr α := ⟨l.length, fun i => l.getD i default⟩

end Arr

/-- A scalar type with a not-a-number -/
class HasNaN (S : Type) where
  nan : S
  isNaN : S → Bool
  isNaN_nan : isNaN nan = true

/-- rigidbody2d/RigidBody2DState.h:91-98. The mass matrices are diagonal and compressed: `M` and `Minv` are their stored values (`valuePtr()`).
A geometry is owned through a pointer, which is null (`none`) while it is marked for deletion. Forces, planes and portals are not touched by the
functions modelled here and are left out. -/
structure RbStore (S G : Type) where
  q : Arr S
  v : Arr S
  M : Arr S
  Minv : Arr S
  fixed : Arr Bool
  geoIdx : Arr Nat
  geo : Arr (Option G)

namespace RbStore
variable {S G : Type}

/-- rigidbody2d/RigidBody2DState.cpp:128-132 `nbodies` -/
def nbodies (s : RbStore S G) : Nat := s.q.size / 3

/-- rigidbody2d/RigidBody2DState.cpp:271-274: marks the bodies to be deleted. An index out of range is undefined behaviour. -/
def markBodies [HasNaN S] (q : Arr S) : List Nat → Outcome (Arr S)
  | [] => .ok q
  | i :: is => if 3 * i < q.size then markBodies (q.set (3 * i) HasNaN.nan) is else .ub

/-- rigidbody2d/RigidBody2DState.cpp:285-288, the inner loop: skips marked bodies -/
def skipMarked [HasNaN S] (q : Arr S) (n : Nat) (copyFrom : Nat) : Nat :=
  if h : copyFrom < n then
    if HasNaN.isNaN (q.get (3 * copyFrom)) then skipMarked q n (copyFrom + 1) else copyFrom
  else copyFrom
termination_by n - copyFrom

theorem le_skipMarked [HasNaN S] (q : Arr S) (n copyFrom : Nat) : copyFrom ≤ skipMarked q n copyFrom := by
  unfold skipMarked
  by_cases h : copyFrom < n
  · rw [dif_pos h]
    by_cases h2 : HasNaN.isNaN (q.get (3 * copyFrom)) = true
    · rw [if_pos h2]
      exact Nat.le_trans (Nat.le_succ _) (le_skipMarked q n (copyFrom + 1))
    · rw [if_neg h2]
      exact Nat.le_refl _
  · rw [dif_neg h]
    exact Nat.le_refl _
termination_by n - copyFrom

/-- rigidbody2d/RigidBody2DState.cpp:293-298: moves a body to its new place -/
def copyBody (s : RbStore S G) (copyTo copyFrom : Nat) : RbStore S G :=
  { s with
    q := s.q.copy3 (3 * copyTo) (3 * copyFrom)
    v := s.v.copy3 (3 * copyTo) (3 * copyFrom)
    M := s.M.copy3 (3 * copyTo) (3 * copyFrom)
    Minv := s.Minv.copy3 (3 * copyTo) (3 * copyFrom)
    fixed := s.fixed.set copyTo (s.fixed.get copyFrom)
    geoIdx := s.geoIdx.set copyTo (s.geoIdx.get copyFrom) }

/-- rigidbody2d/RigidBody2DState.cpp:281-299, the outer loop; returns the state and the final value of `copy_to` -/
def compactBodies [HasNaN S] (n : Nat) (s : RbStore S G) (copyTo copyFrom : Nat) : RbStore S G × Nat :=
  if h : copyFrom < n then
    if skipMarked s.q n copyFrom = n then (s, copyTo)
    else compactBodies n (copyBody s copyTo (skipMarked s.q n copyFrom)) (copyTo + 1) (skipMarked s.q n copyFrom + 1)
  else (s, copyTo)
termination_by n - copyFrom
decreasing_by
  have := le_skipMarked s.q n copyFrom
  omega

/-- rigidbody2d/RigidBody2DState.cpp:263-347 `removeBodies` -/
def removeBodies [HasNaN S] (s : RbStore S G) (indices : List Nat) : Outcome (RbStore S G) :=
  if indices.length = 0 then .ok s else
    (markBodies s.q indices).bind fun q =>
      let s := { s with q := q }
      let r := compactBodies s.nbodies s 0 0
      let newNumDofs := 3 * r.2
      .ok { r.1 with
        q := r.1.q.resize newNumDofs
        v := r.1.v.resize newNumDofs
        M := r.1.M.resize newNumDofs
        Minv := r.1.Minv.resize newNumDofs
        fixed := r.1.fixed.resize r.2
        geoIdx := r.1.geoIdx.resize r.2 }

/-- rigidbody2d/PythonScripting.cpp:539-575 `delete_bodies`. Reading the argument array is not modelled. -/
def scriptDeleteBodies [HasNaN S] (s : RbStore S G) (indices : List Nat) : Outcome (RbStore S G) :=
  if indices.any (fun i => decide (s.nbodies ≤ i)) then .exit else s.removeBodies indices

/-- rigidbody2d/RigidBody2DState.cpp:357-360 -/
def markGeometry (g : Arr (Option G)) : List Nat → Outcome (Arr (Option G))
  | [] => .ok g
  | i :: is => if i < g.size then markGeometry (g.set i none) is else .ub

/-- rigidbody2d/RigidBody2DState.cpp:371-377, the inner loop -/
def skipNull (g : Arr (Option G)) (n : Nat) (copyFrom : Nat) : Nat :=
  if h : copyFrom < n then
    if (g.get copyFrom).isNone then skipNull g n (copyFrom + 1) else copyFrom
  else copyFrom
termination_by n - copyFrom

theorem le_skipNull (g : Arr (Option G)) (n copyFrom : Nat) : copyFrom ≤ skipNull g n copyFrom := by
  unfold skipNull
  by_cases h : copyFrom < n
  · rw [dif_pos h]
    by_cases h2 : (g.get copyFrom).isNone = true
    · rw [if_pos h2]
      exact Nat.le_trans (Nat.le_succ _) (le_skipNull g n (copyFrom + 1))
    · rw [if_neg h2]
      exact Nat.le_refl _
  · rw [dif_neg h]
    exact Nat.le_refl _
termination_by n - copyFrom

/-- `g[to] = std::move( g[from] )` for owning pointers: the source is emptied, then the target set -/
def moveGeo (g : Arr (Option G)) (to «from» : Nat) : Arr (Option G) := (g.set «from» none).set to (g.get «from»)

/-- rigidbody2d/RigidBody2DState.cpp:369-384, the outer loop; returns the geometry, the index map and the final value of `copy_to` -/
def compactGeometry (n : Nat) (g : Arr (Option G)) (indexMap : Arr Nat) (copyTo copyFrom : Nat) : Arr (Option G) × Arr Nat × Nat :=
  if h : copyFrom < n then
    if skipNull g n copyFrom = n then (g, indexMap, copyTo)
    else compactGeometry n (moveGeo g copyTo (skipNull g n copyFrom)) (indexMap.set (skipNull g n copyFrom) copyTo) (copyTo + 1)
      (skipNull g n copyFrom + 1)
  else (g, indexMap, copyTo)
termination_by n - copyFrom
decreasing_by
  have := le_skipNull g n copyFrom
  omega

/-- rigidbody2d/RigidBody2DState.cpp:349-397 `removeGeometry`. `junk` is what the memory of the uninitialised `index_map` happens to hold. -/
def removeGeometry (junk : Nat → Nat) (s : RbStore S G) (indices : List Nat) : Outcome (RbStore S G) :=
  if indices.length = 0 then .ok s else
    (markGeometry s.geo indices).bind fun geo =>
      let n := geo.size
      let r := compactGeometry n geo ⟨n, junk⟩ 0 0
      .ok { s with
        geo := r.1.resize r.2.2
        geoIdx := ⟨s.geoIdx.size, fun b => r.2.1.get (s.geoIdx.get b)⟩ }

/-- rigidbody2d/PythonScripting.cpp:577-613 `delete_geometry`. Reading the argument array is not modelled. -/
def scriptDeleteGeometry (junk : Nat → Nat) (s : RbStore S G) (indices : List Nat) : Outcome (RbStore S G) :=
  if indices.any (fun i => decide (s.geo.size ≤ i)) then .exit else s.removeGeometry junk indices

/-- rigidbody2d/RigidBody2DState.cpp:405-408 `addCircleGeometry`, for any kind of geometry -/
def addGeometry (s : RbStore S G) (g : G) : RbStore S G := { s with geo := s.geo.pushBack (some g) }

/-- The new mass matrix of `addBody`: rigidbody2d/RigidBody2DState.cpp:217-235 (and 239-257 for the inverse): the old values are copied, then three are
inserted -/
def extendDiagonal (old : Arr S) (n : Nat) (a b c : S) : Arr S :=
  ⟨3 * (n + 1), fun k => if k < 3 * n then old.get k else if k = 3 * n then a else if k = 3 * n + 1 then b else c⟩

/-- `x.conservativeResize( 3 * ( n + 1 ) ); x.segment<3>( 3 * n ) << a, b, c` -/
def append3 (x : Arr S) (n : Nat) (a b c : S) : Arr S :=
  (((x.resize (3 * (n + 1))).set (3 * n) a).set (3 * n + 1) b).set (3 * n + 2) c

/-- rigidbody2d/RigidBody2DState.cpp:187-261 `addBody`. `massInertia` is the geometry's `computeMassAndInertia`. A geometry index out of range, or one whose
pointer is null, is undefined behaviour. -/
def addBody [One S] [Div S] (massInertia : G → S → S × S) (s : RbStore S G) (x y theta vx vy omega rho : S) (geoIdx : Nat) (fixed : Bool) :
    Outcome (RbStore S G) :=
  if s.geo.size ≤ geoIdx then .ub else
    match s.geo.get geoIdx with
    | none => .ub
    | some g =>
      let n := s.nbodies
      let mI := massInertia g rho
      .ok { s with
        q := append3 s.q n x y theta
        v := append3 s.v n vx vy omega
        geoIdx := (s.geoIdx.resize (n + 1)).set n geoIdx
        fixed := s.fixed.pushBack fixed
        M := extendDiagonal s.M n mI.1 mI.1 mI.2
        Minv := extendDiagonal s.Minv n (1 / mI.1) (1 / mI.1) (1 / mI.2) }

/-- rigidbody2d/PythonScripting.cpp:501-537 `addBody`. Reading the arguments is not modelled. -/
def scriptAddBody [One S] [Div S] [Zero S] [LE S] [DecidableLE S] (massInertia : G → S → S × S) (s : RbStore S G) (x y theta vx vy omega rho : S)
    (geoIdx : Int) (fixed : Int) : Outcome (RbStore S G) :=
  if rho ≤ 0 then .exit
  else if geoIdx < 0 ∨ (s.geo.size : Int) ≤ geoIdx then .exit
  else if fixed ≠ 0 ∧ fixed ≠ 1 then .exit
  else s.addBody massInertia x y theta vx vy omega rho geoIdx.toNat (decide (fixed = 1))

/-- rigidbody2d/PythonScripting.cpp:479-499 `addCircleGeometry` -/
def scriptAddCircle [Zero S] [LE S] [DecidableLE S] (circle : S → G) (s : RbStore S G) (r : S) : Outcome (RbStore S G) :=
  if r ≤ 0 then .exit else .ok (s.addGeometry (circle r))

end RbStore

/-- ball2d/Ball2DState.h:101-108. Forces, drums, planes and portals are left out; the mass matrices are their stored values. -/
structure BallStore (S : Type) where
  q : Arr S
  v : Arr S
  r : Arr S
  fixed : Arr Bool
  M : Arr S
  Minv : Arr S

namespace BallStore
variable {S : Type}

/-- ball2d/Ball2DState.cpp `nballs` -/
def nballs (s : BallStore S) : Nat := s.q.size / 2

/-- `x.conservativeResize( 2 * ( n + 1 ) ); x.segment<2>( 2 * n ) = ( a, b )` -/
def append2 (x : Arr S) (n : Nat) (a b : S) : Arr S := ((x.resize (2 * (n + 1))).set (2 * n) a).set (2 * n + 1) b

/-- ball2d/Ball2DState.cpp:332-347 and 350-365: old values copied, two inserted -/
def extendDiagonal (old : Arr S) (n : Nat) (a b : S) : Arr S :=
  ⟨2 * (n + 1), fun k => if k < 2 * n then old.get k else if k = 2 * n then a else b⟩

/-- ball2d/Ball2DState.cpp:315-368 `pushBallBack` -/
def pushBallBack [One S] [Div S] (s : BallStore S) (x y vx vy r m : S) (fixed : Bool) : BallStore S :=
  let n := s.nballs
  { q := append2 s.q n x y
    v := append2 s.v n vx vy
    r := (s.r.resize (n + 1)).set n r
    fixed := s.fixed.pushBack fixed
    M := extendDiagonal s.M n m m
    Minv := extendDiagonal s.Minv n (1 / m) (1 / m) }

/-- ball2d/PythonScripting.cpp:366-399 `insertBall`. Reading the arguments is not modelled. -/
def scriptInsertBall [One S] [Div S] [Zero S] [LE S] [DecidableLE S] (s : BallStore S) (x y vx vy r m : S) (fixed : Int) : Outcome (BallStore S) :=
  if r ≤ 0 then .exit else if m ≤ 0 then .exit else if fixed ≠ 0 ∧ fixed ≠ 1 then .exit
  else .ok (s.pushBallBack x y vx vy r m (decide (fixed ≠ 0)))

end BallStore

end Scisim
