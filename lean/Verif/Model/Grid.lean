import Verif.Model.Outcome
import Mathlib.Algebra.Order.Floor.Ring
import Mathlib.Data.Fin.Tuple.Basic
/-!
# Broad phase: the spatial grid

`ball2d/SpatialGridDetector.cpp`, `rigidbody2d/SpatialGrid.cpp` (same code) and `rigidbody3d/SpatialGridDetector.cpp` (same code with one more
coordinate). The dimension is a parameter: `Fin 2` and `Fin 3` are the two instances in the code. `scalar` is an exact ordered
field; conversions to `unsigned` are undefined when the value does not fit.
-/

namespace Scisim

/-- `AABB`, ball2d/SpatialGridDetector.h:14-37 -/
structure Box (d : Nat) (K : Type) where
  min : Fin d → K
  max : Fin d → K

section
variable {d : Nat} {K : Type} [Field K] [LinearOrder K] [IsStrictOrderedRing K] [FloorRing K]

/-- ball2d/SpatialGridDetector.cpp:15-27 `AABB::overlaps` -/
def Box.overlaps (a b : Box d K) : Bool :=
  if ∃ i, a.max i < b.min i then false
  else if ∃ i, b.max i < a.min i then false
  else true

/-- `.cast<unsigned>()`: truncation; undefined if the result is not representable ([conv.fpint]). -/
def castUnsigned (x : Fin d → K) : Outcome (Fin d → Nat) :=
  if ∀ i, -1 < x i ∧ x i < 4294967296 then .ok fun i => ⌊x i⌋₊ else .ub

/-- ball2d/SpatialGridDetector.cpp:30-35 `computeCellIndex` -/
def computeCellIndex (coord minCoord : Fin d → K) (h : K) : Outcome (Fin d → Nat) :=
  castUnsigned fun i => (coord i - minCoord i) / h

/-- ball2d/SpatialGridDetector.cpp:37-41 `keyForIndex`, before reduction modulo 2^32: `x + X * ( y + Y * z )`. -/
def cellNumber : (d : Nat) → (index dimensions : Fin d → Nat) → Nat
  | 0, _, _ => 0
  | d + 1, index, dimensions => index 0 + dimensions 0 * cellNumber d (Fin.tail index) (Fin.tail dimensions)

/-- ball2d/SpatialGridDetector.cpp:37-41 (rigidbody3d/SpatialGridDetector.cpp:36-41) `keyForIndex` in 32-bit arithmetic; see `keyForIndex_two`
and `keyForIndex_three` for the expressions in the code. -/
def keyForIndex (index dimensions : Fin d → Nat) : Nat := cellNumber d index dimensions % 4294967296

/-- The nested loops of ball2d/SpatialGridDetector.cpp:53-56 (rigidbody3d/SpatialGridDetector.cpp:55-59): all cells between two corners. -/
def cellsBetween : (d : Nat) → (lower upper : Fin d → Nat) → List (Fin d → Nat)
  | 0, _, _ => [fun i => i.elim0]
  | d + 1, lower, upper =>
    (List.range' (lower 0) (upper 0 + 1 - lower 0)).flatMap fun x =>
      (cellsBetween d (Fin.tail lower) (Fin.tail upper)).map (Fin.cons x)

/-- `std::map<unsigned,std::vector<unsigned>>`, sorted by key -/
abbrev Voxels := List (Nat × List Nat)

/-- ball2d/SpatialGridDetector.cpp:61-70: find or create the voxel and append the index of the box -/
def addToVoxel (key idx : Nat) : Voxels → Voxels
  | [] => [(key, [idx])]
  | (k, l) :: vs =>
    if key < k then (key, [idx]) :: (k, l) :: vs
    else if key = k then (k, l ++ [idx]) :: vs
    else (k, l) :: addToVoxel key idx vs

/-- A spatial grid: `min_coord`, `dimensions`, `h`. -/
structure GridSpec (d : Nat) (K : Type) where
  minCoord : Fin d → K
  dims : Fin d → Nat
  h : K

/-- ball2d/SpatialGridDetector.cpp:47-51: the first and the last cell of a box, enlarged by `1.0e-6` -/
def GridSpec.corners (g : GridSpec d K) (b : Box d K) : Outcome ((Fin d → Nat) × (Fin d → Nat)) :=
  (computeCellIndex (fun i => b.min i - 1 / 1000000) g.minCoord g.h).bind fun lower =>
  (computeCellIndex (fun i => b.max i + 1 / 1000000) g.minCoord g.h).bind fun upper =>
  .ok (lower, upper)

/-- The body of the loop over boxes, ball2d/SpatialGridDetector.cpp:45-74 -/
def rasterizeOne (g : GridSpec d K) (idx : Nat) (b : Box d K) (vs : Voxels) : Outcome Voxels :=
  (g.corners b).bind fun c =>
  .ok ((cellsBetween d c.1 c.2).foldl (fun vs cell => addToVoxel (keyForIndex cell g.dims) idx vs) vs)

/-- ball2d/SpatialGridDetector.cpp:42-75 `rasterizeAABBs`, from box `idx` on -/
def rasterizeFrom (g : GridSpec d K) : (idx : Nat) → List (Box d K) → Voxels → Outcome Voxels
  | _, [], vs => .ok vs
  | idx, b :: bs, vs => (rasterizeOne g idx b vs).bind fun vs' => rasterizeFrom g (idx + 1) bs vs'

end

section
variable {d : Nat} {K : Type} [Field K] [LinearOrder K] [IsStrictOrderedRing K] [FloorRing K]

/-- `maxCoeff()` of a vector of length `d + 1` -/
def maxCoeff : (d : Nat) → (Fin (d + 1) → K) → K
  | 0, v => v 0
  | d + 1, v => max (v 0) (maxCoeff d (Fin.tail v))

/-- ball2d/SpatialGridDetector.cpp:79-90: smallest and largest corner of all boxes. The loop starts from ±infinity; here from the first
box. -/
def boundingBox (b : Box d K) (bs : List (Box d K)) : Box d K :=
  bs.foldl (fun m b => ⟨fun i => min (m.min i) (b.min i), fun i => max (m.max i) (b.max i)⟩) b

/-- ball2d/SpatialGridDetector.cpp:93-100: the average extent of the boxes, in the largest direction -/
def cellWidth (bs : List (Box (d + 1) K)) : K :=
  maxCoeff d (bs.foldl (fun s b i => s i + (b.max i - b.min i)) (fun _ => 0)) / bs.length

/-- ball2d/SpatialGridDetector.cpp:76-104 `initializeSpatialGrid`. Without boxes the number of cells is `ceil` of a NaN, whose
conversion is undefined. -/
def initializeSpatialGrid (bs : List (Box (d + 1) K)) : Outcome (GridSpec (d + 1) K) :=
  match bs with
  | [] => .ub
  | b :: rest =>
    let bb := boundingBox b rest
    let minCoord := fun i => bb.min i - 2 / 1000000
    let maxCoord := fun i => bb.max i + 2 / 1000000
    let h := cellWidth bs
    if h = 0 then .ub
    else (castUnsigned fun i => ((⌈(maxCoord i - minCoord i) / h⌉ : ℤ) : K)).bind fun dims => .ok ⟨minCoord, dims, h⟩

/-- `std::set<std::pair<unsigned,unsigned>>::insert` -/
def insertPair (p : Nat × Nat) : List (Nat × Nat) → List (Nat × Nat)
  | [] => [p]
  | q :: s =>
    if p.1 < q.1 ∨ (p.1 = q.1 ∧ p.2 < q.2) then p :: q :: s
    else if p = q then q :: s
    else q :: insertPair p s

/-- The two loops over one voxel, ball2d/SpatialGridDetector.cpp:120-124: every pair of entries, in order -/
def pairsOf : List Nat → List (Nat × Nat)
  | [] => []
  | i :: l => l.map (fun j => (i, j)) ++ pairsOf l

/-- ball2d/SpatialGridDetector.cpp:126 (the indices come from the loop over `aabbs`, so they are always valid) -/
def boxesOverlap (bs : List (Box d K)) (p : Nat × Nat) : Bool :=
  match bs[p.1]?, bs[p.2]? with
  | some a, some b => a.overlaps b
  | _, _ => false

/-- ball2d/SpatialGridDetector.cpp:117-132: collect overlapping pairs voxel by voxel -/
def collectPairs (bs : List (Box d K)) (vs : Voxels) (out : List (Nat × Nat)) : List (Nat × Nat) :=
  vs.foldl (fun out v => (pairsOf v.2).foldl (fun out p => if boxesOverlap bs p then insertPair p out else out) out) out

/-- ball2d/SpatialGridDetector.cpp:106-133 `getPotentialOverlaps`, with an empty set passed in -/
def getPotentialOverlaps (bs : List (Box (d + 1) K)) : Outcome (List (Nat × Nat)) :=
  (initializeSpatialGrid bs).bind fun g =>
  (rasterizeFrom g 0 bs []).bind fun vs =>
  .ok (collectPairs bs vs [])

/-- ball2d/SpatialGridDetector.cpp:135-147 `getPotentialOverlapsAllPairs` -/
def getPotentialOverlapsAllPairs (bs : List (Box d K)) : List (Nat × Nat) :=
  (pairsOf (List.range bs.length)).foldl (fun out p => if boxesOverlap bs p then insertPair p out else out) []

/-- rigidbody2d/SpatialGrid.cpp:143-153 `getPotentialOverlaps` for one trial box -/
def trialOverlaps (trial : Box d K) (bs : List (Box d K)) : List Nat :=
  (List.range bs.length).filter fun i =>
    match bs[i]? with
    | some b => b.overlaps trial
    | none => false

end

end Scisim
