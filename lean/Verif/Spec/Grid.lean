import Verif.Model.Grid
import Mathlib.Algebra.BigOperators.Fin
/-!
# What the broad phase should return
-/

namespace Scisim

variable {d : Nat} {K : Type} [Field K] [LinearOrder K] [IsStrictOrderedRing K]

/-- The point lies in the (closed) box. -/
def Box.Contains (b : Box d K) (x : Fin d → K) : Prop := ∀ i, b.min i ≤ x i ∧ x i ≤ b.max i

/-- Two boxes have a point in common. -/
def Overlap (a b : Box d K) : Prop := ∃ x, a.Contains x ∧ b.Contains x

/-- The box is not empty (the constructor of `AABB` asserts the strict form). -/
def Box.Valid (b : Box d K) : Prop := ∀ i, b.min i < b.max i

/-- `s` is the set of overlapping pairs `i < j`, each listed once. -/
def IsOverlapSet (bs : List (Box d K)) (s : List (Nat × Nat)) : Prop :=
  s.Nodup ∧ ∀ i j, (i, j) ∈ s ↔ i < j ∧ ∃ a b, bs[i]? = some a ∧ bs[j]? = some b ∧ Overlap a b

/-- The region of a grid cell. -/
def GridSpec.cell (g : GridSpec d K) (c : Fin d → Nat) (x : Fin d → K) : Prop :=
  ∀ i, g.minCoord i + c i * g.h ≤ x i ∧ x i < g.minCoord i + (c i + 1) * g.h

/-- The box enlarged by `e` on every side. -/
def Box.enlarge (b : Box d K) (e : K) : Box d K := ⟨fun i => b.min i - e, fun i => b.max i + e⟩

/-- The cell has a point in common with the box. -/
def GridSpec.Meets (g : GridSpec d K) (c : Fin d → Nat) (b : Box d K) : Prop := ∃ x, g.cell c x ∧ b.Contains x

/-- The number of cells of a grid. -/
def cellCount {d : Nat} (dims : Fin d → Nat) : Nat := ∏ i, dims i

/-- In every direction the boxes (and a margin) extend over at most `n` times the average box size. -/
def Spread {d : Nat} (bs : List (Box (d + 1) K)) (n : Nat) : Prop :=
  ∀ a ∈ bs, ∀ b ∈ bs, ∀ i, a.max i - b.min i + 4 / 1000000 ≤ n * cellWidth bs

end Scisim
