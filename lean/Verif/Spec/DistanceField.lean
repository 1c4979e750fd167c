import Mathlib.Algebra.BigOperators.Group.Finset.Basic
import Mathlib.Analysis.Calculus.Deriv.Basic
import Verif.Model.DistanceField
/-!
# What a distance field on a grid means

Between the nodes the field is the sum of the samples weighted by products of hat functions. This does not mention cells.
-/

namespace Scisim

/-- The hat function: one at zero, zero from distance one on, linear in between -/
noncomputable def hat (t : ℝ) : ℝ := max 0 (1 - |t|)

/-- A grid as the preprocessing writes it: positive spacing, at least one node per axis, one sample per node (less than 2^32 of them), and the opposite corner -/
structure DistanceGrid.WellFormed (g : DistanceGrid) : Prop where
  delta : ∀ a, 0 < g.delta a
  dimx : 1 ≤ g.dimx.toNat
  dimy : 1 ≤ g.dimy.toNat
  dimz : 1 ≤ g.dimz.toNat
  size : g.samples.size = g.dimx.toNat * g.dimy.toNat * g.dimz.toNat
  small : g.samples.size < 4294967296
  corner : g.gridEnd = ![g.origin 0 + (g.dimx.toNat - 1 : ℕ) * g.delta 0, g.origin 1 + (g.dimy.toNat - 1 : ℕ) * g.delta 1,
    g.origin 2 + (g.dimz.toNat - 1 : ℕ) * g.delta 2]

/-- The place of a node -/
noncomputable def DistanceGrid.node (g : DistanceGrid) (i j k : ℕ) : Vec3 :=
  ![g.origin 0 + i * g.delta 0, g.origin 1 + j * g.delta 1, g.origin 2 + k * g.delta 2]

/-- The sample of a node: the first index runs fastest -/
def DistanceGrid.sample (g : DistanceGrid) (i j k : ℕ) : ℝ := g.samples.get (i + g.dimx.toNat * (j + g.dimy.toNat * k))

/-- The field at any point -/
noncomputable def DistanceGrid.field (g : DistanceGrid) (x : Vec3) : ℝ :=
  ∑ i ∈ Finset.range g.dimx.toNat, ∑ j ∈ Finset.range g.dimy.toNat, ∑ k ∈ Finset.range g.dimz.toNat,
    g.sample i j k * (hat ((x 0 - g.node i j k 0) / g.delta 0) * hat ((x 1 - g.node i j k 1) / g.delta 1) * hat ((x 2 - g.node i j k 2) / g.delta 2))

/-- In the box of the grid, but not on the three faces opposite the origin -/
def DistanceGrid.Inside (g : DistanceGrid) (x : Vec3) : Prop := ∀ a, g.origin a ≤ x a ∧ x a < g.gridEnd a

/-- Outside the box of the grid -/
def DistanceGrid.Outside (g : DistanceGrid) (x : Vec3) : Prop := ∃ a, x a < g.origin a ∨ g.gridEnd a < x a

/-- In no plane of nodes -/
def DistanceGrid.OffPlanes (g : DistanceGrid) (x : Vec3) : Prop := ∀ (a : Fin 3) (i : ℕ), x a ≠ g.origin a + i * g.delta a

end Scisim
