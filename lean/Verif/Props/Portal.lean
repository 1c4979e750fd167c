import Verif.Spec.Portal
import Mathlib.Algebra.Order.Floor.Ring
import Mathlib.Data.Rat.Floor
import Mathlib.Tactic.Linarith
import Mathlib.Tactic.LinearCombination
import Mathlib.Tactic.FieldSimp
import Mathlib.Tactic.Ring
/-!
# C20, C21, C22: portals
-/

set_option linter.unusedSectionVars false

namespace Scisim

variable {K : Type} [Field K] [LinearOrder K] [IsStrictOrderedRing K] [FloorRing K]

namespace PlanarPortal

/-- The portal seen from the other side. -/
def swap (p : PlanarPortal K) : PlanarPortal K := { p with planeA := p.planeB, planeB := p.planeA }

theorem throughB_swap (junk : K → ℤ) (p : PlanarPortal K) (x : V2 K) :
    p.teleportPointThroughPlaneB junk x = p.swap.teleportPointThroughPlaneA junk x := rfl

theorem throughA_swap (junk : K → ℤ) (p : PlanarPortal K) (x : V2 K) :
    p.teleportPointThroughPlaneA junk x = p.swap.teleportPointThroughPlaneB junk x := rfl

/-- the rigid map from the frame of plane A to the frame of plane B (rotated by half a turn and shifted by the offset) -/
def rigidAB (p : PlanarPortal K) (x : V2 K) : V2 K :=
  p.planeB.x + (p.planeA.n.dot (p.planeA.x - x)) • p.planeB.n + (p.dx + p.planeA.t.dot (p.planeA.x - x)) • p.planeB.t

theorem rigidAB_isometric (p : PlanarPortal K) (hw : p.WellFormed) : Isometric p.rigidAB := by
  obtain ⟨⟨hA, hAx, hAy⟩, ⟨hB, hBx, hBy⟩⟩ := hw
  intro a b
  simp only [distSq, rigidAB, V2.dot, V2.add_x, V2.add_y, V2.sub_x, V2.sub_y, V2.smul_x, V2.smul_y, hAx, hAy, hBx, hBy]
  generalize p.planeA.n.x = m at *; generalize p.planeA.n.y = n at *
  generalize p.planeB.n.x = k at *; generalize p.planeB.n.y = l at *
  linear_combination ((a.x - b.x) ^ 2 + (a.y - b.y) ^ 2) * (m ^ 2 + n ^ 2) * hB + ((a.x - b.x) ^ 2 + (a.y - b.y) ^ 2) * hA

theorem throughA_eq (junk : K → ℤ) (p : PlanarPortal K) (hw : p.WellFormed) (x : V2 K) :
    p.teleportPointThroughPlaneA junk x =
      p.rigidAB x + (-(2 * (repeatX junk (p.dx + p.planeA.t.dot (p.planeA.x - x)) p.bounds : K) * p.bounds)) • p.planeB.t := by
  obtain ⟨⟨hA, hAx, hAy⟩, _⟩ := hw
  have h1 : p.planeA.t.dot (p.dx • p.planeA.t + p.planeA.x - x) = p.dx + p.planeA.t.dot (p.planeA.x - x) := by
    simp only [V2.dot, V2.add_x, V2.add_y, V2.sub_x, V2.sub_y, V2.smul_x, V2.smul_y, hAx, hAy]
    linear_combination p.dx * hA
  unfold teleportPointThroughPlaneA rigidAB
  simp only [h1]
  ext
  · simp only [V2.add_x, V2.smul_x]; ring
  · simp only [V2.add_y, V2.smul_y]; ring

end PlanarPortal

open PlanarPortal

/-! ## C20 -/

/-- **C20, teleporting is a rigid map up to whole periods**: there is one distance-preserving map `R` such that every point is
teleported to its image under `R`, moved by a whole number of periods along the target plane. -/
theorem C20_rigid (junk : K → ℤ) (p : PlanarPortal K) (hw : p.WellFormed) :
    (∃ R, Isometric R ∧ ∀ x, ∃ k : ℤ, p.teleportPointThroughPlaneA junk x = R x + (2 * k * p.bounds) • p.planeB.t) ∧
    (∃ R, Isometric R ∧ ∀ x, ∃ k : ℤ, p.teleportPointThroughPlaneB junk x = R x + (2 * k * p.bounds) • p.planeA.t) := by
  constructor
  · refine ⟨p.rigidAB, rigidAB_isometric p hw, fun x => ⟨-repeatX junk (p.dx + p.planeA.t.dot (p.planeA.x - x)) p.bounds, ?_⟩⟩
    rw [throughA_eq junk p hw]
    congr 2
    push_cast
    ring
  · refine ⟨p.swap.rigidAB, rigidAB_isometric p.swap hw.symm, fun x =>
      ⟨-repeatX junk (p.dx + p.planeB.t.dot (p.planeB.x - x)) p.bounds, ?_⟩⟩
    rw [throughB_swap, throughA_eq junk p.swap hw.symm]
    show _ = _ + (2 * _ * p.bounds) • p.swap.planeB.t
    congr 2
    push_cast
    show -(2 * (repeatX junk (p.dx + p.planeB.t.dot (p.planeB.x - x)) p.bounds : K) * p.bounds) = _
    ring

/-- **C20, a static portal preserves distances.** -/
theorem C20_static_isometric (junk : K → ℤ) (p : PlanarPortal K) (hw : p.WellFormed) (hs : p.Static) :
    Isometric (p.teleportPointThroughPlaneA junk) ∧ Isometric (p.teleportPointThroughPlaneB junk) := by
  obtain ⟨⟨R, hR, hRx⟩, ⟨S, hS, hSx⟩⟩ := C20_rigid junk p hw
  have hb := hs.2.1
  have h1 : ∀ x, p.teleportPointThroughPlaneA junk x = R x := by
    intro x
    obtain ⟨k, hk⟩ := hRx x
    rw [hk, hb]
    ext <;> simp
  have h2 : ∀ x, p.teleportPointThroughPlaneB junk x = S x := by
    intro x
    obtain ⟨k, hk⟩ := hSx x
    rw [hk, hb]
    ext <;> simp
  exact ⟨fun a b => by rw [h1, h1]; exact hR a b, fun a b => by rw [h2, h2]; exact hS a b⟩

theorem throughA_height (junk : K → ℤ) (p : PlanarPortal K) (hw : p.WellFormed) (x : V2 K) :
    p.planeB.height (p.teleportPointThroughPlaneA junk x) = -p.planeA.height x := by
  rw [throughA_eq junk p hw]
  obtain ⟨⟨hA, hAx, hAy⟩, ⟨hB, hBx, hBy⟩⟩ := hw
  simp only [HalfPlane.height, rigidAB, V2.dot, V2.add_x, V2.add_y, V2.sub_x, V2.sub_y, V2.smul_x, V2.smul_y, hBx, hBy]
  linear_combination (p.planeA.n.x * (p.planeA.x.x - x.x) + p.planeA.n.y * (p.planeA.x.y - x.y)) * hB

theorem throughA_along (junk : K → ℤ) (p : PlanarPortal K) (hw : p.WellFormed) (x : V2 K) :
    p.planeB.along (p.teleportPointThroughPlaneA junk x) =
      (p.dx - p.planeA.along x) - 2 * (repeatX junk (p.dx - p.planeA.along x) p.bounds : K) * p.bounds := by
  have e : p.dx + p.planeA.t.dot (p.planeA.x - x) = p.dx - p.planeA.along x := by
    simp only [HalfPlane.along, V2.dot, V2.sub_x, V2.sub_y]; ring
  rw [throughA_eq junk p hw, e]
  obtain ⟨⟨hA, hAx, hAy⟩, ⟨hB, hBx, hBy⟩⟩ := hw
  simp only [HalfPlane.along, rigidAB, V2.dot, V2.add_x, V2.add_y, V2.sub_x, V2.sub_y, V2.smul_x, V2.smul_y, hBx, hBy, hAx, hAy]
  linear_combination ((p.dx + (-p.planeA.n.y * (p.planeA.x.x - x.x) + p.planeA.n.x * (p.planeA.x.y - x.y))) - 2 *
    (repeatX junk (p.dx - (-p.planeA.n.y * (x.x - p.planeA.x.x) + p.planeA.n.x * (x.y - p.planeA.x.y))) p.bounds : K) * p.bounds) * hB

/-- **C20, depth becomes height**: a point at depth `d` behind one plane comes out at height `d` in front of the other. -/
theorem C20_height (junk : K → ℤ) (p : PlanarPortal K) (hw : p.WellFormed) (x : V2 K) :
    p.planeB.height (p.teleportPointThroughPlaneA junk x) = -p.planeA.height x ∧
    p.planeA.height (p.teleportPointThroughPlaneB junk x) = -p.planeB.height x :=
  ⟨throughA_height junk p hw x, throughA_height junk p.swap hw.symm x⟩

/-- a point is determined by its coordinates in a frame -/
theorem frame_ext {p : HalfPlane K} (hf : p.IsFrame) {x y : V2 K} (h1 : p.height x = p.height y) (h2 : p.along x = p.along y) : x = y := by
  obtain ⟨hn, hx, hy⟩ := hf
  simp only [HalfPlane.height, HalfPlane.along, hx, hy] at h1 h2
  ext
  · linear_combination p.n.x * h1 - p.n.y * h2 + (y.x - x.x) * hn
  · linear_combination p.n.y * h1 + p.n.x * h2 + (y.y - x.y) * hn

theorem height_shift (p : HalfPlane K) (hf : p.IsFrame) (x : V2 K) (c : K) : p.height (x + c • p.t) = p.height x := by
  obtain ⟨hn, hx, hy⟩ := hf
  simp only [HalfPlane.height, V2.add_x, V2.add_y, V2.smul_x, V2.smul_y, hx, hy]
  ring

theorem along_shift (p : HalfPlane K) (hf : p.IsFrame) (x : V2 K) (c : K) : p.along (x + c • p.t) = p.along x + c := by
  obtain ⟨hn, hx, hy⟩ := hf
  simp only [HalfPlane.along, V2.add_x, V2.add_y, V2.smul_x, V2.smul_y, hx, hy]
  linear_combination c * hn

theorem round_trip (junk : K → ℤ) (p : PlanarPortal K) (hw : p.WellFormed) (x : V2 K) :
    ∃ k : ℤ, p.teleportPointThroughPlaneB junk (p.teleportPointThroughPlaneA junk x) = x + (2 * k * p.bounds) • p.planeA.t := by
  have h1 : p.planeA.height (p.teleportPointThroughPlaneB junk (p.teleportPointThroughPlaneA junk x)) = p.planeA.height x := by
    rw [(C20_height junk p hw _).2, (C20_height junk p hw x).1, neg_neg]
  have h2 := throughA_along junk p.swap hw.symm (p.teleportPointThroughPlaneA junk x)
  rw [← throughB_swap] at h2
  have h3 := throughA_along junk p hw x
  refine ⟨repeatX junk (p.dx - p.planeA.along x) p.bounds -
    repeatX junk (p.dx - p.planeB.along (p.teleportPointThroughPlaneA junk x)) p.bounds, ?_⟩
  apply frame_ext hw.1
  · rw [h1, height_shift _ hw.1]
  · rw [along_shift _ hw.1]
    have h2' : p.planeA.along (p.teleportPointThroughPlaneB junk (p.teleportPointThroughPlaneA junk x)) = _ := h2
    rw [h2']
    show p.dx - p.planeB.along _ - 2 * (repeatX junk (p.dx - p.planeB.along _) p.bounds : K) * p.bounds = _
    push_cast
    linear_combination -h3

/-- **C20, teleporting there and back** returns the point, up to whole periods along the plane. -/
theorem C20_round_trip (junk : K → ℤ) (p : PlanarPortal K) (hw : p.WellFormed) (x : V2 K) :
    (∃ k : ℤ, p.teleportPointThroughPlaneB junk (p.teleportPointThroughPlaneA junk x) = x + (2 * k * p.bounds) • p.planeA.t) ∧
    (∃ k : ℤ, p.teleportPointThroughPlaneA junk (p.teleportPointThroughPlaneB junk x) = x + (2 * k * p.bounds) • p.planeB.t) :=
  ⟨round_trip junk p hw x, round_trip junk p.swap hw.symm x⟩

/-- **C20, static portals**: there and back is exactly the identity. -/
theorem C20_static_round_trip (junk : K → ℤ) (p : PlanarPortal K) (hw : p.WellFormed) (hs : p.Static) (x : V2 K) :
    p.teleportPointThroughPlaneB junk (p.teleportPointThroughPlaneA junk x) = x ∧
    p.teleportPointThroughPlaneA junk (p.teleportPointThroughPlaneB junk x) = x := by
  obtain ⟨⟨k, hk⟩, ⟨l, hl⟩⟩ := C20_round_trip junk p hw x
  rw [hk, hl, hs.2.1]
  constructor <;> ext <;> simp

/-! ## C21 -/

theorem wrap_bounds (junk : K → ℤ) (s b : K) (hb : 0 < b) :
    -b ≤ s - 2 * (repeatX junk s b : K) * b ∧ s - 2 * (repeatX junk s b : K) * b < b := by
  unfold repeatX
  rw [if_neg hb.ne']
  have h2 : 0 < 2 * b := by positivity
  have h3 := Int.floor_le ((s + b) / (2 * b))
  have h4 := Int.lt_floor_add_one ((s + b) / (2 * b))
  rw [le_div_iff₀ h2] at h3
  rw [div_lt_iff₀ h2] at h4
  constructor
  · linear_combination h3
  · linear_combination h4

/-- **C21, the offset** of a sliding portal is within its bounds at every time and equals velocity times time up to whole periods. -/
theorem C21_offset (junk : K → ℤ) (p : PlanarPortal K) (hb : 0 < p.bounds) (t : K) :
    -p.bounds ≤ (p.updateMovingPortals junk t).dx ∧ (p.updateMovingPortals junk t).dx < p.bounds ∧
    ∃ k : ℤ, (p.updateMovingPortals junk t).dx = p.v * t + 2 * k * p.bounds := by
  refine ⟨(wrap_bounds junk _ _ hb).1, (wrap_bounds junk _ _ hb).2, -repeatX junk (p.v * t) p.bounds, ?_⟩
  show p.v * t - _ = _
  push_cast
  ring

/-- **C21, a static portal never moves.** -/
theorem C21_static (junk : K → ℤ) (p : PlanarPortal K) (hs : p.Static) (t : K) : p.updateMovingPortals junk t = p := by
  obtain ⟨hv, hb, hd⟩ := hs
  unfold updateMovingPortals
  cases p
  simp only at hv hb hd
  subst hv hb hd
  simp

/-- **C21, teleported points** of a sliding portal have their coordinate along the target plane within the bounds. -/
theorem C21_teleported (junk : K → ℤ) (p : PlanarPortal K) (hw : p.WellFormed) (hb : 0 < p.bounds) (x : V2 K) :
    (-p.bounds ≤ p.planeB.along (p.teleportPointThroughPlaneA junk x) ∧
      p.planeB.along (p.teleportPointThroughPlaneA junk x) < p.bounds) ∧
    (-p.bounds ≤ p.planeA.along (p.teleportPointThroughPlaneB junk x) ∧
      p.planeA.along (p.teleportPointThroughPlaneB junk x) < p.bounds) := by
  have h1 := throughA_along junk p hw x
  have h2 := throughA_along junk p.swap hw.symm x
  rw [← throughB_swap] at h2
  rw [h1]
  have h2' : p.planeA.along (p.teleportPointThroughPlaneB junk x) = _ := h2
  rw [h2']
  exact ⟨wrap_bounds junk _ _ hb, wrap_bounds junk _ _ hb⟩

/-! ## C22 -/

theorem facing_heights {p : PlanarPortal K} {L : K} (hf : p.Facing L) (x : V2 K) : p.planeB.height x = L - p.planeA.height x := by
  obtain ⟨_, _, hx, hy, hL⟩ := hf
  rw [← hL]
  simp only [HalfPlane.height, hx, hy]
  ring

theorem inside_iff (h : HalfPlane K) (x : V2 K) : h.distanceLessThanZero x = true ↔ h.height x < 0 := by
  unfold HalfPlane.distanceLessThanZero
  exact decide_eq_true_iff

/-- what enforcing the boundary conditions of one portal does to one body -/
theorem enforceOne_spec (junk : K → ℤ) (p : PlanarPortal K) (L : K) (hf : p.Facing L) (b : Body K)
    (h1 : -L < p.planeA.height b.q) (h2 : p.planeA.height b.q < 2 * L) :
    p.Between (enforceOne junk p b).q ∧
    ((p.Between b.q ∧ enforceOne junk p b = b) ∨
     (p.planeA.height b.q < 0 ∧ (enforceOne junk p b).v = b.v + (-p.v) • p.planeA.t) ∨
     (p.planeB.height b.q < 0 ∧ (enforceOne junk p b).v = b.v + (-p.v) • p.planeB.t)) := by
  have hfh := facing_heights hf
  have hv : ∀ w : V2 K, (if p.isLeesEdwards then b.v + (-p.v) • w else b.v) = b.v + (-p.v) • w := by
    intro w
    split
    · rfl
    · rename_i h
      have h0 : p.v = 0 := by simpa [isLeesEdwards] using h
      rw [h0]
      ext <;> simp
  unfold enforceOne pointInsidePortal
  by_cases hA : p.planeA.distanceLessThanZero b.q = true
  · have hA' := (inside_iff _ _).mp hA
    rw [hA, Bool.true_or, if_pos rfl]
    simp only [teleportPointInsidePortal, getKinematicVelocityOfPoint, hA, if_true]
    refine ⟨?_, Or.inr (Or.inl ⟨hA', hv _⟩)⟩
    have hB := (C20_height junk p hf.1 b.q).1
    have := hfh (p.teleportPointThroughPlaneA junk b.q)
    constructor <;> linarith
  · have hA' : ¬ p.planeA.height b.q < 0 := fun h => hA ((inside_iff _ _).mpr h)
    push Not at hA'
    by_cases hB : p.planeB.distanceLessThanZero b.q = true
    · have hB' := (inside_iff _ _).mp hB
      rw [hB, Bool.or_true, if_pos rfl]
      simp only [teleportPointInsidePortal, getKinematicVelocityOfPoint, hA, if_false, Bool.false_eq_true]
      refine ⟨?_, Or.inr (Or.inr ⟨hB', hv _⟩)⟩
      have hAh := (C20_height junk p hf.1 b.q).2
      have e1 := hfh (p.teleportPointThroughPlaneB junk b.q)
      have e2 := hfh b.q
      constructor <;> linarith
    · have hB' : ¬ p.planeB.height b.q < 0 := fun h => hB ((inside_iff _ _).mpr h)
      push Not at hB'
      rw [Bool.eq_false_iff.mpr hA, Bool.eq_false_iff.mpr hB, Bool.or_self, if_neg (by simp)]
      exact ⟨⟨hA', hB'⟩, Or.inl ⟨⟨hA', hB'⟩, rfl⟩⟩

/-- **C22, one step.** A body between the facing planes, moved by less than `L` across them, is between the planes again after the
boundary conditions are enforced. It is untouched if it stayed inside; otherwise its velocity changes by exactly the portal
speed along the plane it crossed, so not at all for a static portal. -/
theorem C22_step (junk : K → ℤ) (p : PlanarPortal K) (L : K) (hf : p.Facing L) (x0 : V2 K) (h0 : p.Between x0) (b : Body K)
    (h1 : -L < p.planeA.height b.q - p.planeA.height x0) (h2 : p.planeA.height b.q - p.planeA.height x0 < L) :
    ∃ b', enforcePeriodicBoundaryConditions junk [p] [b] = [b'] ∧ p.Between b'.q ∧
      ((p.Between b.q ∧ b' = b) ∨ (p.planeA.height b.q < 0 ∧ b'.v = b.v + (-p.v) • p.planeA.t) ∨
        (p.planeB.height b.q < 0 ∧ b'.v = b.v + (-p.v) • p.planeB.t)) ∧
      (p.v = 0 → b'.v = b.v) := by
  have hfh := facing_heights hf x0
  have := enforceOne_spec junk p L hf b (by linarith [h0.1]) (by linarith [h0.2])
  refine ⟨enforceOne junk p b, rfl, this.1, this.2, fun hv => ?_⟩
  rcases this.2 with ⟨_, h⟩ | ⟨_, h⟩ | ⟨_, h⟩
  · rw [h]
  · rw [h, hv]; ext <;> simp
  · rw [h, hv]; ext <;> simp

/-- A run of steps: every step moves the body, then the boundary conditions of the (possibly moved) portal are enforced. -/
inductive PeriodicRun (junk : K → ℤ) (p : PlanarPortal K) (L : K) : Body K → Body K → Prop
  | start (b : Body K) : PeriodicRun junk p L b b
  | step (a b moved b' : Body K) (t : K) : PeriodicRun junk p L a b →
      -L < p.planeA.height moved.q - p.planeA.height b.q → p.planeA.height moved.q - p.planeA.height b.q < L →
      enforcePeriodicBoundaryConditions junk [p.updateMovingPortals junk t] [moved] = [b'] → PeriodicRun junk p L a b'

/-- **C22, any number of steps**: a body that starts between the planes is between them after every step, however the forces and
contacts move it, as long as it moves less than `L` across the planes in each step. -/
theorem C22_run (junk : K → ℤ) (p : PlanarPortal K) (L : K) (hf : p.Facing L) (a b : Body K) (ha : p.Between a.q)
    (hr : PeriodicRun junk p L a b) : p.Between b.q := by
  induction hr with
  | start => exact ha
  | step b moved b' t _ h1 h2 he ih =>
    obtain ⟨b'', e, hb, _⟩ := C22_step junk (p.updateMovingPortals junk t) L hf b.q ih moved h1 h2
    rw [e] at he
    cases he
    exact hb

/-- Bodies do not influence each other: every body is treated on its own, in place. -/
theorem C22_bodies_independent (junk : K → ℤ) (ps : List (PlanarPortal K)) (bs : List (Body K)) :
    enforcePeriodicBoundaryConditions junk ps bs = bs.map fun b => ps.foldl (fun b p => enforceOne junk p b) b := by
  induction ps generalizing bs with
  | nil => simp [enforcePeriodicBoundaryConditions]
  | cons p ps ih =>
    have := ih (bs.map (enforceOne junk p))
    simp only [enforcePeriodicBoundaryConditions, List.foldl_cons] at this ⊢
    rw [this, List.map_map]
    rfl

/-! ## Concrete portals -/

/-- Planes at `x = 0` and `x = 10` facing each other, sliding with speed 3, period 8. -/
def slidingPortal : PlanarPortal ℚ :=
  { planeA := ⟨⟨0, 0⟩, ⟨0, 0⟩, ⟨1, 0⟩, ⟨0, 1⟩⟩, planeB := ⟨⟨10, 0⟩, ⟨0, 0⟩, ⟨-1, 0⟩, ⟨0, -1⟩⟩, v := 3, bounds := 4, dx := 1 }

/-- A static portal between two planes at a right angle. -/
def cornerPortal : PlanarPortal ℚ :=
  { planeA := ⟨⟨0, 0⟩, ⟨0, 0⟩, ⟨3 / 5, 4 / 5⟩, ⟨-4 / 5, 3 / 5⟩⟩, planeB := ⟨⟨10, 3⟩, ⟨0, 0⟩, ⟨-1, 0⟩, ⟨0, -1⟩⟩, v := 0, bounds := 0, dx := 0 }

example : slidingPortal.Facing 10 := by
  simp [PlanarPortal.Facing, PlanarPortal.WellFormed, HalfPlane.IsFrame, HalfPlane.height, slidingPortal]

example : cornerPortal.WellFormed ∧ cornerPortal.Static := by
  norm_num [PlanarPortal.WellFormed, PlanarPortal.Static, HalfPlane.IsFrame, cornerPortal]

/-- a body one unit behind plane A at height 7 comes out one unit in front of plane B, wrapped and kicked -/
example : enforcePeriodicBoundaryConditions (fun _ => 17) [slidingPortal] [⟨⟨-1, 7⟩, ⟨5, 5⟩⟩, ⟨⟨3, 3⟩, ⟨0, 0⟩⟩] =
    [⟨⟨9, -2⟩, ⟨5, 2⟩⟩, ⟨⟨3, 3⟩, ⟨0, 0⟩⟩] := by decide +kernel

example : (slidingPortal.updateMovingPortals (fun _ => 0) 3).dx = 1 := by decide +kernel

end Scisim
