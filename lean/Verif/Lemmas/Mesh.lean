import Mathlib.Tactic.Ring
import Mathlib.Tactic.LinearCombination
import Mathlib.Tactic.FinCases
import Mathlib.Tactic.Conv
import Mathlib.Algebra.BigOperators.Group.List.Basic
import Mathlib.Algebra.BigOperators.Ring.List
import Mathlib.Topology.Instances.Matrix
import Verif.Lemmas.Integrals
import Verif.Spec.Mass
/-!
# The integrals of a closed mesh
-/

namespace Scisim

open Matrix MeasureTheory

theorem tripleFrom_exp (p v0 v1 v2 : Vec3) : tripleFrom p v0 v1 v2 =
    (v0 0 - p 0) * ((v1 1 - p 1) * (v2 2 - p 2) - (v1 2 - p 2) * (v2 1 - p 1)) +
    (v0 1 - p 1) * ((v1 2 - p 2) * (v2 0 - p 0) - (v1 0 - p 0) * (v2 2 - p 2)) +
    (v0 2 - p 2) * ((v1 0 - p 0) * (v2 1 - p 1) - (v1 1 - p 1) * (v2 0 - p 0)) := by
  simp [tripleFrom, dotProduct, Fin.sum_univ_three, cross_apply]
  ring

/-- Coefficients of a single monomial -/
def coeffOf (k : Fin 10) : Fin 10 → ℝ := fun j => if j = k then 1 else 0

theorem quadPoly_coeffOf (k : Fin 10) (v : Vec3) : quadPoly (coeffOf k) v = monomial10 k v := by
  fin_cases k <;> simp [quadPoly, coeffOf, monomial10]

/-- The signed integral of a monomial over a tetrahedron -/
noncomputable def tetraTerm (k : Fin 10) (p v0 v1 v2 : Vec3) : ℝ := tripleFrom p v0 v1 v2 * tetraQuad (coeffOf k) p v0 v1 v2

/-- The part of a triangle term that belongs to an edge -/
noncomputable def edgeTerm (k : Fin 10) (u v : Vec3) : ℝ :=
  let cx := u 1 * v 2 - u 2 * v 1
  let cy := u 2 * v 0 - u 0 * v 2
  let cz := u 0 * v 1 - u 1 * v 0
  ![cx * (u 0 + v 0) / 6,
    cx * (u 0 ^ 2 + u 0 * v 0 + v 0 ^ 2) / 24, cy * (u 1 ^ 2 + u 1 * v 1 + v 1 ^ 2) / 24, cz * (u 2 ^ 2 + u 2 * v 2 + v 2 ^ 2) / 24,
    cx * (u 0 ^ 3 + u 0 ^ 2 * v 0 + u 0 * v 0 ^ 2 + v 0 ^ 3) / 60, cy * (u 1 ^ 3 + u 1 ^ 2 * v 1 + u 1 * v 1 ^ 2 + v 1 ^ 3) / 60,
    cz * (u 2 ^ 3 + u 2 ^ 2 * v 2 + u 2 * v 2 ^ 2 + v 2 ^ 3) / 60,
    cx * (3 * u 0 ^ 2 * u 1 + u 0 ^ 2 * v 1 + 2 * u 0 * v 0 * u 1 + 2 * u 0 * v 0 * v 1 + v 0 ^ 2 * u 1 + 3 * v 0 ^ 2 * v 1) / 120,
    cy * (3 * u 1 ^ 2 * u 2 + u 1 ^ 2 * v 2 + 2 * u 1 * v 1 * u 2 + 2 * u 1 * v 1 * v 2 + v 1 ^ 2 * u 2 + 3 * v 1 ^ 2 * v 2) / 120,
    cz * (3 * u 2 ^ 2 * u 0 + u 2 ^ 2 * v 0 + 2 * u 2 * v 2 * u 0 + 2 * u 2 * v 2 * v 0 + v 2 ^ 2 * u 0 + 3 * v 2 ^ 2 * v 0) / 120] k

theorem edgeTerm_swap (k : Fin 10) (u v : Vec3) : edgeTerm k v u = -edgeTerm k u v := by
  fin_cases k <;> simp only [edgeTerm] <;> simp <;> ring

set_option maxHeartbeats 4000000 in
/-- What the code adds for a triangle is the integral over the tetrahedron over it with apex 0, up to terms of its edges. -/
theorem triangle_tetra (k : Fin 10) (v0 v1 v2 : Vec3) :
    triangleTerms v0 v1 v2 k * integralFactors k = tetraTerm k 0 v0 v1 v2 + edgeTerm k v0 v1 + edgeTerm k v1 v2 + edgeTerm k v2 v0 := by
  simp only [tetraTerm, tripleFrom_exp]
  fin_cases k <;> simp [triangleTerms, subexpressions, integralFactors, edgeTerm, tetraQuad, coeffOf, cross_apply] <;> ring

set_option maxHeartbeats 4000000 in
/-- Moving the apex changes the integral by terms of the edges. -/
theorem tetra_apex (k : Fin 10) (p v0 v1 v2 : Vec3) :
    tetraTerm k 0 v0 v1 v2 = tetraTerm k p v0 v1 v2 + tetraTerm k 0 p v0 v1 + tetraTerm k 0 p v1 v2 + tetraTerm k 0 p v2 v0 := by
  simp only [tetraTerm, tripleFrom_exp]
  fin_cases k <;> simp [tetraQuad, coeffOf] <;> ring

theorem tetraTerm_swap (k : Fin 10) (p u v : Vec3) : tetraTerm k 0 p v u = -tetraTerm k 0 p u v := by
  simp only [tetraTerm, tripleFrom_exp, tetraQuad]
  simp only [Pi.zero_apply]
  ring

/-! ## Sums over the faces of a closed mesh -/

/-- An antisymmetric function of the edges sums to zero over a closed mesh. -/
theorem closed_sum {faces : List (Nat × Nat × Nat)} (h : ClosedMesh faces) (g : Nat → Nat → ℝ) (hg : ∀ a b, g b a = -g a b) :
    (faces.map fun f => g f.1 f.2.1 + g f.2.1 f.2.2 + g f.2.2 f.1).sum = 0 := by
  have h1 : (faces.map fun f => g f.1 f.2.1 + g f.2.1 f.2.2 + g f.2.2 f.1).sum = ((meshEdges faces).map fun e => g e.1 e.2).sum := by
    unfold meshEdges
    clear h
    induction faces with
    | nil => rfl
    | cons f fs ih =>
      simp only [List.map_cons, List.sum_cons, List.flatMap_cons, List.map_append, List.sum_append, List.map_nil, List.sum_nil, ih]
      ring
  have hperm : (meshEdges faces).Perm ((meshEdges faces).map Prod.swap) := by
    rw [List.perm_iff_count]
    rintro ⟨a, b⟩
    have : (a, b) = Prod.swap (b, a) := rfl
    rw [this, List.count_map_of_injective _ _ Prod.swap_injective]
    exact h a b
  have h2 : ((meshEdges faces).map fun e => g e.1 e.2).sum = -((meshEdges faces).map fun e => g e.1 e.2).sum := by
    conv_lhs => rw [(hperm.map fun e => g e.1 e.2).sum_eq]
    rw [List.map_map]
    have : ((fun e : Nat × Nat => g e.1 e.2) ∘ Prod.swap) = fun e => -(fun e : Nat × Nat => g e.1 e.2) e := by
      ext e
      exact hg e.1 e.2
    rw [this]
    generalize meshEdges faces = l
    induction l with
    | nil => simp
    | cons e l ih => simp only [List.map_cons, List.sum_cons, ih]; ring
  rw [h1]
  linarith

theorem corner_getElem {verts : List Vec3} {a : Nat} (h : a < verts.length) : verts[a]? = some (corner verts a) := by
  unfold corner
  rw [List.getElem?_eq_getElem h]
  simp [List.getD, List.getElem?_eq_getElem h]

theorem sumTriangles_ok (verts : List Vec3) (faces : List (Nat × Nat × Nat)) (h : FacesInRange verts faces) :
    ∀ acc, sumTriangles verts faces acc =
      .ok fun k => acc k + (faces.map fun f => triangleTerms (corner verts f.1) (corner verts f.2.1) (corner verts f.2.2) k).sum := by
  induction faces with
  | nil =>
    intro acc
    simp [sumTriangles]
  | cons f fs ih =>
    intro acc
    obtain ⟨a, b, c⟩ := f
    obtain ⟨h1, h2, h3⟩ := h _ (List.mem_cons_self ..)
    simp only at h1 h2 h3
    unfold sumTriangles
    rw [corner_getElem h1, corner_getElem h2, corner_getElem h3]
    simp only
    rw [ih (fun g hg => h g (List.mem_cons_of_mem _ hg))]
    congr 1
    ext k
    simp only [List.map_cons, List.sum_cons, Pi.add_apply]
    ring

/-- The ten integrals of a closed mesh are the signed integrals over the tetrahedra over its faces, with any apex. -/
theorem meshIntegrals_tetra (verts : List Vec3) (faces : List (Nat × Nat × Nat)) (h : FacesInRange verts faces) (hc : ClosedMesh faces) (p : Vec3) :
    meshIntegrals verts faces =
      .ok fun k => (faces.map fun f => tetraTerm k p (corner verts f.1) (corner verts f.2.1) (corner verts f.2.2)).sum := by
  unfold meshIntegrals
  rw [sumTriangles_ok verts faces h]
  show Outcome.ok _ = _
  congr 1
  ext k
  simp only [Pi.zero_apply, zero_add]
  rw [← List.sum_map_mul_right]
  have e1 := closed_sum hc (fun a b => edgeTerm k (corner verts a) (corner verts b)) (fun a b => edgeTerm_swap k _ _)
  have e2 := closed_sum hc (fun a b => tetraTerm k 0 p (corner verts a) (corner verts b)) (fun a b => tetraTerm_swap k p _ _)
  have hsum : (faces.map fun f => triangleTerms (corner verts f.1) (corner verts f.2.1) (corner verts f.2.2) k * integralFactors k) =
      faces.map fun f => tetraTerm k p (corner verts f.1) (corner verts f.2.1) (corner verts f.2.2) +
        ((edgeTerm k (corner verts f.1) (corner verts f.2.1) + edgeTerm k (corner verts f.2.1) (corner verts f.2.2) + edgeTerm k (corner verts f.2.2) (corner verts f.1)) +
        (tetraTerm k 0 p (corner verts f.1) (corner verts f.2.1) + tetraTerm k 0 p (corner verts f.2.1) (corner verts f.2.2) + tetraTerm k 0 p (corner verts f.2.2) (corner verts f.1))) := by
    congr 1
    ext f
    rw [triangle_tetra, tetra_apex k p]
    ring
  rw [hsum, List.sum_map_add, List.sum_map_add, e1, e2]
  ring

/-! ## The signed integral over a tetrahedron is a Lebesgue integral -/

theorem det_columns3 (p v0 v1 v2 : Vec3) : (columns3 (v0 - p) (v1 - p) (v2 - p)).det = tripleFrom p v0 v1 v2 := by
  rw [tripleFrom_exp, Matrix.det_fin_three]
  simp [columns3]
  ring

theorem monomial10_continuous (k : Fin 10) : Continuous (monomial10 k) := by
  have : monomial10 k = quadPoly (coeffOf k) := funext fun v => (quadPoly_coeffOf k v).symm
  rw [this]
  exact quadPoly_continuous _

theorem hull_compact (p v0 v1 v2 : Vec3) : IsCompact (convexHull ℝ ({p, v0, v1, v2} : Set Vec3)) := by
  rw [← tetraMap_image]
  refine simplexR_compact.image ?_
  unfold tetraMap
  exact continuous_const.add (Continuous.matrix_mulVec continuous_const continuous_id)

/-- The integral of a monomial times the crossing number of a face -/
theorem integral_faceCrossing (k : Fin 10) (p v0 v1 v2 : Vec3) :
    Integrable (fun x => faceCrossing p v0 v1 v2 x * monomial10 k x) ∧
    ∫ x, faceCrossing p v0 v1 v2 x * monomial10 k x = tetraTerm k p v0 v1 v2 := by
  classical
  have hK := hull_compact p v0 v1 v2
  set T := convexHull ℝ ({p, v0, v1, v2} : Set Vec3) with hT
  set s : ℝ := if 0 < tripleFrom p v0 v1 v2 then 1 else if tripleFrom p v0 v1 v2 < 0 then -1 else 0 with hs
  have hf : (fun x => faceCrossing p v0 v1 v2 x * monomial10 k x) = T.indicator fun x => s * monomial10 k x := by
    ext x
    unfold faceCrossing
    rw [Set.indicator_apply]
    by_cases hx : x ∈ T
    · rw [if_pos hx, if_pos hx]
    · rw [if_neg hx, if_neg hx, zero_mul]
  have hcont : Continuous fun x => s * monomial10 k x := continuous_const.mul (monomial10_continuous k)
  rw [hf, integral_indicator hK.isClosed.measurableSet]
  refine ⟨(integrable_indicator_iff hK.isClosed.measurableSet).mpr (hcont.continuousOn.integrableOn_compact hK), ?_⟩
  rw [integral_const_mul]
  by_cases hd : tripleFrom p v0 v1 v2 = 0
  · rw [hs, hd]
    simp [tetraTerm, hd]
  · rw [integral_tetra p v0 v1 v2 (by rw [det_columns3]; exact hd)]
    have : ∀ x, monomial10 k x = quadPoly (coeffOf k) x := fun x => (quadPoly_coeffOf k x).symm
    simp_rw [this]
    rw [simplex_tetra, det_columns3, tetraTerm, ← mul_assoc]
    congr 1
    rcases lt_or_gt_of_ne hd with hneg | hpos
    · rw [hs, if_neg (not_lt.mpr hneg.le), if_pos hneg, abs_of_neg hneg]; ring
    · rw [hs, if_pos hpos, abs_of_pos hpos]; ring

theorem integral_meshWinding (k : Fin 10) (verts : List Vec3) (faces : List (Nat × Nat × Nat)) (p : Vec3) :
    Integrable (fun x => meshWinding verts faces p x * monomial10 k x) ∧
    ∫ x, meshWinding verts faces p x * monomial10 k x =
      (faces.map fun f => tetraTerm k p (corner verts f.1) (corner verts f.2.1) (corner verts f.2.2)).sum := by
  induction faces with
  | nil => simp [meshWinding]
  | cons f fs ih =>
    obtain ⟨h1, h2⟩ := integral_faceCrossing k p (corner verts f.1) (corner verts f.2.1) (corner verts f.2.2)
    have he : (fun x => meshWinding verts (f :: fs) p x * monomial10 k x) =
        fun x => faceCrossing p (corner verts f.1) (corner verts f.2.1) (corner verts f.2.2) x * monomial10 k x + meshWinding verts fs p x * monomial10 k x := by
      ext x
      simp only [meshWinding, List.map_cons, List.sum_cons]
      ring
    rw [he]
    refine ⟨h1.add ih.1, ?_⟩
    rw [integral_add h1 ih.1, h2, ih.2, List.map_cons, List.sum_cons]

end Scisim
