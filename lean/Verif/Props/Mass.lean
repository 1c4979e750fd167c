import Mathlib.Tactic.Linarith
import Mathlib.Tactic.Positivity
import Mathlib.Tactic.FieldSimp
import Mathlib.Tactic.NormNum
import Mathlib.Algebra.BigOperators.Fin
import Verif.Lemmas.Mesh
import Verif.Props.Frames
/-!
# C47: masses and moments of inertia are the exact integrals over the bodies
-/

namespace Scisim

open MeasureTheory Matrix Set

/-! ## Plates -/

theorem plate_disc (r : ℝ) : {p : ℝ × ℝ | (⟨p.1, p.2⟩ : V2 ℝ) ∈ discSet ⟨0, 0⟩ r} = discR r := by
  ext p
  simp [discSet, discR]

/-- The mass and the moment of inertia of a circle are the integrals over the disc; they are positive for a positive radius and density. -/
theorem C47_circle (r density : ℝ) (hr : 0 < r) (hd : 0 < density) :
    IsPlateMass (discSet ⟨0, 0⟩ r) density (circleMassAndInertia r density).1 (circleMassAndInertia r density).2 ∧
    0 < (circleMassAndInertia r density).1 ∧ 0 < (circleMassAndInertia r density).2 := by
  obtain ⟨h0, h1, h2, h3, h4, _⟩ := disc_moments r hr.le
  have hint : ∀ f : ℝ × ℝ → ℝ, Continuous f → IntegrableOn f (discR r) := fun f hf => by
    have hc : IsCompact (discR r) := by
      refine Metric.isCompact_of_isClosed_isBounded (isClosed_le (by fun_prop) (by fun_prop)) ?_
      refine (Metric.isBounded_closedBall (x := (0 : ℝ × ℝ)) (r := r)).subset fun p hp => ?_
      have hp' : p.1 ^ 2 + p.2 ^ 2 ≤ r ^ 2 := hp
      rw [mem_closedBall_zero_iff, Prod.norm_def]
      simp only [Real.norm_eq_abs]
      exact max_le (abs_le_of_sq_le_sq (by nlinarith [sq_nonneg p.2]) hr.le) (abs_le_of_sq_le_sq (by nlinarith [sq_nonneg p.1]) hr.le)
    exact hf.continuousOn.integrableOn_compact hc
  refine ⟨⟨?_, ?_, ?_, ?_⟩, ?_, ?_⟩
  · rw [plate_disc]
    have : ∫ _p in discR r, density = density * ∫ _p in discR r, (1 : ℝ) := by
      rw [← integral_const_mul]; simp
    rw [this, h0]
    simp only [circleMassAndInertia]; ring
  · rw [plate_disc, integral_const_mul, integral_add (hint _ (by fun_prop)) (hint _ (by fun_prop)), h3, h4]
    simp only [circleMassAndInertia]; ring
  · rw [plate_disc, integral_const_mul, h1, mul_zero]
  · rw [plate_disc, integral_const_mul, h2, mul_zero]
  · simp only [circleMassAndInertia]; positivity
  · simp only [circleMassAndInertia]; positivity

example : IsPlateMass (discSet ⟨0, 0⟩ 2) 3 (circleMassAndInertia 2 3).1 (circleMassAndInertia 2 3).2 := (C47_circle 2 3 (by norm_num) (by norm_num)).1

theorem plate_box (r : V2 ℝ) : {p : ℝ × ℝ | (⟨p.1, p.2⟩ : V2 ℝ) ∈ boxSet ⟨0, 0⟩ 0 r} = Icc (-r.x) r.x ×ˢ Icc (-r.y) r.y := by
  ext ⟨a, b⟩
  simp only [boxSet, Set.mem_ofPred_eq, Real.cos_zero, Real.sin_zero, mul_one, mul_zero, zero_add, sub_zero, add_zero, V2.mk.injEq, Set.mem_prod, Set.mem_Icc, ← abs_le]
  constructor
  · rintro ⟨a', b', h1, h2, rfl, rfl⟩
    exact ⟨h1, h2⟩
  · rintro ⟨h1, h2⟩
    exact ⟨a, b, h1, h2, rfl, rfl⟩

/-- Integral of a product over a planar box -/
theorem box2_integral (x y : ℝ) (hx : 0 ≤ x) (hy : 0 ≤ y) (f g : ℝ → ℝ) :
    ∫ p in Icc (-x) x ×ˢ Icc (-y) y, f p.1 * g p.2 = (∫ a in (-x)..x, f a) * ∫ b in (-y)..y, g b := by
  rw [Measure.volume_eq_prod, setIntegral_prod_mul, intervalIntegral.integral_of_le (by linarith), intervalIntegral.integral_of_le (by linarith),
    integral_Icc_eq_integral_Ioc, integral_Icc_eq_integral_Ioc]

/-- The mass and the moment of inertia of a planar box are the integrals over the box; they are positive for positive sizes and density. -/
theorem C47_box (r : V2 ℝ) (density : ℝ) (hx : 0 < r.x) (hy : 0 < r.y) (hd : 0 < density) :
    IsPlateMass (boxSet ⟨0, 0⟩ 0 r) density (boxMassAndInertia r density).1 (boxMassAndInertia r density).2 ∧
    0 < (boxMassAndInertia r density).1 ∧ 0 < (boxMassAndInertia r density).2 := by
  have hint : ∀ f : ℝ × ℝ → ℝ, Continuous f → IntegrableOn f (Icc (-r.x) r.x ×ˢ Icc (-r.y) r.y) := fun f hf =>
    hf.continuousOn.integrableOn_compact (isCompact_Icc.prod isCompact_Icc)
  have h := box2_integral r.x r.y hx.le hy.le
  have i1 : ∀ x : ℝ, ∫ _a in (-x)..x, (1 : ℝ) = 2 * x := fun x => by simp; ring
  have i2 : ∀ x : ℝ, ∫ a in (-x)..x, a = 0 := fun x => by simp
  have i3 : ∀ x : ℝ, ∫ a in (-x)..x, a ^ 2 = 2 * x ^ 3 / 3 := fun x => by rw [integral_pow]; norm_num; ring
  have h0 := h (fun _ => 1) (fun _ => 1)
  have h1 := h (fun a => a) (fun _ => 1)
  have h2 := h (fun _ => 1) (fun b => b)
  have h3 := h (fun a => a ^ 2) (fun _ => 1)
  have h4 := h (fun _ => 1) (fun b => b ^ 2)
  simp only [one_mul, mul_one, i1, i2, i3] at h0 h1 h2 h3 h4
  refine ⟨⟨?_, ?_, ?_, ?_⟩, ?_, ?_⟩
  · rw [plate_box]
    have : ∫ _p in Icc (-r.x) r.x ×ˢ Icc (-r.y) r.y, density = density * ∫ _p in Icc (-r.x) r.x ×ˢ Icc (-r.y) r.y, (1 : ℝ) := by
      rw [← integral_const_mul]; simp
    rw [this, h0]
    simp only [boxMassAndInertia]; ring
  · rw [plate_box, integral_const_mul, integral_add (hint _ (by fun_prop)) (hint _ (by fun_prop)), h3, h4]
    simp only [boxMassAndInertia, V2.normSq]; ring
  · rw [plate_box, integral_const_mul, h1]; ring
  · rw [plate_box, integral_const_mul, h2]; ring
  · simp only [boxMassAndInertia]; positivity
  · simp only [boxMassAndInertia, V2.normSq]; positivity

example : IsPlateMass (boxSet ⟨0, 0⟩ 0 ⟨1, 2⟩) 3 (boxMassAndInertia ⟨1, 2⟩ 3).1 (boxMassAndInertia ⟨1, 2⟩ 3).2 :=
  (C47_box ⟨1, 2⟩ 3 (by norm_num) (by norm_num) (by norm_num)).1

/-! ## Solids -/

theorem ballSet3_zero (r : ℝ) : ballSet3 0 r = ballR r := by
  ext z
  simp [ballSet3, ballR]

theorem boxSet3_zero (w : Vec3) : boxSet3 0 1 w = boxR w := by
  ext z
  simp only [boxSet3, boxR, Set.mem_ofPred_eq, zero_add, Matrix.one_mulVec]
  exact ⟨fun ⟨a, h, e⟩ => e ▸ h, fun h => ⟨z, h, rfl⟩⟩

/-- The mass, centre of mass and moments of inertia of a sphere are the integrals over the ball; they are positive for a positive radius and density. -/
theorem C47_sphere (r density : ℝ) (hr : 0 < r) (hd : 0 < density) :
    IsSolidMass (ballSet3 0 r) density (sphereMass r density) ∧ 0 < (sphereMass r density).M ∧ ∀ i, 0 < (sphereMass r density).I i := by
  obtain ⟨h0, h1, h2, h3⟩ := ball_moments r hr.le
  have hint : ∀ f : Vec3 → ℝ, Continuous f → IntegrableOn f (ballR r) := fun f hf => hf.continuousOn.integrableOn_compact (ballR_compact r)
  rw [ballSet3_zero]
  refine ⟨⟨?_, ?_, ?_, ?_⟩, ?_, ?_⟩
  · have : ∫ _p in ballR r, density = density * ∫ _p in ballR r, (1 : ℝ) := by
      rw [← integral_const_mul]; simp
    rw [this, h0]
    simp only [sphereMass]; ring
  · intro i
    rw [integral_const_mul, h1]
    simp [sphereMass]
  · intro i
    simp only [sphereMass, Pi.zero_apply, sub_zero]
    rw [integral_const_mul, integral_sub (hint _ (by fun_prop)) (hint _ (by fun_prop)), integral_add (hint _ (by fun_prop)) (hint _ (by fun_prop)),
      integral_add (hint _ (by fun_prop)) (hint _ (by fun_prop)), h2, h2, h2, h2]
    ring
  · intro i j hij
    simp only [sphereMass, Pi.zero_apply, sub_zero]
    rw [integral_const_mul, h3 i j hij, mul_zero]
  · simp only [sphereMass]; positivity
  · intro i
    simp only [sphereMass]; positivity

example : IsSolidMass (ballSet3 0 2) 3 (sphereMass 2 3) := (C47_sphere 2 3 (by norm_num) (by norm_num)).1

/-- The mass, centre of mass and moments of inertia of a box are the integrals over the box; they are positive for positive sizes and density. -/
theorem C47_box3 (w : Vec3) (density : ℝ) (hw : ∀ i, 0 < w i) (hd : 0 < density) :
    IsSolidMass (boxSet3 0 1 w) density (boxMass w density) ∧ 0 < (boxMass w density).M ∧ ∀ i, 0 < (boxMass w density).I i := by
  have hq := box_quad w fun i => (hw i).le
  have hcm : (boxMass w density).CM = 0 := rfl
  rw [boxSet3_zero]
  have w0 := hw 0
  have w1 := hw 1
  have w2 := hw 2
  refine ⟨⟨?_, ?_, ?_, ?_⟩, ?_, ?_⟩
  · have := hq ![1, 0, 0, 0, 0, 0, 0, 0, 0, 0]
    simp [quadPoly] at this
    simp only [boxMass, integral_const, smul_eq_mul, this, MeasurableSet.univ, measureReal_restrict_apply, univ_inter]
    ring
  · intro i
    rw [hcm, Pi.zero_apply, mul_zero]
    have := hq ![0, if i = 0 then density else 0, if i = 1 then density else 0, if i = 2 then density else 0, 0, 0, 0, 0, 0, 0]
    fin_cases i <;> simp [quadPoly] at this ⊢ <;> exact this.symm
  · intro i
    simp only [hcm, Pi.zero_apply, sub_zero]
    have := hq ![0, 0, 0, 0, if i = 0 then 0 else density, if i = 1 then 0 else density, if i = 2 then 0 else density, 0, 0, 0]
    have he : ∀ v : Vec3, quadPoly ![0, 0, 0, 0, if i = 0 then 0 else density, if i = 1 then 0 else density, if i = 2 then 0 else density, 0, 0, 0] v =
        density * (v 0 ^ 2 + v 1 ^ 2 + v 2 ^ 2 - v i ^ 2) := by
      intro v
      fin_cases i <;> simp [quadPoly] <;> ring
    simp_rw [he] at this
    rw [this]
    fin_cases i <;> simp [boxMass] <;> ring
  · intro i j hij
    simp only [hcm, Pi.zero_apply, sub_zero]
    have := hq ![0, 0, 0, 0, 0, 0, 0, if i ≠ 2 ∧ j ≠ 2 then density else 0, if i ≠ 0 ∧ j ≠ 0 then density else 0, if i ≠ 1 ∧ j ≠ 1 then density else 0]
    have he : ∀ v : Vec3, quadPoly ![0, 0, 0, 0, 0, 0, 0, if i ≠ 2 ∧ j ≠ 2 then density else 0, if i ≠ 0 ∧ j ≠ 0 then density else 0, if i ≠ 1 ∧ j ≠ 1 then density else 0] v =
        density * (v i * v j) := by
      intro v
      fin_cases i <;> fin_cases j <;> first | exact absurd rfl hij | (simp [quadPoly]; try first | ring1 | (left; ring1))
    simp_rw [he] at this
    rw [this]
    simp
  · simp only [boxMass]; positivity
  · intro i
    fin_cases i <;> simp [boxMass] <;> positivity

example : IsSolidMass (boxSet3 0 1 ![1, 2, 3]) 3 (boxMass ![1, 2, 3] 3) := by
  refine (C47_box3 _ 3 (fun i => ?_) (by norm_num)).1
  fin_cases i <;> simp

/-! ## Triangle meshes -/

/-- The bounded solid inside a mesh has integrable monomials -/
theorem bounds_integrable {verts : List Vec3} {faces : List (Nat × Nat × Nat)} {S : Set Vec3} (hS : MeasurableSet S) (hb : MeshBounds verts faces S)
    (k : Fin 10) : IntegrableOn (monomial10 k) S := by
  classical
  obtain ⟨p, hp⟩ := hb
  have hi := (integral_meshWinding k verts faces p).1
  rw [← integrable_indicator_iff hS]
  refine hi.congr ?_
  filter_upwards [hp] with x hx
  rw [hx, Set.indicator_apply]
  by_cases h : x ∈ S
  · rw [if_pos h, if_pos h, one_mul]
  · rw [if_neg h, if_neg h, zero_mul]

/-- The ten integrals computed from a closed mesh are the integrals of the monomials over the solid that it bounds. -/
theorem C47_mesh_integrals (verts : List Vec3) (faces : List (Nat × Nat × Nat)) (S : Set Vec3) (hS : MeasurableSet S)
    (hin : FacesInRange verts faces) (hc : ClosedMesh faces) (hb : MeshBounds verts faces S) :
    ∃ J, meshIntegrals verts faces = .ok J ∧ ∀ k, J k = ∫ x in S, monomial10 k x := by
  classical
  obtain ⟨p, hp⟩ := hb
  refine ⟨_, meshIntegrals_tetra verts faces hin hc p, fun k => ?_⟩
  rw [← (integral_meshWinding k verts faces p).2, ← integral_indicator hS]
  refine integral_congr_ae ?_
  filter_upwards [hp] with x hx
  rw [hx, Set.indicator_apply]
  by_cases h : x ∈ S
  · rw [if_pos h, if_pos h, one_mul]
  · rw [if_neg h, if_neg h, zero_mul]

/-- The integral of a polynomial of degree two in terms of the integrals of the monomials -/
theorem integral_quadPoly {S : Set Vec3} (hi : ∀ k, IntegrableOn (monomial10 k) S) (c : Fin 10 → ℝ) :
    ∫ x in S, quadPoly c x = ∑ k, c k * ∫ x in S, monomial10 k x := by
  have h : ∀ x, quadPoly c x = ∑ k, c k * monomial10 k x := by
    intro x
    simp [quadPoly, monomial10, Fin.sum_univ_succ]
    ring
  simp_rw [h]
  rw [integral_finset_sum _ fun k _ => (hi k).const_mul (c k)]
  exact Finset.sum_congr rfl fun k _ => integral_const_mul _ _

/-- The inertia tensor in terms of the ten integrals -/
theorem momentsOf_tensor {S : Set Vec3} (hi : ∀ k, IntegrableOn (monomial10 k) S) (J : Fin 10 → ℝ) (hJ : ∀ k, J k = ∫ x in S, monomial10 k x)
    (hm : J 0 ≠ 0) : (momentsOf J).2.2 = inertiaTensor S (momentsOf J).2.1 := by
  set c : Vec3 := (momentsOf J).2.1 with hcdef
  have c0 : J 1 = J 0 * c 0 := by simp [hcdef, momentsOf]; field_simp
  have c1 : J 2 = J 0 * c 1 := by simp [hcdef, momentsOf]; field_simp
  have c2 : J 3 = J 0 * c 2 := by simp [hcdef, momentsOf]; field_simp
  have hq := fun q => (integral_quadPoly hi q).trans (Finset.sum_congr rfl fun k _ => by rw [← hJ k])
  have hten : ∀ i j, inertiaTensor S c i j = (momentsOf J).2.2 i j := by
    intro i j
    have h00 := hq ![c 1 ^ 2 + c 2 ^ 2, 0, -2 * c 1, -2 * c 2, 0, 1, 1, 0, 0, 0]
    have h11 := hq ![c 0 ^ 2 + c 2 ^ 2, -2 * c 0, 0, -2 * c 2, 1, 0, 1, 0, 0, 0]
    have h22 := hq ![c 0 ^ 2 + c 1 ^ 2, -2 * c 0, -2 * c 1, 0, 1, 1, 0, 0, 0, 0]
    have h01 := hq ![-(c 0 * c 1), c 1, c 0, 0, 0, 0, 0, -1, 0, 0]
    have h12 := hq ![-(c 1 * c 2), 0, c 2, c 1, 0, 0, 0, 0, -1, 0]
    have h20 := hq ![-(c 2 * c 0), c 2, 0, c 0, 0, 0, 0, 0, 0, -1]
    have e00 : ∀ z : Vec3, ((z 0 - c 0) ^ 2 + (z 1 - c 1) ^ 2 + (z 2 - c 2) ^ 2) - (z 0 - c 0) * (z 0 - c 0) =
        quadPoly ![c 1 ^ 2 + c 2 ^ 2, 0, -2 * c 1, -2 * c 2, 0, 1, 1, 0, 0, 0] z := fun z => by simp [quadPoly]; ring
    have e11 : ∀ z : Vec3, ((z 0 - c 0) ^ 2 + (z 1 - c 1) ^ 2 + (z 2 - c 2) ^ 2) - (z 1 - c 1) * (z 1 - c 1) =
        quadPoly ![c 0 ^ 2 + c 2 ^ 2, -2 * c 0, 0, -2 * c 2, 1, 0, 1, 0, 0, 0] z := fun z => by simp [quadPoly]; ring
    have e22 : ∀ z : Vec3, ((z 0 - c 0) ^ 2 + (z 1 - c 1) ^ 2 + (z 2 - c 2) ^ 2) - (z 2 - c 2) * (z 2 - c 2) =
        quadPoly ![c 0 ^ 2 + c 1 ^ 2, -2 * c 0, -2 * c 1, 0, 1, 1, 0, 0, 0, 0] z := fun z => by simp [quadPoly]; ring
    have e01 : ∀ z : Vec3, 0 - (z 0 - c 0) * (z 1 - c 1) = quadPoly ![-(c 0 * c 1), c 1, c 0, 0, 0, 0, 0, -1, 0, 0] z := fun z => by simp [quadPoly]; ring
    have e10 : ∀ z : Vec3, 0 - (z 1 - c 1) * (z 0 - c 0) = quadPoly ![-(c 0 * c 1), c 1, c 0, 0, 0, 0, 0, -1, 0, 0] z := fun z => by simp [quadPoly]; ring
    have e12 : ∀ z : Vec3, 0 - (z 1 - c 1) * (z 2 - c 2) = quadPoly ![-(c 1 * c 2), 0, c 2, c 1, 0, 0, 0, 0, -1, 0] z := fun z => by simp [quadPoly]; ring
    have e21 : ∀ z : Vec3, 0 - (z 2 - c 2) * (z 1 - c 1) = quadPoly ![-(c 1 * c 2), 0, c 2, c 1, 0, 0, 0, 0, -1, 0] z := fun z => by simp [quadPoly]; ring
    have e20 : ∀ z : Vec3, 0 - (z 2 - c 2) * (z 0 - c 0) = quadPoly ![-(c 2 * c 0), c 2, 0, c 0, 0, 0, 0, 0, 0, -1] z := fun z => by simp [quadPoly]; ring
    have e02 : ∀ z : Vec3, 0 - (z 0 - c 0) * (z 2 - c 2) = quadPoly ![-(c 2 * c 0), c 2, 0, c 0, 0, 0, 0, 0, 0, -1] z := fun z => by simp [quadPoly]; ring
    have hmo : momentsOf J = (J 0, c, _) := rfl
    rw [show (momentsOf J).2.2 = !![J 5 + J 6 - J 0 * (c 1 * c 1 + c 2 * c 2), -J 7 + J 0 * c 0 * c 1, -J 9 + J 0 * c 2 * c 0;
      -J 7 + J 0 * c 0 * c 1, J 4 + J 6 - J 0 * (c 2 * c 2 + c 0 * c 0), -J 8 + J 0 * c 1 * c 2;
      -J 9 + J 0 * c 2 * c 0, -J 8 + J 0 * c 1 * c 2, J 4 + J 5 - J 0 * (c 0 * c 0 + c 1 * c 1)] from rfl]
    simp only [Fin.sum_univ_succ, Finset.univ_eq_empty, Finset.sum_empty] at h00 h11 h22 h01 h12 h20
    fin_cases i <;> fin_cases j <;>
      simp only [inertiaTensor, Matrix.of_apply, Fin.zero_eta, Fin.mk_one, Fin.reduceFinMk, if_true, reduceIte, Fin.reduceEq, e00, e11, e22, e01, e10, e12, e21, e20, e02, h00, h11, h22, h01, h12, h20, if_false] <;>
      simp [c0, c1, c2] <;> ring
  ext i j
  exact (hten i j).symm

/-- The mass and the centre -/
theorem momentsOf_symm (J : Fin 10 → ℝ) : (momentsOf J).2.2.transpose = (momentsOf J).2.2 := by
  ext i j
  fin_cases i <;> fin_cases j <;> rfl

/-- Flipping the first column of a reflection makes it a rotation and does not change what it diagonalizes. -/
theorem diagonalize_spec {eig : Mat3 → Mat3 × Vec3} (he : EigenCorrect eig) (A : Mat3) (hA : A.transpose = A) :
    IsRotation (diagonalizeInertiaTensor eig A).1 ∧
    (diagonalizeInertiaTensor eig A).1 * diagonal (diagonalizeInertiaTensor eig A).2 * (diagonalizeInertiaTensor eig A).1.transpose = A := by
  obtain ⟨h1, h2⟩ := he A hA
  unfold diagonalizeInertiaTensor
  generalize eig A = RI at h1 h2 ⊢
  obtain ⟨R, I⟩ := RI
  simp only at h1 h2 ⊢
  have hdet : R.det * R.det = 1 := by
    have := congrArg Matrix.det h1
    rwa [Matrix.det_mul, Matrix.det_transpose, Matrix.det_one] at this
  by_cases hd : R.det < 0
  · rw [if_pos hd]
    simp only
    have hR : (Matrix.of fun i j => if j = 0 then R i j * -1 else R i j : Mat3) = R * diagonal ![-1, 1, 1] := by
      ext i j
      rw [Matrix.mul_diagonal]
      fin_cases j <;> simp
    have hD : (diagonal ![-1, 1, 1] : Mat3) * (diagonal ![-1, 1, 1] : Mat3) = 1 := by
      rw [Matrix.diagonal_mul_diagonal]
      ext i j
      fin_cases i <;> fin_cases j <;> simp
    have hDI : (diagonal ![-1, 1, 1] : Mat3) * diagonal I * (diagonal ![-1, 1, 1] : Mat3) = diagonal I := by
      rw [Matrix.diagonal_mul_diagonal, Matrix.diagonal_mul_diagonal]
      congr 1
      ext i
      fin_cases i <;> simp
    rw [hR, Matrix.transpose_mul, Matrix.diagonal_transpose]
    have hmul : R * diagonal ![-1, 1, 1] * ((diagonal ![-1, 1, 1] : Mat3) * R.transpose) = 1 := by
      rw [Matrix.mul_assoc, ← Matrix.mul_assoc _ _ R.transpose, hD, Matrix.one_mul, h1]
    refine ⟨⟨?_, ?_, ?_⟩, ?_⟩
    · rw [Matrix.transpose_mul, Matrix.diagonal_transpose]; exact hmul
    · rw [Matrix.transpose_mul, Matrix.diagonal_transpose]; exact mul_eq_one_comm.mp hmul
    · rw [Matrix.det_mul, Matrix.det_diagonal]
      simp [Fin.prod_univ_three]
      nlinarith
    · calc R * diagonal ![-1, 1, 1] * diagonal I * ((diagonal ![-1, 1, 1] : Mat3) * R.transpose)
          = R * ((diagonal ![-1, 1, 1] : Mat3) * diagonal I * (diagonal ![-1, 1, 1] : Mat3)) * R.transpose := by simp only [Matrix.mul_assoc]
        _ = A := by rw [hDI, h2]
  · rw [if_neg hd]
    refine ⟨⟨h1, mul_eq_one_comm.mp h1, ?_⟩, h2⟩
    simp only
    nlinarith [not_lt.mp hd]

/-- The mass, centre of mass, principal axes and principal moments computed from a closed mesh, at density one, are those of the solid that it
bounds. -/
theorem C47_mesh (eig : Mat3 → Mat3 × Vec3) (he : EigenCorrect eig) (verts : List Vec3) (faces : List (Nat × Nat × Nat)) (S : Set Vec3)
    (hS : MeasurableSet S) (hin : FacesInRange verts faces) (hc : ClosedMesh faces) (hb : MeshBounds verts faces S)
    (hvol : ∫ _x in S, (1 : ℝ) ≠ 0) :
    ∃ mass I center R, computeMoments eig verts faces = .ok (mass, I, center, R) ∧ mass = ∫ _x in S, (1 : ℝ) ∧
      (∀ i, mass * center i = ∫ x in S, x i) ∧ IsRotation R ∧ R * diagonal I * R.transpose = inertiaTensor S center := by
  obtain ⟨J, hJ, hJk⟩ := C47_mesh_integrals verts faces S hS hin hc hb
  have h0 : J 0 = ∫ _x in S, (1 : ℝ) := by rw [hJk 0]; rfl
  have hne : J 0 ≠ 0 := h0 ▸ hvol
  obtain ⟨hR, hd⟩ := diagonalize_spec he _ (momentsOf_symm J)
  refine ⟨J 0, (diagonalizeInertiaTensor eig (momentsOf J).2.2).2, (momentsOf J).2.1, (diagonalizeInertiaTensor eig (momentsOf J).2.2).1, ?_, h0, ?_, hR, ?_⟩
  · unfold computeMoments
    rw [hJ]
    rfl
  · intro i
    have h1 : J 1 = ∫ x in S, x 0 := by rw [hJk 1]; rfl
    have h2 : J 2 = ∫ x in S, x 1 := by rw [hJk 2]; rfl
    have h3 : J 3 = ∫ x in S, x 2 := by rw [hJk 3]; rfl
    fin_cases i
    · simp [momentsOf, ← h1]; field_simp
    · simp [momentsOf, ← h2]; field_simp
    · simp [momentsOf, ← h3]; field_simp
  · rw [hd]
    exact momentsOf_tensor (fun k => bounds_integrable hS hb k) J hJk hne

/-! ## Moving a mesh -/

/-- The matrix of the integrals of the products of coordinates -/
def secondMoments (J : Fin 10 → ℝ) : Mat3 := !![J 4, J 7, J 9; J 7, J 5, J 8; J 9, J 8, J 6]

/-- The integrals of the coordinates -/
def firstMoments (J : Fin 10 → ℝ) : Vec3 := ![J 1, J 2, J 3]

theorem tripleFrom_move (Q : Mat3) (t p v0 v1 v2 : Vec3) (hQ : Q.det = 1) :
    tripleFrom (Q *ᵥ p + t) (Q *ᵥ v0 + t) (Q *ᵥ v1 + t) (Q *ᵥ v2 + t) = tripleFrom p v0 v1 v2 := by
  rw [← det_columns3, ← det_columns3]
  have h : ∀ v : Vec3, Q *ᵥ v + t - (Q *ᵥ p + t) = Q *ᵥ (v - p) := fun v => by rw [Matrix.mulVec_sub]; abel
  rw [h, h, h]
  have hc : columns3 (Q *ᵥ (v0 - p)) (Q *ᵥ (v1 - p)) (Q *ᵥ (v2 - p)) = Q * columns3 (v0 - p) (v1 - p) (v2 - p) := by
    ext i j
    fin_cases j <;> simp [columns3, Matrix.mul_apply, Matrix.mulVec, dotProduct]
  rw [hc, Matrix.det_mul, hQ, one_mul]

/-- The integrals over a moved tetrahedron -/
theorem tetraTerm_move (Q : Mat3) (t p v0 v1 v2 : Vec3) (hQ : Q.det = 1) :
    let J : Fin 10 → ℝ := fun k => tetraTerm k p v0 v1 v2
    let J' : Fin 10 → ℝ := fun k => tetraTerm k (Q *ᵥ p + t) (Q *ᵥ v0 + t) (Q *ᵥ v1 + t) (Q *ᵥ v2 + t)
    J' 0 = J 0 ∧ firstMoments J' = Q *ᵥ firstMoments J + J 0 • t ∧
    secondMoments J' = Q * secondMoments J * Q.transpose + vecMulVec (Q *ᵥ firstMoments J) t + vecMulVec t (Q *ᵥ firstMoments J) + J 0 • vecMulVec t t := by
  intro J J'
  have hmv : ∀ (v : Vec3) i, (Q *ᵥ v + t) i = Q i 0 * v 0 + Q i 1 * v 1 + Q i 2 * v 2 + t i := fun v i => by
    simp [Matrix.mulVec, dotProduct, Fin.sum_univ_three]
  refine ⟨?_, ?_, ?_⟩
  · simp only [J, J', tetraTerm, tripleFrom_move Q t p v0 v1 v2 hQ]
    simp [tetraQuad, coeffOf]
  · ext i
    fin_cases i <;>
      simp [J, J', firstMoments, tetraTerm, tripleFrom_move Q t p v0 v1 v2 hQ, tetraQuad, coeffOf, Matrix.mulVec, dotProduct, Fin.sum_univ_three] <;> ring
  · ext i j
    fin_cases i <;> fin_cases j <;>
      simp [J, J', firstMoments, secondMoments, tetraTerm, tripleFrom_move Q t p v0 v1 v2 hQ, tetraQuad, coeffOf, Matrix.mulVec, dotProduct, Fin.sum_univ_three, Matrix.mul_apply, vecMulVec_apply] <;> ring

/-- How the ten integrals change when the solid is moved -/
def MovedIntegrals (Q : Mat3) (t : Vec3) (J J' : Fin 10 → ℝ) : Prop :=
  J' 0 = J 0 ∧ firstMoments J' = Q *ᵥ firstMoments J + J 0 • t ∧
  secondMoments J' = Q * secondMoments J * Q.transpose + vecMulVec (Q *ᵥ firstMoments J) t + vecMulVec t (Q *ᵥ firstMoments J) + J 0 • vecMulVec t t

theorem MovedIntegrals.zero (Q : Mat3) (t : Vec3) : MovedIntegrals Q t 0 0 := by
  have h1 : firstMoments 0 = 0 := by ext i; fin_cases i <;> rfl
  have h2 : secondMoments 0 = 0 := by ext i j; fin_cases i <;> fin_cases j <;> rfl
  refine ⟨rfl, ?_, ?_⟩
  · rw [h1]; simp
  · rw [h1, h2]
    simp

theorem MovedIntegrals.add {Q : Mat3} {t : Vec3} {J J' K K' : Fin 10 → ℝ} (h : MovedIntegrals Q t J J') (g : MovedIntegrals Q t K K') :
    MovedIntegrals Q t (J + K) (J' + K') := by
  have h1 : ∀ a b, firstMoments (a + b) = firstMoments a + firstMoments b := fun a b => by ext i; fin_cases i <;> rfl
  have h2 : ∀ a b, secondMoments (a + b) = secondMoments a + secondMoments b := fun a b => by ext i j; fin_cases i <;> fin_cases j <;> rfl
  obtain ⟨ha, hb, hc⟩ := h
  obtain ⟨ga, gb, gc⟩ := g
  refine ⟨by simp [ha, ga], ?_, ?_⟩
  · rw [h1, h1, hb, gb, Matrix.mulVec_add, Pi.add_apply, add_smul]; abel
  · rw [h2, h2, h1, hc, gc, Matrix.mulVec_add, Pi.add_apply, add_smul, Matrix.mul_add, Matrix.add_mul, add_vecMulVec, vecMulVec_add]; abel

theorem moveMesh_corner (Q : Mat3) (t : Vec3) (verts : List Vec3) {a : Nat} (h : a < verts.length) :
    corner (moveMesh Q t verts) a = Q *ᵥ corner verts a + t := by
  unfold corner moveMesh
  simp [List.getD, List.getElem?_eq_getElem h]

theorem sum_moved (Q : Mat3) (t : Vec3) (hQ : Q.det = 1) (verts : List Vec3) (faces : List (Nat × Nat × Nat)) (hin : FacesInRange verts faces) :
    MovedIntegrals Q t (fun k => (faces.map fun f => tetraTerm k 0 (corner verts f.1) (corner verts f.2.1) (corner verts f.2.2)).sum)
      (fun k => (faces.map fun f => tetraTerm k (Q *ᵥ 0 + t) (corner (moveMesh Q t verts) f.1) (corner (moveMesh Q t verts) f.2.1) (corner (moveMesh Q t verts) f.2.2)).sum) := by
  induction faces with
  | nil =>
    simp only [List.map_nil, List.sum_nil]
    exact MovedIntegrals.zero Q t
  | cons f fs ih =>
    obtain ⟨h1, h2, h3⟩ := hin f (List.mem_cons_self ..)
    have h0 : MovedIntegrals Q t (fun k => tetraTerm k 0 (corner verts f.1) (corner verts f.2.1) (corner verts f.2.2))
        (fun k => tetraTerm k (Q *ᵥ 0 + t) (Q *ᵥ corner verts f.1 + t) (Q *ᵥ corner verts f.2.1 + t) (Q *ᵥ corner verts f.2.2 + t)) :=
      tetraTerm_move Q t 0 (corner verts f.1) (corner verts f.2.1) (corner verts f.2.2) hQ
    have := MovedIntegrals.add h0
      (ih fun g hg => hin g (List.mem_cons_of_mem _ hg))
    simp only [List.map_cons, List.sum_cons]
    rw [moveMesh_corner Q t verts h1, moveMesh_corner Q t verts h2, moveMesh_corner Q t verts h3]
    exact this

/-- The inertia tensor in terms of the covariance -/
theorem momentsOf_cov (J : Fin 10 → ℝ) : (momentsOf J).2.2 =
    (secondMoments J - J 0 • vecMulVec (momentsOf J).2.1 (momentsOf J).2.1).trace • (1 : Mat3) -
      (secondMoments J - J 0 • vecMulVec (momentsOf J).2.1 (momentsOf J).2.1) := by
  have hten : (momentsOf J).2.2 = (fun c : Vec3 => !![J 5 + J 6 - J 0 * (c 1 * c 1 + c 2 * c 2), -J 7 + J 0 * c 0 * c 1, -J 9 + J 0 * c 2 * c 0;
      -J 7 + J 0 * c 0 * c 1, J 4 + J 6 - J 0 * (c 2 * c 2 + c 0 * c 0), -J 8 + J 0 * c 1 * c 2;
      -J 9 + J 0 * c 2 * c 0, -J 8 + J 0 * c 1 * c 2, J 4 + J 5 - J 0 * (c 0 * c 0 + c 1 * c 1)]) (momentsOf J).2.1 := rfl
  rw [hten]
  generalize (momentsOf J).2.1 = c
  ext i j
  simp only [Matrix.sub_apply, Matrix.smul_apply, Matrix.trace, Matrix.diag_apply, Fin.sum_univ_three, vecMulVec_apply, smul_eq_mul, secondMoments]
  fin_cases i <;> fin_cases j <;> simp <;> ring

theorem momentsOf_center (J : Fin 10 → ℝ) (h : J 0 ≠ 0) : firstMoments J = J 0 • (momentsOf J).2.1 := by
  ext i
  fin_cases i <;> simp [firstMoments, momentsOf] <;> field_simp

theorem moved_moments {Q : Mat3} {t : Vec3} {J J' : Fin 10 → ℝ} (hQ : IsRotation Q) (h : MovedIntegrals Q t J J') (hm : J 0 ≠ 0) :
    (momentsOf J').2.1 = Q *ᵥ (momentsOf J).2.1 + t ∧ (momentsOf J').2.2 = Q * (momentsOf J).2.2 * Q.transpose := by
  obtain ⟨h0, h1, h2⟩ := h
  have hm' : J' 0 ≠ 0 := h0 ▸ hm
  set c := (momentsOf J).2.1 with hc
  have hf : firstMoments J = J 0 • c := momentsOf_center J hm
  have hf' : firstMoments J' = J 0 • (momentsOf J').2.1 := by rw [← h0]; exact momentsOf_center J' hm'
  have hcen : (momentsOf J').2.1 = Q *ᵥ c + t := by
    have : J 0 • (momentsOf J').2.1 = J 0 • (Q *ᵥ c + t) := by
      rw [← hf', h1, hf, Matrix.mulVec_smul, smul_add]
    exact smul_right_injective _ hm this
  refine ⟨hcen, ?_⟩
  have hvv : vecMulVec (Q *ᵥ c) (Q *ᵥ c) = Q * vecMulVec c c * Q.transpose := by
    rw [Matrix.mul_vecMulVec, Matrix.vecMulVec_mul, Matrix.vecMul_transpose]
  have hcov : secondMoments J' - J' 0 • vecMulVec (momentsOf J').2.1 (momentsOf J').2.1 = Q * (secondMoments J - J 0 • vecMulVec c c) * Q.transpose := by
    rw [hcen, h2, h0, hf, Matrix.mulVec_smul, add_vecMulVec, vecMulVec_add, vecMulVec_add, hvv, Matrix.mul_sub, Matrix.sub_mul,
      Matrix.mul_smul, Matrix.smul_mul, smul_vecMulVec, vecMulVec_smul]
    simp only [smul_add]
    abel
  rw [momentsOf_cov J', momentsOf_cov J, hcov, ← hc]
  generalize secondMoments J - J 0 • vecMulVec c c = C
  have htr : (Q * C * Q.transpose).trace = C.trace := by
    rw [Matrix.trace_mul_comm, ← Matrix.mul_assoc, hQ.2.1, Matrix.one_mul]
  rw [htr, Matrix.mul_sub, Matrix.sub_mul, Matrix.mul_smul, Matrix.smul_mul, Matrix.mul_one, hQ.1]

/-- What is computed from a closed mesh does not depend on where it is placed: after a rotation and a translation of its vertices the volume is the same,
the centre of mass has moved with the mesh, and so has the inertia tensor about it. -/
theorem C47_mesh_placement (eig : Mat3 → Mat3 × Vec3) (he : EigenCorrect eig) (verts : List Vec3) (faces : List (Nat × Nat × Nat))
    (hin : FacesInRange verts faces) (hc : ClosedMesh faces) (Q : Mat3) (hQ : IsRotation Q) (t : Vec3) :
    ∃ mass I center R I' center' R', computeMoments eig verts faces = .ok (mass, I, center, R) ∧
      computeMoments eig (moveMesh Q t verts) faces = .ok (mass, I', center', R') ∧
      (mass ≠ 0 → center' = Q *ᵥ center + t ∧
        R' * diagonal I' * R'.transpose = Q * (R * diagonal I * R.transpose) * Q.transpose) := by
  have hin' : FacesInRange (moveMesh Q t verts) faces := by
    intro f hf
    simpa [moveMesh] using hin f hf
  have e1 := meshIntegrals_tetra verts faces hin hc 0
  have e2 := meshIntegrals_tetra (moveMesh Q t verts) faces hin' hc (Q *ᵥ 0 + t)
  have hm := sum_moved Q t hQ.2.2 verts faces hin
  revert e1 e2 hm
  generalize (fun k => (faces.map fun f => tetraTerm k 0 (corner verts f.1) (corner verts f.2.1) (corner verts f.2.2)).sum) = J
  generalize (fun k => (faces.map fun f => tetraTerm k (Q *ᵥ 0 + t) (corner (moveMesh Q t verts) f.1) (corner (moveMesh Q t verts) f.2.1) (corner (moveMesh Q t verts) f.2.2)).sum) = J'
  intro e1 e2 hm
  obtain ⟨-, hd⟩ := diagonalize_spec he _ (momentsOf_symm J)
  obtain ⟨-, hd'⟩ := diagonalize_spec he _ (momentsOf_symm J')
  refine ⟨J 0, (diagonalizeInertiaTensor eig (momentsOf J).2.2).2, (momentsOf J).2.1, (diagonalizeInertiaTensor eig (momentsOf J).2.2).1,
    (diagonalizeInertiaTensor eig (momentsOf J').2.2).2, (momentsOf J').2.1, (diagonalizeInertiaTensor eig (momentsOf J').2.2).1, ?_, ?_, ?_⟩
  · unfold computeMoments
    rw [e1]
    rfl
  · unfold computeMoments
    rw [e2, ← hm.1]
    rfl
  · intro h0
    rw [hd, hd']
    exact moved_moments hQ hm h0

/-! ## An example: a tetrahedron -/

/-- The corners of a tetrahedron -/
def tetraVerts : List Vec3 := [0, ![1, 0, 0], ![0, 1, 0], ![0, 0, 1]]

/-- Its faces, turned outwards -/
def tetraFaces : List (Nat × Nat × Nat) := [(0, 2, 1), (0, 1, 3), (0, 3, 2), (1, 2, 3)]

theorem tetra_inRange : FacesInRange tetraVerts tetraFaces := by
  intro f hf
  simp only [tetraFaces, List.mem_cons, List.not_mem_nil, or_false] at hf
  rcases hf with rfl | rfl | rfl | rfl <;> simp [tetraVerts]

theorem tetra_closed : ClosedMesh tetraFaces := by
  have h : meshEdges tetraFaces = [(0, 2), (2, 1), (1, 0), (0, 1), (1, 3), (3, 0), (0, 3), (3, 2), (2, 0), (1, 2), (2, 3), (3, 1)] := rfl
  have hp : (meshEdges tetraFaces).Perm ((meshEdges tetraFaces).map Prod.swap) := by decide +kernel
  intro a b
  rw [hp.count_eq]
  have : (a, b) = Prod.swap (b, a) := rfl
  rw [this, List.count_map_of_injective _ _ Prod.swap_injective]

theorem tetra_bounds : MeshBounds tetraVerts tetraFaces (convexHull ℝ {0, ![1, 0, 0], ![0, 1, 0], ![0, 0, 1]}) := by
  classical
  refine ⟨0, Filter.Eventually.of_forall fun x => ?_⟩
  have z1 : ∀ v w : Vec3, tripleFrom 0 0 v w = 0 := fun v w => by rw [tripleFrom_exp]; simp
  have e : tripleFrom 0 ![1, 0, 0] ![0, 1, 0] ![0, 0, 1] = 1 := by rw [tripleFrom_exp]; simp
  simp [meshWinding, tetraFaces, faceCrossing, corner, tetraVerts, z1, e]

theorem tetra_volume : ∫ _x in convexHull ℝ ({0, ![1, 0, 0], ![0, 1, 0], ![0, 0, 1]} : Set Vec3), (1 : ℝ) = 1 / 6 := by
  have e : tripleFrom 0 ![1, 0, 0] ![0, 1, 0] ![0, 0, 1] = 1 := by rw [tripleFrom_exp]; simp
  have h := integral_tetra 0 ![1, 0, 0] ![0, 1, 0] ![0, 0, 1] (by rw [det_columns3, e]; norm_num) (fun _ => 1)
  have := simplex_tetra (coeffOf 0) 0 ![1, 0, 0] ![0, 1, 0] ![0, 0, 1]
  simp_rw [quadPoly_coeffOf] at this
  rw [h, det_columns3, e]
  have h2 : ∫ x in simplexR, monomial10 0 (tetraMap 0 ![1, 0, 0] ![0, 1, 0] ![0, 0, 1] x) = ∫ _x in simplexR, (1 : ℝ) := rfl
  rw [h2] at this
  rw [this]
  simp [tetraQuad, coeffOf]

example (eig : Mat3 → Mat3 × Vec3) (he : EigenCorrect eig) : ∃ I center R, computeMoments eig tetraVerts tetraFaces = .ok (1 / 6, I, center, R) ∧
    IsRotation R := by
  obtain ⟨m, I, c, R, h, hm, _, hR, _⟩ := C47_mesh eig he tetraVerts tetraFaces _ (hull_compact _ _ _ _).isClosed.measurableSet tetra_inRange tetra_closed
    tetra_bounds (by rw [tetra_volume]; norm_num)
  rw [tetra_volume] at hm
  exact ⟨I, c, R, hm ▸ h, hR⟩

/-! ## Staples -/

/-- The moments of a staple are not integrals over a staple of any shape: enlarging all its sizes by a factor 2 multiplies such an integral by
2⁵ = 32, but not the computed moment. -/
theorem C47_false_staple : ∃ s : Staple, 0 < s.w ∧ 0 < s.l ∧ 0 < s.r ∧
    (stapleMass ⟨2 * s.w, 2 * s.l, 2 * s.r⟩ 1).M = 8 * (stapleMass s 1).M ∧
    (stapleMass ⟨2 * s.w, 2 * s.l, 2 * s.r⟩ 1).I 0 ≠ 32 * (stapleMass s 1).I 0 := by
  refine ⟨⟨1, 1, 1⟩, by norm_num, by norm_num, by norm_num, ?_, ?_⟩
  · simp [stapleMass]; ring
  · have hp := Real.pi_pos
    simp [stapleMass, Staple.centerOfMassY]
    intro h
    nlinarith

end Scisim
