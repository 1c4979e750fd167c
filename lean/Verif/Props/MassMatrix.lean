import Mathlib.MeasureTheory.Integral.Bochner.Basic
import Mathlib.MeasureTheory.Integral.Bochner.Set
import Mathlib.MeasureTheory.Measure.Dirac
import Mathlib.MeasureTheory.Function.L1Space.Integrable
import Mathlib.Analysis.SpecialFunctions.Trigonometric.Basic
import Mathlib.Tactic.LinearCombination
import Verif.Lemmas.MassMatrix
/-!
# C50: mass matrices, energy and momentum
-/

namespace Scisim

open Matrix MeasureTheory

/-! ## Planar systems -/

/-- **C50 (planar systems).** The mass matrix and the inverse mass matrix of balls and of rigid bodies in the plane are inverse to each other, whatever the masses
and inertias and however many degrees of freedom there are. -/
theorem C50_inverse {K : Type} [Field K] (n : Nat) (m : Nat → K) (hm : ∀ i < n, m i ≠ 0) :
    (createM n m).toMatrix n * (createMinv n m).toMatrix n = 1 ∧ (createMinv n m).toMatrix n * (createM n m).toMatrix n = 1 := by
  have e : ∀ x : Nat → K, (compress n ((List.range n).map fun col => [(col, x col)])).toMatrix n = Matrix.diagonal fun i : Fin n => x i := by
    intro x
    ext i j
    show (compress n ((List.range n).map fun col => [(col, x col)])).entry i j = _
    rw [compress_range_entry n n _ i j j.2, lookupRow_single, Matrix.diagonal_apply]
    by_cases h : i = j
    · subst h
      rw [if_pos rfl, if_pos rfl]
    · rw [if_neg h, if_neg (fun hc => h (Fin.ext hc.symm))]
  have e1 : (createM n m).toMatrix n = Matrix.diagonal fun i : Fin n => m i := e m
  have e2 : (createMinv n m).toMatrix n = Matrix.diagonal fun i : Fin n => 1 / m i := e fun i => 1 / m i
  rw [e1, e2, Matrix.diagonal_mul_diagonal, Matrix.diagonal_mul_diagonal]
  constructor
  · rw [← Matrix.diagonal_one]
    congr 1
    funext i
    have := hm i i.2
    field_simp
  · rw [← Matrix.diagonal_one]
    congr 1
    funext i
    have := hm i i.2
    field_simp

theorem createM_kineticEnergy {K : Type} [Field K] (n : Nat) (m v : Nat → K) :
    kineticEnergyOf (createM n m) v = .ok (1 / 2 * ∑ i ∈ Finset.range n, m i * v i * v i) := by
  unfold createM
  rw [kineticEnergyOf_eq n n _ v fun j _ => by simp]
  congr 2
  apply Finset.sum_congr rfl
  intro i hi
  rw [Finset.sum_eq_single i]
  · rw [lookupRow_single, if_pos rfl]; ring
  · intro j _ hj
    rw [lookupRow_single, if_neg hj, zero_mul]
  · intro hc
    exact absurd hi hc

theorem sum_range_two {K : Type} [AddCommMonoid K] (f : Nat → K) (n : Nat) :
    ∑ k ∈ Finset.range (2 * n), f k = ∑ b ∈ Finset.range n, (f (2 * b) + f (2 * b + 1)) := by
  induction n with
  | zero => rfl
  | succ n ih =>
    rw [show 2 * (n + 1) = 2 * n + 1 + 1 from rfl, Finset.sum_range_succ, Finset.sum_range_succ, ih, Finset.sum_range_succ, add_assoc]

/-- **C50 (balls).** The kinetic energy, momentum and angular momentum that are reported for balls are the sums of those of the balls, as point masses. -/
theorem C50_balls {K : Type} [Field K] (n : Nat) (mass : Nat → K) (q v : Nat → K) :
    let M := createM (2 * n) fun i => mass (i / 2)
    kineticEnergyOf M v = .ok (∑ b ∈ Finset.range n, 1 / 2 * mass b * (v (2 * b) ^ 2 + v (2 * b + 1) ^ 2)) ∧
    ballMomentum M v (List.range n) (0, 0) = .ok (∑ b ∈ Finset.range n, mass b * v (2 * b), ∑ b ∈ Finset.range n, mass b * v (2 * b + 1)) ∧
    ballAngularMomentum M q v (List.range n) 0 = .ok (∑ b ∈ Finset.range n, mass b * (q (2 * b) * v (2 * b + 1) - q (2 * b + 1) * v (2 * b))) := by
  intro M
  have hval : ∀ b < n, M.value (2 * b) = .ok (mass b) := by
    intro b hb
    rw [createM_value _ _ _ (by omega)]
    congr 2
    omega
  refine ⟨?_, ?_, ?_⟩
  · rw [createM_kineticEnergy, sum_range_two, Finset.mul_sum]
    congr 1
    apply Finset.sum_congr rfl
    intro b _
    rw [show 2 * b / 2 = b by omega, show (2 * b + 1) / 2 = b by omega]
    ring
  · have : ∀ (l : List Nat) (p : K × K), (∀ b ∈ l, b < n) → ballMomentum M v l p =
        .ok (p.1 + (l.map fun b => mass b * v (2 * b)).sum, p.2 + (l.map fun b => mass b * v (2 * b + 1)).sum) := by
      intro l
      induction l with
      | nil => intro p _; simp [ballMomentum]
      | cons b l ih =>
        intro p h
        rw [ballMomentum, hval b (h b (by simp))]
        simp only [Outcome.bind]
        rw [ih _ fun c hc => h c (List.mem_cons_of_mem _ hc)]
        simp [add_assoc]
    rw [this _ _ fun b hb => by simpa using hb, sum_map_range, sum_map_range]
    simp
  · have : ∀ (l : List Nat) (L : K), (∀ b ∈ l, b < n) → ballAngularMomentum M q v l L =
        .ok (L + (l.map fun b => mass b * (q (2 * b) * v (2 * b + 1) - q (2 * b + 1) * v (2 * b))).sum) := by
      intro l
      induction l with
      | nil => intro L _; simp [ballAngularMomentum]
      | cons b l ih =>
        intro L h
        rw [ballAngularMomentum, hval b (h b (by simp))]
        simp only [Outcome.bind]
        rw [ih _ fun c hc => h c (List.mem_cons_of_mem _ hc)]
        simp [add_assoc, cross2At]
    rw [this _ _ fun b hb => by simpa using hb, sum_map_range]
    simp

theorem plate_integral {ν : Measure (ℝ × ℝ)} {m I : ℝ} (h : PlateMass ν m I) (c a b d : ℝ) :
    ∫ y, (c + a * y.1 + b * y.2 + d * (y.1 ^ 2 + y.2 ^ 2)) ∂ν = c * m + d * I := by
  haveI := h.finite
  rw [integral_add, integral_add, integral_add, integral_const, integral_const_mul, integral_const_mul, integral_const_mul, h.centre1, h.centre2, ← h.inertia, h.mass]
  · simp only [smul_eq_mul]; ring
  · exact integrable_const c
  · exact h.linear1.const_mul a
  · exact (integrable_const c).add (h.linear1.const_mul a)
  · exact h.linear2.const_mul b
  · exact ((integrable_const c).add (h.linear1.const_mul a)).add (h.linear2.const_mul b)
  · exact h.quadratic.const_mul d

/-- The kinetic energy of a plane body -/
theorem plateKineticEnergy_eq {ν : Measure (ℝ × ℝ)} {m I : ℝ} (h : PlateMass ν m I) (θ : ℝ) (v : ℝ × ℝ) (w : ℝ) :
    plateKineticEnergy ν θ v w = 1 / 2 * m * (v.1 ^ 2 + v.2 ^ 2) + 1 / 2 * I * w ^ 2 := by
  have hsc := Real.sin_sq_add_cos_sq θ
  have := plate_integral h (1 / 2 * (v.1 ^ 2 + v.2 ^ 2)) (w * (v.2 * Real.cos θ - v.1 * Real.sin θ)) (-(w * (v.1 * Real.cos θ + v.2 * Real.sin θ))) (1 / 2 * w ^ 2)
  unfold plateKineticEnergy
  rw [show 1 / 2 * m * (v.1 ^ 2 + v.2 ^ 2) + 1 / 2 * I * w ^ 2 = 1 / 2 * (v.1 ^ 2 + v.2 ^ 2) * m + 1 / 2 * w ^ 2 * I by ring, ← this]
  congr 1
  funext y
  simp only [plateVelocity, turned]
  linear_combination (1 / 2 * w ^ 2 * (y.1 ^ 2 + y.2 ^ 2)) * hsc

/-- The momentum of a plane body -/
theorem plateMomentum_eq {ν : Measure (ℝ × ℝ)} {m I : ℝ} (h : PlateMass ν m I) (θ : ℝ) (v : ℝ × ℝ) (w : ℝ) : plateMomentum ν θ v w = (m * v.1, m * v.2) := by
  unfold plateMomentum
  have h1 := plate_integral h v.1 (-(w * Real.sin θ)) (-(w * Real.cos θ)) 0
  have h2 := plate_integral h v.2 (w * Real.cos θ) (-(w * Real.sin θ)) 0
  rw [show m * v.1 = v.1 * m + 0 * I by ring, show m * v.2 = v.2 * m + 0 * I by ring, ← h1, ← h2]
  congr 2
  · funext y
    simp only [plateVelocity, turned]
    ring
  · funext y
    simp only [plateVelocity, turned]
    ring

/-- The angular momentum of a plane body -/
theorem plateAngularMomentum_eq {ν : Measure (ℝ × ℝ)} {m I : ℝ} (h : PlateMass ν m I) (θ : ℝ) (x v : ℝ × ℝ) (w : ℝ) :
    plateAngularMomentum ν θ x v w = m * (x.1 * v.2 - x.2 * v.1) + I * w := by
  have hsc := Real.sin_sq_add_cos_sq θ
  unfold plateAngularMomentum
  have := plate_integral h (x.1 * v.2 - x.2 * v.1) (x.1 * w * Real.cos θ + v.2 * Real.cos θ + x.2 * w * Real.sin θ - v.1 * Real.sin θ)
    (-(x.1 * w * Real.sin θ) - v.2 * Real.sin θ + x.2 * w * Real.cos θ - v.1 * Real.cos θ) w
  rw [show m * (x.1 * v.2 - x.2 * v.1) + I * w = (x.1 * v.2 - x.2 * v.1) * m + w * I by ring, ← this]
  congr 1
  funext y
  simp only [plateVelocity, turned]
  linear_combination (w * (y.1 ^ 2 + y.2 ^ 2)) * hsc

/-- **C50 (rigid bodies in the plane).** The kinetic energy, momentum and angular momentum that are reported for rigid bodies in the plane are the sums of those of
the bodies, as integrals over the bodies. -/
theorem C50_plates (n : Nat) (mass inertia : Nat → ℝ) (ν : Nat → Measure (ℝ × ℝ)) (hν : ∀ b < n, PlateMass (ν b) (mass b) (inertia b)) (q v : Nat → ℝ) :
    let M := createM (3 * n) fun i => if i % 3 = 2 then inertia (i / 3) else mass (i / 3)
    kineticEnergyOf M v = .ok (∑ b ∈ Finset.range n, plateKineticEnergy (ν b) (q (3 * b + 2)) (v (3 * b), v (3 * b + 1)) (v (3 * b + 2))) ∧
    rb2Momentum M v (List.range n) (0, 0) = .ok (∑ b ∈ Finset.range n, plateMomentum (ν b) (q (3 * b + 2)) (v (3 * b), v (3 * b + 1)) (v (3 * b + 2))) ∧
    rb2AngularMomentum M n q v =
      .ok (∑ b ∈ Finset.range n, plateAngularMomentum (ν b) (q (3 * b + 2)) (q (3 * b), q (3 * b + 1)) (v (3 * b), v (3 * b + 1)) (v (3 * b + 2))) := by
  intro M
  have hval : ∀ b < n, M.value (3 * b) = .ok (mass b) := by
    intro b hb
    rw [createM_value _ _ _ (by omega), if_neg (by omega)]
    congr 2
    omega
  have hval2 : ∀ b < n, M.value (3 * b + 2) = .ok (inertia b) := by
    intro b hb
    rw [createM_value _ _ _ (by omega), if_pos (by omega)]
    congr 2
    omega
  refine ⟨?_, ?_, ?_⟩
  · rw [createM_kineticEnergy, sum_range_three, Finset.mul_sum]
    congr 1
    apply Finset.sum_congr rfl
    intro b hb
    rw [plateKineticEnergy_eq (hν b (Finset.mem_range.mp hb)), show 3 * b / 3 = b by omega, show (3 * b + 1) / 3 = b by omega, show (3 * b + 2) / 3 = b by omega,
      if_neg (by omega), if_neg (by omega), if_pos (by omega)]
    ring
  · have : ∀ (l : List Nat) (p : ℝ × ℝ), (∀ b ∈ l, b < n) → rb2Momentum M v l p =
        .ok (p + (l.map fun b => plateMomentum (ν b) (q (3 * b + 2)) (v (3 * b), v (3 * b + 1)) (v (3 * b + 2))).sum) := by
      intro l
      induction l with
      | nil => intro p _; simp [rb2Momentum]
      | cons b l ih =>
        intro p h
        rw [rb2Momentum, hval b (h b (by simp))]
        simp only [Outcome.bind]
        rw [ih _ fun c hc => h c (List.mem_cons_of_mem _ hc), List.map_cons, List.sum_cons, plateMomentum_eq (hν b (h b (by simp))), ← add_assoc]
        rfl
    rw [this _ _ fun b hb => by simpa using hb, sum_map_range]
    congr 1
    exact zero_add _
  · have h1 : ∀ (l : List Nat) (L : ℝ), (∀ b ∈ l, b < n) → rb2OrbitalMomentum M q v l L =
        .ok (L + (l.map fun b => mass b * (q (3 * b) * v (3 * b + 1) - q (3 * b + 1) * v (3 * b))).sum) := by
      intro l
      induction l with
      | nil => intro L _; simp [rb2OrbitalMomentum]
      | cons b l ih =>
        intro L h
        rw [rb2OrbitalMomentum, hval b (h b (by simp))]
        simp only [Outcome.bind]
        rw [ih _ fun c hc => h c (List.mem_cons_of_mem _ hc)]
        simp [add_assoc, cross2At]
    have h2 : ∀ (l : List Nat) (L : ℝ), (∀ b ∈ l, b < n) → rb2Spin M v l L = .ok (L + (l.map fun b => inertia b * v (3 * b + 2)).sum) := by
      intro l
      induction l with
      | nil => intro L _; simp [rb2Spin]
      | cons b l ih =>
        intro L h
        rw [rb2Spin, hval2 b (h b (by simp))]
        simp only [Outcome.bind]
        rw [ih _ fun c hc => h c (List.mem_cons_of_mem _ hc)]
        simp [add_assoc]
    unfold rb2AngularMomentum
    rw [h1 _ _ fun b hb => by simpa using hb]
    simp only [Outcome.bind]
    rw [h2 _ _ fun b hb => by simpa using hb, sum_map_range, sum_map_range, zero_add, ← Finset.sum_add_distrib]
    congr 1
    apply Finset.sum_congr rfl
    intro b hb
    rw [plateAngularMomentum_eq (hν b (Finset.mem_range.mp hb))]

/-! ## Rigid bodies in space -/

theorem buildMatrices_eq {K : Type} [Field K] (n : Nat) (M : Nat → K) (I0 : Nat → Fin 3 → K) (R : Nat → Matrix (Fin 3) (Fin 3) K) :
    buildMatrices n M I0 R = .ok ⟨n, compress (6 * n) ((List.range (6 * n)).map (bodyColumns n M I0)),
      compress (6 * n) ((List.range (6 * n)).map (bodyColumns n (fun b => 1 / M b) fun b d => 1 / I0 b d)),
      compress (6 * n) ((List.range (6 * n)).map (worldColumns n M fun b => R b * Matrix.diagonal (I0 b) * (R b).transpose)),
      compress (6 * n) ((List.range (6 * n)).map (worldColumns n (fun b => 1 / M b) fun b => R b * Matrix.diagonal (fun d => (I0 b d)⁻¹) * (R b).transpose))⟩ := by
  unfold buildMatrices formBodySpaceMassMatrix formBodySpaceInverseMassMatrix formWorldSpaceMassMatrix formWorldSpaceInverseMassMatrix
  rw [body_eq n M I0, body_eq n (fun b => 1 / M b) fun b d => 1 / I0 b d, world_eq n M fun b => R b * Matrix.diagonal (I0 b) * (R b).transpose,
    world_eq n (fun b => 1 / M b) fun b => R b * Matrix.diagonal (fun d => (I0 b d)⁻¹) * (R b).transpose]
  rfl

theorem toMatrix_mul_blocks {K : Type} [Field K] (n : Nat) (cs cs' : Nat → List (Nat × K)) (B B' : Nat → Matrix (Fin 3) (Fin 3) K)
    (h : ∀ i j, lookupRow (cs j) i = if i / 3 = j / 3 then B (j / 3) (fin3 j) (fin3 i) else 0)
    (h' : ∀ i j, lookupRow (cs' j) i = if i / 3 = j / 3 then B' (j / 3) (fin3 j) (fin3 i) else 0)
    (hB : ∀ b < 2 * n, B' b * B b = 1) :
    (compress (6 * n) ((List.range (6 * n)).map cs)).toMatrix (6 * n) * (compress (6 * n) ((List.range (6 * n)).map cs')).toMatrix (6 * n) = 1 := by
  ext i j
  rw [Matrix.mul_apply]
  have hsum : ∀ k : Fin (6 * n), (compress (6 * n) ((List.range (6 * n)).map cs)).toMatrix (6 * n) i k *
      (compress (6 * n) ((List.range (6 * n)).map cs')).toMatrix (6 * n) k j =
        (fun k : Nat => (if i / 3 = k / 3 then B (k / 3) (fin3 k) (fin3 i) else 0) * (if k / 3 = j / 3 then B' (j / 3) (fin3 j) (fin3 k) else 0)) k := by
    intro k
    show Csc.entry _ i k * Csc.entry _ k j = _
    rw [compress_range_entry _ _ _ _ _ k.2, compress_range_entry _ _ _ _ _ j.2, h, h']
  rw [Finset.sum_congr rfl fun k _ => hsum k]
  rw [Fin.sum_univ_eq_sum_range (fun k : Nat => (if (i : Nat) / 3 = k / 3 then B (k / 3) (fin3 k) (fin3 i) else 0) *
    (if k / 3 = (j : Nat) / 3 then B' (j / 3) (fin3 j) (fin3 k) else 0)) (6 * n)]
  have h6 : Finset.range (6 * n) = Finset.range (3 * (2 * n)) := congrArg _ (by omega)
  have hi : (i : Nat) < 3 * (2 * n) := by have := i.2; omega
  have hj : (j : Nat) < 3 * (2 * n) := by have := j.2; omega
  rw [h6, block_product (2 * n) B B' i j hi hj, hB _ (by omega), Matrix.one_apply, Matrix.one_apply]
  by_cases hij : i = j
  · subst hij
    rw [if_pos rfl, if_pos rfl, if_pos rfl]
  · rw [if_neg hij]
    by_cases hb : (i : Nat) / 3 = j / 3
    · rw [if_pos hb, if_neg]
      intro hc
      rw [fin3_eq_iff] at hc
      apply hij
      apply Fin.ext
      omega
    · rw [if_neg hb]

theorem conj_inverse {K : Type} [Field K] (R : Matrix (Fin 3) (Fin 3) K) (a b : Fin 3 → K) (h1 : R * R.transpose = 1) (h2 : R.transpose * R = 1) (hab : ∀ d, a d * b d = 1) :
    (R * Matrix.diagonal a * R.transpose) * (R * Matrix.diagonal b * R.transpose) = 1 := by
  calc (R * Matrix.diagonal a * R.transpose) * (R * Matrix.diagonal b * R.transpose)
      = R * Matrix.diagonal a * (R.transpose * R) * Matrix.diagonal b * R.transpose := by simp only [Matrix.mul_assoc]
    _ = R * (Matrix.diagonal a * Matrix.diagonal b) * R.transpose := by rw [h2, Matrix.mul_one, Matrix.mul_assoc R]
    _ = 1 := by
      rw [Matrix.diagonal_mul_diagonal, show (fun i => a i * b i) = fun _ => 1 from funext hab, Matrix.diagonal_one, Matrix.mul_one, h1]

/-- **C50 (bodies in space).** The mass matrices and inverse mass matrices of a new state, in the frames of the bodies and in the world frame, are inverse to each
other, whatever the masses, inertias and orientations and however many bodies there are. -/
theorem C50_inverse3 {K : Type} [Field K] (n : Nat) (M : Nat → K) (I0 : Nat → Fin 3 → K) (R : Nat → Matrix (Fin 3) (Fin 3) K) (hM : ∀ b < n, M b ≠ 0)
    (hI : ∀ b < n, ∀ d, I0 b d ≠ 0) (hR : ∀ b < n, R b * (R b).transpose = 1) :
    ∃ s, buildMatrices n M I0 R = .ok s ∧
      s.M.toMatrix (6 * n) * s.Minv.toMatrix (6 * n) = 1 ∧ s.Minv.toMatrix (6 * n) * s.M.toMatrix (6 * n) = 1 ∧
      s.M0.toMatrix (6 * n) * s.Minv0.toMatrix (6 * n) = 1 ∧ s.Minv0.toMatrix (6 * n) * s.M0.toMatrix (6 * n) = 1 := by
  have hR' : ∀ b < n, (R b).transpose * R b = 1 := fun b hb => mul_eq_one_comm.mp (hR b hb)
  have hmass : ∀ (x y : Nat → K) (X Y : Nat → Matrix (Fin 3) (Fin 3) K), (∀ b < n, x b * y b = 1) → (∀ b < n, X b * Y b = 1) →
      ∀ b < 2 * n, worldBlock n x X b * worldBlock n y Y b = 1 := by
    intro x y X Y hxy hXY b hb
    unfold worldBlock
    by_cases h : b < n
    · rw [if_pos h, if_pos h, Matrix.diagonal_mul_diagonal, hxy b h, Matrix.diagonal_one]
    · rw [if_neg h, if_neg h]
      exact hXY _ (by omega)
  have hx : ∀ b < n, M b * (1 / M b) = 1 := fun b hb => mul_one_div_cancel (hM b hb)
  have hx' : ∀ b < n, 1 / M b * M b = 1 := fun b hb => by rw [mul_comm]; exact hx b hb
  refine ⟨_, buildMatrices_eq n M I0 R, ?_, ?_, ?_, ?_⟩
  · refine toMatrix_mul_blocks n _ _ _ _ (worldColumns_lookup n _ _) (worldColumns_lookup n _ _) (hmass _ _ _ _ hx' fun b hb => ?_)
    exact conj_inverse _ _ _ (hR b hb) (hR' b hb) fun d => inv_mul_cancel₀ (hI b hb d)
  · refine toMatrix_mul_blocks n _ _ _ _ (worldColumns_lookup n _ _) (worldColumns_lookup n _ _) (hmass _ _ _ _ hx fun b hb => ?_)
    exact conj_inverse _ _ _ (hR b hb) (hR' b hb) fun d => mul_inv_cancel₀ (hI b hb d)
  · refine toMatrix_mul_blocks n _ _ _ _ (bodyColumns_lookup n _ _) (bodyColumns_lookup n _ _) (hmass _ _ _ _ hx' fun b hb => ?_)
    rw [Matrix.diagonal_mul_diagonal, show (fun d => 1 / I0 b d * I0 b d) = fun _ => 1 from funext fun d => one_div_mul_cancel (hI b hb d), Matrix.diagonal_one]
  · refine toMatrix_mul_blocks n _ _ _ _ (bodyColumns_lookup n _ _) (bodyColumns_lookup n _ _) (hmass _ _ _ _ hx fun b hb => ?_)
    rw [Matrix.diagonal_mul_diagonal, show (fun d => I0 b d * (1 / I0 b d)) = fun _ => 1 from funext fun d => mul_one_div_cancel (hI b hb d), Matrix.diagonal_one]

/-! ## Updates -/

theorem write_ok {K : Type} (A : Csc K) (i : Nat) (x : K) (h : i < A.vals.length) :
    ∃ v, A.write i x = .ok { A with vals := v } ∧ v.length = A.vals.length ∧ ∀ p, v[p]? = if p = i then some x else A.vals[p]? := by
  refine ⟨A.vals.set i x, ?_, by simp, ?_⟩
  · unfold Csc.write
    rw [if_pos h]
  · intro p
    by_cases hp : p = i
    · subst hp
      rw [if_pos rfl, List.getElem?_set_self h]
    · rw [if_neg hp, List.getElem?_set_ne (fun hc => hp hc.symm)]

theorem write3_ok {K : Type} (A : Csc K) (i : Nat) (x : Fin 3 → K) (h : i + 3 ≤ A.vals.length) :
    ∃ v, A.write3 i x = .ok { A with vals := v } ∧ v.length = A.vals.length ∧ ∀ p, v[p]? = if i ≤ p ∧ p < i + 3 then some (x (fin3 (p - i))) else A.vals[p]? := by
  obtain ⟨v1, h1, l1, g1⟩ := write_ok A i (x 0) (by omega)
  obtain ⟨v2, h2, l2, g2⟩ := write_ok { A with vals := v1 } (i + 1) (x 1) (by simp only; omega)
  obtain ⟨v3, h3, l3, g3⟩ := write_ok { A with vals := v2 } (i + 2) (x 2) (by simp only at l2 ⊢; omega)
  refine ⟨v3, ?_, by simp only at l2 l3; omega, ?_⟩
  · unfold Csc.write3
    rw [h1]
    simp only [Outcome.bind]
    rw [h2]
    exact h3
  · intro p
    rw [g3, g2, g1]
    by_cases hp : i ≤ p ∧ p < i + 3
    · rw [if_pos hp]
      have : p = i ∨ p = i + 1 ∨ p = i + 2 := by omega
      rcases this with rfl | rfl | rfl
      · rw [if_neg (by omega), if_neg (by omega), if_pos rfl, Nat.sub_self]; rfl
      · rw [if_neg (by omega), if_pos rfl, Nat.add_sub_cancel_left]; rfl
      · rw [if_pos rfl, Nat.add_sub_cancel_left]; rfl
    · rw [if_neg hp, if_neg (by omega), if_neg (by omega), if_neg (by omega)]

theorem write33c_ok {K : Type} (A : Csc K) (i : Nat) (X : Matrix (Fin 3) (Fin 3) K) (h : i + 9 ≤ A.vals.length) :
    ∃ v, A.write33c i X = .ok { A with vals := v } ∧ v.length = A.vals.length ∧
      ∀ p, v[p]? = if i ≤ p ∧ p < i + 9 then some (X (fin3 (p - i)) (fin3 ((p - i) / 3))) else A.vals[p]? := by
  obtain ⟨v1, h1, l1, g1⟩ := write3_ok A i (fun r => X r 0) (by omega)
  obtain ⟨v2, h2, l2, g2⟩ := write3_ok { A with vals := v1 } (i + 3) (fun r => X r 1) (by simp only; omega)
  obtain ⟨v3, h3, l3, g3⟩ := write3_ok { A with vals := v2 } (i + 6) (fun r => X r 2) (by simp only at l2 ⊢; omega)
  refine ⟨v3, ?_, by simp only at l2 l3; omega, ?_⟩
  · unfold Csc.write33c
    rw [h1]
    simp only [Outcome.bind]
    rw [h2]
    exact h3
  · intro p
    rw [g3, g2, g1]
    by_cases hp : i ≤ p ∧ p < i + 9
    · rw [if_pos hp]
      by_cases a1 : p < i + 3
      · rw [if_neg (by omega), if_neg (by omega), if_pos (by omega)]
        have : fin3 ((p - i) / 3) = 0 := by apply Fin.ext; show (p - i) / 3 % 3 = 0; omega
        rw [this]
      · by_cases a2 : p < i + 6
        · rw [if_neg (by omega), if_pos (by omega)]
          have e1 : fin3 ((p - i) / 3) = 1 := by apply Fin.ext; show (p - i) / 3 % 3 = 1; omega
          have e2 : fin3 (p - (i + 3)) = fin3 (p - i) := by rw [fin3_eq_iff]; omega
          rw [e1, e2]
        · rw [if_pos (by omega)]
          have e1 : fin3 ((p - i) / 3) = 2 := by apply Fin.ext; show (p - i) / 3 % 3 = 2; omega
          have e2 : fin3 (p - (i + 6)) = fin3 (p - i) := by rw [fin3_eq_iff]; omega
          rw [e1, e2]
    · rw [if_neg hp, if_neg (by omega), if_neg (by omega), if_neg (by omega)]

theorem overBodies_rel {σ : Type} (f : Nat → σ → Outcome σ) (n : Nat) (s : σ) (P : Nat → σ → Prop) (h0 : P 0 s)
    (hstep : ∀ k < n, ∀ s, P k s → ∃ s', f k s = .ok s' ∧ P (k + 1) s') : ∃ s', overBodies f (List.range n) s = .ok s' ∧ P n s' := by
  induction n with
  | zero => exact ⟨s, rfl, h0⟩
  | succ n ih =>
    obtain ⟨s1, h1, p1⟩ := ih fun k hk => hstep k (by omega)
    obtain ⟨s2, h2, p2⟩ := hstep n (by omega) s1 p1
    exact ⟨s2, by rw [overBodies_succ, h1]; exact h2, p2⟩

theorem map3_body {K : Type} [Field K] (n : Nat) (m : Nat → K) (x : Nat → Fin 3 → K) (b : Nat) (hb : b < n) :
    (compress (6 * n) ((List.range (6 * n)).map (bodyColumns n m x))).map3 (3 * n + 3 * b) = .ok (x b) := by
  unfold Csc.map3 Csc.value
  rw [body_vals_get n m x (3 * b) (by omega), show 3 * n + 3 * b + 1 = 3 * n + (3 * b + 1) by omega, show 3 * n + 3 * b + 2 = 3 * n + (3 * b + 2) by omega,
    body_vals_get n m x (3 * b + 1) (by omega), body_vals_get n m x (3 * b + 2) (by omega)]
  simp only [Outcome.bind]
  congr 1
  have e0 : 3 * b / 3 = b := by omega
  have e1 : (3 * b + 1) / 3 = b := by omega
  have e2 : (3 * b + 2) / 3 = b := by omega
  have f0 : fin3 (3 * b) = 0 := by apply Fin.ext; show 3 * b % 3 = 0; omega
  have f1 : fin3 (3 * b + 1) = 1 := by apply Fin.ext; show (3 * b + 1) % 3 = 1; omega
  have f2 : fin3 (3 * b + 2) = 2 := by apply Fin.ext; show (3 * b + 2) % 3 = 2; omega
  rw [e0, e1, e2, f0, f1, f2]
  funext d
  fin_cases d <;> rfl

theorem conj_symm {K : Type} [Field K] (R : Matrix (Fin 3) (Fin 3) K) (a : Fin 3 → K) (i j : Fin 3) :
    (R * Matrix.diagonal a * R.transpose) i j = (R * Matrix.diagonal a * R.transpose) j i := by
  have : (R * Matrix.diagonal a * R.transpose).transpose = R * Matrix.diagonal a * R.transpose := by
    rw [Matrix.transpose_mul, Matrix.transpose_mul, Matrix.transpose_transpose, Matrix.diagonal_transpose, Matrix.mul_assoc]
  exact congrFun (congrFun this j) i

/-- A matrix of the shape of a world space matrix, all of whose values are those of another -/
theorem world_ext {K : Type} (n : Nat) (m : Nat → K) (X X' : Nat → Matrix (Fin 3) (Fin 3) K) (v : List K)
    (hv : ∀ p : Nat, v[p]? = (compress (6 * n) ((List.range (6 * n)).map (worldColumns n m X'))).vals[p]?) :
    { compress (6 * n) ((List.range (6 * n)).map (worldColumns n m X)) with vals := v } = compress (6 * n) ((List.range (6 * n)).map (worldColumns n m X')) := by
  obtain ⟨h1, h2⟩ := compress_shape (6 * n) (6 * n) (worldColumns n m X) (worldColumns n m X') (worldColumns_map_fst n m m X X')
  have h3 : v = (compress (6 * n) ((List.range (6 * n)).map (worldColumns n m X'))).vals := List.ext_getElem? hv
  have hc : (compress (6 * n) ((List.range (6 * n)).map (worldColumns n m X))).cols = (compress (6 * n) ((List.range (6 * n)).map (worldColumns n m X'))).cols := by
    simp [compress]
  show (⟨_, _, _, _, v⟩ : Csc K) = ⟨_, _, _, _, _⟩
  exact congr (congr (congr (congr (congrArg Csc.mk rfl) hc) h1) h2) h3

/-- **C50 (updates).** Updating the matrices of a state after the bodies have turned gives exactly the matrices of a new state with the new orientations, to
which `C50_inverse3` and `C50_bodies` apply. By induction, this holds after any number of updates. -/
theorem C50_update {K : Type} [Field K] (n : Nat) (M : Nat → K) (I0 : Nat → Fin 3 → K) (R R' : Nat → Matrix (Fin 3) (Fin 3) K) :
    (buildMatrices n M I0 R).bind (updateMandMinv R') = buildMatrices n M I0 R' := by
  rw [buildMatrices_eq, buildMatrices_eq]
  simp only [Outcome.bind]
  set Xo : Nat → Matrix (Fin 3) (Fin 3) K := fun b => R b * Matrix.diagonal (I0 b) * (R b).transpose with hXo
  set Yo : Nat → Matrix (Fin 3) (Fin 3) K := fun b => R b * Matrix.diagonal (fun d => (I0 b d)⁻¹) * (R b).transpose with hYo
  set Xn : Nat → Matrix (Fin 3) (Fin 3) K := fun b => R' b * Matrix.diagonal (I0 b) * (R' b).transpose with hXn
  set Yn : Nat → Matrix (Fin 3) (Fin 3) K := fun b => R' b * Matrix.diagonal (fun d => (I0 b d)⁻¹) * (R' b).transpose with hYn
  set A := compress (6 * n) ((List.range (6 * n)).map (worldColumns n M Xo)) with hA
  set B := compress (6 * n) ((List.range (6 * n)).map (worldColumns n (fun b => 1 / M b) Yo)) with hB
  set M0 := compress (6 * n) ((List.range (6 * n)).map (bodyColumns n M I0)) with hM0
  set Mi0 := compress (6 * n) ((List.range (6 * n)).map (bodyColumns n (fun b => 1 / M b) fun b d => 1 / I0 b d)) with hMi0
  have hlenA : A.vals.length = 12 * n := by
    apply le_antisymm
    · by_contra hc
      have := world_vals_get n M Xo (12 * n)
      rw [if_neg (by omega), if_neg (by omega), List.getElem?_eq_none_iff] at this
      exact hc this
    · by_contra hc
      have := world_vals_get n M Xo (12 * n - 1)
      rw [if_neg (by omega), if_pos (by omega)] at this
      have h2 : A.vals[12 * n - 1]? = none := List.getElem?_eq_none (by omega)
      rw [hA, this] at h2
      cases h2
  have hlenB : B.vals.length = 12 * n := by
    apply le_antisymm
    · by_contra hc
      have := world_vals_get n (fun b => 1 / M b) Yo (12 * n)
      rw [if_neg (by omega), if_neg (by omega), List.getElem?_eq_none_iff] at this
      exact hc this
    · by_contra hc
      have := world_vals_get n (fun b => 1 / M b) Yo (12 * n - 1)
      rw [if_neg (by omega), if_pos (by omega)] at this
      have h2 : B.vals[12 * n - 1]? = none := List.getElem?_eq_none (by omega)
      rw [hB, this] at h2
      cases h2
  obtain ⟨s, hs, vA, vB, hsv, lA, lB, gA, gB⟩ := overBodies_rel (updateBody R') n ⟨n, M0, Mi0, A, B⟩
    (fun k s => ∃ vA vB, s = ⟨n, M0, Mi0, { A with vals := vA }, { B with vals := vB }⟩ ∧ vA.length = 12 * n ∧ vB.length = 12 * n ∧
      (∀ p, vA[p]? = if 3 * n ≤ p ∧ p < 3 * n + 9 * k then some (Xn ((p - 3 * n) / 9) (fin3 (p - 3 * n)) (fin3 ((p - 3 * n) / 3))) else A.vals[p]?) ∧
      (∀ p, vB[p]? = if 3 * n ≤ p ∧ p < 3 * n + 9 * k then some (Yn ((p - 3 * n) / 9) (fin3 (p - 3 * n)) (fin3 ((p - 3 * n) / 3))) else B.vals[p]?))
    ⟨A.vals, B.vals, rfl, hlenA, hlenB, fun p => by rw [if_neg (by omega)], fun p => by rw [if_neg (by omega)]⟩ (by
      rintro k hk s ⟨vA, vB, rfl, lA, lB, gA, gB⟩
      obtain ⟨vA', hA', lA', gA'⟩ := write33c_ok { A with vals := vA } (3 * n + 9 * k) (Xn k) (by simp only; omega)
      obtain ⟨vB', hB', lB', gB'⟩ := write33c_ok { B with vals := vB } (3 * n + 9 * k) (Yn k) (by simp only; omega)
      refine ⟨⟨n, M0, Mi0, { A with vals := vA' }, { B with vals := vB' }⟩, ?_, vA', vB', rfl, lA'.trans lA, lB'.trans lB, ?_, ?_⟩
      · unfold updateBody
        simp only
        rw [hM0, map3_body n M I0 k hk]
        simp only [Outcome.bind]
        rw [show R' k * Matrix.diagonal (I0 k) * (R' k).transpose = Xn k from rfl, hA']
        simp only
        rw [hMi0, map3_body n _ _ k hk]
        simp only
        have : R' k * Matrix.diagonal (fun d => 1 / I0 k d) * (R' k).transpose = Yn k := by
          rw [hYn]
          simp only [one_div]
        rw [this, hB']
      · intro p
        rw [gA']
        by_cases hp : 3 * n + 9 * k ≤ p ∧ p < 3 * n + 9 * k + 9
        · rw [if_pos hp, if_pos (by omega)]
          have e1 : (p - 3 * n) / 9 = k := by omega
          have e2 : fin3 (p - (3 * n + 9 * k)) = fin3 (p - 3 * n) := by rw [fin3_eq_iff]; omega
          have e3 : fin3 ((p - (3 * n + 9 * k)) / 3) = fin3 ((p - 3 * n) / 3) := by rw [fin3_eq_iff]; omega
          rw [e1, e2, e3]
        · rw [if_neg hp]
          simp only
          rw [gA]
          by_cases hq : 3 * n ≤ p ∧ p < 3 * n + 9 * k
          · rw [if_pos hq, if_pos (by omega)]
          · rw [if_neg hq, if_neg (by omega)]
      · intro p
        rw [gB']
        by_cases hp : 3 * n + 9 * k ≤ p ∧ p < 3 * n + 9 * k + 9
        · rw [if_pos hp, if_pos (by omega)]
          have e1 : (p - 3 * n) / 9 = k := by omega
          have e2 : fin3 (p - (3 * n + 9 * k)) = fin3 (p - 3 * n) := by rw [fin3_eq_iff]; omega
          have e3 : fin3 ((p - (3 * n + 9 * k)) / 3) = fin3 ((p - 3 * n) / 3) := by rw [fin3_eq_iff]; omega
          rw [e1, e2, e3]
        · rw [if_neg hp]
          simp only
          rw [gB]
          by_cases hq : 3 * n ≤ p ∧ p < 3 * n + 9 * k
          · rw [if_pos hq, if_pos (by omega)]
          · rw [if_neg hq, if_neg (by omega)])
  unfold updateMandMinv
  simp only
  rw [hs, hsv]
  congr 2
  · apply world_ext n M Xo Xn vA
    intro p
    rw [gA, world_vals_get n M Xn p, show A.vals[p]? = _ from world_vals_get n M Xo p]
    by_cases h1 : p < 3 * n
    · rw [if_neg (by omega), if_pos h1, if_pos h1]
    · by_cases h2 : p < 12 * n
      · rw [if_pos (by omega), if_neg h1, if_pos h2]
        exact congrArg some (conj_symm _ _ _ _)
      · rw [if_neg (by omega), if_neg h1, if_neg h2, if_neg h1, if_neg h2]
  · apply world_ext n (fun b => 1 / M b) Yo Yn vB
    intro p
    rw [gB, world_vals_get n (fun b => 1 / M b) Yn p, show B.vals[p]? = _ from world_vals_get n (fun b => 1 / M b) Yo p]
    by_cases h1 : p < 3 * n
    · rw [if_neg (by omega), if_pos h1, if_pos h1]
    · by_cases h2 : p < 12 * n
      · rw [if_pos (by omega), if_neg h1, if_pos h2]
        exact congrArg some (conj_symm _ _ _ _)
      · rw [if_neg (by omega), if_neg h1, if_neg h2, if_neg h1, if_neg h2]

/-! ## Energy and momentum of bodies in space -/

/-- The integral of a polynomial of degree two over a body -/
theorem body_integral {ν : Measure Vec3} {m : ℝ} {I0 : Vec3} (h : BodyMass ν m I0) (c : ℝ) (a : Fin 3 → ℝ) (B : Fin 3 → Fin 3 → ℝ) :
    ∫ y, (c + ∑ i, a i * y i + ∑ i, ∑ j, B i j * (y i * y j)) ∂ν = c * m + ∑ i, B i i * ∫ y, y i * y i ∂ν := by
  haveI := h.finite
  have h1 : Integrable (fun y : Vec3 => ∑ i, a i * y i) ν := integrable_finsetSum _ fun i _ => (h.linear i).const_mul (a i)
  have h2 : ∀ i, Integrable (fun y : Vec3 => ∑ j, B i j * (y i * y j)) ν := fun i => integrable_finsetSum _ fun j _ => (h.quadratic i j).const_mul (B i j)
  have h3 : Integrable (fun y : Vec3 => ∑ i, ∑ j, B i j * (y i * y j)) ν := integrable_finsetSum _ fun i _ => h2 i
  have h4 : Integrable (fun y : Vec3 => c + ∑ i, a i * y i) ν := (integrable_const c).add h1
  rw [integral_add h4 h3, integral_add (integrable_const c) h1, integral_const, smul_eq_mul, h.mass,
    integral_finsetSum _ fun i _ => (h.linear i).const_mul (a i), integral_finsetSum _ fun i _ => h2 i]
  have z1 : ∑ i, ∫ y, a i * y i ∂ν = 0 := by
    apply Finset.sum_eq_zero
    intro i _
    rw [integral_const_mul, h.centre i, mul_zero]
  have z2 : ∀ i, ∫ y, ∑ j, B i j * (y i * y j) ∂ν = B i i * ∫ y, y i * y i ∂ν := by
    intro i
    rw [integral_finsetSum _ fun j _ => (h.quadratic i j).const_mul (B i j), Finset.sum_eq_single i]
    · rw [integral_const_mul]
    · intro j _ hj
      rw [integral_const_mul, h.products i j (fun hc => hj hc.symm), mul_zero]
    · intro hc
      exact absurd (Finset.mem_univ i) hc
  rw [z1, Finset.sum_congr rfl fun i _ => z2 i]
  ring

/-- The moments of inertia in terms of the second moments -/
theorem body_inertia {ν : Measure Vec3} {m : ℝ} {I0 : Vec3} (h : BodyMass ν m I0) (i : Fin 3) :
    I0 i = (∫ y, y 0 * y 0 ∂ν) + (∫ y, y 1 * y 1 ∂ν) + (∫ y, y 2 * y 2 ∂ν) - ∫ y, y i * y i ∂ν := by
  rw [h.inertia i]
  simp only [pow_two]
  have h1 : Integrable (fun y : Vec3 => y 0 * y 0 + y 1 * y 1) ν := (h.quadratic 0 0).add (h.quadratic 1 1)
  have h2 : Integrable (fun y : Vec3 => y 0 * y 0 + y 1 * y 1 + y 2 * y 2) ν := h1.add (h.quadratic 2 2)
  rw [integral_sub h2 (h.quadratic i i), integral_add h1 (h.quadratic 2 2), integral_add (h.quadratic 0 0) (h.quadratic 1 1)]

theorem mat3_orthogonal_rows {R : Mat3} (h : R * R.transpose = 1) (i j : Fin 3) :
    R i 0 * R j 0 + R i 1 * R j 1 + R i 2 * R j 2 = if i = j then 1 else 0 := by
  have := congrFun (congrFun h i) j
  rwa [Matrix.mul_apply, Fin.sum_univ_three, Matrix.one_apply] at this

theorem mat3_orthogonal_columns {R : Mat3} (h : R * R.transpose = 1) (i j : Fin 3) :
    R 0 i * R 0 j + R 1 i * R 1 j + R 2 i * R 2 j = if i = j then 1 else 0 := by
  have h' : R.transpose * R = 1 := mul_eq_one_comm.mp h
  have := congrFun (congrFun h' i) j
  rwa [Matrix.mul_apply, Fin.sum_univ_three, Matrix.one_apply] at this

theorem conj_apply (R : Mat3) (a : Vec3) (i j : Fin 3) :
    (R * Matrix.diagonal a * R.transpose) i j = R i 0 * a 0 * R j 0 + R i 1 * a 1 * R j 1 + R i 2 * a 2 * R j 2 := by
  rw [Matrix.mul_apply, Fin.sum_univ_three]
  simp only [Matrix.mul_diagonal, Matrix.transpose_apply]

/-- The kinetic energy of a body: that of its centre of mass and that of its rotation -/
theorem bodyKineticEnergy_eq {ν : Measure Vec3} {m : ℝ} {I0 : Vec3} (h : BodyMass ν m I0) (R : Mat3) (hR : R * R.transpose = 1) (v w : Vec3) :
    bodyKineticEnergy ν R v w = 1 / 2 * (m * (v ⬝ᵥ v)) + 1 / 2 * (w ⬝ᵥ ((R * Matrix.diagonal I0 * R.transpose) *ᵥ w)) := by
  set C : Fin 3 → Fin 3 → ℝ := fun k j => crossProduct w (fun i => R i j) k with hC
  have hexp : ∀ y : Vec3, ∀ k, pointVelocity R v w y k = v k + (C k 0 * y 0 + C k 1 * y 1 + C k 2 * y 2) := by
    intro y k
    fin_cases k <;> simp [pointVelocity, hC, cross_apply, Matrix.mulVec, dotProduct, Fin.sum_univ_three] <;> ring
  have hint := body_integral h (1 / 2 * (v ⬝ᵥ v)) (fun j => v 0 * C 0 j + v 1 * C 1 j + v 2 * C 2 j)
    (fun i j => 1 / 2 * (C 0 i * C 0 j + C 1 i * C 1 j + C 2 i * C 2 j))
  have heq : bodyKineticEnergy ν R v w = ∫ y, (1 / 2 * (v ⬝ᵥ v) + ∑ j, (v 0 * C 0 j + v 1 * C 1 j + v 2 * C 2 j) * y j +
      ∑ i, ∑ j, 1 / 2 * (C 0 i * C 0 j + C 1 i * C 1 j + C 2 i * C 2 j) * (y i * y j)) ∂ν := by
    unfold bodyKineticEnergy
    congr 1
    funext y
    simp only [dotProduct, Fin.sum_univ_three, hexp]
    ring
  rw [heq, hint, Fin.sum_univ_three]
  have hcc : ∀ i, C 0 i * C 0 i + C 1 i * C 1 i + C 2 i * C 2 i =
      (w 0 ^ 2 + w 1 ^ 2 + w 2 ^ 2) - (w 0 * R 0 i + w 1 * R 1 i + w 2 * R 2 i) ^ 2 := by
    intro i
    have := mat3_orthogonal_columns hR i i
    rw [if_pos rfl] at this
    simp only [hC, cross_apply, Matrix.cons_val_zero, Matrix.cons_val_one, Matrix.cons_val]
    linear_combination (w 0 ^ 2 + w 1 ^ 2 + w 2 ^ 2) * this
  rw [hcc, hcc, hcc]
  simp only [dotProduct, Matrix.mulVec, Fin.sum_univ_three, conj_apply, body_inertia h]
  generalize (∫ y, y 0 * y 0 ∂ν) = s0
  generalize (∫ y, y 1 * y 1 ∂ν) = s1
  generalize (∫ y, y 2 * y 2 ∂ν) = s2
  have r00 := mat3_orthogonal_rows hR 0 0
  have r11 := mat3_orthogonal_rows hR 1 1
  have r22 := mat3_orthogonal_rows hR 2 2
  have r01 := mat3_orthogonal_rows hR 0 1
  have r02 := mat3_orthogonal_rows hR 0 2
  have r12 := mat3_orthogonal_rows hR 1 2
  simp only [if_true, show ((0 : Fin 3) = 1) = False by decide, show ((0 : Fin 3) = 2) = False by decide, show ((1 : Fin 3) = 2) = False by decide, if_false] at r00 r11 r22 r01 r02 r12
  linear_combination (-1 / 2 * (s0 + s1 + s2)) * (w 0 ^ 2 * r00 + w 1 ^ 2 * r11 + w 2 ^ 2 * r22 + 2 * w 0 * w 1 * r01 + 2 * w 0 * w 2 * r02 + 2 * w 1 * w 2 * r12)

/-- The momentum of a body -/
theorem bodyMomentum_eq {ν : Measure Vec3} {m : ℝ} {I0 : Vec3} (h : BodyMass ν m I0) (R : Mat3) (v w : Vec3) : bodyMomentum ν R v w = m • v := by
  funext k
  have hint := body_integral h (v k) (fun j => crossProduct w (fun i => R i j) k) (fun _ _ => 0)
  simp only [zero_mul, Finset.sum_const_zero, add_zero] at hint
  rw [Pi.smul_apply, smul_eq_mul, mul_comm, ← hint]
  unfold bodyMomentum
  congr 1
  funext y
  fin_cases k <;> simp [pointVelocity, cross_apply, Matrix.mulVec, dotProduct, Fin.sum_univ_three] <;> ring

/-- The angular momentum of a body: that of its centre of mass and that of its rotation -/
theorem bodyAngularMomentum_eq {ν : Measure Vec3} {m : ℝ} {I0 : Vec3} (h : BodyMass ν m I0) (R : Mat3) (hR : R * R.transpose = 1) (x v w : Vec3) :
    bodyAngularMomentum ν R x v w = m • crossProduct x v + (R * Matrix.diagonal I0 * R.transpose) *ᵥ w := by
  have r00 := mat3_orthogonal_rows hR 0 0
  have r11 := mat3_orthogonal_rows hR 1 1
  have r22 := mat3_orthogonal_rows hR 2 2
  have r01 := mat3_orthogonal_rows hR 0 1
  have r02 := mat3_orthogonal_rows hR 0 2
  have r12 := mat3_orthogonal_rows hR 1 2
  simp only [if_true, show ((0 : Fin 3) = 1) = False by decide, show ((0 : Fin 3) = 2) = False by decide, show ((1 : Fin 3) = 2) = False by decide, if_false] at r00 r11 r22 r01 r02 r12
  have hcol : ∀ j, R 0 j * R 0 j + R 1 j * R 1 j + R 2 j * R 2 j = 1 := fun j => by simpa using mat3_orthogonal_columns hR j j
  have c0 := hcol 0
  have c1 := hcol 1
  have c2 := hcol 2
  set C : Fin 3 → Fin 3 → ℝ := fun k j => crossProduct w (fun i => R i j) k with hC
  have hexp : ∀ y : Vec3, ∀ k, pointVelocity R v w y k = v k + (C k 0 * y 0 + C k 1 * y 1 + C k 2 * y 2) := by
    intro y k
    fin_cases k <;> simp [pointVelocity, hC, cross_apply, Matrix.mulVec, dotProduct, Fin.sum_univ_three] <;> ring
  have hRy : ∀ y : Vec3, ∀ k, (x + R *ᵥ y) k = x k + (R k 0 * y 0 + R k 1 * y 1 + R k 2 * y 2) := by
    intro y k
    simp [Matrix.mulVec, dotProduct, Fin.sum_univ_three]
  have key : ∀ p q k : Fin 3, (∀ a b : Vec3, crossProduct a b k = a p * b q - a q * b p) →
      bodyAngularMomentum ν R x v w k = (x p * v q - x q * v p) * m + ∑ i, (R p i * C q i - R q i * C p i) * ∫ y, y i * y i ∂ν := by
    intro p q k hk
    have hint := body_integral h (x p * v q - x q * v p) (fun j => x p * C q j + R p j * v q - (x q * C p j + R q j * v p))
      (fun i j => R p i * C q j - R q i * C p j)
    rw [← hint]
    unfold bodyAngularMomentum
    congr 1
    funext y
    rw [hk, hRy, hRy, hexp, hexp]
    simp only [Fin.sum_univ_three]
    ring
  funext k
  rw [Pi.add_apply, Pi.smul_apply, smul_eq_mul]
  simp only [dotProduct, Matrix.mulVec, Fin.sum_univ_three, conj_apply, body_inertia h]
  fin_cases k
  · rw [show ((⟨0, by omega⟩ : Fin 3)) = 0 from rfl, key 1 2 0 (fun a b => by simp [cross_apply]), Fin.sum_univ_three]
    simp only [hC, cross_apply, Matrix.cons_val_zero, Matrix.cons_val_one, Matrix.cons_val]
    generalize (∫ y, y 0 * y 0 ∂ν) = s0
    generalize (∫ y, y 1 * y 1 ∂ν) = s1
    generalize (∫ y, y 2 * y 2 ∂ν) = s2
    linear_combination (-(s0 + s1 + s2)) * (w 0 * r00 + w 1 * r01 + w 2 * r02) + w 0 * (s0 * c0 + s1 * c1 + s2 * c2)
  · rw [show ((⟨1, by omega⟩ : Fin 3)) = 1 from rfl, key 2 0 1 (fun a b => by simp [cross_apply]), Fin.sum_univ_three]
    simp only [hC, cross_apply, Matrix.cons_val_zero, Matrix.cons_val_one, Matrix.cons_val]
    generalize (∫ y, y 0 * y 0 ∂ν) = s0
    generalize (∫ y, y 1 * y 1 ∂ν) = s1
    generalize (∫ y, y 2 * y 2 ∂ν) = s2
    linear_combination (-(s0 + s1 + s2)) * (w 0 * r01 + w 1 * r11 + w 2 * r12) + w 1 * (s0 * c0 + s1 * c1 + s2 * c2)
  · rw [show ((⟨2, by omega⟩ : Fin 3)) = 2 from rfl, key 0 1 2 (fun a b => by simp [cross_apply]), Fin.sum_univ_three]
    simp only [hC, cross_apply, Matrix.cons_val_zero, Matrix.cons_val_one, Matrix.cons_val]
    generalize (∫ y, y 0 * y 0 ∂ν) = s0
    generalize (∫ y, y 1 * y 1 ∂ν) = s1
    generalize (∫ y, y 2 * y 2 ∂ν) = s2
    linear_combination (-(s0 + s1 + s2)) * (w 0 * r02 + w 1 * r12 + w 2 * r22) + w 2 * (s0 * c0 + s1 * c1 + s2 * c2)

theorem overBodies_sum {V : Type} [AddCommMonoid V] (f : Nat → V → Outcome V) (x : Nat → V) (n : Nat) (s : V) (h : ∀ b < n, ∀ p, f b p = .ok (p + x b)) :
    overBodies f (List.range n) s = .ok (s + ∑ b ∈ Finset.range n, x b) := by
  obtain ⟨s', h1, h2⟩ := overBodies_rel f n s (fun k p => p = s + ∑ b ∈ Finset.range k, x b) (by simp) (by
    rintro k hk p rfl
    exact ⟨_, h k hk _, by rw [Finset.sum_range_succ, add_assoc]⟩)
  rw [h1, h2]

theorem world_value {K : Type} [Field K] (n : Nat) (m : Nat → K) (X : Nat → Matrix (Fin 3) (Fin 3) K) (b : Nat) (hb : b < n) :
    (compress (6 * n) ((List.range (6 * n)).map (worldColumns n m X))).value (3 * b) = .ok (m b) := by
  unfold Csc.value
  rw [world_vals_get, if_pos (by omega)]
  simp only
  congr 2
  omega

theorem world_map33r {K : Type} [Field K] (n : Nat) (m : Nat → K) (X : Nat → Matrix (Fin 3) (Fin 3) K) (b : Nat) (hb : b < n) :
    (compress (6 * n) ((List.range (6 * n)).map (worldColumns n m X))).map33r (3 * n + 9 * b) = .ok (X b) := by
  have e : ∀ c : Fin 3, (compress (6 * n) ((List.range (6 * n)).map (worldColumns n m X))).map3 (3 * n + 9 * b + 3 * c) = .ok (X b c) := by
    intro c
    have hc := c.2
    unfold Csc.map3 Csc.value
    rw [world_vals_get, world_vals_get, world_vals_get, if_neg (by omega), if_pos (by omega), if_neg (by omega), if_pos (by omega), if_neg (by omega), if_pos (by omega)]
    simp only [Outcome.bind]
    congr 1
    have e0 : (3 * n + 9 * b + 3 * (c : Nat) - 3 * n) / 9 = b := by omega
    have e1 : (3 * n + 9 * b + 3 * (c : Nat) + 1 - 3 * n) / 9 = b := by omega
    have e2 : (3 * n + 9 * b + 3 * (c : Nat) + 2 - 3 * n) / 9 = b := by omega
    have f0 : fin3 ((3 * n + 9 * b + 3 * (c : Nat) - 3 * n) / 3) = c := by apply Fin.ext; show _ % 3 = _; omega
    have f1 : fin3 ((3 * n + 9 * b + 3 * (c : Nat) + 1 - 3 * n) / 3) = c := by apply Fin.ext; show _ % 3 = _; omega
    have f2 : fin3 ((3 * n + 9 * b + 3 * (c : Nat) + 2 - 3 * n) / 3) = c := by apply Fin.ext; show _ % 3 = _; omega
    have g0 : fin3 (3 * n + 9 * b + 3 * (c : Nat) - 3 * n) = 0 := by apply Fin.ext; show _ % 3 = 0; omega
    have g1 : fin3 (3 * n + 9 * b + 3 * (c : Nat) + 1 - 3 * n) = 1 := by apply Fin.ext; show _ % 3 = 1; omega
    have g2 : fin3 (3 * n + 9 * b + 3 * (c : Nat) + 2 - 3 * n) = 2 := by apply Fin.ext; show _ % 3 = 2; omega
    rw [e0, e1, e2, f0, f1, f2, g0, g1, g2]
    funext d
    fin_cases d <;> rfl
  have e0 := e 0
  have e1 := e 1
  have e2 := e 2
  simp only [Fin.val_zero, Fin.val_one, Fin.val_two, mul_zero, add_zero, mul_one] at e0 e1 e2
  unfold Csc.map33r
  rw [e0, e1, e2]
  simp only [Outcome.bind]
  congr 1
  ext i j
  fin_cases i <;> rfl

theorem worldColumns_nodup {K : Type} (n : Nat) (m : Nat → K) (X : Nat → Matrix (Fin 3) (Fin 3) K) (j : Nat) : ((worldColumns n m X j).map (·.1)).Nodup := by
  unfold worldColumns blockColumn
  by_cases h : j < 3 * n
  · rw [if_pos h]; simp
  · rw [if_neg h]; simp

/-- **C50 (energy and momentum in space).** The kinetic energy, momentum and angular momentum that are reported for rigid bodies are the sums of those of the bodies,
as integrals over the bodies. The matrices are those of a new state, and by `C50_update` also those of a state after any number of updates. -/
theorem C50_bodies (n : Nat) (M : Nat → ℝ) (I0 : Nat → Vec3) (R : Nat → Mat3) (hR : ∀ b < n, R b * (R b).transpose = 1) (ν : Nat → Measure Vec3)
    (hν : ∀ b < n, BodyMass (ν b) (M b) (I0 b)) (q v : Nat → ℝ) :
    ∃ s, buildMatrices n M I0 R = .ok s ∧
      kineticEnergyOf s.M v = .ok (∑ b ∈ Finset.range n, bodyKineticEnergy (ν b) (R b) (segment3 v (3 * b)) (segment3 v (3 * n + 3 * b))) ∧
      rb3Momentum s.M v n = .ok (∑ b ∈ Finset.range n, bodyMomentum (ν b) (R b) (segment3 v (3 * b)) (segment3 v (3 * n + 3 * b))) ∧
      rb3AngularMomentum s.M q v n =
        .ok (∑ b ∈ Finset.range n, bodyAngularMomentum (ν b) (R b) (segment3 q (3 * b)) (segment3 v (3 * b)) (segment3 v (3 * n + 3 * b))) := by
  refine ⟨_, buildMatrices_eq n M I0 R, ?_, ?_, ?_⟩
  · simp only
    rw [kineticEnergyOf_eq (6 * n) (6 * n) _ v (fun j _ => worldColumns_nodup n _ _ j)]
    congr 1
    simp only [worldColumns_lookup]
    rw [show 6 * n = 3 * (2 * n) by omega, block_form, show 2 * n = n + n by omega, Finset.sum_range_add, ← Finset.sum_add_distrib, Finset.mul_sum]
    apply Finset.sum_congr rfl
    intro b hb
    have hb' := Finset.mem_range.mp hb
    rw [bodyKineticEnergy_eq (hν b hb') _ (hR b hb')]
    unfold worldBlock
    rw [if_pos hb', if_neg (by omega), Nat.add_sub_cancel_left, show 3 * (n + b) = 3 * n + 3 * b by omega]
    have : segment3 v (3 * b) ⬝ᵥ ((Matrix.diagonal fun _ => M b) *ᵥ segment3 v (3 * b)) = M b * (segment3 v (3 * b) ⬝ᵥ segment3 v (3 * b)) := by
      simp only [dotProduct, Matrix.mulVec_diagonal, Fin.sum_univ_three]
      ring
    rw [this]
    ring
  · unfold rb3Momentum
    rw [overBodies_sum _ (fun b => bodyMomentum (ν b) (R b) (segment3 v (3 * b)) (segment3 v (3 * n + 3 * b))), zero_add]
    intro b hb p
    simp only
    rw [world_value n _ _ b hb, bodyMomentum_eq (hν b hb)]
    rfl
  · unfold rb3AngularMomentum
    rw [overBodies_sum _ (fun b => M b • crossProduct (segment3 q (3 * b)) (segment3 v (3 * b)))]
    · simp only [Outcome.bind]
      rw [overBodies_sum _ (fun b => (R b * Matrix.diagonal (I0 b) * (R b).transpose) *ᵥ segment3 v (3 * n + 3 * b)), zero_add, ← Finset.sum_add_distrib]
      · congr 1
        apply Finset.sum_congr rfl
        intro b hb
        have hb' := Finset.mem_range.mp hb
        rw [bodyAngularMomentum_eq (hν b hb') _ (hR b hb')]
      · intro b hb p
        rw [world_map33r n _ _ b hb]
    · intro b hb p
      simp only
      rw [world_value n _ _ b hb]
      rfl

/-- **C50 (any number of updates).** After any sequence of updates the matrices are those of a new state with the last orientations. -/
theorem C50_updates {K : Type} [Field K] (n : Nat) (M : Nat → K) (I0 : Nat → Fin 3 → K) (Rs : List (Nat → Matrix (Fin 3) (Fin 3) K)) (R : Nat → Matrix (Fin 3) (Fin 3) K) :
    Rs.foldl (fun s R' => s.bind (updateMandMinv R')) (buildMatrices n M I0 R) = buildMatrices n M I0 (Rs.getLastD R) := by
  induction Rs generalizing R with
  | nil => rfl
  | cons R' Rs ih =>
    rw [List.foldl_cons, C50_update, ih, List.getLastD_cons]

/-! ## Examples -/

/-- A body of six point masses on its axes -/
noncomputable def sixPoints : List Vec3 := [![1, 0, 0], ![-1, 0, 0], ![0, 2, 0], ![0, -2, 0], ![0, 0, 3], ![0, 0, -3]]

noncomputable def pointMasses {α : Type} [MeasurableSpace α] (l : List α) : Measure α := (l.map Measure.dirac).sum

theorem pointMasses_integral {α : Type} [MeasurableSpace α] [MeasurableSingletonClass α] (l : List α) (f : α → ℝ) :
    Integrable f (pointMasses l) ∧ ∫ y, f y ∂(pointMasses l) = (l.map f).sum := by
  induction l with
  | nil => exact ⟨integrable_zero_measure, integral_zero_measure f⟩
  | cons a l ih =>
    have h1 : pointMasses (a :: l) = Measure.dirac a + pointMasses l := by simp [pointMasses]
    have h2 : Integrable f (Measure.dirac a) := integrable_dirac (by simp)
    rw [h1]
    exact ⟨h2.add_measure ih.1, by rw [integral_add_measure h2 ih.1, integral_dirac, ih.2]; simp⟩

theorem pointMasses_mass {α : Type} [MeasurableSpace α] [MeasurableSingletonClass α] (l : List α) : pointMasses l Set.univ = l.length := by
  induction l with
  | nil => simp [pointMasses]
  | cons a l ih =>
    have h1 : pointMasses (a :: l) = Measure.dirac a + pointMasses l := by simp [pointMasses]
    rw [h1, Measure.add_apply, ih]
    simp [add_comm]

/-- The hypotheses of `C50_bodies` hold for a body with three different moments of inertia. -/
example : BodyMass (pointMasses sixPoints) 6 ![26, 20, 10] where
  finite := ⟨by rw [pointMasses_mass]; exact ENNReal.natCast_lt_top _⟩
  linear i := (pointMasses_integral _ _).1
  quadratic i j := (pointMasses_integral _ _).1
  mass := by rw [Measure.real, pointMasses_mass]; simp [sixPoints]
  centre i := by rw [(pointMasses_integral _ _).2]; fin_cases i <;> simp [sixPoints]
  inertia i := by rw [(pointMasses_integral _ _).2]; fin_cases i <;> simp [sixPoints] <;> norm_num
  products i j h := by
    rw [(pointMasses_integral _ _).2]
    fin_cases i <;> fin_cases j <;> simp [sixPoints] at h ⊢

/-- The hypotheses of `C50_plates` hold for a dumbbell. -/
example : PlateMass (pointMasses [((1 : ℝ), (2 : ℝ)), (-1, -2)]) 2 10 where
  finite := ⟨by rw [pointMasses_mass]; exact ENNReal.natCast_lt_top _⟩
  linear1 := (pointMasses_integral _ _).1
  linear2 := (pointMasses_integral _ _).1
  quadratic := (pointMasses_integral _ _).1
  mass := by rw [Measure.real, pointMasses_mass]; simp
  centre1 := by rw [(pointMasses_integral _ _).2]; simp
  centre2 := by rw [(pointMasses_integral _ _).2]; simp
  inertia := by rw [(pointMasses_integral _ _).2]; norm_num

/-- A quarter turn about the third axis satisfies the hypotheses, and the update moves the moments of inertia: the matrix of a body with moments 1, 2, 3 that has
made a quarter turn holds 2, 1, 3. -/
example : (!![0, -1, 0; 1, 0, 0; 0, 0, 1] : Matrix (Fin 3) (Fin 3) ℚ) * (!![0, -1, 0; 1, 0, 0; 0, 0, 1] : Matrix (Fin 3) (Fin 3) ℚ).transpose = 1 := by
  decide +kernel

example : ((buildMatrices 1 (fun _ => (5 : ℚ)) (fun _ => ![1, 2, 3]) fun _ => 1).bind (updateMandMinv fun _ => !![0, -1, 0; 1, 0, 0; 0, 0, 1])).bind
    (fun s => .ok (s.M.vals, s.Minv.vals)) = .ok ([5, 5, 5, 2, 0, 0, 0, 1, 0, 0, 0, 3], [1/5, 1/5, 1/5, 1/2, 0, 0, 0, 1, 0, 0, 0, 1/3]) := by
  decide +kernel

example : kineticEnergyOf (createM 4 fun i => if i < 2 then (2 : ℚ) else 3) (fun i => i) = .ok (41 / 2) := by decide +kernel

end Scisim
