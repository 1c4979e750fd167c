import Verif.Lemmas.Dynamics
/-!
# C23, C24, C25, C28: unconstrained motion in two dimensions
-/

namespace Scisim

open Finset

variable {n d : Nat}

/-! ## C23: Verlet is time reversible and conserves momentum -/

/-- **C23**, one step of the ball integrator: flow, turn the velocity round, flow again, and the start is reached with the velocity turned
round. The iteration numbers do not matter. -/
theorem C23_reversible_ball (s : FSys n d) (hs : s.PositionDependent) (it it' : Nat) (dt : ℝ) (q0 v0 : VecX n d) :
    ballVerlet s it' dt (ballVerlet s it dt q0 v0).1 (-(ballVerlet s it dt q0 v0).2) = (q0, -v0) := by
  obtain ⟨f, hf⟩ := hs
  simp only [ballVerlet, hf]
  set a := ((1 / 2 : ℝ) * dt) • (s.Minv * f q0) with ha
  set q1 := q0 + dt • (v0 + a) with hq1
  set b := ((1 / 2 : ℝ) * dt) • (s.Minv * f q1) with hb
  have h1 : -(v0 + a + b) + b = -(v0 + a) := by abel
  have h2 : q1 + dt • (-(v0 + a + b) + b) = q0 := by rw [h1, smul_neg, hq1]; abel
  rw [h2, h1, ← ha]
  congr 1
  abel

/-- C23, one step of the rigid body integrator. -/
theorem C23_reversible_rb2d (s : FSys n d) (hs : s.PositionDependent) (it it' : Nat) (dt : ℝ) (q0 v0 : VecX n d) :
    rb2dVerlet s it' dt (rb2dVerlet s it dt q0 v0).1 (-(rb2dVerlet s it dt q0 v0).2) = (q0, -v0) := by
  obtain ⟨f, hf⟩ := hs
  simp only [rb2dVerlet, hf]
  set a := ((1 / 2 : ℝ) * dt) • (s.Minv * zeroForcesOnKinematicBodies s (f q0)) with ha
  set q1 := q0 + dt • (v0 + a) with hq1
  set b := ((1 / 2 : ℝ) * dt) • (s.Minv * zeroForcesOnKinematicBodies s (f q1)) with hb
  have h1 : -(v0 + a + b) + b = -(v0 + a) := by abel
  have h2 : q1 + dt • (-(v0 + a + b) + b) = q0 := by rw [h1, smul_neg, hq1]; abel
  rw [h2, h1, ← ha]
  congr 1
  abel

/-- **C23**, any number of steps: `N` steps forward, velocities turned round, `N` further steps: back at the start. `flow` is either
integrator. -/
theorem C23_reversible_run (flow : Nat → VecX n d × VecX n d → VecX n d × VecX n d)
    (hflow : (∃ s : FSys n d, s.PositionDependent ∧ ∃ dt, ∀ it x, flow it x = ballVerlet s it dt x.1 x.2) ∨
      ∃ s : FSys n d, s.PositionDependent ∧ ∃ dt, ∀ it x, flow it x = rb2dVerlet s it dt x.1 x.2)
    (start start' N : Nat) (q0 v0 : VecX n d) :
    let x := runSteps flow start N (q0, v0)
    runSteps flow start' N (x.1, -x.2) = (q0, -v0) := by
  have hone : ∀ it it' q v, flow it' ((flow it (q, v)).1, -(flow it (q, v)).2) = (q, -v) := by
    intro it it' q v
    rcases hflow with ⟨s, hs, dt, h⟩ | ⟨s, hs, dt, h⟩
    · rw [h, h]; exact C23_reversible_ball s hs it it' dt q v
    · rw [h, h]; exact C23_reversible_rb2d s hs it it' dt q v
  -- running `k + 1` steps is one step followed by `k` steps
  have hshift : ∀ k st x, runSteps flow st (k + 1) x = runSteps flow (st + 1) k (flow (st + 1) x) := by
    intro k
    induction k with
    | zero => intro st x; rfl
    | succ k ih =>
      intro st x
      rw [runSteps, ih st x, runSteps]
      congr 1
      omega
  induction N generalizing start' with
  | zero => rfl
  | succ N ih =>
    simp only at ih ⊢
    rw [hshift, runSteps]
    have hx := hone (start + N + 1) (start' + 1) (runSteps flow start N (q0, v0)).1 (runSteps flow start N (q0, v0)).2
    rw [Prod.mk.eta] at hx
    rw [hx]
    exact ih (start' + 1)

/-- **C23**, momentum: over a Verlet step the momentum changes by the step times the mean of the total force at the two ends. -/
theorem C23_momentum (s : BallSim n) (m : Fin n → ℝ) (hm : s.Masses m) (it : Nat) (dt : ℝ) (q0 v0 : VecX n 2) :
    let x := ballVerlet s.sys it dt q0 v0
    s.momentum x.2 = s.momentum v0 + dt • ((1 / 2 : ℝ) • (∑ i, s.computeForce q0 i + ∑ i, s.computeForce x.1 i)) := by
  obtain ⟨hpos, hM, hMinv⟩ := hm
  simp only [ballVerlet, BallSim.sys, BallSim.momentum]
  set q1 := q0 + dt • (v0 + ((1 / 2 : ℝ) * dt) • (s.Minv * s.computeForce q0)) with hq1
  funext c
  simp only [Pi.add_apply, Pi.smul_apply, Pi.mul_apply, Finset.sum_apply, smul_eq_mul, hM, hMinv]
  rw [← sum_add_distrib, mul_sum, mul_sum, ← sum_add_distrib]
  refine sum_congr rfl fun i _ => ?_
  have := (hpos i).ne'
  field_simp
  ring

/-- C23: for the rigid body integrator the momentum of each free body changes by the step times the mean of the forces, and that of a fixed
body does not change. -/
theorem C23_momentum_rb2d (s : FSys n d) (M : VecX n d) (hM : ∀ i k, M i k * s.Minv i k = 1) (it : Nat) (dt : ℝ) (q0 v0 : VecX n d)
    (i : Fin n) (k : Fin d) :
    let x := rb2dVerlet s it dt q0 v0
    M i k * x.2 i k = M i k * v0 i k + if s.isKinematicallyScripted i then 0 else
      dt * (1 / 2 * (s.computeForce q0 v0 ((it - 1) * dt) i k + s.computeForce x.1 v0 ((it - 1) * dt) i k)) := by
  simp only [rb2dVerlet]
  set q1 := q0 + dt • (v0 + (1 / 2 * dt) • (s.Minv * zeroForcesOnKinematicBodies s (s.computeForce q0 v0 ((it - 1) * dt)))) with hq1
  simp only [Pi.add_apply, Pi.smul_apply, Pi.mul_apply, smul_eq_mul, zeroForcesOnKinematicBodies]
  split
  · simp
  · linear_combination (1 / 2 * dt * (s.computeForce q0 v0 ((it - 1) * dt) i k) + 1 / 2 * dt * s.computeForce q1 v0 ((it - 1) * dt) i k) * hM i k

/-- **C23**: if the forces cancel in the configurations visited, momentum is conserved over any number of steps. -/
theorem C23_momentum_run (s : BallSim n) (m : Fin n → ℝ) (hm : s.Masses m) (dt : ℝ) (start N : Nat) (x : VecX n 2 × VecX n 2)
    (hF : ∀ k ≤ N, ∑ i, s.computeForce (runSteps (fun it x => ballVerlet s.sys it dt x.1 x.2) start k x).1 i = 0) :
    s.momentum (runSteps (fun it x => ballVerlet s.sys it dt x.1 x.2) start N x).2 = s.momentum x.2 := by
  induction N with
  | zero => rfl
  | succ N ih =>
    have h0 := hF N (Nat.le_succ N)
    have h1 := hF (N + 1) (le_refl _)
    rw [runSteps] at h1 ⊢
    have := C23_momentum s m hm (start + N + 1) dt (runSteps (fun it x => ballVerlet s.sys it dt x.1 x.2) start N x).1
      (runSteps (fun it x => ballVerlet s.sys it dt x.1 x.2) start N x).2
    simp only at this
    rw [this, h0, h1, ih fun k hk => hF k (Nat.le_succ_of_le hk)]
    simp

/-- C23, angular momentum: over a Verlet step the angular momentum about the origin changes by the step times the mean of the total torque at
the two ends. -/
theorem C23_angular_momentum (s : BallSim n) (m : Fin n → ℝ) (hm : s.Masses m) (dt : ℝ) (it : Nat) (q0 v0 : VecX n 2) :
    let x := ballVerlet s.sys it dt q0 v0
    s.angularMomentum x.1 x.2 = s.angularMomentum q0 v0 +
      dt * (1 / 2 * (∑ i, cross2 (q0 i) (s.computeForce q0 i) + ∑ i, cross2 (x.1 i) (s.computeForce x.1 i))) := by
  obtain ⟨hpos, hM, hMinv⟩ := hm
  simp only [ballVerlet, BallSim.sys, BallSim.angularMomentum]
  set q1 := q0 + dt • (v0 + ((1 / 2 : ℝ) * dt) • (s.Minv * s.computeForce q0)) with hq1
  have key : ∀ i, s.M i 0 * cross2 (q1 i) ((v0 + ((1 / 2 : ℝ) * dt) • (s.Minv * s.computeForce q0) +
      ((1 / 2 : ℝ) * dt) • (s.Minv * s.computeForce q1)) i) =
      s.M i 0 * cross2 (q0 i) (v0 i) + 1 / 2 * dt * cross2 (q0 i) (s.computeForce q0 i) + 1 / 2 * dt * cross2 (q1 i) (s.computeForce q1 i) := by
    intro i
    have hmi := (hpos i).ne'
    have hx : ∀ c, q1 i c = q0 i c + dt * (v0 i c + 1 / 2 * dt * (1 / m i * s.computeForce q0 i c)) := by
      intro c; simp only [hq1, Pi.add_apply, Pi.smul_apply, Pi.mul_apply, smul_eq_mul, hMinv]
    have e0 := hx 0
    have e1 := hx 1
    simp only [cross2, Pi.add_apply, Pi.smul_apply, Pi.mul_apply, smul_eq_mul, hM, hMinv]
    generalize s.computeForce q1 i 0 = a0
    generalize s.computeForce q1 i 1 = a1
    rw [e0, e1]
    field_simp
    ring
  simp only [key, sum_add_distrib, ← mul_sum]
  ring

/-- C23: no torque in the configurations visited, angular momentum conserved over any number of steps. -/
theorem C23_angular_momentum_run (s : BallSim n) (m : Fin n → ℝ) (hm : s.Masses m) (dt : ℝ) (start N : Nat) (x : VecX n 2 × VecX n 2)
    (hF : ∀ k ≤ N, let q := (runSteps (fun it x => ballVerlet s.sys it dt x.1 x.2) start k x).1
      ∑ i, cross2 (q i) (s.computeForce q i) = 0) :
    let y := runSteps (fun it x => ballVerlet s.sys it dt x.1 x.2) start N x
    s.angularMomentum y.1 y.2 = s.angularMomentum x.1 x.2 := by
  induction N with
  | zero => rfl
  | succ N ih =>
    have h0 := hF N (Nat.le_succ N)
    have h1 := hF (N + 1) (le_refl _)
    have ih := ih fun k hk => hF k (Nat.le_succ_of_le hk)
    simp only at ih h0 h1 ⊢
    rw [runSteps] at h1 ⊢
    have := C23_angular_momentum s m hm dt (start + N + 1) (runSteps (fun it x => ballVerlet s.sys it dt x.1 x.2) start N x).1
      (runSteps (fun it x => ballVerlet s.sys it dt x.1 x.2) start N x).2
    simp only at this
    rw [this, h0, h1, ih]
    simp

/-! ## C28: forces -/

/-- **C28**: the penalty force on a ball is the sum of the repulsions of the others: each is central, of magnitude `½ k p δ^(p-1)` in the
overlap `δ`, and zero if the two balls do not overlap. -/
theorem C28_penalty_sum (k p : ℝ) (q : VecX n 2) (hq : Distinct q) (r : Fin n → ℝ) (hr : ∀ i, 0 ≤ r i) (i : Fin n) :
    penaltyForce k p q r 0 i = ∑ j, if i ≠ j then repulsion k p (q i) (q j) (r i) (r j) else 0 := by
  rw [penaltyForce_eq k p q r hr]; simp

/-- C28: the repulsion is equal and opposite, central, and does not attract. -/
theorem C28_repulsion (k p : ℝ) (a b : Fin 2 → ℝ) (h : a ≠ b) (ra rb : ℝ) :
    repulsion k p a b ra rb = -repulsion k p b a rb ra ∧ cross2 (a - b) (repulsion k p a b ra rb) = 0 ∧
    (0 ≤ k → 0 ≤ p → 0 ≤ dot2 (repulsion k p a b ra rb) (a - b)) ∧ (ra + rb < dist2 a b → repulsion k p a b ra rb = 0) ∧
    (0 < k → 0 < p → dist2 a b < ra + rb → 0 < dot2 (repulsion k p a b ra rb) (a - b)) := by
  have hd := dist2_pos h
  have hsq : (a - b) 0 * (a - b) 0 + (a - b) 1 * (a - b) 1 = dist2 a b ^ 2 := by
    rw [← sqNorm2_eq]; rfl
  have hdot : ∀ c : ℝ, dot2 (c • (a - b)) (a - b) = c * dist2 a b ^ 2 := by
    intro c
    rw [← hsq]; simp only [dot2, Pi.smul_apply, smul_eq_mul]; ring
  refine ⟨repulsion_antisymm k p a b ra rb, repulsion_central k p a b ra rb, ?_, ?_, ?_⟩
  · intro hk hp
    unfold repulsion
    split
    · rename_i hle
      rw [hdot]
      have := Real.rpow_nonneg (show 0 ≤ ra + rb - dist2 a b by linarith) (p - 1)
      positivity
    · simp [dot2]
  · intro hgt
    unfold repulsion
    rw [if_neg (by linarith)]
  · intro hk hp hlt
    unfold repulsion
    rw [if_pos hlt.le, hdot]
    have := Real.rpow_pos_of_pos (show 0 < ra + rb - dist2 a b by linarith) (p - 1)
    positivity

/-- **C28**: the penalty forces add up to zero and exert no net torque. -/
theorem C28_penalty_internal (k p : ℝ) (q : VecX n 2) (hq : Distinct q) (r : Fin n → ℝ) (hr : ∀ i, 0 ≤ r i) :
    ∑ i, penaltyForce k p q r 0 i = 0 ∧ ∑ i, cross2 (q i) (penaltyForce k p q r 0 i) = 0 := by
  constructor
  · simp only [C28_penalty_sum k p q hq r hr]
    exact sum_antisymm _ fun i j => repulsion_antisymm k p _ _ _ _
  · simp only [C28_penalty_sum k p q hq r hr, cross2_sum]
    have h : ∀ i j : Fin n, cross2 (q i) (if i ≠ j then repulsion k p (q i) (q j) (r i) (r j) else 0) =
        if i ≠ j then cross2 (q i) (repulsion k p (q i) (q j) (r i) (r j)) else 0 := by
      intro i j; split <;> simp [cross2]
    simp only [h]
    rw [sum_pairs (fun i j => cross2 (q i) (repulsion k p (q i) (q j) (r i) (r j)))]
    refine sum_eq_zero fun i _ => sum_eq_zero fun j _ => ?_
    split
    · have h1 := repulsion_central k p (q i) (q j) (r i) (r j)
      rw [repulsion_antisymm k p (q j) (q i)]
      simp only [cross2, Pi.sub_apply, Pi.neg_apply] at h1 ⊢
      linarith
    · rfl

/-- **C28**: the penalty force is minus the gradient of its potential, in every direction and every configuration with distinct centres. -/
theorem C28_penalty_gradient (k p : ℝ) (hp : 1 < p) (q w : VecX n 2) (hq : Distinct q) (r : Fin n → ℝ) (hr : ∀ i, 0 ≤ r i) :
    HasDerivAt (fun s : ℝ => penaltyPotential k p (q + s • w) r) (-∑ i, dot2 (penaltyForce k p q r 0 i) (w i)) 0 :=
  hasDerivAt_penaltyPotential k p hp q w r hr hq

/-- C28: gravity is minus the gradient of its potential. -/
theorem C28_gravity_gradient (g : Fin 2 → ℝ) (M q w : VecX n 2) :
    HasDerivAt (fun s : ℝ => gravityPotential g (q + s • w) M) (-∑ i, dot2 (gravityForce g M 0 i) (w i)) 0 := by
  have h : ∀ s : ℝ, gravityPotential g (q + s • w) M = gravityPotential g q M + s * ∑ i, -(M i 0) * dot2 g (w i) := by
    intro s
    simp only [gravityPotential, mul_sum, ← sum_add_distrib]
    refine sum_congr rfl fun i _ => ?_
    simp only [dot2, Pi.add_apply, Pi.smul_apply, smul_eq_mul]; ring
  have h1 : HasDerivAt (fun s : ℝ => gravityPotential g q M + s * ∑ i, -(M i 0) * dot2 g (w i)) (∑ i, -(M i 0) * dot2 g (w i)) 0 := by
    simpa using ((hasDerivAt_id (0 : ℝ)).mul_const (∑ i, -(M i 0) * dot2 g (w i))).const_add (gravityPotential g q M)
  refine (h1.congr_of_eventuallyEq (Filter.Eventually.of_forall h)).congr_deriv ?_
  rw [← sum_neg_distrib]
  refine sum_congr rfl fun i _ => ?_
  simp only [gravityForce, dot2, Pi.add_apply, Pi.zero_apply, Pi.smul_apply, smul_eq_mul]; ring

/-- C28: gravity of the rigid body simulation is minus the gradient of its potential. -/
theorem C28_rb2d_gravity_gradient (g : Fin 2 → ℝ) (M q w : VecX n 3) :
    HasDerivAt (fun s : ℝ => rbGravityPotential g (q + s • w) M) (-∑ i, ∑ k, rbGravityForce g M 0 i k * w i k) 0 := by
  have h : ∀ s : ℝ, rbGravityPotential g (q + s • w) M = rbGravityPotential g q M + s * ∑ i, -(M i 0) * dot2 g (head2 (w i)) := by
    intro s
    simp only [rbGravityPotential, mul_sum, ← sum_add_distrib]
    refine sum_congr rfl fun i _ => ?_
    simp only [dot2, head2, Pi.add_apply, Pi.smul_apply, smul_eq_mul, Matrix.cons_val_zero, Matrix.cons_val_one]; ring
  have h1 : HasDerivAt (fun s : ℝ => rbGravityPotential g q M + s * ∑ i, -(M i 0) * dot2 g (head2 (w i)))
      (∑ i, -(M i 0) * dot2 g (head2 (w i))) 0 := by
    simpa using ((hasDerivAt_id (0 : ℝ)).mul_const (∑ i, -(M i 0) * dot2 g (head2 (w i)))).const_add (rbGravityPotential g q M)
  refine (h1.congr_of_eventuallyEq (Filter.Eventually.of_forall h)).congr_deriv ?_
  rw [← sum_neg_distrib]
  refine sum_congr rfl fun i _ => ?_
  simp [rbGravityForce, dot2, head2, Fin.sum_univ_three]; ring

/-- the forces of a simulation add up -/
theorem computeForce_sum (s : BallSim n) (q : VecX n 2) (hr : ∀ i, 0 ≤ s.r i) :
    s.computeForce q = (s.forces.map fun f => f.computeForce q s.M s.r 0).sum := by
  have h : ∀ (f : BallForce) (F : VecX n 2), f.computeForce q s.M s.r F = F + f.computeForce q s.M s.r 0 := by
    intro f F
    cases f with
    | gravity g => funext i; simp [BallForce.computeForce, gravityForce]
    | penalty k p => funext i; simp [BallForce.computeForce, penaltyForce_eq k p q s.r hr]
  unfold BallSim.computeForce
  have h2 : (fun (F : VecX n 2) (f : BallForce) => f.computeForce q s.M s.r F) = fun F f => F + f.computeForce q s.M s.r 0 := by
    funext F f; exact h f F
  rw [h2, foldl_add_eq, zero_add]

/-- **C28** for the simulation: the total force of any list of forces is minus the gradient of the total potential energy. -/
theorem C28_total_gradient (s : BallSim n) (hr : ∀ i, 0 ≤ s.r i) (hp : ∀ k p, .penalty k p ∈ s.forces → 1 < p) (q w : VecX n 2) (hq : Distinct q) :
    HasDerivAt (fun t : ℝ => s.potentialEnergy (q + t • w)) (-∑ i, dot2 (s.computeForce q i) (w i)) 0 := by
  rw [computeForce_sum s q hr]
  have hpe : (fun t : ℝ => s.potentialEnergy (q + t • w)) = fun t => (s.forces.map fun f => f.computePotential (q + t • w) s.M s.r).sum := by
    funext t; unfold BallSim.potentialEnergy; rw [foldl_add_eq, zero_add]
  rw [hpe]
  generalize hl : s.forces = l at hp
  clear hl hpe
  induction l with
  | nil => simpa [dot2] using hasDerivAt_const (0 : ℝ) (0 : ℝ)
  | cons f l ih =>
    have h1 := ih fun k p h => hp k p (List.mem_cons_of_mem _ h)
    have h2 : HasDerivAt (fun t : ℝ => f.computePotential (q + t • w) s.M s.r) (-∑ i, dot2 (f.computeForce q s.M s.r 0 i) (w i)) 0 := by
      cases f with
      | gravity g => exact C28_gravity_gradient g s.M q w
      | penalty k p => exact C28_penalty_gradient k p (hp k p List.mem_cons_self) q w hq s.r hr
    refine (h2.add h1).congr_deriv ?_
    rw [← neg_add, ← sum_add_distrib]
    congr 1
    refine sum_congr rfl fun i _ => ?_
    simp [dot2, add_mul]; ring

/-- Non-vacuity of C28: two unit balls at distance 1 with quadratic penalty push each other apart. -/
example : Distinct (![![0, 0], ![1, 0]] : VecX 2 2) ∧ repulsion 2 2 ![1, 0] ![0, 0] 1 1 = ![2, 0] := by
  constructor
  · intro i j hij h
    have h0 := congrFun h 0
    fin_cases i <;> fin_cases j <;> simp_all
  · have hd : dist2 ![1, 0] ![0, 0] = 1 := by simp [dist2]
    unfold repulsion
    rw [hd, if_pos (by norm_num)]
    funext c
    fin_cases c <;> simp <;> norm_num

/-! ## C23 with the penalty force -/

/-- **C23** applied: balls that only interact by penalty forces keep their momentum and their angular momentum over any number of Verlet steps,
as long as no two centres coincide. -/
theorem C23_penalty_run (s : BallSim n) (m : Fin n → ℝ) (hm : s.Masses m) (hr : ∀ i, 0 ≤ s.r i) (hf : ∀ f ∈ s.forces, ∃ k p, f = .penalty k p)
    (dt : ℝ) (start N : Nat) (x : VecX n 2 × VecX n 2)
    (hd : ∀ k ≤ N, Distinct (runSteps (fun it x => ballVerlet s.sys it dt x.1 x.2) start k x).1) :
    let y := runSteps (fun it x => ballVerlet s.sys it dt x.1 x.2) start N x
    s.momentum y.2 = s.momentum x.2 ∧ s.angularMomentum y.1 y.2 = s.angularMomentum x.1 x.2 := by
  have hF : ∀ q, Distinct q → ∑ i, s.computeForce q i = 0 ∧ ∑ i, cross2 (q i) (s.computeForce q i) = 0 := by
    intro q hq
    rw [computeForce_sum s q hr]
    generalize s.forces = l at hf
    induction l with
    | nil => simp [cross2]
    | cons f l ih =>
      obtain ⟨h1, h2⟩ := ih fun f hf' => hf f (List.mem_cons_of_mem _ hf')
      obtain ⟨k, p, rfl⟩ := hf _ List.mem_cons_self
      obtain ⟨h3, h4⟩ := C28_penalty_internal k p q hq s.r hr
      refine ⟨?_, ?_⟩
      · simp only [List.map_cons, List.sum_cons, Pi.add_apply, sum_add_distrib, h1, add_zero]
        exact h3
      · have h5 : ∀ a b c : Fin 2 → ℝ, cross2 a (b + c) = cross2 a b + cross2 a c := by
          intro a b c; simp only [cross2, Pi.add_apply]; ring
        simp only [List.map_cons, List.sum_cons, Pi.add_apply, h5, sum_add_distrib, h2, add_zero]
        exact h4
  exact ⟨C23_momentum_run s m hm dt start N x fun k hk => (hF _ (hd k hk)).1,
    C23_angular_momentum_run s m hm dt start N x fun k hk => (hF _ (hd k hk)).2⟩

/-- Non-vacuity of C23: the force field of a ball simulation depends on positions only. -/
example (s : BallSim n) : s.sys.PositionDependent := ⟨s.computeForce, fun _ _ _ => rfl⟩

example : (BallSim.setMass (n := 2) ⟨fun _ => 1, fun _ => false, 0, 0, [.penalty 2 2]⟩ fun _ _ => 3).Masses fun _ => 3 :=
  ⟨fun _ => by norm_num, fun _ _ => rfl, fun _ _ => rfl⟩

/-! ## C24: gravity -/

/-- All forces are gravity with the accelerations `gs`. -/
theorem gravity_only (s : BallSim n) (m : Fin n → ℝ) (hm : s.Masses m) (gs : List (Fin 2 → ℝ)) (hf : s.forces = gs.map .gravity) (q : VecX n 2) :
    (∀ i, s.computeForce q i = m i • gs.sum) ∧ s.potentialEnergy q = -∑ i, m i * dot2 gs.sum (q i) := by
  obtain ⟨hpos, hM, hMinv⟩ := hm
  constructor
  · intro i
    unfold BallSim.computeForce
    rw [hf]
    have : ∀ (F : VecX n 2), ((gs.map BallForce.gravity).foldl (fun F f => f.computeForce q s.M s.r F) F) i = F i + m i • gs.sum := by
      clear hf
      induction gs with
      | nil => intro F; simp
      | cons g gs ih =>
        intro F
        rw [List.map_cons, List.foldl_cons, ih, List.sum_cons]
        simp only [BallForce.computeForce, gravityForce, hM, smul_add]
        abel
    rw [this]; simp
  · unfold BallSim.potentialEnergy
    rw [hf]
    have : ∀ (U : ℝ), ((gs.map BallForce.gravity).foldl (fun U f => U + f.computePotential q s.M s.r) U) = U + -∑ i, m i * dot2 gs.sum (q i) := by
      clear hf
      induction gs with
      | nil => intro U; simp [dot2]
      | cons g gs ih =>
        intro U
        rw [List.map_cons, List.foldl_cons, ih, List.sum_cons]
        simp only [BallForce.computePotential, gravityPotential, hM]
        rw [add_assoc, ← sum_neg_distrib, ← sum_neg_distrib, ← sum_add_distrib]
        congr 1
        refine sum_congr rfl fun i _ => ?_
        simp only [dot2, Pi.add_apply]; ring
    rw [this]; simp

/-- **C24**: under gravity only, `N` Verlet steps put every ball exactly on its parabola, with the exact velocity. -/
theorem C24_verlet_parabola (s : BallSim n) (m : Fin n → ℝ) (hm : s.Masses m) (gs : List (Fin 2 → ℝ)) (hf : s.forces = gs.map .gravity)
    (dt : ℝ) (start N : Nat) (q0 v0 : VecX n 2) (i : Fin n) :
    let x := runSteps (fun it x => ballVerlet s.sys it dt x.1 x.2) start N (q0, v0)
    let t := N * dt
    x.1 i = q0 i + t • v0 i + (1 / 2 * t ^ 2) • gs.sum ∧ x.2 i = v0 i + t • gs.sum := by
  have hmi := (hm.1 i).ne'
  have hMinv := hm.2.2
  induction N with
  | zero => simp [runSteps]
  | succ N ih =>
    obtain ⟨h1, h2⟩ := ih
    simp only [runSteps, ballVerlet, BallSim.sys, Pi.add_apply, Pi.smul_apply] at h1 h2 ⊢
    rw [h1, h2]
    constructor
    · funext c
      have e := congrFun ((gravity_only s m hm gs hf (runSteps (fun it x => ballVerlet s.sys it dt x.1 x.2) start N (q0, v0)).1).1 i) c
      simp only [BallSim.sys, ballVerlet] at e
      simp only [Pi.add_apply, Pi.smul_apply, Pi.mul_apply, smul_eq_mul, hMinv, e]
      push_cast
      field_simp
      ring
    · funext c
      have e := fun q => congrFun ((gravity_only s m hm gs hf q).1 i) c
      simp only [Pi.add_apply, Pi.smul_apply, Pi.mul_apply, smul_eq_mul, hMinv, e]
      push_cast
      field_simp
      ring

/-- the velocities and positions of one Verlet step under gravity -/
theorem verlet_gravity (s : BallSim n) (m : Fin n → ℝ) (hm : s.Masses m) (gs : List (Fin 2 → ℝ)) (hf : s.forces = gs.map .gravity)
    (dt : ℝ) (it : Nat) (q0 v0 : VecX n 2) (i : Fin n) (c : Fin 2) :
    (ballVerlet s.sys it dt q0 v0).1 i c = q0 i c + dt * v0 i c + 1 / 2 * dt ^ 2 * gs.sum c ∧
    (ballVerlet s.sys it dt q0 v0).2 i c = v0 i c + dt * gs.sum c := by
  have h := C24_verlet_parabola s m hm gs hf dt (it - 1) 1 q0 v0 i
  have hmi := (hm.1 i).ne'
  have hMinv := hm.2.2
  have e := fun q => congrFun ((gravity_only s m hm gs hf q).1 i) c
  simp only [ballVerlet, BallSim.sys, Pi.add_apply, Pi.smul_apply, Pi.mul_apply, smul_eq_mul, hMinv, e]
  constructor <;> field_simp <;> ring

/-- **C24**: under gravity only, Verlet conserves kinetic plus potential energy exactly, over any number of steps. -/
theorem C24_verlet_energy (s : BallSim n) (m : Fin n → ℝ) (hm : s.Masses m) (gs : List (Fin 2 → ℝ)) (hf : s.forces = gs.map .gravity)
    (dt : ℝ) (start N : Nat) (q0 v0 : VecX n 2) :
    let x := runSteps (fun it x => ballVerlet s.sys it dt x.1 x.2) start N (q0, v0)
    s.totalEnergy x.1 x.2 = s.totalEnergy q0 v0 := by
  have hone : ∀ it q v, s.totalEnergy (ballVerlet s.sys it dt q v).1 (ballVerlet s.sys it dt q v).2 = s.totalEnergy q v := by
    intro it q v
    simp only [BallSim.totalEnergy, kineticEnergy, fun q => (gravity_only s m hm gs hf q).2, Fin.sum_univ_two, hm.2.1, dot2,
      fun i c => (verlet_gravity s m hm gs hf dt it q v i c).1, fun i c => (verlet_gravity s m hm gs hf dt it q v i c).2]
    rw [mul_sum, mul_sum, ← sum_neg_distrib, ← sum_neg_distrib, ← sum_add_distrib, ← sum_add_distrib]
    refine sum_congr rfl fun i _ => ?_
    ring
  induction N with
  | zero => rfl
  | succ N ih => simp only [runSteps] at ih ⊢; rw [hone, ih]

/-- **C24**: under gravity only, symplectic Euler changes the energy by `-½ Δt² |g|² Σ m` in every step, whatever the state; over `N` steps by
`N` times this. -/
theorem C24_symplectic_euler_energy (s : BallSim n) (m : Fin n → ℝ) (hm : s.Masses m) (gs : List (Fin 2 → ℝ)) (hf : s.forces = gs.map .gravity)
    (dt : ℝ) (start N : Nat) (q0 v0 : VecX n 2) :
    let x := runSteps (fun it x => ballSymplecticEuler s.sys it dt x.1 x.2) start N (q0, v0)
    s.totalEnergy x.1 x.2 = s.totalEnergy q0 v0 - N * (1 / 2 * dt ^ 2 * (gs.sum 0 ^ 2 + gs.sum 1 ^ 2) * ∑ i, m i) := by
  have hone : ∀ it q v, s.totalEnergy (ballSymplecticEuler s.sys it dt q v).1 (ballSymplecticEuler s.sys it dt q v).2 =
      s.totalEnergy q v - 1 / 2 * dt ^ 2 * (gs.sum 0 ^ 2 + gs.sum 1 ^ 2) * ∑ i, m i := by
    intro it q v
    have e := fun q i c => congrFun ((gravity_only s m hm gs hf q).1 i) c
    simp only [BallSim.totalEnergy, kineticEnergy, fun q => (gravity_only s m hm gs hf q).2, Fin.sum_univ_two, hm.2.1, dot2,
      ballSymplecticEuler, BallSim.sys, Pi.add_apply, Pi.smul_apply, Pi.mul_apply, smul_eq_mul, hm.2.2, e]
    rw [mul_sum, mul_sum, mul_sum, ← sum_neg_distrib, ← sum_neg_distrib, ← sum_add_distrib, ← sum_add_distrib, ← sum_sub_distrib]
    refine sum_congr rfl fun i _ => ?_
    have := (hm.1 i).ne'
    field_simp
    ring
  induction N with
  | zero => simp [runSteps]
  | succ N ih =>
    simp only [runSteps] at ih ⊢
    rw [hone, ih]; push_cast; ring

/-- forces and energy of the rigid body simulation -/
theorem rb_gravity_only (s : RbSim n) (m I : Fin n → ℝ) (hm : s.Masses m I) (q : VecX n 3) :
    (∀ i, s.computeForce i = ![m i * s.forces.sum 0, m i * s.forces.sum 1, 0]) ∧
    s.potentialEnergy q = -∑ i, m i * dot2 s.forces.sum (head2 (q i)) := by
  obtain ⟨hpos, hM, hMinv⟩ := hm
  constructor
  · intro i
    unfold RbSim.computeForce
    have : ∀ (gs : List (Fin 2 → ℝ)) (F : VecX n 3), (gs.foldl (fun F g => rbGravityForce g s.M F) F) i =
        ![F i 0 + m i * gs.sum 0, F i 1 + m i * gs.sum 1, F i 2] := by
      intro gs
      induction gs with
      | nil => intro F; funext c; fin_cases c <;> simp
      | cons g gs ih =>
        intro F
        rw [List.foldl_cons, ih]
        simp only [List.sum_cons, rbGravityForce, hM, Pi.add_apply]
        funext c
        fin_cases c <;> simp [mul_add, add_assoc]
    rw [this]; simp
  · unfold RbSim.potentialEnergy
    have : ∀ (gs : List (Fin 2 → ℝ)) (U : ℝ), (gs.foldl (fun U g => U + rbGravityPotential g q s.M) U) = U + -∑ i, m i * dot2 gs.sum (head2 (q i)) := by
      intro gs
      induction gs with
      | nil => intro U; simp [dot2]
      | cons g gs ih =>
        intro U
        rw [List.foldl_cons, ih]
        simp only [List.sum_cons, rbGravityPotential, hM, Matrix.cons_val_zero]
        rw [add_assoc, ← sum_neg_distrib, ← sum_neg_distrib, ← sum_add_distrib]
        congr 1
        refine sum_congr rfl fun i _ => ?_
        simp only [dot2, Pi.add_apply]; ring
    rw [this]; simp

/-! ## C25: fixed bodies -/

/-- **C25** (rigid bodies in the plane): a body marked fixed keeps its velocity under every force field, in both integrators, over any number
of steps, and moves uniformly. -/
theorem C25_fixed_rb2d_partial (s : FSys n d) (dt : ℝ) (start N : Nat) (q0 v0 : VecX n d) (i : Fin n) (hi : s.isKinematicallyScripted i = true)
    (flow : Nat → VecX n d × VecX n d → VecX n d × VecX n d)
    (hflow : (∀ it x, flow it x = rb2dVerlet s it dt x.1 x.2) ∨ ∀ it x, flow it x = rb2dSymplecticEuler s it dt x.1 x.2) :
    let x := runSteps flow start N (q0, v0)
    x.2 i = v0 i ∧ x.1 i = q0 i + (N * dt) • v0 i := by
  have hone : ∀ it x, (flow it x).2 i = x.2 i ∧ (flow it x).1 i = x.1 i + dt • x.2 i := by
    intro it x
    rcases hflow with h | h <;> rw [h] <;> constructor <;> funext c <;>
      simp [rb2dVerlet, rb2dSymplecticEuler, zeroForcesOnKinematicBodies, hi]
  induction N with
  | zero => simp [runSteps]
  | succ N ih =>
    obtain ⟨h1, h2⟩ := ih
    simp only [runSteps] at h1 h2 ⊢
    obtain ⟨h3, h4⟩ := hone (start + N + 1) (runSteps flow start N (q0, v0))
    rw [h3, h4, h1, h2]
    refine ⟨rfl, ?_⟩
    push_cast
    rw [add_mul, one_mul, add_smul, add_assoc]

/-- **C25 is false of the ball simulation**: a ball marked fixed is accelerated by gravity like any other. -/
theorem C25_false_ball : ∃ (s : BallSim 1) (m : Fin 1 → ℝ), s.Masses m ∧ s.fixed 0 = true ∧
    (ballVerlet s.sys 1 1 0 0).2 0 = ![0, -10] ∧ (ballSymplecticEuler s.sys 1 1 0 0).2 0 = ![0, -10] := by
  let s : BallSim 1 := ⟨fun _ => 1, fun _ => true, fun _ _ => 1, fun _ _ => 1, [.gravity ![0, -10]]⟩
  have hm : s.Masses fun _ => 1 := ⟨fun _ => one_pos, fun _ _ => rfl, fun _ _ => by simp [s]⟩
  refine ⟨s, fun _ => 1, hm, rfl, ?_, ?_⟩
  · funext c
    rw [(verlet_gravity s _ hm [![0, -10]] rfl 1 1 0 0 0 c).2]
    fin_cases c <;> simp
  · have e := fun q c => congrFun ((gravity_only s _ hm [![0, -10]] rfl q).1 0) c
    funext c
    simp only [ballSymplecticEuler, BallSim.sys, Pi.add_apply, Pi.smul_apply, Pi.mul_apply, smul_eq_mul, hm.2.2, e]
    fin_cases c <;> simp

/-! ## C24 for the rigid body simulation -/

/-- one step of either rigid body integrator under gravity -/
theorem rb_step (s : RbSim n) (m I : Fin n → ℝ) (hm : s.Masses m I) (dt : ℝ) (it : Nat) (q0 v0 : VecX n 3) (i : Fin n) (hi : s.fixed i = false) :
    (rb2dVerlet s.sys it dt q0 v0).1 i = q0 i + dt • v0 i + (1 / 2 * dt ^ 2) • ![s.forces.sum 0, s.forces.sum 1, 0] ∧
    (rb2dVerlet s.sys it dt q0 v0).2 i = v0 i + dt • ![s.forces.sum 0, s.forces.sum 1, 0] ∧
    (rb2dSymplecticEuler s.sys it dt q0 v0).1 i = q0 i + dt • v0 i + (dt ^ 2) • ![s.forces.sum 0, s.forces.sum 1, 0] ∧
    (rb2dSymplecticEuler s.sys it dt q0 v0).2 i = v0 i + dt • ![s.forces.sum 0, s.forces.sum 1, 0] := by
  have e := (rb_gravity_only s m I hm 0).1 i
  have hmi := (hm.1 i).1.ne'
  have hMinv := hm.2.2 i
  have e2 : ∀ c, s.Minv i c * s.computeForce i c = ![s.forces.sum 0, s.forces.sum 1, 0] c := by
    intro c; rw [e, hMinv]; fin_cases c <;> simp <;> field_simp
  refine ⟨?_, ?_, ?_, ?_⟩ <;> funext c <;>
    simp only [rb2dVerlet, rb2dSymplecticEuler, RbSim.sys, zeroForcesOnKinematicBodies, Pi.add_apply, Pi.smul_apply, Pi.mul_apply, smul_eq_mul, hi,
      Bool.false_eq_true, if_false, e2] <;> ring

/-- **C24** for rigid bodies: free bodies follow the exact parabola under Verlet, their angles turn uniformly. -/
theorem C24_rb2d_parabola (s : RbSim n) (m I : Fin n → ℝ) (hm : s.Masses m I) (dt : ℝ) (start N : Nat) (q0 v0 : VecX n 3) (i : Fin n)
    (hi : s.fixed i = false) :
    let x := runSteps (fun it x => rb2dVerlet s.sys it dt x.1 x.2) start N (q0, v0)
    let t := N * dt
    x.1 i = q0 i + t • v0 i + (1 / 2 * t ^ 2) • ![s.forces.sum 0, s.forces.sum 1, 0] ∧
    x.2 i = v0 i + t • ![s.forces.sum 0, s.forces.sum 1, 0] := by
  induction N with
  | zero => simp [runSteps]
  | succ N ih =>
    obtain ⟨h1, h2⟩ := ih
    simp only [runSteps] at h1 h2 ⊢
    obtain ⟨h3, h4, -, -⟩ := rb_step s m I hm dt (start + N + 1) (runSteps (fun it x => rb2dVerlet s.sys it dt x.1 x.2) start N (q0, v0)).1
      (runSteps (fun it x => rb2dVerlet s.sys it dt x.1 x.2) start N (q0, v0)).2 i hi
    rw [h3, h4, h1, h2]
    constructor <;> funext c <;> simp only [Pi.add_apply, Pi.smul_apply, smul_eq_mul] <;> push_cast <;> ring

/-- **C24** for rigid bodies: if the fixed bodies are at rest, Verlet conserves the total energy exactly over any number of steps, and symplectic
Euler changes it by `-½ Δt² |g|²` times the mass of the free bodies in every step. -/
theorem C24_rb2d_energy (s : RbSim n) (m I : Fin n → ℝ) (hm : s.Masses m I) (dt : ℝ) (start N : Nat) (q0 v0 : VecX n 3)
    (hfix : ∀ i, s.fixed i = true → v0 i = 0) :
    (let x := runSteps (fun it x => rb2dVerlet s.sys it dt x.1 x.2) start N (q0, v0)
     s.totalEnergy x.1 x.2 = s.totalEnergy q0 v0) ∧
    (let x := runSteps (fun it x => rb2dSymplecticEuler s.sys it dt x.1 x.2) start N (q0, v0)
     s.totalEnergy x.1 x.2 = s.totalEnergy q0 v0 -
       N * (1 / 2 * dt ^ 2 * (s.forces.sum 0 ^ 2 + s.forces.sum 1 ^ 2) * ∑ i, if s.fixed i then 0 else m i)) := by
  have hE : ∀ q v, s.totalEnergy q v = ∑ i, (1 / 2 * (m i * v i 0 ^ 2 + m i * v i 1 ^ 2 + I i * v i 2 ^ 2) -
      m i * (s.forces.sum 0 * q i 0 + s.forces.sum 1 * q i 1)) := by
    intro q v
    simp only [RbSim.totalEnergy, kineticEnergy, (rb_gravity_only s m I hm q).2, Fin.sum_univ_three, hm.2.1, dot2, head2]
    rw [mul_sum, ← sum_neg_distrib, ← sum_add_distrib]
    refine sum_congr rfl fun i _ => ?_
    simp; ring
  constructor
  · induction N with
    | zero => rfl
    | succ N ih =>
      have hrest : ∀ i, s.fixed i = true → (runSteps (fun it x => rb2dVerlet s.sys it dt x.1 x.2) start N (q0, v0)).2 i = 0 := fun i hi => by
        rw [(C25_fixed_rb2d_partial s.sys dt start N q0 v0 i hi _ (Or.inl fun _ _ => rfl)).1, hfix i hi]
      simp only [runSteps] at ih ⊢
      rw [← ih]
      generalize runSteps (fun it x => rb2dVerlet s.sys it dt x.1 x.2) start N (q0, v0) = x at hrest
      rw [hE, hE]
      refine sum_congr rfl fun i _ => ?_
      by_cases hi : s.fixed i
      · have := C25_fixed_rb2d_partial s.sys dt (start + N) 1 x.1 x.2 i hi _ (Or.inl fun _ _ => rfl)
        simp only [runSteps] at this
        obtain ⟨h1, h2⟩ := this
        simp only [Prod.mk.eta, Nat.add_zero] at h1 h2
        rw [h1, h2, hrest i hi]; simp
      · obtain ⟨h3, h4, -, -⟩ := rb_step s m I hm dt (start + N + 1) x.1 x.2 i (by simpa using hi)
        rw [h3, h4]
        simp; ring
  · induction N with
    | zero => simp [runSteps]
    | succ N ih =>
      have hrest : ∀ i, s.fixed i = true → (runSteps (fun it x => rb2dSymplecticEuler s.sys it dt x.1 x.2) start N (q0, v0)).2 i = 0 := fun i hi => by
        rw [(C25_fixed_rb2d_partial s.sys dt start N q0 v0 i hi _ (Or.inr fun _ _ => rfl)).1, hfix i hi]
      simp only [runSteps] at ih ⊢
      have key : ∀ y : VecX n 3 × VecX n 3, s.totalEnergy y.1 y.2 = s.totalEnergy q0 v0 - N * (1 / 2 * dt ^ 2 * (s.forces.sum 0 ^ 2 + s.forces.sum 1 ^ 2) *
            ∑ i, if s.fixed i then 0 else m i) → (∀ i, s.fixed i = true → y.2 i = 0) →
          s.totalEnergy (rb2dSymplecticEuler s.sys (start + N + 1) dt y.1 y.2).1 (rb2dSymplecticEuler s.sys (start + N + 1) dt y.1 y.2).2 =
          s.totalEnergy y.1 y.2 - (1 / 2 * dt ^ 2 * (s.forces.sum 0 ^ 2 + s.forces.sum 1 ^ 2) * ∑ i, if s.fixed i then 0 else m i) := by
        intro y _ hr
        rw [hE, hE, mul_sum, ← sum_sub_distrib]
        refine sum_congr rfl fun i _ => ?_
        by_cases hi : s.fixed i
        · have := C25_fixed_rb2d_partial s.sys dt (start + N) 1 y.1 y.2 i hi _ (Or.inr fun _ _ => rfl)
          simp only [runSteps] at this
          obtain ⟨h1, h2⟩ := this
          simp only [Prod.mk.eta, Nat.add_zero] at h1 h2
          rw [h1, h2, hr i hi]; simp [hi]
        · obtain ⟨-, -, h3, h4⟩ := rb_step s m I hm dt (start + N + 1) y.1 y.2 i (by simpa using hi)
          rw [h3, h4]
          simp [hi]; ring
      rw [key _ ih hrest, ih]
      push_cast; ring

/-- **C23** for the rigid body simulation: the reported momentum and angular momentum (orbital part and spin) change by exactly what gravity supplies to
the free bodies. -/
theorem C23_balance_rb2d (s : RbSim n) (m I : Fin n → ℝ) (hm : s.Masses m I) (dt : ℝ) (it : Nat) (q0 v0 : VecX n 3) :
    let x := rb2dVerlet s.sys it dt q0 v0
    s.momentum x.2 = s.momentum v0 + dt • (∑ i, if s.fixed i then 0 else m i • s.forces.sum) ∧
    s.angularMomentum x.1 x.2 = s.angularMomentum q0 v0 +
      dt * ∑ i, if s.fixed i then 0 else m i * (1 / 2 * (cross2 (head2 (q0 i)) s.forces.sum + cross2 (head2 (x.1 i)) s.forces.sum)) := by
  intro x
  have hfix : ∀ i, s.fixed i = true → x.2 i = v0 i ∧ x.1 i = q0 i + dt • v0 i := by
    intro i hi
    constructor <;> funext c <;> simp [x, rb2dVerlet, zeroForcesOnKinematicBodies, RbSim.sys, hi]
  have hfree : ∀ i, s.fixed i = false → x.1 i = q0 i + dt • v0 i + (1 / 2 * dt ^ 2) • ![s.forces.sum 0, s.forces.sum 1, 0] ∧
      x.2 i = v0 i + dt • ![s.forces.sum 0, s.forces.sum 1, 0] := fun i hi => ⟨(rb_step s m I hm dt it q0 v0 i hi).1, (rb_step s m I hm dt it q0 v0 i hi).2.1⟩
  have hM : ∀ i, s.M i 0 = m i ∧ s.M i 2 = I i := fun i => by rw [hm.2.1 i]; exact ⟨rfl, rfl⟩
  have hg : (![s.forces.sum 0, s.forces.sum 1, 0] : Fin 3 → ℝ) 2 = 0 := rfl
  constructor
  · unfold RbSim.momentum
    rw [Finset.smul_sum, ← sum_add_distrib]
    refine sum_congr rfl fun i _ => ?_
    rw [(hM i).1]
    cases hi : s.fixed i with
    | true => rw [(hfix i hi).1]; simp
    | false =>
      rw [(hfree i hi).2]
      funext c
      fin_cases c <;> simp [head2] <;> ring
  · unfold RbSim.angularMomentum
    rw [mul_sum, ← sum_add_distrib, ← sum_add_distrib, ← sum_add_distrib]
    refine sum_congr rfl fun i _ => ?_
    rw [(hM i).1, (hM i).2]
    cases hi : s.fixed i with
    | true =>
      rw [(hfix i hi).1, (hfix i hi).2]
      simp only [head2, cross2, Pi.add_apply, Pi.smul_apply, smul_eq_mul, Matrix.cons_val_zero, Matrix.cons_val_one, if_true]
      ring
    | false =>
      rw [(hfree i hi).1, (hfree i hi).2]
      simp only [head2, cross2, Pi.add_apply, Pi.smul_apply, smul_eq_mul, hg, Matrix.cons_val_zero, Matrix.cons_val_one, Bool.false_eq_true, if_false]
      ring

/-- **C23** for the rigid body simulation: without gravity both are conserved over any number of steps. -/
theorem C23_conserved_rb2d (s : RbSim n) (m I : Fin n → ℝ) (hm : s.Masses m I) (hf : s.forces.sum = 0) (dt : ℝ) (start N : Nat) (q0 v0 : VecX n 3) :
    let x := runSteps (fun it x => rb2dVerlet s.sys it dt x.1 x.2) start N (q0, v0)
    s.momentum x.2 = s.momentum v0 ∧ s.angularMomentum x.1 x.2 = s.angularMomentum q0 v0 := by
  induction N with
  | zero => exact ⟨rfl, rfl⟩
  | succ N ih =>
    simp only [runSteps] at ih ⊢
    have := C23_balance_rb2d s m I hm dt (start + N + 1) (runSteps (fun it x => rb2dVerlet s.sys it dt x.1 x.2) start N (q0, v0)).1
      (runSteps (fun it x => rb2dVerlet s.sys it dt x.1 x.2) start N (q0, v0)).2
    simp only [hf] at this
    rw [this.1, this.2, ih.1, ih.2]
    simp [cross2]

/-- Non-vacuity of C24 and C25: a state with a free and a fixed body, made by the constructor. -/
example : (RbSim.create (n := 2) (fun _ => ![3, 3, 2]) (fun i => decide (i = 0)) [![0, -10]]).Masses (fun _ => 3) (fun _ => 2) := by
  refine ⟨fun _ => ⟨by norm_num, by norm_num⟩, fun _ => rfl, fun i => ?_⟩
  funext c
  simp only [RbSim.create]
  fin_cases c <;> simp

end Scisim
