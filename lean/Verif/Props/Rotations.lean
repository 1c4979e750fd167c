import Mathlib.Analysis.Matrix.Spectrum
import Mathlib.Analysis.Matrix.PosDef
import Mathlib.Algebra.Order.Star.Real
import Verif.Lemmas.Rotations
/-!
# C25 (three dimensions), C26, C27: unconstrained motion of rigid bodies
-/

namespace Scisim

open Matrix

variable {n : Nat}

/-! ## C26: orientations stay rotations -/

/-- **C26**: every integrator takes rotations to rotations, whatever the forces, velocities, momenta, inertias and the step. -/
theorem C26_flow (u : Map3) (hu : u.SvdCorrect) (s : FSys3 n) (it : Nat) (dt : ℝ) (q0 : Conf3 n) (v0 : Vel3 n) (hq : q0.Rotations) :
    (u.flow s it dt q0 v0).1.Rotations := by
  intro i
  cases u with
  | splitHam =>
    simp only [Map3.flow, hamFlow]
    split
    · exact hq i
    · exact splitRotate_isRotation _ _ _ _ (hq i)
  | dmv =>
    simp only [Map3.flow, hamFlow]
    split
    · exact hq i
    · exact dmvRotate_isRotation _ _ _ _
  | exponentialEuler svd =>
    simp only [Map3.flow, exponentialEulerFlow, projectOrientation]
    exact project_isRotation _ (eulerOrientation_det dt _ _ (hq i)) _ (hu _ (eulerOrientation_det dt _ _ (hq i)))

/-- **C26**, any number of steps of the simulation: orientations stay rotations, and the stored inertia tensors stay those of the current
orientations, each the inverse of the other. -/
theorem C26_run (p : Rb3Params n) (hp : p.Positive) (u : Map3) (hu : u.SvdCorrect) (dt : ℝ) (start N : Nat) (q : Conf3 n) (v : Vel3 n)
    (hq : q.Rotations) :
    let s := runSteps (fun it s => s.step p u dt it) start N (Rb3State.setState p q v)
    s.q.Rotations ∧ s.Consistent p ∧ ∀ i, s.I i * s.Iinv i = 1 := by
  have key : ∀ s : Rb3State n, s.q.Rotations → s.Consistent p → ∀ i, s.I i * s.Iinv i = 1 := by
    intro s hr hc i
    rw [hc.1, hc.2]
    exact inertia_inv _ (hr i) _ fun k => ((hp i).2 k).ne'
  have h : ∀ s : Rb3State n, s = runSteps (fun it s => s.step p u dt it) start N (Rb3State.setState p q v) → s.q.Rotations ∧ s.Consistent p := by
    induction N with
    | zero => rintro s rfl; exact ⟨hq, fun _ => rfl, fun _ => rfl⟩
    | succ N ih =>
      rintro s rfl
      obtain ⟨h1, h2⟩ := ih _ rfl
      refine ⟨?_, fun _ => rfl, fun _ => rfl⟩
      exact C26_flow u hu _ (start + N + 1) dt _ _ h1
  exact ⟨(h _ rfl).1, (h _ rfl).2, key _ (h _ rfl).1 (h _ rfl).2⟩

/-- C26 for the configuration update of the impact maps. -/
theorem C26_exponentialEuler (q0 : Conf3 n) (v0 : Vel3 n) (fixed : Fin n → Bool) (dt : ℝ) (hq : q0.Rotations) :
    (exponentialEuler q0 v0 fixed dt).Rotations := by
  intro i
  simp only [exponentialEuler]
  split
  · exact hq i
  · exact updateOrientation_isRotation _ _ _ (hq i)

/-- The hypothesis of C26 on the decomposition can be met: a matrix with positive determinant has one. -/
theorem svd_exists (A : Mat3) (hA : 0 < A.det) : ∃ d, IsSVD A d := by
  have hH : (Aᵀ * A).IsHermitian := by
    have := isHermitian_conjTranspose_mul_self A
    rwa [conjTranspose_eq_transpose_of_trivial] at this
  have hP : (Aᵀ * A).PosSemidef := by
    have := posSemidef_conjTranspose_mul_self A
    rwa [conjTranspose_eq_transpose_of_trivial] at this
  let V : Mat3 := hH.eigenvectorUnitary
  have hVs : star V = Vᵀ := by
    show Vᴴ = Vᵀ
    exact conjTranspose_eq_transpose_of_trivial V
  have hV : V * Vᵀ = 1 := by rw [← hVs]; exact Unitary.mul_star_self_of_mem hH.eigenvectorUnitary.2
  have hV' : Vᵀ * V = 1 := mul_eq_one_comm.mp hV
  let lam : Vec3 := hH.eigenvalues
  have hspec : Aᵀ * A = V * diagonal lam * Vᵀ := by
    have := hH.spectral_theorem
    rw [Unitary.conjStarAlgAut_apply] at this
    rw [← hVs]
    exact this
  have hpos : ∀ k, 0 < lam k := by
    intro k
    have h0 : 0 ≤ lam k := hP.eigenvalues_nonneg k
    rcases h0.lt_or_eq with h | h
    · exact h
    · have h1 : (Aᵀ * A).det = ∏ i, lam i := by
        have := hH.det_eq_prod_eigenvalues
        simpa using this
      rw [Finset.prod_eq_zero (Finset.mem_univ k) h.symm, det_mul, det_transpose] at h1
      have := mul_pos hA hA
      linarith
  let sg : Vec3 := fun k => Real.sqrt (lam k)
  have hsg : ∀ k, 0 < sg k := fun k => Real.sqrt_pos.mpr (hpos k)
  have hsq : ∀ k, sg k * sg k = lam k := fun k => Real.mul_self_sqrt (hpos k).le
  let U : Mat3 := A * V * diagonal (fun k => 1 / sg k)
  have hU' : Uᵀ * U = 1 := by
    calc Uᵀ * U = diagonal (fun k => 1 / sg k) * (Vᵀ * (Aᵀ * A) * V) * diagonal (fun k => 1 / sg k) := by
          simp only [U, transpose_mul, diagonal_transpose]; noncomm_ring
      _ = diagonal (fun k => 1 / sg k) * ((Vᵀ * V) * diagonal lam * (Vᵀ * V)) * diagonal (fun k => 1 / sg k) := by rw [hspec]; noncomm_ring
      _ = 1 := by
        rw [hV', Matrix.one_mul, Matrix.mul_one, diagonal_mul_diagonal, diagonal_mul_diagonal, ← diagonal_one]
        congr 1; funext k
        rw [← hsq k]
        have := (hsg k).ne'
        field_simp
  refine ⟨(U, sg, V), mul_eq_one_comm.mp hU', hV, fun k => (hsg k).le, ?_⟩
  show A = U * diagonal sg * Vᵀ
  have h1 : diagonal (fun k => 1 / sg k) * diagonal sg = (1 : Mat3) := by
    rw [diagonal_mul_diagonal, ← diagonal_one]
    congr 1; funext k
    have := (hsg k).ne'
    field_simp
  calc A = A * (V * Vᵀ) := by rw [hV, Matrix.mul_one]
    _ = A * V * (diagonal (fun k => 1 / sg k) * diagonal sg) * Vᵀ := by rw [h1]; noncomm_ring
    _ = U * diagonal sg * Vᵀ := by simp only [U]; noncomm_ring

/-- Non-vacuity of C26: a decomposition that is correct for every matrix with positive determinant. -/
example : ∃ u : Map3, u.SvdCorrect ∧ ∃ svd, u = .exponentialEuler svd := by
  classical
  refine ⟨.exponentialEuler fun A => if h : 0 < A.det then Classical.choose (svd_exists A h) else (1, 0, 1), ?_, _, rfl⟩
  intro R hR
  simp only [dif_pos hR]
  exact Classical.choose_spec (svd_exists R hR)

/-! ## C27: momentum -/

/-- the two Hamiltonian maps -/
def Map3.Hamiltonian (u : Map3) : Prop := u = .splitHam ∨ u = .dmv

/-- **C27**: over a step of `split_ham` or `dmv`, the linear momentum and the spin (inertia tensor times angular velocity) of a free body
change by the step times the mean of the force and torque at the two ends. -/
theorem C27_momentum (p : Rb3Params n) (hp : p.Positive) (u : Map3) (hu : u.Hamiltonian) (dt : ℝ) (it : Nat) (s : Rb3State n)
    (hr : s.q.Rotations) (i : Fin n) (hi : p.fixed i = false) :
    let s' := s.step p u dt it
    let F0 := p.computeForce s.q s.v (it * dt) i
    let F1 := p.computeForce s'.q s.v (it * dt) i
    s'.linearMomentum p i = s.linearMomentum p i + dt • ((1 / 2 : ℝ) • (F0.1 + F1.1)) ∧
    s'.spin i = s.spin i + dt • ((1 / 2 : ℝ) • (F0.2 + F1.2)) := by
  have hm := (hp i).1.ne'
  have key : ∀ rot : ℝ → Vec3 → Mat3 → Vec3 → Mat3, (∀ dt I R L, IsRotation R → IsRotation (rot dt I R L)) →
      ∀ x, x = hamFlow rot (s.sys p) it dt s.q s.v →
      p.m i • (x.2 i).1 = p.m i • (s.v i).1 + dt • ((1 / 2 : ℝ) • ((p.computeForce s.q s.v (it * dt) i).1 + (p.computeForce x.1 s.v (it * dt) i).1)) ∧
      ((x.1 i).2 * diagonal (p.I0 i) * (x.1 i).2ᵀ) *ᵥ (x.2 i).2 = s.I i *ᵥ (s.v i).2 +
        dt • ((1 / 2 : ℝ) • ((p.computeForce s.q s.v (it * dt) i).2 + (p.computeForce x.1 s.v (it * dt) i).2)) := by
    intro rot hrot x hx
    have hR : IsRotation (x.1 i).2 := by
      rw [hx]; simp only [hamFlow, Rb3State.sys, hi, Bool.false_eq_true, if_false]
      exact hrot _ _ _ _ (hr i)
    have hv1 : (x.2 i).1 = fun k => (p.m i • (s.v i).1 + ((1 / 2 : ℝ) * dt) • (p.computeForce s.q s.v (it * dt) i).1 +
        ((1 / 2 : ℝ) * dt) • (p.computeForce x.1 s.v (it * dt) i).1) k / p.m i := by
      rw [hx]; simp only [hamFlow, Rb3State.sys, hi, Bool.false_eq_true, if_false]; rfl
    have hv2 : (x.2 i).2 = ((x.1 i).2 * diagonal (fun k => 1 / p.I0 i k) * (x.1 i).2ᵀ) *ᵥ (s.I i *ᵥ (s.v i).2 +
        ((1 / 2 : ℝ) * dt) • (p.computeForce s.q s.v (it * dt) i).2 + ((1 / 2 : ℝ) * dt) • (p.computeForce x.1 s.v (it * dt) i).2) := by
      rw [hx]; simp only [hamFlow, Rb3State.sys, hi, Bool.false_eq_true, if_false]; rfl
    constructor
    · rw [hv1]
      funext k
      simp only [Pi.smul_apply, Pi.add_apply, smul_eq_mul]
      field_simp
      ring
    · rw [hv2, Matrix.mulVec_mulVec, inertia_inv _ hR _ fun k => ((hp i).2 k).ne', Matrix.one_mulVec]
      funext k
      simp only [Pi.smul_apply, Pi.add_apply, smul_eq_mul]
      ring
  rcases hu with rfl | rfl
  · exact key splitRotate (fun _ _ _ _ h => splitRotate_isRotation _ _ _ _ h) _ rfl
  · exact key dmvRotate (fun _ _ _ _ _ => dmvRotate_isRotation _ _ _ _) _ rfl

/-- **C27**: without forces, the momentum and the world-space angular momentum vector of each free body are conserved exactly over any number
of steps of any size. -/
theorem C27_conserved (p : Rb3Params n) (hp : p.Positive) (hF : ∀ q v t, p.computeForce q v t = 0) (u : Map3) (hu : u.Hamiltonian) (dt : ℝ)
    (start N : Nat) (q : Conf3 n) (v : Vel3 n) (hq : q.Rotations) (i : Fin n) (hi : p.fixed i = false) :
    let s0 := Rb3State.setState p q v
    let s := runSteps (fun it s => s.step p u dt it) start N s0
    s.linearMomentum p i = s0.linearMomentum p i ∧ s.spin i = s0.spin i := by
  have hsvd : u.SvdCorrect := by rcases hu with rfl | rfl <;> trivial
  induction N with
  | zero => exact ⟨rfl, rfl⟩
  | succ N ih =>
    obtain ⟨h1, h2⟩ := ih
    have h3 := C27_momentum p hp u hu dt (start + N + 1) _ (C26_run p hp u hsvd dt start N q v hq).1 i hi
    simp only [runSteps] at h1 h2 h3 ⊢
    rw [h3.1, h3.2, h1, h2, hF, hF]
    simp

/-- C27: the torque of gravity is zero, so spins are conserved under gravity too. -/
theorem C27_gravity_torque (m : Fin n → ℝ) (gs : List Vec3) (q : Conf3 n) (v : Vel3 n) (t : ℝ) (i : Fin n) :
    gravityForce3 m gs q v t i = (m i • gs.sum, 0) := by
  have : ∀ (gs : List Vec3) (F : Vel3 n), (gs.foldl (fun F g => fun i => ((F i).1 + m i • g, (F i).2)) F) i = ((F i).1 + m i • gs.sum, (F i).2) := by
    intro gs
    induction gs with
    | nil => intro F; simp
    | cons g gs ih => intro F; rw [List.foldl_cons, ih, List.sum_cons, smul_add, add_assoc]
  simp only [gravityForce3]
  rw [this]; simp

/-- **C27**, the split integrator: turning the velocities round and taking another step leads back, for any forces that depend on the
configuration only. Fixed bodies are at rest. -/
theorem C27_reversible (p : Rb3Params n) (hp : p.Positive) (f : Conf3 n → Vel3 n) (hf : ∀ q v t, p.computeForce q v t = f q) (dt : ℝ)
    (it it' : Nat) (s : Rb3State n) (hr : s.q.Rotations) (hc : s.Consistent p) (hfix : ∀ i, p.fixed i = true → s.v i = 0) :
    ((s.step p .splitHam dt it).reversed.step p .splitHam dt it') = s.reversed := by
  have hstep : ∀ (s : Rb3State n) (it : Nat), s.q.Rotations → s.Consistent p → (∀ i, p.fixed i = true → s.v i = 0) →
      ∀ i, let s' := s.step p .splitHam dt it
      (p.fixed i = true → s'.q i = s.q i ∧ s'.v i = 0) ∧
      (p.fixed i = false → s'.q i = ((s.q i).1 + (dt • (s.v i).1 + ((1 / 2 : ℝ) * dt * dt) • ((1 / p.m i) • (f s.q i).1)),
          splitRotate dt (p.I0 i) (s.q i).2 (s.I i *ᵥ (s.v i).2 + ((1 / 2 : ℝ) * dt) • (f s.q i).2)) ∧
        s'.v i = (fun k => (p.m i • (s.v i).1 + ((1 / 2 : ℝ) * dt) • (f s.q i).1 + ((1 / 2 : ℝ) * dt) • (f s'.q i).1) k / p.m i,
          ((s'.q i).2 * diagonal (fun k => 1 / p.I0 i k) * (s'.q i).2ᵀ) *ᵥ
            (s.I i *ᵥ (s.v i).2 + ((1 / 2 : ℝ) * dt) • (f s.q i).2 + ((1 / 2 : ℝ) * dt) • (f s'.q i).2))) := by
    intro s it _ _ hfix i
    refine ⟨fun h => ⟨?_, ?_⟩, fun h => ⟨?_, ?_⟩⟩
    · simp only [Rb3State.step, Rb3State.updateMandMinv, Map3.flow, hamFlow, Rb3State.sys, h, if_true]
    · simp only [Rb3State.step, Rb3State.updateMandMinv, Map3.flow, hamFlow, Rb3State.sys, h, if_true]
      rw [hfix i h]; simp
    · simp only [Rb3State.step, Rb3State.updateMandMinv, Map3.flow, hamFlow, Rb3State.sys, h, hf, Bool.false_eq_true, if_false]; rfl
    · simp only [Rb3State.step, Rb3State.updateMandMinv, Map3.flow, hamFlow, Rb3State.sys, h, hf, Bool.false_eq_true, if_false]; rfl
  set s1 := s.step p .splitHam dt it with hs1
  have hr1 : s1.q.Rotations := C26_flow .splitHam trivial _ it dt _ _ hr
  have hc1 : s1.Consistent p := ⟨fun _ => rfl, fun _ => rfl⟩
  have h1 := hstep s it hr hc hfix
  have h2 := hstep s1.reversed it' hr1 hc1 (fun i hi => by
    show -(s1.v i) = 0
    rw [((h1 i).1 hi).2, neg_zero])
  rw [← hs1] at h1
  set s2 := s1.reversed.step p .splitHam dt it' with hs2
  -- the configuration comes back
  have hspin : ∀ i, p.fixed i = false → s1.I i *ᵥ (s1.v i).2 =
      s.I i *ᵥ (s.v i).2 + ((1 / 2 : ℝ) * dt) • (f s.q i).2 + ((1 / 2 : ℝ) * dt) • (f s1.q i).2 := by
    intro i hi
    rw [((h1 i).2 hi).2, hc1.1 i]
    rw [Matrix.mulVec_mulVec, inertia_inv _ (hr1 i) _ fun k => ((hp i).2 k).ne', Matrix.one_mulVec]
  have hq : s2.q = s.q := by
    funext i
    cases hi : p.fixed i with
    | true => rw [((h2 i).1 hi).1]; exact ((h1 i).1 hi).1
    | false =>
      rw [((h2 i).2 hi).1]
      have hm := (hp i).1.ne'
      refine Prod.ext ?_ ?_
      · show (s1.q i).1 + (dt • (-s1.v i).1 + ((1 / 2 : ℝ) * dt * dt) • ((1 / p.m i) • (f s1.q i).1)) = (s.q i).1
        rw [((h1 i).2 hi).1, show (-s1.v i).1 = -(s1.v i).1 from rfl, ((h1 i).2 hi).2]
        funext k
        simp only [Pi.add_apply, Pi.smul_apply, Pi.neg_apply, smul_eq_mul]
        field_simp
        ring
      · show splitRotate dt (p.I0 i) (s1.q i).2 (s1.I i *ᵥ (-s1.v i).2 + ((1 / 2 : ℝ) * dt) • (f s1.q i).2) = (s.q i).2
        rw [show (-s1.v i).2 = -(s1.v i).2 from rfl, Matrix.mulVec_neg, hspin i hi]
        have e : -(s.I i *ᵥ (s.v i).2 + ((1 / 2 : ℝ) * dt) • (f s.q i).2 + ((1 / 2 : ℝ) * dt) • (f s1.q i).2) + ((1 / 2 : ℝ) * dt) • (f s1.q i).2 =
            -(s.I i *ᵥ (s.v i).2 + ((1 / 2 : ℝ) * dt) • (f s.q i).2) := by abel
        rw [e, ((h1 i).2 hi).1]
        exact splitRotate_reverse _ _ _ _ (hr i)
  have hv : s2.v = -s.v := by
    funext i
    cases hi : p.fixed i with
    | true => rw [((h2 i).1 hi).2, Pi.neg_apply, hfix i hi, neg_zero]
    | false =>
      rw [((h2 i).2 hi).2, hq]
      have hm := (hp i).1.ne'
      refine Prod.ext ?_ ?_
      · show (fun k => (p.m i • (-s1.v i).1 + ((1 / 2 : ℝ) * dt) • (f s1.q i).1 + ((1 / 2 : ℝ) * dt) • (f s.q i).1) k / p.m i) = -(s.v i).1
        rw [show (-s1.v i).1 = -(s1.v i).1 from rfl, ((h1 i).2 hi).2]
        funext k
        simp only [Pi.add_apply, Pi.smul_apply, Pi.neg_apply, smul_eq_mul]
        field_simp
        ring
      · show ((s.q i).2 * diagonal (fun k => 1 / p.I0 i k) * (s.q i).2ᵀ) *ᵥ (s1.I i *ᵥ (-s1.v i).2 + ((1 / 2 : ℝ) * dt) • (f s1.q i).2 +
            ((1 / 2 : ℝ) * dt) • (f s.q i).2) = -(s.v i).2
        rw [show (-s1.v i).2 = -(s1.v i).2 from rfl, Matrix.mulVec_neg, hspin i hi]
        have e : -(s.I i *ᵥ (s.v i).2 + ((1 / 2 : ℝ) * dt) • (f s.q i).2 + ((1 / 2 : ℝ) * dt) • (f s1.q i).2) + ((1 / 2 : ℝ) * dt) • (f s1.q i).2 +
            ((1 / 2 : ℝ) * dt) • (f s.q i).2 = -(s.I i *ᵥ (s.v i).2) := by abel
        rw [e, Matrix.mulVec_neg, hc.1 i, Matrix.mulVec_mulVec, inertia_inv' _ (hr i) _ fun k => ((hp i).2 k).ne', Matrix.one_mulVec]
  have hI : s2.I = s.I := by
    funext i
    rw [hc.1 i, ← hq]; rfl
  have hIinv : s2.Iinv = s.Iinv := by
    funext i
    rw [hc.2 i, ← hq]; rfl
  calc s2 = ⟨s2.q, s2.v, s2.I, s2.Iinv⟩ := rfl
    _ = s.reversed := by rw [hq, hv, hI, hIinv]; rfl

/-- **C27**, the split integrator, any number of steps: run, turn the velocities round, run as many steps again, and the initial state is back
with its velocities turned round. -/
theorem C27_reversible_run (p : Rb3Params n) (hp : p.Positive) (f : Conf3 n → Vel3 n) (hf : ∀ q v t, p.computeForce q v t = f q) (dt : ℝ)
    (start start' N : Nat) (q : Conf3 n) (v : Vel3 n) (hq : q.Rotations) (hfix : ∀ i, p.fixed i = true → v i = 0) :
    let s0 := Rb3State.setState p q v
    let s := runSteps (fun it s => s.step p .splitHam dt it) start N s0
    runSteps (fun it s => s.step p .splitHam dt it) start' N s.reversed = s0.reversed := by
  have hshift : ∀ k st x, runSteps (fun it (s : Rb3State n) => s.step p .splitHam dt it) st (k + 1) x =
      runSteps (fun it s => s.step p .splitHam dt it) (st + 1) k (x.step p .splitHam dt (st + 1)) := by
    intro k
    induction k with
    | zero => intro st x; rfl
    | succ k ih =>
      intro st x
      rw [runSteps, ih st x, runSteps]
      congr 1
      omega
  induction N generalizing start' with
  | zero => rfl
  | succ N ih =>
    have hr := C26_run p hp .splitHam trivial dt start N q v hq
    have hfx : ∀ i, p.fixed i = true → (runSteps (fun it s => s.step p .splitHam dt it) start N (Rb3State.setState p q v)).v i = 0 := by
      clear ih hr
      intro i hi
      induction N with
      | zero => exact hfix i hi
      | succ N ih =>
        simp only [runSteps, Rb3State.step, Rb3State.updateMandMinv, Map3.flow, hamFlow, Rb3State.sys, hi, if_true] at ih ⊢
        rw [ih]; simp
    have hx := C27_reversible p hp f hf dt (start + N + 1) (start' + 1) _ hr.1 hr.2.1 hfx
    simp only at ih ⊢
    rw [hshift, runSteps, hx]
    exact ih (start' + 1)

/-- C27, the split integrator: the rotation is that of a body with this angular momentum: for a momentum along a principal axis the step turns the
body about this axis by exactly the step times momentum over moment of inertia. -/
theorem C27_principal_axis (dt : ℝ) (I : Vec3) (R0 : Mat3) (hR : IsRotation R0) (k : Fin 3) (a : ℝ) :
    splitRotate dt I R0 (R0 *ᵥ Pi.single k a) = R0 * angleAxisMatrix (dt * a / I k) (Pi.single k 1) := by
  have hax : ∀ h j R, splitAxis h I j (R, Pi.single k a) =
      (R * angleAxisMatrix (if j = k then h * a / I k else 0) (Pi.single k 1), Pi.single k a) := by
    intro h j R
    simp only [splitAxis, AngleAxis.inverse, AngleAxis.toMatrix]
    by_cases hj : j = k
    · subst hj
      rw [if_pos rfl, Pi.single_eq_same, angleAxis_neg_axis, neg_neg, angleAxis_mulVec_single]
    · rw [if_neg hj, Pi.single_eq_of_ne hj]
      simp only [mul_zero, zero_div, neg_zero, angleAxis_zero, Matrix.mul_one, Matrix.one_mulVec]
  have hL : R0ᵀ *ᵥ (R0 *ᵥ Pi.single k a) = Pi.single k a := hR.cancel _
  simp only [splitRotate, splitSteps, hL, hax, Matrix.mul_assoc, angleAxis_add _ _ _ (len2_single k)]
  congr 2
  fin_cases k <;> simp <;> ring

/-- C27: the orientation and body momentum the split integrator computes always represent the same world angular momentum. -/
theorem C27_split_momentum (dt : ℝ) (I : Vec3) (R0 : Mat3) (hR : IsRotation R0) (L : Vec3) :
    (splitSteps dt I (R0, R0ᵀ *ᵥ L)).1 *ᵥ (splitSteps dt I (R0, R0ᵀ *ᵥ L)).2 = L := by
  rw [splitSteps_momentum]; exact hR.cancel' L

/-- C27, `dmv`: the orientation is turned by the Cayley rotation of the vector the iteration returns. -/
theorem C27_dmv (dt : ℝ) (I : Vec3) (R0 : Mat3) (hR : IsRotation R0) (L : Vec3) :
    dmvRotate dt I R0 L = R0 * cayley (dmvCm (R0ᵀ *ᵥ L) dt I) := by
  obtain ⟨h1, h2⟩ := Quat.ofMatrix_toMatrix R0 hR
  rw [dmvRotate, dmvUpdate_toMatrix _ h2, h1]

/-- C27, `dmv`: the vectors a pass of the iteration leaves alone are exactly the solutions of the discrete Euler equation for the body
momentum `π`. -/
theorem C27_dmv_fixed_point (dt eps : ℝ) (I c π : Vec3) (hI : ∀ k, 0 < I k) :
    dmvLoop eps ![π 0 * (dt / 2) / I 0, π 1 * (dt / 2) / I 1, π 2 * (dt / 2) / I 2]
        ![(I 1 - I 2) / I 0, (I 2 - I 0) / I 1, (I 0 - I 1) / I 2] 1 c = c ↔
      ((1 + len2 c) * (dt / 2)) • π = (fun k => I k * c k) + crossProduct c (fun k => I k * c k) := by
  have h0 := (hI 0).ne'
  have h1 := (hI 1).ne'
  have h2 := (hI 2).ne'
  simp only [dmvLoop, ite_self]
  constructor
  · intro h
    have e0 := congrFun h 0
    have e1 := congrFun h 1
    have e2 := congrFun h 2
    simp only [Fin.isValue, cons_val_zero, cons_val_one, cons_val] at e0 e1 e2
    rw [e0] at e1 e2
    rw [e1] at e2
    have E0 := congrArg (· * I 0) e0
    have E1 := congrArg (· * I 1) e1
    have E2 := congrArg (· * I 2) e2
    field_simp at E0 E1 E2
    funext k
    fin_cases k <;> simp [cross_apply, len2] <;> linarith
  · intro h
    have e0 := congrFun h 0
    have e1 := congrFun h 1
    have e2 := congrFun h 2
    simp [cross_apply, len2] at e0 e1 e2
    have E0 : (c 0 * c 0 + 1 + c 1 * c 1 + c 2 * c 2) * (π 0 * (dt / 2) / I 0) + (I 1 - I 2) / I 0 * c 1 * c 2 = c 0 := by
      field_simp; linarith
    have E1 : (c 0 * c 0 + 1 + c 1 * c 1 + c 2 * c 2) * (π 1 * (dt / 2) / I 1) + (I 2 - I 0) / I 1 * c 0 * c 2 = c 1 := by
      field_simp; linarith
    have E2 : (c 0 * c 0 + 1 + c 1 * c 1 + c 2 * c 2) * (π 2 * (dt / 2) / I 2) + (I 0 - I 1) / I 2 * c 0 * c 1 = c 2 := by
      field_simp; linarith
    simp only [Fin.isValue, cons_val_zero, cons_val_one, cons_val, E0, E1, E2]
    funext k
    fin_cases k <;> rfl

/-- C27, `dmv`: a solution of the discrete Euler equation read backwards solves it for the new body momentum turned round: the discrete equation is
time reversible. -/
theorem C27_dmv_equation_reversible (dt : ℝ) (I c π : Vec3)
    (h : ((1 + len2 c) * (dt / 2)) • π = (fun k => I k * c k) + crossProduct c (fun k => I k * c k)) :
    ((1 + len2 (-c)) * (dt / 2)) • (-((cayley c)ᵀ *ᵥ π)) = (fun k => I k * (-c) k) + crossProduct (-c) (fun k => I k * (-c) k) := by
  have hc : 0 < 1 + len2 c := by
    have := mul_self_nonneg (c 0)
    have := mul_self_nonneg (c 1)
    have := mul_self_nonneg (c 2)
    simp only [len2]; linarith
  have hlen : len2 (-c) = len2 c := by simp [len2]
  have h2 : ((1 + len2 c) * (dt / 2)) • (-((cayley c)ᵀ *ᵥ π)) = -((cayley c)ᵀ *ᵥ (((1 + len2 c) * (dt / 2)) • π)) := by
    rw [Matrix.mulVec_smul, smul_neg]
  rw [hlen, h2, h]
  unfold cayley
  rw [rod_transpose]
  have e : len2 c = c 0 * c 0 + c 1 * c 1 + c 2 * c 2 := rfl
  generalize len2 c = l at *
  funext k
  fin_cases k <;>
    simp [rod, crossM, Matrix.mulVec, dotProduct, Matrix.mul_apply, Fin.sum_univ_three, Matrix.one_apply, cross_apply, vecHead, vecTail] <;>
    field_simp <;> rw [e] <;> ring

/-! ## C25 in three dimensions -/

/-- **C25** (`split_ham`, `dmv`): a fixed body at rest stays exactly where it is, under every force, over any number of steps. -/
theorem C25_fixed_rb3d_partial (p : Rb3Params n) (u : Map3) (hu : u.Hamiltonian) (dt : ℝ) (start N : Nat) (s0 : Rb3State n) (i : Fin n)
    (hi : p.fixed i = true) (hv : s0.v i = 0) :
    let s := runSteps (fun it s => s.step p u dt it) start N s0
    s.q i = s0.q i ∧ s.v i = 0 := by
  induction N with
  | zero => exact ⟨rfl, hv⟩
  | succ N ih =>
    obtain ⟨h1, h2⟩ := ih
    simp only [runSteps] at h1 h2 ⊢
    rw [← h1]
    generalize runSteps (fun it s => s.step p u dt it) start N s0 = s at h2
    rcases hu with rfl | rfl <;>
      exact ⟨by simp [Rb3State.step, Rb3State.updateMandMinv, Map3.flow, hamFlow, Rb3State.sys, hi],
        by simp [Rb3State.step, Rb3State.updateMandMinv, Map3.flow, hamFlow, Rb3State.sys, hi, h2]⟩

/-- **C25 is false of moving fixed bodies in three dimensions**: `split_ham` and `dmv` return the momentum of a scripted body in place of its
velocity: a body of mass 2 doubles its speed in every step, without force. -/
theorem C25_false_moving_3d (u : Map3) (hu : u.Hamiltonian) : ∃ (p : Rb3Params 1) (q : Conf3 1) (v : Vel3 1), p.Positive ∧ q.Rotations ∧
    p.fixed 0 = true ∧ (∀ q v t, p.computeForce q v t = 0) ∧ (v 0).1 = ![1, 0, 0] ∧
    (((Rb3State.setState p q v).step p u 1 1).v 0).1 = ![2, 0, 0] := by
  refine ⟨⟨fun _ => 2, fun _ _ => 1, fun _ => true, fun _ _ _ => 0⟩, fun _ => (0, 1), fun _ => (![1, 0, 0], 0),
    fun _ => ⟨by norm_num, fun _ => by norm_num⟩, fun _ => IsRotation.one, rfl, fun _ _ _ => rfl, rfl, ?_⟩
  rcases hu with rfl | rfl <;>
  · simp [Rb3State.step, Rb3State.updateMandMinv, Map3.flow, hamFlow, Rb3State.sys, Rb3State.setState]

/-- **C25 is false of `exponential_euler`**: a fixed body falls. -/
theorem C25_false_exponential_euler (svd : Mat3 → Mat3 × Vec3 × Mat3) : ∃ (p : Rb3Params 1) (q : Conf3 1), p.Positive ∧ q.Rotations ∧
    p.fixed 0 = true ∧ p.computeForce = gravityForce3 p.m [![0, -10, 0]] ∧
    (((Rb3State.setState p q 0).step p (.exponentialEuler svd) 1 1).v 0).1 = ![0, -10, 0] := by
  refine ⟨⟨fun _ => 1, fun _ _ => 1, fun _ => true, gravityForce3 (fun _ => 1) [![0, -10, 0]]⟩, fun _ => (0, 1),
    fun _ => ⟨by norm_num, fun _ => by norm_num⟩, fun _ => IsRotation.one, rfl, rfl, ?_⟩
  simp [Rb3State.step, Rb3State.updateMandMinv, Map3.flow, exponentialEulerFlow, Rb3State.sys, Rb3State.setState, gravityForce3]

/-- Non-vacuity of C26 and C27: a free body with three different moments, turning. -/
example : ∃ (p : Rb3Params 1) (q : Conf3 1) (v : Vel3 1), p.Positive ∧ q.Rotations ∧ (∀ i, p.fixed i = false) ∧ (v 0).2 = ![1, 2, 3] ∧
    (∀ q v t, p.computeForce q v t = 0) ∧ (Rb3State.setState p q v).spin 0 = ![1, 4, 9] := by
  refine ⟨⟨fun _ => 2, fun _ => ![1, 2, 3], fun _ => false, fun _ _ _ => 0⟩, fun _ => (0, 1), fun _ => (0, ![1, 2, 3]),
    fun _ => ⟨by norm_num, fun k => by fin_cases k <;> norm_num⟩, fun _ => IsRotation.one, fun _ => rfl, rfl, fun _ _ _ => rfl, ?_⟩
  funext k
  fin_cases k <;> simp [Rb3State.spin, Rb3State.setState, Matrix.mulVec_diagonal] <;> norm_num

end Scisim
