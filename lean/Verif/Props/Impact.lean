import Mathlib.Tactic.NormNum
import Mathlib.Tactic.FinCases
import Mathlib.Data.Fin.VecNotation
import Verif.Lemmas.ImpactLCP
/-!
# C29–C33: impacts
-/

namespace Scisim

open Matrix Finset

variable {n d k : Nat} {ι : Type} [Fintype ι] [DecidableEq ι]

/-! ## C29: single impacts -/

/-- **C29.** The relative normal velocity at a contact is the dot product of the contact's column of `N` with the velocities, plus the part of the moving
obstacle: the pairwise response, the impact operators and the reported velocity are about the same quantity. -/
theorem C29_normal_velocity (cons : Fin k → Con n d) (v : Vel n d) (c : Fin k) :
    (cons c).evalNdotV v = ((computeN cons)ᵀ *ᵥ v + evalKinematicRelativeVelocityN cons) c :=
  (cons c).evalNdotV_eq v

/-- **C29.** The impact response makes the relative normal velocity exactly `-c` times what it was. -/
theorem C29_newton (c : Con n d) (hc : c.Valid) (CoR : ℝ) (m : Fin n → ℝ) (hm : ∀ i, 0 < m i) (v v' : Vel n d) (a : ℝ)
    (h : c.resolveImpact CoR m (c.evalNdotV v) v = .ok (v', a)) : c.evalNdotV v' = -CoR * c.evalNdotV v := by
  rw [Con.resolveImpact_eq _ _ _ hm _ _ hc (Con.resolvable_of_ok h)] at h
  cases h
  have hp := (c.invMass_pos m hm).ne'
  rw [c.evalNdotV_eq (_ + _), dotProduct_add, dotProduct_smul, c.gradg_invMass m hc, smul_eq_mul, div_mul_cancel₀ _ hp, c.evalNdotV_eq v]
  ring

/-- the bodies of a contact -/
def Con.Touches : Con n d → Fin n → Prop
  | .ballBall i j _, l | .kick i j _ _, l | .sphereSphere i j _, l => l = i ∨ l = j
  | .ballPlane i _ _, l | .drum i _, l | .planeSphere i _ _, l => l = i

/-- the normal of a contact -/
def Con.normal : Con n d → Fin d → ℝ
  | .ballBall _ _ w | .kick _ _ w _ | .sphereSphere _ _ w | .ballPlane _ w _ | .drum _ w | .planeSphere _ w _ => w

/-- **C29.** The response changes the velocity of the bodies of the contact along the contact normal only, and no other body; the impulse is positive if
the bodies approach; and the impulse given back is the one applied: the first body's momentum changes by impulse times normal. -/
theorem C29_normal_only (c : Con n d) (hc : c.Valid) (CoR : ℝ) (hCoR : 0 ≤ CoR) (m : Fin n → ℝ) (hm : ∀ i, 0 < m i) (v v' : Vel n d) (a : ℝ)
    (h : c.resolveImpact CoR m (c.evalNdotV v) v = .ok (v', a)) :
    (∀ l, ¬ c.Touches l → seg v' l = seg v l) ∧ (∀ l, ∃ t : ℝ, seg v' l = seg v l + t • c.normal ∧ (m l * t = a ∨ m l * t = -a ∨ t = 0)) ∧
    (c.evalNdotV v < 0 → 0 < a) ∧ (c.evalNdotV v ≤ 0 → 0 ≤ a) := by
  rw [Con.resolveImpact_eq _ _ _ hm _ _ hc (Con.resolvable_of_ok h)] at h
  cases h
  have hp := c.invMass_pos m hm
  refine ⟨?_, ?_, fun h => div_pos (by nlinarith) hp, fun h => div_nonneg (by nlinarith) hp.le⟩
  · intro l hl
    funext e
    have hg : c.gradg (l, e) = 0 := by
      cases c <;> simp only [Con.Touches, not_or] at hl <;> simp [Con.gradg, hl]
    simp only [seg, Pi.add_apply, Pi.smul_apply, ballMinv_mulVec, hg, zero_div, smul_zero, add_zero]
  · intro l
    have hml := (hm l).ne'
    set a := -(1 + CoR) * c.evalNdotV v / c.invMass m
    have hg : ∃ σ : ℝ, (σ = 1 ∨ σ = -1 ∨ σ = 0) ∧ ∀ e, c.gradg (l, e) = σ * c.normal e := by
      have hpair : ∀ (i j : Fin n) (w : Fin d → ℝ), i ≠ j → ∃ σ : ℝ, (σ = 1 ∨ σ = -1 ∨ σ = 0) ∧
          ∀ e, (if l = i then w e else 0) + (if l = j then -(w e) else 0) = σ * w e := by
        intro i j w hij
        by_cases h1 : l = i
        · have h2 : l ≠ j := fun h2 => hij (h1 ▸ h2)
          exact ⟨1, Or.inl rfl, fun e => by rw [if_pos h1, if_neg h2]; ring⟩
        · by_cases h2 : l = j
          · exact ⟨-1, Or.inr (Or.inl rfl), fun e => by rw [if_neg h1, if_pos h2]; ring⟩
          · exact ⟨0, Or.inr (Or.inr rfl), fun e => by rw [if_neg h1, if_neg h2]; ring⟩
      have hone : ∀ (i : Fin n) (w : Fin d → ℝ), ∃ σ : ℝ, (σ = 1 ∨ σ = -1 ∨ σ = 0) ∧ ∀ e, (if l = i then w e else 0) = σ * w e := by
        intro i w
        by_cases h1 : l = i
        · exact ⟨1, Or.inl rfl, fun e => by rw [if_pos h1]; ring⟩
        · exact ⟨0, Or.inr (Or.inr rfl), fun e => by rw [if_neg h1]; ring⟩
      cases c with
      | ballBall i j w => exact hpair i j w hc.1
      | kick i j w u => exact hpair i j w hc.1
      | sphereSphere i j w => exact hpair i j w hc.1
      | ballPlane i w u => exact hone i w
      | drum i w => exact hone i w
      | planeSphere i w u => exact hone i w
    obtain ⟨σ, hσ, hg⟩ := hg
    refine ⟨a * σ / m l, ?_, ?_⟩
    · funext e
      simp only [seg, Pi.add_apply, Pi.smul_apply, ballMinv_mulVec, hg, smul_eq_mul]
      ring
    · rcases hσ with rfl | rfl | rfl
      · left; field_simp
      · right; left; field_simp
      · right; right; simp

/-- **C29.** The response to a contact of two bodies conserves total momentum, and total angular momentum if the normal is along the line of centres. -/
theorem C29_momentum (c : Con n d) (hc : c.Valid) (hp : c.Pair) (CoR : ℝ) (m : Fin n → ℝ) (hm : ∀ i, 0 < m i) (v v' : Vel n d) (a : ℝ)
    (h : c.resolveImpact CoR m (c.evalNdotV v) v = .ok (v', a)) :
    massMomentum m v' = massMomentum m v ∧ ∀ q : Vel n d, c.Central q → massAngular m q v' = massAngular m q v := by
  rw [Con.resolveImpact_eq _ _ _ hm _ _ hc (Con.resolvable_of_ok h)] at h
  cases h
  constructor
  · funext e
    rw [massMomentum_eq, massMomentum_eq, mass_dot_impulse m hm, c.gradg_translation hp, mul_zero, add_zero]
  · intro q hq
    funext e f
    rw [massAngular_eq, massAngular_eq, mass_dot_impulse m hm, c.gradg_rotation hp q hq, mul_zero, add_zero]

/-- **C29.** Kinetic energy: the response removes `(1 - c²) u² / 2` times the reduced mass, `u` being the approach velocity, and adds the work done by the
moving obstacle. So without moving obstacles it never increases for `c` in `[0,1]`, and is conserved for `c = 1`. -/
theorem C29_energy (c : Con n d) (hc : c.Valid) (CoR : ℝ) (m : Fin n → ℝ) (hm : ∀ i, 0 < m i) (v v' : Vel n d) (a : ℝ)
    (h : c.resolveImpact CoR m (c.evalNdotV v) v = .ok (v', a)) :
    massKE m v' = massKE m v - 1 / 2 * (1 - CoR) * (1 + CoR) * c.evalNdotV v ^ 2 / c.invMass m - a * c.kinematicNormalRelVel ∧
    (c.Still → 0 ≤ CoR → CoR ≤ 1 → massKE m v' ≤ massKE m v) ∧ (c.Still → CoR = 1 → massKE m v' = massKE m v) := by
  have hp := c.invMass_pos m hm
  rw [Con.resolveImpact_eq _ _ _ hm _ _ hc (Con.resolvable_of_ok h)] at h
  cases h
  have e := gsHit_energy (k := 1) (fun _ => c) (fun _ => CoR) m hm ⟨v, 0, true⟩ 0 hc 0
  simp only [gsHit, sub_zero, dotProduct_zero, add_zero] at e
  refine ⟨e, fun hs h0 h1 => ?_, fun hs h1 => ?_⟩
  · rw [e, c.still_rel hs, mul_zero, sub_zero]
    have : 0 ≤ 1 / 2 * (1 - CoR) * (1 + CoR) * c.evalNdotV v ^ 2 / c.invMass m := by
      apply div_nonneg _ hp.le
      have : 0 ≤ (1 - CoR) * (1 + CoR) := mul_nonneg (by linarith) (by linarith)
      nlinarith [sq_nonneg (c.evalNdotV v)]
    linarith
  · rw [e, c.still_rel hs, h1]; ring

/-- **C29.** The response exists for contacts between balls, between spheres and of a sphere with a plane; contacts of a ball with a plane or a drum have
none: the program stops. -/
theorem C29_total (c : Con n d) (CoR : ℝ) (m : Fin n → ℝ) (u : ℝ) (v : Vel n d) :
    (c.Resolvable → ∃ r, c.resolveImpact CoR m u v = .ok r) ∧ (¬ c.Resolvable → c.resolveImpact CoR m u v = .exit) := by
  cases c <;> simp [Con.Resolvable, Con.resolveImpact]

/-- two balls of masses 1 and 3 that approach along a diagonal -/
noncomputable example : ∃ (c : Con 2 2) (v v' : Vel 2 2) (q : Vel 2 2) (a : ℝ), c.Valid ∧ c.Pair ∧ c.Still ∧ c.Central q ∧ c.Resolvable ∧
    c.evalNdotV v < 0 ∧ c.resolveImpact (1 / 2) ![1, 3] (c.evalNdotV v) v = .ok (v', a) ∧ v' ≠ v := by
  have hv : (Con.ballBall (n := 2) (d := 2) 0 1 ![-3 / 5, -4 / 5]).Valid := ⟨by decide, by norm_num [dotProduct, Fin.sum_univ_two]⟩
  have hm : ∀ i, (0 : ℝ) < ![1, 3] i := by intro i; fin_cases i <;> norm_num
  refine ⟨.ballBall 0 1 ![-3 / 5, -4 / 5], fun p => if p.1 = 0 then 1 else 0, _, fun p => if p.1 = 0 then ![-3, -4] p.2 else 0, _, hv, trivial, trivial,
    ⟨5, by norm_num, ?_⟩, trivial, ?_, Con.resolveImpact_eq _ _ _ hm _ _ hv trivial, ?_⟩
  · funext e; fin_cases e <;> norm_num [seg]
  · norm_num [Con.evalNdotV, seg, dotProduct, Fin.sum_univ_two]
  · intro h
    have := congrFun h (1, 0)
    norm_num [Con.evalNdotV, seg, dotProduct, Fin.sum_univ_two, Con.gradg, ballMinv_mulVec, Con.invMass] at this

/-! ## C30: Gauss-Seidel -/

section GS
variable (cons : Fin k → Con n d) (hv : ∀ c, (cons c).Valid) (CoR : Fin k → ℝ) (hCoR : ∀ c, 0 ≤ CoR c ∧ CoR c ≤ 1) (m : Fin n → ℝ) (hm : ∀ i, 0 < m i)
  (tol : ℝ) (htol : 0 ≤ tol)
include hv hm

/-- **C30.** After any number of passes the velocities the operator works with are the starting velocities changed by exactly the impulses it has added
to `alpha`; without warm starting these are all of `alpha`. -/
theorem C30_impulses_partial (v0 : Vel n d) (alpha0 : Fin k → ℝ) (fuel : Nat) (s : GSState n d k) (fin : Bool)
    (h : gsFlow cons CoR m tol v0 alpha0 fuel = .ok (s, fin)) :
    s.v = afterImpulses (ballMinv m) (computeN cons) v0 (s.alpha - alpha0) := by
  refine gsLoop_induct hm hv (fun v a => v = afterImpulses (ballMinv m) (computeN cons) v0 (a - alpha0)) ?_ fuel _ (s, fin) ?_ h
  · intro s idx hs _
    simp only [gsHit]
    rw [hs]
    simp only [afterImpulses, mulVec_sub, computeN_mulVec_update, mulVec_add, mulVec_smul]
    abel
  · simp [afterImpulses]

include hCoR htol

/-- **C30.** The impulses never decrease, so without warm starting they are not negative, after any number of passes. -/
theorem C30_push (v0 : Vel n d) (alpha0 : Fin k → ℝ) (fuel : Nat) (s : GSState n d k) (fin : Bool)
    (h : gsFlow cons CoR m tol v0 alpha0 fuel = .ok (s, fin)) (c : Fin k) : alpha0 c ≤ s.alpha c := by
  refine gsLoop_induct hm hv (fun _ a => alpha0 c ≤ a c) ?_ fuel _ (s, fin) (le_refl _) h
  intro s idx hs hu
  have h1 := gsHit_impulse_pos cons CoR m hm s.v idx tol htol (hCoR idx).1 hu
  have h2 := div_nonneg htol ((cons idx).invMass_pos m hm).le
  simp only [gsHit]
  by_cases hc : c = idx
  · subst hc; rw [Function.update_self]; linarith
  · rw [Function.update_of_ne hc]; exact hs

/-- **C30.** Without moving obstacles kinetic energy never exceeds the starting one, after any number of passes. With moving obstacles this is true of the
kinetic energy seen by an observer moving with `z`, if no obstacle approaches this observer's frame. -/
theorem C30_energy (v0 z : Vel n d) (hz : ∀ c, 0 ≤ (cons c).kinematicNormalRelVel + (cons c).gradg ⬝ᵥ z) (alpha0 : Fin k → ℝ) (fuel : Nat)
    (s : GSState n d k) (fin : Bool) (h : gsFlow cons CoR m tol v0 alpha0 fuel = .ok (s, fin)) : massKE m (s.v - z) ≤ massKE m (v0 - z) := by
  refine gsLoop_induct hm hv (fun v _ => massKE m (v - z) ≤ massKE m (v0 - z)) ?_ fuel _ (s, fin) (le_refl _) h
  intro s idx hs hu
  have hp := (cons idx).invMass_pos m hm
  have h1 := gsHit_impulse_pos cons CoR m hm s.v idx tol htol (hCoR idx).1 hu
  have h2 := div_nonneg htol hp.le
  rw [gsHit_energy cons CoR m hm s idx (hv idx) z]
  have h3 : 0 ≤ 1 / 2 * (1 - CoR idx) * (1 + CoR idx) * (cons idx).evalNdotV s.v ^ 2 / (cons idx).invMass m := by
    apply div_nonneg _ hp.le
    have : 0 ≤ (1 - CoR idx) * (1 + CoR idx) := mul_nonneg (by linarith [(hCoR idx).2]) (by linarith [(hCoR idx).1])
    nlinarith [sq_nonneg ((cons idx).evalNdotV s.v)]
  have h4 := mul_nonneg (h2.trans h1) (hz idx)
  linarith

/-- **C30.** The case without moving obstacles. -/
theorem C30_energy_still (v0 : Vel n d) (hs : ∀ c, (cons c).Still) (alpha0 : Fin k → ℝ) (fuel : Nat)
    (s : GSState n d k) (fin : Bool) (h : gsFlow cons CoR m tol v0 alpha0 fuel = .ok (s, fin)) : massKE m s.v ≤ massKE m v0 := by
  have := C30_energy cons hv CoR hCoR m hm tol htol v0 0 (fun c => by rw [(cons c).still_rel (hs c)]; simp) alpha0 fuel s fin h
  simpa using this

omit hCoR htol

/-- **C30.** Total momentum is conserved if all contacts are between bodies, and total angular momentum if the normals are along the lines of centres. -/
theorem C30_momentum (hp : ∀ c, (cons c).Pair) (v0 : Vel n d) (alpha0 : Fin k → ℝ) (fuel : Nat) (s : GSState n d k) (fin : Bool)
    (h : gsFlow cons CoR m tol v0 alpha0 fuel = .ok (s, fin)) :
    massMomentum m s.v = massMomentum m v0 ∧ ∀ q : Vel n d, (∀ c, (cons c).Central q) → massAngular m q s.v = massAngular m q v0 := by
  constructor
  · refine gsLoop_induct hm hv (fun v _ => massMomentum m v = massMomentum m v0) ?_ fuel _ (s, fin) rfl h
    intro s idx hs _
    rw [← hs]
    funext e
    simp only [gsHit]
    rw [massMomentum_eq, massMomentum_eq, mass_dot_impulse m hm, (cons idx).gradg_translation (hp idx), mul_zero, add_zero]
  · intro q hq
    refine gsLoop_induct hm hv (fun v _ => massAngular m q v = massAngular m q v0) ?_ fuel _ (s, fin) rfl h
    intro s idx hs _
    rw [← hs]
    funext e f
    simp only [gsHit]
    rw [massAngular_eq, massAngular_eq, mass_dot_impulse m hm, (cons idx).gradg_rotation (hp idx) q (hq idx), mul_zero, add_zero]

/-- **C30.** When the operator stops by itself no contact approaches faster than the tolerance. -/
theorem C30_feasible (v0 : Vel n d) (alpha0 : Fin k → ℝ) (fuel : Nat) (s : GSState n d k) (h : gsFlow cons CoR m tol v0 alpha0 fuel = .ok (s, true))
    (c : Fin k) : -tol ≤ (cons c).evalNdotV s.v :=
  gsLoop_done hm hv fuel _ (s, true) h rfl c

include hCoR

/-- **C30.** The operator stops by itself, for a positive tolerance and any restitution in `[0,1]`, if some motion of the bodies would separate all
contacts at once. -/
theorem C30_terminates (hr : ∀ c, (cons c).Resolvable) (ht : 0 < tol) (w : Vel n d) (hw : ∀ c, 0 < (cons c).gradg ⬝ᵥ w) (v0 : Vel n d) (alpha0 : Fin k → ℝ) :
    ∃ fuel s, ∀ extra, gsFlow cons CoR m tol v0 alpha0 (fuel + extra) = .ok (s, true) := by
  rcases Nat.eq_zero_or_pos k with hk | hk
  · subst hk
    exact ⟨1, ⟨v0, alpha0, false⟩, fun extra => gsLoop_more 1 _ _ (by simp [gsLoop, gsPass, Outcome.bind]) extra⟩
  have hne : (univ : Finset (Fin k)).Nonempty := ⟨⟨0, hk⟩, mem_univ _⟩
  -- an observer in whose frame no obstacle approaches
  obtain ⟨lam, hlam⟩ : ∃ lam : ℝ, ∀ c, 0 ≤ (cons c).kinematicNormalRelVel + (cons c).gradg ⬝ᵥ (lam • w) := by
    obtain ⟨c0, _, hc0⟩ := exists_max_image univ (fun c => -(cons c).kinematicNormalRelVel / ((cons c).gradg ⬝ᵥ w)) hne
    refine ⟨-(cons c0).kinematicNormalRelVel / ((cons c0).gradg ⬝ᵥ w), fun c => ?_⟩
    have := hc0 c (mem_univ c)
    rw [div_le_iff₀ (hw c)] at this
    rw [dotProduct_smul, smul_eq_mul]; linarith
  -- every impact adds at least `δ` to the momentum along `w`
  obtain ⟨c1, _, hc1⟩ := exists_min_image univ (fun c => tol / (cons c).invMass m * ((cons c).gradg ⬝ᵥ w)) hne
  set δ := tol / (cons c1).invMass m * ((cons c1).gradg ⬝ᵥ w) with hδ
  have hδp : 0 < δ := mul_pos (div_pos ht ((cons c1).invMass_pos m hm)) (hw c1)
  have hstep : ∀ (s : GSState n d k) idx, massKE m (s.v - lam • w) ≤ massKE m (v0 - lam • w) → (cons idx).evalNdotV s.v < -tol →
      massKE m ((gsHit cons CoR m s idx).v - lam • w) ≤ massKE m (v0 - lam • w) := by
    intro s idx hs hu
    have hp := (cons idx).invMass_pos m hm
    have h1 := gsHit_impulse_pos cons CoR m hm s.v idx tol ht.le (hCoR idx).1 hu
    have h2 := div_nonneg ht.le hp.le
    rw [gsHit_energy cons CoR m hm s idx (hv idx) (lam • w)]
    have h3 : 0 ≤ 1 / 2 * (1 - CoR idx) * (1 + CoR idx) * (cons idx).evalNdotV s.v ^ 2 / (cons idx).invMass m := by
      apply div_nonneg _ hp.le
      have : 0 ≤ (1 - CoR idx) * (1 + CoR idx) := mul_nonneg (by linarith [(hCoR idx).2]) (by linarith [(hCoR idx).1])
      nlinarith [sq_nonneg ((cons idx).evalNdotV s.v)]
    have h4 := mul_nonneg (h2.trans h1) (hlam idx)
    linarith
  obtain ⟨fuel, s, h⟩ := gsLoop_terminates (CoR := CoR) hm hv hr (fun v _ => massKE m (v - lam • w) ≤ massKE m (v0 - lam • w)) hstep
    (fun v => ∑ p, m p.1 * w p * v p) δ (massKE m w + massKE m (v0 - lam • w) + ∑ p, m p.1 * w p * (lam • w) p) hδp
    (fun s idx _ hu => by
      have h1 := gsHit_impulse_pos cons CoR m hm s.v idx tol ht.le (hCoR idx).1 hu
      simp only [gsHit]
      rw [mass_dot_impulse m hm, dotProduct_comm]
      have h2 := mul_le_mul_of_nonneg_right h1 (hw idx).le
      have h3 := hc1 idx (mem_univ idx)
      linarith)
    (fun v a hP => by
      have h1 := mass_dot_le m hm w (v - lam • w)
      have h2 : ∑ p, m p.1 * w p * (v - lam • w) p = ∑ p, m p.1 * w p * v p - ∑ p, m p.1 * w p * (lam • w) p := by
        rw [← sum_sub_distrib]; exact sum_congr rfl fun p _ => by simp only [Pi.sub_apply]; ring
      rw [h2] at h1
      linarith)
    ⟨v0, alpha0, true⟩ (le_refl _)
  exact ⟨fuel, s, fun extra => gsLoop_more fuel _ _ h extra⟩

/-- **C30.** In particular it stops for any number of balls or spheres in contact with each other only. -/
theorem C30_terminates_pairs (hr : ∀ c, (cons c).Resolvable) (hp : ∀ c, (cons c).Pair) (q : Vel n d) (hq : ∀ c, (cons c).Central q) (ht : 0 < tol)
    (v0 : Vel n d) (alpha0 : Fin k → ℝ) : ∃ fuel s, ∀ extra, gsFlow cons CoR m tol v0 alpha0 (fuel + extra) = .ok (s, true) := by
  refine C30_terminates cons hv CoR hCoR m hm tol hr ht q (fun c => ?_) v0 alpha0
  have h1 := hv c
  have h2 := hq c
  have h3 := hp c
  revert h1 h2 h3
  cases cons c <;> simp only [Con.Pair, Con.Valid, Con.Central, Con.gradg, false_implies, implies_true] <;>
  · rintro ⟨_, h1⟩ ⟨s, hs, h2⟩ _
    rw [pair_dot, h2, dotProduct_smul, h1]; simpa using hs

/-- **C30.** With restitution below one it stops for any contacts without moving obstacles, also if bodies are squeezed. -/
theorem C30_terminates_inelastic (hr : ∀ c, (cons c).Resolvable) (ht : 0 < tol) (hlt : ∀ c, CoR c < 1) (hs : ∀ c, (cons c).Still)
    (v0 : Vel n d) (alpha0 : Fin k → ℝ) : ∃ fuel s, ∀ extra, gsFlow cons CoR m tol v0 alpha0 (fuel + extra) = .ok (s, true) := by
  rcases Nat.eq_zero_or_pos k with hk | hk
  · subst hk
    exact ⟨1, ⟨v0, alpha0, false⟩, fun extra => gsLoop_more 1 _ _ (by simp [gsLoop, gsPass, Outcome.bind]) extra⟩
  have hne : (univ : Finset (Fin k)).Nonempty := ⟨⟨0, hk⟩, mem_univ _⟩
  obtain ⟨c1, _, hc1⟩ := exists_min_image univ (fun c => 1 / 2 * (1 - CoR c) * (1 + CoR c) * tol ^ 2 / (cons c).invMass m) hne
  have hδp : 0 < 1 / 2 * (1 - CoR c1) * (1 + CoR c1) * tol ^ 2 / (cons c1).invMass m := by
    apply div_pos _ ((cons c1).invMass_pos m hm)
    have h1 := hlt c1
    have h2 := (hCoR c1).1
    have : 0 < 1 - CoR c1 := by linarith
    positivity
  obtain ⟨fuel, s, h⟩ := gsLoop_terminates (CoR := CoR) (tol := tol) hm hv hr (fun _ _ => True) (fun _ _ _ _ => trivial)
    (fun v => -massKE m v) _ 0 hδp
    (fun s idx _ hu => by
      have e := gsHit_energy cons CoR m hm s idx (hv idx) 0
      rw [(cons idx).still_rel (hs idx)] at e
      simp only [sub_zero, dotProduct_zero, add_zero, mul_zero] at e
      rw [e]
      have h3 := hc1 idx (mem_univ idx)
      have h4 : 1 / 2 * (1 - CoR idx) * (1 + CoR idx) * tol ^ 2 / (cons idx).invMass m ≤
          1 / 2 * (1 - CoR idx) * (1 + CoR idx) * (cons idx).evalNdotV s.v ^ 2 / (cons idx).invMass m := by
        apply div_le_div_of_nonneg_right _ ((cons idx).invMass_pos m hm).le
        apply mul_le_mul_of_nonneg_left
        · nlinarith
        · have h5 := hlt idx
          have h6 := (hCoR idx).1
          have : 0 < 1 - CoR idx := by linarith
          positivity
      linarith)
    (fun v _ _ => by have := massKE_nonneg m hm v; linarith)
    ⟨v0, alpha0, true⟩ trivial
  exact ⟨fuel, s, fun extra => gsLoop_more fuel _ _ h extra⟩

end GS

/-! ### What fails: findings about the Gauss-Seidel operator -/

/-- three balls of mass one in a row -/
noncomputable def rowCons : Fin 2 → Con 3 2 := ![.ballBall 0 1 ![-1, 0], .ballBall 1 2 ![-1, 0]]

/-- velocities along the row -/
def rowVel (a b c : ℝ) : Vel 3 2 := fun p => if p.2 = 0 then ![a, b, c] p.1 else 0

theorem rowCons_valid (c : Fin 2) : (rowCons c).Valid := by
  fin_cases c <;> simp [rowCons, Con.Valid, dotProduct, Fin.sum_univ_two]

theorem rowCons_visit0 (a b c : ℝ) (al : Fin 2 → ℝ) (h : Bool) (hab : b < a) :
    ∃ al', gsVisit rowCons (fun _ => 0) (fun _ => 1) 0 ⟨rowVel a b c, al, h⟩ 0 = .ok ⟨rowVel ((a + b) / 2) ((a + b) / 2) c, al', true⟩ := by
  have e : (rowCons 0).evalNdotV (rowVel a b c) = b - a := by
    simp [rowCons, Con.evalNdotV, dotProduct, Fin.sum_univ_two, seg, rowVel]
  obtain ⟨s', hs'⟩ := gsVisit_total (CoR := fun _ => 0) (tol := 0) ⟨rowVel a b c, al, h⟩ 0 (m := fun _ => 1) (fun _ => one_pos) (rowCons_valid 0)
    (by simp [rowCons, Con.Resolvable])
  rcases gsVisit_ok (fun _ => one_pos) (rowCons_valid 0) hs' with ⟨_, rfl⟩ | ⟨hu, _⟩
  · refine ⟨(gsHit rowCons (fun _ => 0) (fun _ => 1) ⟨rowVel a b c, al, h⟩ 0).alpha, hs'.trans ?_⟩
    unfold gsHit
    simp only [Outcome.ok.injEq, GSState.mk.injEq, and_true]
    rw [e]
    funext p
    obtain ⟨i, j⟩ := p
    simp only [Pi.add_apply, Pi.smul_apply, ballMinv_mulVec]
    fin_cases i <;> fin_cases j <;> simp [rowVel, rowCons, Con.gradg, Con.invMass] <;> ring
  · rw [e] at hu; exfalso; apply hu; linarith

theorem rowCons_visit1 (a b c : ℝ) (al : Fin 2 → ℝ) (h : Bool) (hab : c < b) :
    ∃ al', gsVisit rowCons (fun _ => 0) (fun _ => 1) 0 ⟨rowVel a b c, al, h⟩ 1 = .ok ⟨rowVel a ((b + c) / 2) ((b + c) / 2), al', true⟩ := by
  have e : (rowCons 1).evalNdotV (rowVel a b c) = c - b := by
    simp [rowCons, Con.evalNdotV, dotProduct, Fin.sum_univ_two, seg, rowVel]
  obtain ⟨s', hs'⟩ := gsVisit_total (CoR := fun _ => 0) (tol := 0) ⟨rowVel a b c, al, h⟩ 1 (m := fun _ => 1) (fun _ => one_pos) (rowCons_valid 1)
    (by simp [rowCons, Con.Resolvable])
  rcases gsVisit_ok (fun _ => one_pos) (rowCons_valid 1) hs' with ⟨_, rfl⟩ | ⟨hu, _⟩
  · refine ⟨(gsHit rowCons (fun _ => 0) (fun _ => 1) ⟨rowVel a b c, al, h⟩ 1).alpha, hs'.trans ?_⟩
    unfold gsHit
    simp only [Outcome.ok.injEq, GSState.mk.injEq, and_true]
    rw [e]
    funext p
    obtain ⟨i, j⟩ := p
    simp only [Pi.add_apply, Pi.smul_apply, ballMinv_mulVec]
    fin_cases i <;> fin_cases j <;> simp [rowVel, rowCons, Con.gradg, Con.invMass] <;> ring
  · rw [e] at hu; exfalso; apply hu; linarith

/-- **C30, finding.** With tolerance zero, which the scene parsers accept, the operator need not stop: three balls in a row, the outer ones running towards
the middle one, no restitution. -/
theorem C30_zero_tolerance_runs_forever (fuel : Nat) :
    ∃ s, gsFlow rowCons (fun _ => 0) (fun _ => 1) 0 (rowVel 1 0 (-1)) 0 fuel = .ok (s, false) := by
  have pass : ∀ (x : ℝ) (al : Fin 2 → ℝ), 0 < x → ∃ al', gsPass rowCons (fun _ => 0) (fun _ => 1) 0 (List.finRange 2)
      ⟨rowVel x (-x / 2) (-x / 2), al, false⟩ = .ok ⟨rowVel (x / 4) (-(x / 4) / 2) (-(x / 4) / 2), al', true⟩ := by
    intro x al hx
    obtain ⟨a1, h1⟩ := rowCons_visit0 x (-x / 2) (-x / 2) al false (by linarith)
    obtain ⟨a2, h2⟩ := rowCons_visit1 ((x + -x / 2) / 2) ((x + -x / 2) / 2) (-x / 2) a1 true (by linarith)
    refine ⟨a2, ?_⟩
    have : List.finRange 2 = [0, 1] := rfl
    rw [this]
    simp only [gsPass, h1, Outcome.bind, h2]
    congr 3 <;> ring
  have loop : ∀ (fuel : Nat) (x : ℝ) (al : Fin 2 → ℝ) (b : Bool), 0 < x →
      ∃ s, gsLoop rowCons (fun _ => 0) (fun _ => 1) 0 fuel ⟨rowVel x (-x / 2) (-x / 2), al, b⟩ = .ok (s, false) := by
    intro fuel
    induction fuel with
    | zero => intro x al b _; exact ⟨_, rfl⟩
    | succ f ih =>
      intro x al b hx
      obtain ⟨a1, h1⟩ := pass x al hx
      simp only [gsLoop, h1, Outcome.bind, if_true]
      exact ih (x / 4) a1 true (by linarith)
  cases fuel with
  | zero => exact ⟨_, rfl⟩
  | succ f =>
    obtain ⟨a1, h1⟩ := rowCons_visit0 1 0 (-1) 0 false (by norm_num)
    obtain ⟨a2, h2⟩ := rowCons_visit1 ((1 + 0) / 2) ((1 + 0) / 2) (-1) a1 true (by norm_num)
    have h3 : gsPass rowCons (fun _ => 0) (fun _ => 1) 0 (List.finRange 2) ⟨rowVel 1 0 (-1), 0, false⟩ =
        .ok ⟨rowVel (1 / 2) (-(1 / 2) / 2) (-(1 / 2) / 2), a2, true⟩ := by
      have : List.finRange 2 = [0, 1] := rfl
      rw [this]
      simp only [gsPass, h1, Outcome.bind, h2]
      congr 3 <;> norm_num
    simp only [gsFlow, gsLoop, h3, Outcome.bind, if_true]
    exact loop f (1 / 2) a2 true (by norm_num)

/-- a sphere that touches two parallel walls -/
noncomputable def wallCons : Fin 2 → Con 1 3 := ![.planeSphere 0 ![1, 0, 0] 0, .planeSphere 0 ![-1, 0, 0] 0]

theorem wallCons_valid (c : Fin 2) : (wallCons c).Valid := by
  fin_cases c <;> simp [wallCons, Con.Valid, dotProduct, Fin.sum_univ_three]

/-- **C30, finding.** With restitution one, which is the largest value the operator is meant for, it need not stop, whatever the tolerance: a sphere that
touches two parallel walls is thrown from one to the other for ever. So the hypotheses of the theorems on termination are needed. -/
theorem C30_elastic_squeeze_runs_forever (tol : ℝ) (ht : tol < 1) (fuel : Nat) :
    ∃ s, gsFlow wallCons (fun _ => 1) (fun _ => 1) tol (fun p => if p.2 = 0 then -1 else 0) 0 fuel = .ok (s, false) := by
  have visit : ∀ (c : Fin 2) (x : ℝ) (al : Fin 2 → ℝ) (b : Bool), (c = 0 ∧ x = -1 ∨ c = 1 ∧ x = 1) →
      ∃ al', gsVisit wallCons (fun _ => 1) (fun _ => 1) tol ⟨fun p => if p.2 = 0 then x else 0, al, b⟩ c =
        .ok ⟨fun p => if p.2 = 0 then -x else 0, al', true⟩ := by
    intro c x al b hcx
    have e : (wallCons c).evalNdotV (fun p => if p.2 = 0 then x else 0) = -1 := by
      rcases hcx with ⟨rfl, rfl⟩ | ⟨rfl, rfl⟩ <;> simp [wallCons, Con.evalNdotV, dotProduct, Fin.sum_univ_three, seg]
    obtain ⟨s', hs'⟩ := gsVisit_total (CoR := fun _ => 1) (tol := tol) ⟨fun p => if p.2 = 0 then x else 0, al, b⟩ c (m := fun _ => 1) (fun _ => one_pos)
      (wallCons_valid c) (by fin_cases c <;> simp [wallCons, Con.Resolvable])
    rcases gsVisit_ok (fun _ => one_pos) (wallCons_valid c) hs' with ⟨_, rfl⟩ | ⟨hu, _⟩
    · refine ⟨(gsHit wallCons (fun _ => 1) (fun _ => 1) ⟨fun p => if p.2 = 0 then x else 0, al, b⟩ c).alpha, hs'.trans ?_⟩
      unfold gsHit
      simp only [Outcome.ok.injEq, GSState.mk.injEq, and_true]
      rw [e]
      funext p
      obtain ⟨i, j⟩ := p
      simp only [Pi.add_apply, Pi.smul_apply, ballMinv_mulVec]
      rcases hcx with ⟨rfl, rfl⟩ | ⟨rfl, rfl⟩ <;> fin_cases i <;> fin_cases j <;> norm_num [wallCons, Con.gradg, Con.invMass]
    · simp only [e] at hu; exfalso; apply hu; linarith
  have loop : ∀ (fuel : Nat) (al : Fin 2 → ℝ) (b : Bool),
      ∃ s, gsLoop wallCons (fun _ => 1) (fun _ => 1) tol fuel ⟨fun p => if p.2 = 0 then -1 else 0, al, b⟩ = .ok (s, false) := by
    intro fuel
    induction fuel with
    | zero => intro al b; exact ⟨_, rfl⟩
    | succ f ih =>
      intro al b
      obtain ⟨a1, h1⟩ := visit 0 (-1) al false (Or.inl ⟨rfl, rfl⟩)
      obtain ⟨a2, h2⟩ := visit 1 1 a1 true (Or.inr ⟨rfl, rfl⟩)
      rw [neg_neg] at h1
      have h3 : gsPass wallCons (fun _ => 1) (fun _ => 1) tol (List.finRange 2) ⟨fun p => if p.2 = 0 then -1 else 0, al, false⟩ =
          .ok ⟨fun p => if p.2 = 0 then -1 else 0, a2, true⟩ := by
        have : List.finRange 2 = [0, 1] := rfl
        rw [this]
        simp only [gsPass, h1, Outcome.bind, h2]
      simp only [gsLoop, h3, Outcome.bind, if_true]
      exact ih a2 true
  exact loop fuel 0 true

/-- **C30, finding.** With warm starting, which the scene parsers allow together with this operator, the impulses handed back contain the impulses of the last
step although these were never applied to the velocities the operator worked with. The step applies all of them to the starting velocities, so it ends in
other velocities than the operator found: here two balls at rest that touch are driven apart, and kinetic energy appears. -/
theorem C30_false_warm_start :
    ∃ (cons : Fin 1 → Con 2 2) (s : GSState 2 2 1), (∀ c, (cons c).Valid) ∧ gsFlow cons (fun _ => 0) (fun _ => 1) 1 0 (fun _ => 1) 1 = .ok (s, true) ∧
      s.v = 0 ∧ massKE (fun _ => 1) (0 : Vel 2 2) < massKE (fun _ => 1) (afterImpulses (ballMinv fun _ => 1) (computeN cons) 0 s.alpha) := by
  refine ⟨fun _ => .ballBall 0 1 ![-1, 0], ⟨0, fun _ => 1, false⟩, fun _ => ?_, ?_, rfl, ?_⟩
  · simp [Con.Valid, dotProduct, Fin.sum_univ_two]
  · have : List.finRange 1 = [0] := rfl
    have e : gsVisit (fun _ : Fin 1 => Con.ballBall (0 : Fin 2) 1 ![-1, 0]) (fun _ => 0) (fun _ => 1) 1 ⟨0, fun _ => 1, false⟩ 0 =
        .ok ⟨0, fun _ => 1, false⟩ := by
      unfold gsVisit
      rw [if_neg]
      simp only [Con.evalNdotV, seg, dotProduct, Pi.zero_apply, Pi.sub_apply, sub_self, mul_zero, sum_const_zero]
      norm_num
    simp only [gsFlow, gsLoop, this, gsPass, e, Outcome.bind, Bool.false_eq_true, if_false]
  · have h : (afterImpulses (ballMinv fun _ => 1) (computeN fun _ : Fin 1 => Con.ballBall (0 : Fin 2) 1 ![-1, 0]) 0 fun _ => (1 : ℝ)) (0, 0) = -1 := by
      simp only [afterImpulses, Pi.add_apply, ballMinv_mulVec]
      simp [computeN, Con.gradg, mulVec, dotProduct]
    simp only [massKE]
    have h0 : ∑ p : Fin 2 × Fin 2, (1 : ℝ) * (0 : Vel 2 2) p ^ 2 = 0 := by simp
    rw [h0]
    have h1 : 0 < ∑ p : Fin 2 × Fin 2,
        (1 : ℝ) * (afterImpulses (ballMinv fun _ => 1) (computeN fun _ : Fin 1 => Con.ballBall (0 : Fin 2) 1 ![-1, 0]) 0 fun _ => (1 : ℝ)) p ^ 2 :=
      sum_pos' (fun p _ => by positivity) ⟨(0, 0), mem_univ _, by rw [h]; norm_num⟩
    linarith

/-- the row of three balls meets the hypotheses of the theorems about the Gauss-Seidel operator -/
noncomputable example : ∃ (q : Vel 3 2), (∀ c, (rowCons c).Valid) ∧ (∀ c, (rowCons c).Pair) ∧ (∀ c, (rowCons c).Still) ∧ (∀ c, (rowCons c).Resolvable) ∧
    (∀ c, (rowCons c).Central q) ∧
    ∃ fuel s, ∀ extra, gsFlow rowCons (fun _ => 1 / 2) (fun _ => 1) (1 / 100) (rowVel 1 0 (-1)) 0 (fuel + extra) = .ok (s, true) := by
  have hc : ∀ c, (rowCons c).Central (rowVel 0 1 2) := by
    intro c; fin_cases c <;> exact ⟨1, one_pos, by funext e; fin_cases e <;> norm_num [seg, rowVel, rowCons, Matrix.vecHead, Matrix.vecTail, Matrix.cons_val_two]⟩
  have hp : ∀ c, (rowCons c).Pair := by intro c; fin_cases c <;> simp [rowCons, Con.Pair]
  have hr : ∀ c, (rowCons c).Resolvable := by intro c; fin_cases c <;> simp [rowCons, Con.Resolvable]
  refine ⟨rowVel 0 1 2, rowCons_valid, hp, fun c => ?_, hr, hc, ?_⟩
  · fin_cases c <;> simp [rowCons, Con.Still]
  · exact C30_terminates_pairs rowCons rowCons_valid _ (fun _ => by norm_num) _ (fun _ => one_pos) _ hr hp _ hc (by norm_num) _ _

end Scisim
