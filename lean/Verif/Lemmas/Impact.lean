import Mathlib.Tactic.Ring
import Mathlib.Tactic.Linarith
import Mathlib.Tactic.FieldSimp
import Mathlib.Tactic.Positivity
import Mathlib.Algebra.BigOperators.Field
import Mathlib.Algebra.Order.BigOperators.Ring.Finset
import Mathlib.Algebra.Order.Archimedean.Real.Basic
import Mathlib.Data.Fintype.BigOperators
import Verif.Spec.Impact
/-!
# Lemmas about impacts
-/

namespace Scisim

open Matrix Finset

variable {n d k : Nat} {ι : Type} [Fintype ι]

/-! ## Single contacts -/

theorem dot_prod (f g : Vel n d) : f ⬝ᵥ g = ∑ i, seg f i ⬝ᵥ seg g i := by
  simp only [dotProduct, Fintype.sum_prod_type, seg]

theorem seg_single (i i' : Fin n) (w : Fin d → ℝ) : seg (fun p : Fin n × Fin d => if p.1 = i then w p.2 else 0) i' = if i' = i then w else 0 := by
  funext c; simp only [seg]; split <;> rfl

theorem single_dot (i : Fin n) (w : Fin d → ℝ) (v : Vel n d) :
    (fun p : Fin n × Fin d => if p.1 = i then w p.2 else 0) ⬝ᵥ v = w ⬝ᵥ seg v i := by
  rw [dot_prod, sum_eq_single i]
  · rw [seg_single, if_pos rfl]
  · intro b _ hb; rw [seg_single, if_neg hb, zero_dotProduct]
  · simp

theorem pair_split (i j : Fin n) (w : Fin d → ℝ) :
    (fun p : Fin n × Fin d => (if p.1 = i then w p.2 else 0) + (if p.1 = j then -(w p.2) else 0)) =
      (fun p => if p.1 = i then w p.2 else 0) - (fun p => if p.1 = j then w p.2 else 0) := by
  funext p; simp only [Pi.sub_apply]; split <;> split <;> simp

theorem pair_dot (i j : Fin n) (w : Fin d → ℝ) (v : Vel n d) :
    (fun p : Fin n × Fin d => (if p.1 = i then w p.2 else 0) + (if p.1 = j then -(w p.2) else 0)) ⬝ᵥ v = w ⬝ᵥ (seg v i - seg v j) := by
  rw [pair_split, sub_dotProduct, single_dot, single_dot, dotProduct_sub]

/-- the relative normal velocity is affine in the velocities, with the constraint gradient as its linear part -/
theorem Con.evalNdotV_eq (c : Con n d) (v : Vel n d) : c.evalNdotV v = c.gradg ⬝ᵥ v + c.kinematicNormalRelVel := by
  cases c with
  | ballBall i j w => simp only [evalNdotV, gradg, kinematicNormalRelVel, add_zero]; exact (pair_dot i j w v).symm
  | kick i j w u => simp only [evalNdotV, gradg, kinematicNormalRelVel]; rw [pair_dot, dotProduct_sub _ _ u]; ring
  | ballPlane i w u => simp only [evalNdotV, gradg, kinematicNormalRelVel]; rw [single_dot, dotProduct_sub]; ring
  | drum i w => simp only [evalNdotV, gradg, kinematicNormalRelVel, add_zero]; exact (single_dot i w v).symm
  | sphereSphere i j w => simp only [evalNdotV, gradg, kinematicNormalRelVel, add_zero]; exact (pair_dot i j w v).symm
  | planeSphere i w u => simp only [evalNdotV, gradg, kinematicNormalRelVel]; rw [single_dot, dotProduct_sub]; ring

theorem Con.evalNdotV_zero (c : Con n d) (h : c.Still) (v : Vel n d) : c.evalNdotV v = c.gradg ⬝ᵥ v := by
  rw [c.evalNdotV_eq]
  cases c <;> simp_all [Con.Still, Con.kinematicNormalRelVel]

theorem Con.still_rel (c : Con n d) (h : c.Still) : c.kinematicNormalRelVel = 0 := by
  cases c <;> simp_all [Con.Still, Con.kinematicNormalRelVel]

theorem ballMinv_mulVec (m : Fin n → ℝ) (g : Vel n d) (p : Fin n × Fin d) : (ballMinv m *ᵥ g) p = g p / m p.1 := by
  rw [ballMinv, mulVec_diagonal]; ring

/-- the inverse of the mass the contact sees -/
noncomputable def Con.invMass (m : Fin n → ℝ) : Con n d → ℝ
  | .ballBall i j _ | .kick i j _ _ | .sphereSphere i j _ => 1 / m i + 1 / m j
  | .ballPlane i _ _ | .drum i _ | .planeSphere i _ _ => 1 / m i

theorem Con.invMass_pos (c : Con n d) (m : Fin n → ℝ) (hm : ∀ i, 0 < m i) : 0 < c.invMass m := by
  cases c <;> simp only [invMass]
  case ballBall i j _ => have := hm i; have := hm j; positivity
  case kick i j _ _ => have := hm i; have := hm j; positivity
  case sphereSphere i j _ => have := hm i; have := hm j; positivity
  case ballPlane i _ _ => have := hm i; positivity
  case drum i _ => have := hm i; positivity
  case planeSphere i _ _ => have := hm i; positivity

theorem seg_pair (i j l : Fin n) (h : i ≠ j) (w : Fin d → ℝ) :
    seg (fun p : Fin n × Fin d => (if p.1 = i then w p.2 else 0) + (if p.1 = j then -(w p.2) else 0)) l =
      if l = i then w else if l = j then -w else 0 := by
  funext c
  simp only [seg]
  by_cases h1 : l = i
  · have h2 : l ≠ j := fun h2 => h (h1 ▸ h2)
    rw [if_pos h1, if_neg h2, if_pos h1, add_zero]
  · rw [if_neg h1, if_neg h1, zero_add]; split <;> rfl

theorem Con.gradg_invMass (c : Con n d) (m : Fin n → ℝ) (h : c.Valid) : c.gradg ⬝ᵥ (ballMinv m *ᵥ c.gradg) = c.invMass m := by
  have hseg : ∀ (g : Vel n d) i, seg (ballMinv m *ᵥ g) i = (1 / m i) • seg g i := by
    intro g i; funext c; simp only [seg, ballMinv_mulVec, Pi.smul_apply, smul_eq_mul]; ring
  have hpair : ∀ (i j : Fin n) (w : Fin d → ℝ), i ≠ j ∧ w ⬝ᵥ w = 1 →
      (fun p : Fin n × Fin d => (if p.1 = i then w p.2 else 0) + (if p.1 = j then -(w p.2) else 0)) ⬝ᵥ
        (ballMinv m *ᵥ (fun p : Fin n × Fin d => (if p.1 = i then w p.2 else 0) + (if p.1 = j then -(w p.2) else 0))) = 1 / m i + 1 / m j := by
    rintro i j w ⟨hij, hw⟩
    rw [pair_dot, hseg, hseg, seg_pair i j i hij, seg_pair i j j hij, if_pos rfl, if_neg (Ne.symm hij), if_pos rfl, dotProduct_sub, dotProduct_smul,
      dotProduct_smul, dotProduct_neg, hw]
    simp
  have hone : ∀ (i : Fin n) (w : Fin d → ℝ), w ⬝ᵥ w = 1 →
      (fun p : Fin n × Fin d => if p.1 = i then w p.2 else 0) ⬝ᵥ (ballMinv m *ᵥ (fun p : Fin n × Fin d => if p.1 = i then w p.2 else 0)) = 1 / m i := by
    intro i w hw
    rw [single_dot, hseg, seg_single, if_pos rfl, dotProduct_smul, hw]; simp
  cases c <;> simp only [gradg, invMass]
  case ballBall i j w => exact hpair i j w h
  case kick i j w u => exact hpair i j w h
  case sphereSphere i j w => exact hpair i j w h
  case ballPlane i w u => exact hone i w h
  case drum i w => exact hone i w h
  case planeSphere i w u => exact hone i w h

/-- the pairwise response is an impulse along the constraint gradient -/
theorem Con.resolveImpact_eq (c : Con n d) (CoR : ℝ) (m : Fin n → ℝ) (hm : ∀ i, 0 < m i) (ndotv : ℝ) (v : Vel n d) (hc : c.Valid)
    (hr : c.Resolvable) :
    c.resolveImpact CoR m ndotv v = .ok (v + (-(1 + CoR) * ndotv / c.invMass m) • (ballMinv m *ᵥ c.gradg), -(1 + CoR) * ndotv / c.invMass m) := by
  have hpair : ∀ (i j : Fin n) (hij : i ≠ j) (w : Fin d → ℝ) (a : ℝ),
      addSeg (addSeg v i (fun c => w c * (a / m i))) j (fun c => -(w c * (a / m j))) =
        v + a • (ballMinv m *ᵥ (fun p : Fin n × Fin d => (if p.1 = i then w p.2 else 0) + (if p.1 = j then -(w p.2) else 0))) := by
    intro i j hij w a
    funext p
    simp only [addSeg, Pi.add_apply, Pi.smul_apply, smul_eq_mul, ballMinv_mulVec]
    by_cases h1 : p.1 = i
    · have h2 : p.1 ≠ j := fun h2 => hij (h1 ▸ h2)
      simp only [if_pos h1, if_neg h2]; rw [h1]; ring
    · by_cases h2 : p.1 = j
      · simp only [if_neg h1, if_pos h2]; rw [h2]; ring
      · simp only [if_neg h1, if_neg h2]; ring
  cases c with
  | ballBall i j w =>
    simp only [resolveImpact, gradg, invMass]; rw [hpair i j hc.1]
  | kick i j w u =>
    simp only [resolveImpact, gradg, invMass]; rw [hpair i j hc.1]
  | sphereSphere i j w =>
    have e : -(1 + CoR) * ndotv * m i * m j / (m i + m j) = -(1 + CoR) * ndotv / (1 / m i + 1 / m j) := by
      have := hm i; have := hm j; field_simp; ring
    simp only [resolveImpact, gradg, invMass, e]
    rw [← hpair i j hc.1]; simp only [mul_div_assoc]
  | planeSphere i w u =>
    have := (hm i).ne'
    have e : -(1 + CoR) * ndotv * m i = -(1 + CoR) * ndotv / (1 / m i) := by field_simp
    simp only [resolveImpact, gradg, invMass, e, Outcome.ok.injEq, Prod.mk.injEq, and_true]
    funext p
    simp only [addSeg, Pi.add_apply, Pi.smul_apply, smul_eq_mul, ballMinv_mulVec]
    by_cases h1 : p.1 = i
    · simp only [if_pos h1]; rw [h1]; field_simp
    · simp only [if_neg h1]; simp
  | ballPlane => exact hr.elim
  | drum => exact hr.elim

/-! ## Energy and momentum of impulses -/

theorem massKE_impulse (m : Fin n → ℝ) (hm : ∀ i, 0 < m i) (v g : Vel n d) (a : ℝ) :
    massKE m (v + a • (ballMinv m *ᵥ g)) = massKE m v + a * (g ⬝ᵥ v) + 1 / 2 * (a * a) * (g ⬝ᵥ (ballMinv m *ᵥ g)) := by
  simp only [massKE, dotProduct, mul_sum, ← sum_add_distrib]
  refine sum_congr rfl fun p _ => ?_
  have := (hm p.1).ne'
  simp only [Pi.add_apply, Pi.smul_apply, smul_eq_mul, ballMinv_mulVec]
  field_simp
  ring

theorem massKE_nonneg (m : Fin n → ℝ) (hm : ∀ i, 0 < m i) (v : Vel n d) : 0 ≤ massKE m v := by
  rw [massKE]
  have : 0 ≤ ∑ p : Fin n × Fin d, m p.1 * v p ^ 2 := sum_nonneg fun p _ => mul_nonneg (hm p.1).le (sq_nonneg _)
  linarith

/-- momentum along `w` -/
theorem mass_dot_impulse (m : Fin n → ℝ) (hm : ∀ i, 0 < m i) (w v g : Vel n d) (a : ℝ) :
    ∑ p, m p.1 * w p * (v + a • (ballMinv m *ᵥ g)) p = ∑ p, m p.1 * w p * v p + a * (w ⬝ᵥ g) := by
  simp only [dotProduct, mul_sum, ← sum_add_distrib]
  refine sum_congr rfl fun p _ => ?_
  have := (hm p.1).ne'
  simp only [Pi.add_apply, Pi.smul_apply, smul_eq_mul, ballMinv_mulVec]
  field_simp

theorem massMomentum_eq (m : Fin n → ℝ) (v : Vel n d) (c : Fin d) :
    massMomentum m v c = ∑ p, m p.1 * (fun p : Fin n × Fin d => if p.2 = c then (1 : ℝ) else 0) p * v p := by
  rw [massMomentum, Fintype.sum_prod_type]
  refine sum_congr rfl fun i _ => ?_
  rw [sum_eq_single c]
  · simp
  · intro b _ hb; simp [hb]
  · simp

theorem massAngular_eq (m : Fin n → ℝ) (q v : Vel n d) (a b : Fin d) :
    massAngular m q v a b =
      ∑ p, m p.1 * (fun p : Fin n × Fin d => (if p.2 = b then q (p.1, a) else 0) - (if p.2 = a then q (p.1, b) else 0)) p * v p := by
  rw [massAngular, Fintype.sum_prod_type]
  refine sum_congr rfl fun i _ => ?_
  simp only [mul_sub, sub_mul, sum_sub_distrib]
  congr 1
  · rw [sum_eq_single b]
    · simp; ring
    · intro c _ hc; simp [hc]
    · simp
  · rw [sum_eq_single a]
    · simp; ring
    · intro c _ hc; simp [hc]
    · simp

theorem Con.gradg_translation (c : Con n d) (hp : c.Pair) (e : Fin d) : (fun p : Fin n × Fin d => if p.2 = e then (1 : ℝ) else 0) ⬝ᵥ c.gradg = 0 := by
  rw [dotProduct_comm]
  cases c <;> simp only [Con.Pair] at hp <;> simp only [gradg] <;> rw [pair_dot] <;>
  · have : ∀ i : Fin n, seg (fun p : Fin n × Fin d => if p.2 = e then (1 : ℝ) else 0) i = fun c => if c = e then 1 else 0 := fun i => rfl
    rw [this, this, sub_self, dotProduct_zero]

theorem Con.gradg_rotation (c : Con n d) (hp : c.Pair) (q : Vel n d) (hc : c.Central q) (a b : Fin d) :
    (fun p : Fin n × Fin d => (if p.2 = b then q (p.1, a) else 0) - (if p.2 = a then q (p.1, b) else 0)) ⬝ᵥ c.gradg = 0 := by
  have key : ∀ (i j : Fin n) (w : Fin d → ℝ), (∃ s : ℝ, 0 < s ∧ seg q i - seg q j = s • w) → w ⬝ᵥ
      (seg (fun p : Fin n × Fin d => (if p.2 = b then q (p.1, a) else 0) - (if p.2 = a then q (p.1, b) else 0)) i -
       seg (fun p : Fin n × Fin d => (if p.2 = b then q (p.1, a) else 0) - (if p.2 = a then q (p.1, b) else 0)) j) = 0 := by
    rintro i j w ⟨s, _, hs⟩
    have ha := congrFun hs a
    have hb := congrFun hs b
    simp only [seg, Pi.sub_apply, Pi.smul_apply, smul_eq_mul] at ha hb
    have : (seg (fun p : Fin n × Fin d => (if p.2 = b then q (p.1, a) else 0) - (if p.2 = a then q (p.1, b) else 0)) i -
       seg (fun p : Fin n × Fin d => (if p.2 = b then q (p.1, a) else 0) - (if p.2 = a then q (p.1, b) else 0)) j) =
       (fun c => if c = b then s * w a else 0) - (fun c => if c = a then s * w b else 0) := by
      funext c
      simp only [seg, Pi.sub_apply]
      rw [← ha, ← hb]
      split <;> split <;> ring
    rw [this, dotProduct_sub]
    simp only [dotProduct, mul_ite, mul_zero, sum_ite_eq', mem_univ, if_true]
    ring
  rw [dotProduct_comm]
  cases c <;> simp only [Con.Pair] at hp <;> simp only [gradg] <;> rw [pair_dot] <;> exact key _ _ _ hc

/-! ## The Gauss-Seidel loop -/

theorem Con.resolvable_of_ok {c : Con n d} {CoR : ℝ} {m : Fin n → ℝ} {u : ℝ} {v : Vel n d} {r : Vel n d × ℝ} (h : c.resolveImpact CoR m u v = .ok r) :
    c.Resolvable := by
  cases c <;> simp_all [resolveImpact, Resolvable]

/-- the state after an impact at contact `idx` -/
noncomputable def gsHit (cons : Fin k → Con n d) (CoR : Fin k → ℝ) (m : Fin n → ℝ) (s : GSState n d k) (idx : Fin k) : GSState n d k :=
  let a := -(1 + CoR idx) * (cons idx).evalNdotV s.v / (cons idx).invMass m
  ⟨s.v + a • (ballMinv m *ᵥ (cons idx).gradg), Function.update s.alpha idx (s.alpha idx + a), true⟩

theorem gsVisit_ok {cons : Fin k → Con n d} {CoR : Fin k → ℝ} {m : Fin n → ℝ} {tol : ℝ} {s s' : GSState n d k} {idx : Fin k} (hm : ∀ i, 0 < m i)
    (hv : (cons idx).Valid) (h : gsVisit cons CoR m tol s idx = .ok s') :
    ((cons idx).evalNdotV s.v < -tol ∧ s' = gsHit cons CoR m s idx) ∨ (¬ (cons idx).evalNdotV s.v < -tol ∧ s' = s) := by
  unfold gsVisit at h
  by_cases hu : (cons idx).evalNdotV s.v < -tol
  · left
    simp only [if_pos hu] at h
    obtain ⟨r, hr, h⟩ := Outcome.bind_eq_ok.mp h
    have hres := Con.resolvable_of_ok hr
    rw [Con.resolveImpact_eq _ _ _ hm _ _ hv hres] at hr
    cases hr
    cases h
    exact ⟨hu, rfl⟩
  · right
    simp only [if_neg hu] at h
    cases h
    exact ⟨hu, rfl⟩

theorem gsVisit_total {cons : Fin k → Con n d} {CoR : Fin k → ℝ} {m : Fin n → ℝ} {tol : ℝ} (s : GSState n d k) (idx : Fin k) (hm : ∀ i, 0 < m i)
    (hv : (cons idx).Valid) (hr : (cons idx).Resolvable) : ∃ s', gsVisit cons CoR m tol s idx = .ok s' := by
  unfold gsVisit
  by_cases hu : (cons idx).evalNdotV s.v < -tol
  · simp only [if_pos hu]; rw [Con.resolveImpact_eq _ _ _ hm _ _ hv hr]; exact ⟨_, rfl⟩
  · simp only [if_neg hu]; exact ⟨_, rfl⟩

section GS
variable {cons : Fin k → Con n d} {CoR : Fin k → ℝ} {m : Fin n → ℝ} {tol : ℝ}

theorem gsPass_total (hm : ∀ i, 0 < m i) (hv : ∀ c, (cons c).Valid) (hr : ∀ c, (cons c).Resolvable) (l : List (Fin k)) (s : GSState n d k) :
    ∃ s', gsPass cons CoR m tol l s = .ok s' := by
  induction l generalizing s with
  | nil => exact ⟨s, rfl⟩
  | cons x l ih =>
    obtain ⟨s1, h1⟩ := gsVisit_total (CoR := CoR) (tol := tol) s x hm (hv x) (hr x)
    obtain ⟨s2, h2⟩ := ih s1
    exact ⟨s2, by simp only [gsPass, h1, Outcome.bind, h2]⟩

theorem gsLoop_total (hm : ∀ i, 0 < m i) (hv : ∀ c, (cons c).Valid) (hr : ∀ c, (cons c).Resolvable) (fuel : Nat) (s : GSState n d k) :
    ∃ r, gsLoop cons CoR m tol fuel s = .ok r := by
  induction fuel generalizing s with
  | zero => exact ⟨_, rfl⟩
  | succ f ih =>
    obtain ⟨s1, h1⟩ := gsPass_total (CoR := CoR) (tol := tol) hm hv hr (List.finRange k) { s with hit := false }
    rw [gsLoop, h1]
    simp only [Outcome.bind]
    by_cases hh : s1.hit
    · rw [if_pos hh]; exact ih s1
    · rw [if_neg hh]; exact ⟨_, rfl⟩

/-- whatever every impact preserves holds throughout the loop -/
theorem gsPass_induct (hm : ∀ i, 0 < m i) (hv : ∀ c, (cons c).Valid) (P : Vel n d → (Fin k → ℝ) → Prop)
    (hstep : ∀ (s : GSState n d k) idx, P s.v s.alpha → (cons idx).evalNdotV s.v < -tol → P (gsHit cons CoR m s idx).v (gsHit cons CoR m s idx).alpha)
    (l : List (Fin k)) (s s' : GSState n d k) (hs : P s.v s.alpha) (h : gsPass cons CoR m tol l s = .ok s') : P s'.v s'.alpha := by
  induction l generalizing s with
  | nil => simp only [gsPass, Outcome.ok.injEq] at h; rwa [← h]
  | cons x l ih =>
    simp only [gsPass] at h
    obtain ⟨s1, h1, h⟩ := Outcome.bind_eq_ok.mp h
    refine ih s1 ?_ h
    rcases gsVisit_ok hm (hv x) h1 with ⟨hu, rfl⟩ | ⟨hu, rfl⟩
    · exact hstep s x hs hu
    · exact hs

theorem gsLoop_induct (hm : ∀ i, 0 < m i) (hv : ∀ c, (cons c).Valid) (P : Vel n d → (Fin k → ℝ) → Prop)
    (hstep : ∀ (s : GSState n d k) idx, P s.v s.alpha → (cons idx).evalNdotV s.v < -tol → P (gsHit cons CoR m s idx).v (gsHit cons CoR m s idx).alpha)
    (fuel : Nat) (s : GSState n d k) (r : GSState n d k × Bool) (hs : P s.v s.alpha) (h : gsLoop cons CoR m tol fuel s = .ok r) : P r.1.v r.1.alpha := by
  induction fuel generalizing s with
  | zero => simp only [gsLoop, Outcome.ok.injEq] at h; rwa [← h]
  | succ f ih =>
    simp only [gsLoop] at h
    obtain ⟨s1, h1, h⟩ := Outcome.bind_eq_ok.mp h
    have hp := gsPass_induct hm hv P hstep _ { s with hit := false } s1 hs h1
    by_cases hh : s1.hit
    · rw [if_pos hh] at h; exact ih s1 hp h
    · rw [if_neg hh] at h; cases h; exact hp

/-- a pass that reports no collision has found none -/
theorem gsPass_quiet (hm : ∀ i, 0 < m i) (hv : ∀ c, (cons c).Valid) (l : List (Fin k)) (s s' : GSState n d k) (h : gsPass cons CoR m tol l s = .ok s')
    (hq : s'.hit = false) : s' = s ∧ ∀ c ∈ l, ¬ (cons c).evalNdotV s.v < -tol := by
  induction l generalizing s with
  | nil => simp only [gsPass, Outcome.ok.injEq] at h; exact ⟨h.symm, by simp⟩
  | cons x l ih =>
    simp only [gsPass] at h
    obtain ⟨s1, h1, h⟩ := Outcome.bind_eq_ok.mp h
    obtain ⟨e, hl⟩ := ih s1 h
    rcases gsVisit_ok hm (hv x) h1 with ⟨hu, rfl⟩ | ⟨hu, rfl⟩
    · rw [e] at hq; simp [gsHit] at hq
    · refine ⟨e, ?_⟩
      intro c hc
      rcases List.mem_cons.mp hc with rfl | hc
      · exact hu
      · exact hl c hc

theorem gsLoop_done (hm : ∀ i, 0 < m i) (hv : ∀ c, (cons c).Valid) (fuel : Nat) (s : GSState n d k) (r : GSState n d k × Bool)
    (h : gsLoop cons CoR m tol fuel s = .ok r) (hf : r.2 = true) (c : Fin k) : -tol ≤ (cons c).evalNdotV r.1.v := by
  induction fuel generalizing s with
  | zero => simp only [gsLoop, Outcome.ok.injEq] at h; rw [← h] at hf; simp at hf
  | succ f ih =>
    simp only [gsLoop] at h
    obtain ⟨s1, h1, h⟩ := Outcome.bind_eq_ok.mp h
    by_cases hh : s1.hit
    · rw [if_pos hh] at h; exact ih s1 h
    · rw [if_neg hh] at h; cases h
      obtain ⟨e, hl⟩ := gsPass_quiet hm hv _ _ _ h1 (by simpa using hh)
      rw [e]
      exact not_lt.mp (hl c (List.mem_finRange c))

/-- a pass raises a potential that every impact raises -/
theorem gsPass_gain (hm : ∀ i, 0 < m i) (hv : ∀ c, (cons c).Valid) (P : Vel n d → (Fin k → ℝ) → Prop)
    (hstep : ∀ (s : GSState n d k) idx, P s.v s.alpha → (cons idx).evalNdotV s.v < -tol → P (gsHit cons CoR m s idx).v (gsHit cons CoR m s idx).alpha)
    (F : Vel n d → ℝ) (δ : ℝ) (hδ : 0 < δ)
    (hF : ∀ (s : GSState n d k) idx, P s.v s.alpha → (cons idx).evalNdotV s.v < -tol → F s.v + δ ≤ F (gsHit cons CoR m s idx).v)
    (l : List (Fin k)) (s s' : GSState n d k) (hs : P s.v s.alpha) (h : gsPass cons CoR m tol l s = .ok s') :
    F s.v ≤ F s'.v ∧ (s.hit = false → s'.hit = true → F s.v + δ ≤ F s'.v) := by
  induction l generalizing s with
  | nil =>
    simp only [gsPass, Outcome.ok.injEq] at h; subst h
    exact ⟨le_refl _, fun h1 h2 => by rw [h1] at h2; cases h2⟩
  | cons x l ih =>
    simp only [gsPass] at h
    obtain ⟨s1, h1, h2⟩ := Outcome.bind_eq_ok.mp h
    rcases gsVisit_ok hm (hv x) h1 with ⟨hu, rfl⟩ | ⟨hu, rfl⟩
    · obtain ⟨a, _⟩ := ih _ (hstep s x hs hu) h2
      have := hF s x hs hu
      exact ⟨by linarith, fun _ _ => by linarith⟩
    · exact ih _ hs h2

theorem gsLoop_gain (hm : ∀ i, 0 < m i) (hv : ∀ c, (cons c).Valid) (P : Vel n d → (Fin k → ℝ) → Prop)
    (hstep : ∀ (s : GSState n d k) idx, P s.v s.alpha → (cons idx).evalNdotV s.v < -tol → P (gsHit cons CoR m s idx).v (gsHit cons CoR m s idx).alpha)
    (F : Vel n d → ℝ) (δ : ℝ) (hδ : 0 < δ)
    (hF : ∀ (s : GSState n d k) idx, P s.v s.alpha → (cons idx).evalNdotV s.v < -tol → F s.v + δ ≤ F (gsHit cons CoR m s idx).v)
    (fuel : Nat) (s : GSState n d k) (r : GSState n d k × Bool) (hs : P s.v s.alpha) (h : gsLoop cons CoR m tol fuel s = .ok r) (hf : r.2 = false) :
    F s.v + fuel * δ ≤ F r.1.v := by
  induction fuel generalizing s with
  | zero => simp only [gsLoop, Outcome.ok.injEq] at h; rw [← h]; simp
  | succ f ih =>
    simp only [gsLoop] at h
    obtain ⟨s1, h1, h⟩ := Outcome.bind_eq_ok.mp h
    have hp := gsPass_induct hm hv P hstep _ { s with hit := false } s1 hs h1
    by_cases hh : s1.hit
    · rw [if_pos hh] at h
      have h2 := ih s1 hp h
      have h3 := (gsPass_gain hm hv P hstep F δ hδ hF _ { s with hit := false } s1 hs h1).2 rfl hh
      push_cast
      simp only at h3
      linarith
    · rw [if_neg hh] at h; cases h; cases hf

/-- a bounded potential ends the loop -/
theorem gsLoop_terminates (hm : ∀ i, 0 < m i) (hv : ∀ c, (cons c).Valid) (hr : ∀ c, (cons c).Resolvable) (P : Vel n d → (Fin k → ℝ) → Prop)
    (hstep : ∀ (s : GSState n d k) idx, P s.v s.alpha → (cons idx).evalNdotV s.v < -tol → P (gsHit cons CoR m s idx).v (gsHit cons CoR m s idx).alpha)
    (F : Vel n d → ℝ) (δ B : ℝ) (hδ : 0 < δ)
    (hF : ∀ (s : GSState n d k) idx, P s.v s.alpha → (cons idx).evalNdotV s.v < -tol → F s.v + δ ≤ F (gsHit cons CoR m s idx).v)
    (hB : ∀ v a, P v a → F v ≤ B) (s : GSState n d k) (hs : P s.v s.alpha) :
    ∃ fuel s', gsLoop cons CoR m tol fuel s = .ok (s', true) := by
  obtain ⟨N, hN⟩ := exists_nat_gt ((B - F s.v) / δ)
  obtain ⟨⟨s', f⟩, h⟩ := gsLoop_total (CoR := CoR) (tol := tol) hm hv hr N s
  refine ⟨N, s', ?_⟩
  cases f with
  | true => exact h
  | false =>
    exfalso
    have h1 := gsLoop_gain hm hv P hstep F δ hδ hF N s _ hs h rfl
    have h2 := hB _ _ (gsLoop_induct hm hv P hstep N s _ hs h)
    rw [div_lt_iff₀ hδ] at hN
    simp only at h1 h2
    linarith

/-- more passes do not change a finished loop -/
theorem gsLoop_more (fuel : Nat) (s s' : GSState n d k) (h : gsLoop cons CoR m tol fuel s = .ok (s', true)) (extra : Nat) :
    gsLoop cons CoR m tol (fuel + extra) s = .ok (s', true) := by
  induction fuel generalizing s with
  | zero => simp [gsLoop] at h
  | succ f ih =>
    rw [Nat.succ_add]
    simp only [gsLoop] at h ⊢
    obtain ⟨s1, h1, h⟩ := Outcome.bind_eq_ok.mp h
    rw [h1]
    simp only [Outcome.bind]
    by_cases hh : s1.hit
    · rw [if_pos hh] at h ⊢; exact ih s1 h
    · rw [if_neg hh] at h ⊢; exact h

end GS

/-- the change of the kinetic energy, relative to a frame moving with `z`, in one impact -/
theorem gsHit_energy (cons : Fin k → Con n d) (CoR : Fin k → ℝ) (m : Fin n → ℝ) (hm : ∀ i, 0 < m i) (s : GSState n d k) (idx : Fin k)
    (hv : (cons idx).Valid) (z : Vel n d) :
    massKE m ((gsHit cons CoR m s idx).v - z) = massKE m (s.v - z) -
      1 / 2 * (1 - CoR idx) * (1 + CoR idx) * (cons idx).evalNdotV s.v ^ 2 / (cons idx).invMass m -
      (-(1 + CoR idx) * (cons idx).evalNdotV s.v / (cons idx).invMass m) * ((cons idx).kinematicNormalRelVel + (cons idx).gradg ⬝ᵥ z) := by
  have hp := (cons idx).invMass_pos m hm
  have e : (gsHit cons CoR m s idx).v - z =
      (s.v - z) + (-(1 + CoR idx) * (cons idx).evalNdotV s.v / (cons idx).invMass m) • (ballMinv m *ᵥ (cons idx).gradg) := by
    simp only [gsHit]; abel
  have e2 := (cons idx).evalNdotV_eq s.v
  rw [e, massKE_impulse m hm, (cons idx).gradg_invMass m hv, dotProduct_sub]
  have e3 : (cons idx).gradg ⬝ᵥ s.v = (cons idx).evalNdotV s.v - (cons idx).kinematicNormalRelVel := by rw [e2]; ring
  rw [e3]
  field_simp
  ring

theorem gsHit_impulse_pos (cons : Fin k → Con n d) (CoR : Fin k → ℝ) (m : Fin n → ℝ) (hm : ∀ i, 0 < m i) (v : Vel n d) (idx : Fin k) (tol : ℝ) (ht : 0 ≤ tol)
    (hc : 0 ≤ CoR idx) (hu : (cons idx).evalNdotV v < -tol) : tol / (cons idx).invMass m ≤ -(1 + CoR idx) * (cons idx).evalNdotV v / (cons idx).invMass m := by
  have hp := (cons idx).invMass_pos m hm
  apply div_le_div_of_nonneg_right _ hp.le
  nlinarith

theorem computeN_mulVec_update (cons : Fin k → Con n d) (a : Fin k → ℝ) (idx : Fin k) (x : ℝ) :
    computeN cons *ᵥ Function.update a idx (a idx + x) = computeN cons *ᵥ a + x • (cons idx).gradg := by
  have e : Function.update a idx (a idx + x) = a + x • (Pi.single idx 1 : Fin k → ℝ) := by
    funext l
    by_cases h : l = idx
    · subst h; simp
    · simp [Function.update_of_ne h, Pi.single_eq_of_ne h]
  rw [e, mulVec_add, mulVec_smul, mulVec_single_one]
  rfl

/-- `T(w + v) ≥ 0` bounds momentum along `w` by energies -/
theorem mass_dot_le (m : Fin n → ℝ) (hm : ∀ i, 0 < m i) (w v : Vel n d) : ∑ p, m p.1 * w p * v p ≤ massKE m w + massKE m v := by
  simp only [massKE, mul_sum, ← sum_add_distrib]
  refine sum_le_sum fun p _ => ?_
  have := mul_nonneg (hm p.1).le (sq_nonneg (w p - v p))
  nlinarith

end Scisim
