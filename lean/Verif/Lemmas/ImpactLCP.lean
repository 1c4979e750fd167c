import Mathlib.Topology.Order.Compact
import Mathlib.Topology.MetricSpace.ProperSpace.Real
import Mathlib.Topology.Algebra.Ring.Real
import Mathlib.Topology.Instances.Matrix
import Mathlib.LinearAlgebra.Matrix.NonsingularInverse
import Mathlib.Data.List.FinRange
import Verif.Lemmas.Impact
/-!
# Lemmas about linear complementarity and generalized reflections
-/

namespace Scisim

open Matrix Finset

variable {k : Nat} {ι : Type} [Fintype ι] [DecidableEq ι]

/-! ## Mass matrices -/

namespace MassMatrix
variable {M Minv : Matrix ι ι ℝ}

theorem inv' (h : MassMatrix M Minv) : Minv * M = 1 := mul_eq_one_comm.mp h.inv

theorem minv_symm (h : MassMatrix M Minv) : Minvᵀ = Minv := by
  have h1 : Minvᵀ * M = 1 := by rw [← h.symm, ← transpose_mul, h.inv, transpose_one]
  calc Minvᵀ = Minvᵀ * (M * Minv) := by rw [h.inv, Matrix.mul_one]
    _ = Minv := by rw [← Matrix.mul_assoc, h1, Matrix.one_mul]

theorem dot_comm (h : MassMatrix M Minv) (a b : ι → ℝ) : a ⬝ᵥ (M *ᵥ b) = b ⬝ᵥ (M *ᵥ a) := by
  rw [dotProduct_mulVec, ← mulVec_transpose, h.symm, dotProduct_comm]

theorem ke_nonneg (h : MassMatrix M Minv) (v : ι → ℝ) : 0 ≤ matKE M v := by
  by_cases hv : v = 0
  · simp [hv, matKE]
  · have := h.pos v hv; rw [matKE]; linarith

theorem ke_eq_zero (h : MassMatrix M Minv) {v : ι → ℝ} (h0 : v ⬝ᵥ (M *ᵥ v) ≤ 0) : v = 0 := by
  by_contra hv
  have := h.pos v hv
  linarith

/-- `f · M⁻¹ f = (M⁻¹ f) · M (M⁻¹ f)` -/
theorem minv_dot (h : MassMatrix M Minv) (f : ι → ℝ) : f ⬝ᵥ (Minv *ᵥ f) = (Minv *ᵥ f) ⬝ᵥ (M *ᵥ (Minv *ᵥ f)) := by
  rw [mulVec_mulVec, h.inv, one_mulVec, dotProduct_comm]

theorem minv_nonneg (h : MassMatrix M Minv) (f : ι → ℝ) : 0 ≤ f ⬝ᵥ (Minv *ᵥ f) := by
  rw [h.minv_dot]
  have := h.ke_nonneg (Minv *ᵥ f)
  rw [matKE] at this; linarith

theorem minv_eq_zero (h : MassMatrix M Minv) {f : ι → ℝ} (h0 : f ⬝ᵥ (Minv *ᵥ f) ≤ 0) : f = 0 := by
  rw [h.minv_dot] at h0
  have := h.ke_eq_zero h0
  have h2 : M *ᵥ (Minv *ᵥ f) = 0 := by rw [this, mulVec_zero]
  rwa [mulVec_mulVec, h.inv, one_mulVec] at h2

theorem ke_impulse (h : MassMatrix M Minv) (v f : ι → ℝ) :
    matKE M (v + Minv *ᵥ f) = matKE M v + f ⬝ᵥ v + 1 / 2 * (f ⬝ᵥ (Minv *ᵥ f)) := by
  simp only [matKE, mulVec_add, dotProduct_add, add_dotProduct]
  rw [← h.minv_dot, h.dot_comm (Minv *ᵥ f) v, mulVec_mulVec, h.inv, one_mulVec, dotProduct_comm v f]
  ring

theorem momentum_impulse (h : MassMatrix M Minv) (w v f : ι → ℝ) : w ⬝ᵥ (M *ᵥ (v + Minv *ᵥ f)) = w ⬝ᵥ (M *ᵥ v) + w ⬝ᵥ f := by
  rw [mulVec_add, dotProduct_add, mulVec_mulVec, h.inv, one_mulVec]

theorem momentum_le (h : MassMatrix M Minv) (w v : ι → ℝ) : w ⬝ᵥ (M *ᵥ v) ≤ matKE M w + matKE M v := by
  have := h.ke_nonneg (w - v)
  simp only [matKE, mulVec_sub, dotProduct_sub, sub_dotProduct] at this ⊢
  rw [h.dot_comm v w] at this
  linarith

end MassMatrix

omit [DecidableEq ι] in
theorem quad_eq (Minv : Matrix ι ι ℝ) (N : Matrix ι (Fin k) ℝ) (x y : Fin k → ℝ) :
    x ⬝ᵥ ((Nᵀ * Minv * N) *ᵥ y) = (N *ᵥ x) ⬝ᵥ (Minv *ᵥ (N *ᵥ y)) := by
  rw [← mulVec_mulVec, ← mulVec_mulVec, dotProduct_mulVec, ← mulVec_transpose, transpose_transpose]

omit [DecidableEq ι] in
theorem dot_transpose (N : Matrix ι (Fin k) ℝ) (x : Fin k → ℝ) (v : ι → ℝ) : (N *ᵥ x) ⬝ᵥ v = x ⬝ᵥ (Nᵀ *ᵥ v) := by
  rw [dotProduct_mulVec x, ← mulVec_transpose, transpose_transpose]

theorem dot_nonneg' {x y : Fin k → ℝ} (hx : ∀ i, 0 ≤ x i) (hy : ∀ i, 0 ≤ y i) : 0 ≤ x ⬝ᵥ y :=
  sum_nonneg fun i _ => mul_nonneg (hx i) (hy i)

theorem compl_dot {x y : Fin k → ℝ} (h : ∀ i, x i = 0 ∨ y i = 0) : x ⬝ᵥ y = 0 :=
  sum_eq_zero fun i _ => by rcases h i with h | h <;> simp [h]

/-! ## Quadratic programs -/

/-- the objective the solvers minimise -/
noncomputable def qpObj (Q : Matrix (Fin k) (Fin k) ℝ) (b x : Fin k → ℝ) : ℝ := 1 / 2 * (x ⬝ᵥ (Q *ᵥ x)) + b ⬝ᵥ x

theorem qp_expand {Q : Matrix (Fin k) (Fin k) ℝ} (hQ : Qᵀ = Q) (b x e : Fin k → ℝ) :
    qpObj Q b (x + e) = qpObj Q b x + e ⬝ᵥ (Q *ᵥ x + b) + 1 / 2 * (e ⬝ᵥ (Q *ᵥ e)) := by
  have : x ⬝ᵥ (Q *ᵥ e) = e ⬝ᵥ (Q *ᵥ x) := by rw [dotProduct_mulVec, ← mulVec_transpose, hQ, dotProduct_comm]
  simp only [qpObj, mulVec_add, dotProduct_add, add_dotProduct]
  rw [this, dotProduct_comm b e]
  ring

/-- the minimisers of the quadratic program are the solutions of the complementarity problem -/
theorem qp_iff_lcp {Q : Matrix (Fin k) (Fin k) ℝ} (hQ : Qᵀ = Q) (hpos : ∀ x, 0 ≤ x ⬝ᵥ (Q *ᵥ x)) (b x : Fin k → ℝ) :
    SolvesLCP Q b x ↔ (∀ i, 0 ≤ x i) ∧ ∀ y, (∀ i, 0 ≤ y i) → qpObj Q b x ≤ qpObj Q b y := by
  constructor
  · rintro ⟨hx, hw, hc⟩
    refine ⟨hx, fun y hy => ?_⟩
    have e := qp_expand hQ b x (y - x)
    rw [add_sub_cancel, sub_dotProduct, compl_dot hc] at e
    have := dot_nonneg' hy hw
    have := hpos (y - x)
    linarith
  · rintro ⟨hx, hmin⟩
    -- along the `i`th direction
    have key : ∀ i (t : ℝ), 0 ≤ x i + t → 0 ≤ t * (Q *ᵥ x + b) i + 1 / 2 * t ^ 2 * Q i i := by
      intro i t ht
      have h1 := hmin (x + t • (Pi.single i 1 : Fin k → ℝ)) (fun j => by
        by_cases h : j = i
        · subst h; simpa using ht
        · simpa [Pi.single_eq_of_ne h] using hx j)
      rw [qp_expand hQ] at h1
      simp only [smul_dotProduct, mulVec_smul, dotProduct_smul, single_one_dotProduct, mulVec_single_one, smul_eq_mul, col_apply] at h1
      linarith
    have hq : ∀ i, 0 ≤ Q i i := by
      intro i
      have := hpos (Pi.single i 1)
      simpa [single_one_dotProduct, mulVec_single_one] using this
    have hw : ∀ i, 0 ≤ (Q *ᵥ x + b) i := by
      intro i
      by_contra hneg
      push Not at hneg
      have hd : 0 < Q i i + 1 := by linarith [hq i]
      set w := (Q *ᵥ x + b) i with hwdef
      have h1 := key i (-w / (Q i i + 1)) (by
        have : 0 ≤ -w / (Q i i + 1) := div_nonneg (by linarith) hd.le
        linarith [hx i])
      rw [← hwdef] at h1
      have : -w / (Q i i + 1) * w + 1 / 2 * (-w / (Q i i + 1)) ^ 2 * Q i i = -(w ^ 2) * (Q i i + 2) / (2 * (Q i i + 1) ^ 2) := by
        field_simp; ring
      rw [this] at h1
      have : -(w ^ 2) * (Q i i + 2) / (2 * (Q i i + 1) ^ 2) < 0 := by
        apply div_neg_of_neg_of_pos
        · have := hq i; have : 0 < w ^ 2 := by nlinarith
          nlinarith
        · positivity
      linarith
    refine ⟨hx, hw, fun i => ?_⟩
    by_contra hne
    push Not at hne
    obtain ⟨h0, h1⟩ := hne
    have hxi : 0 < x i := lt_of_le_of_ne (hx i) (Ne.symm h0)
    have hwi : 0 < (Q *ᵥ x + b) i := lt_of_le_of_ne (hw i) (Ne.symm h1)
    set w := (Q *ᵥ x + b) i with hwdef
    -- step back by a small amount
    set t := min (x i) (w / (Q i i + 1)) with ht
    have hd : 0 < Q i i + 1 := by linarith [hq i]
    have htp : 0 < t := lt_min hxi (div_pos hwi hd)
    have ht1 : t ≤ x i := min_le_left _ _
    have ht2 : t * (Q i i + 1) ≤ w := by rw [← le_div_iff₀ hd]; exact min_le_right _ _
    have h2 := key i (-t) (by linarith)
    rw [← hwdef] at h2
    nlinarith [hq i]

/-- the minimisation problem has a solution when some velocity separates all contacts -/
theorem lcp_exists {M Minv : Matrix ι ι ℝ} (hM : MassMatrix M Minv) (N : Matrix ι (Fin k) ℝ) (w : ι → ℝ) (hw : ∀ c, 0 < (Nᵀ *ᵥ w) c) (b : Fin k → ℝ) :
    ∃ x, SolvesLCP (Nᵀ * Minv * N) b x := by
  set Q := Nᵀ * Minv * N with hQdef
  have hQ : Qᵀ = Q := by rw [hQdef, transpose_mul, transpose_mul, transpose_transpose, hM.minv_symm, Matrix.mul_assoc]
  have hpos : ∀ x, 0 ≤ x ⬝ᵥ (Q *ᵥ x) := fun x => by rw [quad_eq]; exact hM.minv_nonneg _
  suffices h : ∃ x, (∀ i, 0 ≤ x i) ∧ ∀ y, (∀ i, 0 ≤ y i) → qpObj Q b x ≤ qpObj Q b y by
    obtain ⟨x, hx⟩ := h; exact ⟨x, (qp_iff_lcp hQ hpos b x).mpr hx⟩
  have hcont : Continuous (qpObj Q b) := by
    have h1 : Continuous fun x : Fin k → ℝ => Q *ᵥ x := continuous_const.matrix_mulVec continuous_id
    exact (continuous_const.mul (continuous_id.dotProduct h1)).add (continuous_const.dotProduct continuous_id)
  have hqc : Continuous fun x : Fin k → ℝ => x ⬝ᵥ (Q *ᵥ x) := by
    have h1 : Continuous fun x : Fin k → ℝ => Q *ᵥ x := continuous_const.matrix_mulVec continuous_id
    exact continuous_id.dotProduct h1
  rcases Nat.eq_zero_or_pos k with hk | hk
  · subst hk
    exact ⟨0, fun i => i.elim0, fun y _ => by rw [Subsingleton.elim y 0]⟩
  -- on the simplex the quadratic form is bounded below
  let S : Set (Fin k → ℝ) := {x | (∀ i, 0 ≤ x i) ∧ ∑ i, x i = 1}
  have hSc : IsCompact S := by
    have hclosed : IsClosed S := by
      have h1 : IsClosed {x : Fin k → ℝ | ∀ i, 0 ≤ x i} := by
        simp only [Set.ofPred_forall]
        exact isClosed_iInter fun i => isClosed_le continuous_const (continuous_apply i)
      have h2 : IsClosed {x : Fin k → ℝ | ∑ i, x i = 1} := isClosed_eq (continuous_finsetSum _ fun i _ => continuous_apply i) continuous_const
      exact h1.inter h2
    refine (isCompact_univ_pi fun i : Fin k => (isCompact_Icc : IsCompact (Set.Icc (0 : ℝ) 1))).of_isClosed_subset hclosed ?_
    rintro x ⟨h1, h2⟩ i _
    refine ⟨h1 i, ?_⟩
    rw [← h2]
    exact single_le_sum (fun j _ => h1 j) (mem_univ i)
  have hSne : S.Nonempty := ⟨Pi.single ⟨0, hk⟩ 1, fun i => by
    by_cases h : i = ⟨0, hk⟩
    · subst h; simp
    · simp [Pi.single_eq_of_ne h], by simp⟩
  obtain ⟨x0, hx0, hmin0⟩ := hSc.exists_isMinOn hSne hqc.continuousOn
  set ε := x0 ⬝ᵥ (Q *ᵥ x0) with hε
  have hεpos : 0 < ε := by
    rcases (hpos x0).lt_or_eq with h | h
    · exact h
    · exfalso
      have h1 : N *ᵥ x0 = 0 := hM.minv_eq_zero (by rw [← quad_eq]; exact h.symm.le)
      have h2 : x0 ⬝ᵥ (Nᵀ *ᵥ w) = 0 := by rw [← dot_transpose, h1, zero_dotProduct]
      have h3 : ∃ i, 0 < x0 i := by
        by_contra hall
        push Not at hall
        have : ∑ i, x0 i ≤ 0 := sum_nonpos fun i _ => hall i
        rw [hx0.2] at this; linarith
      obtain ⟨i, hi⟩ := h3
      have : 0 < x0 ⬝ᵥ (Nᵀ *ᵥ w) := sum_pos' (fun j _ => mul_nonneg (hx0.1 j) (hw j).le) ⟨i, mem_univ i, mul_pos hi (hw i)⟩
      linarith
  have hquad : ∀ x : Fin k → ℝ, (∀ i, 0 ≤ x i) → ε * (∑ i, x i) ^ 2 ≤ x ⬝ᵥ (Q *ᵥ x) := by
    intro x hx
    have hs0 : 0 ≤ ∑ i, x i := sum_nonneg fun i _ => hx i
    rcases hs0.lt_or_eq with hs | hs
    · have h1 : (∑ i, x i)⁻¹ • x ∈ S := ⟨fun i => by
        simp only [Pi.smul_apply, smul_eq_mul]; exact mul_nonneg (inv_nonneg.mpr hs0) (hx i), by
        simp only [Pi.smul_apply, smul_eq_mul, ← mul_sum]; exact inv_mul_cancel₀ hs.ne'⟩
      have h2 := hmin0 h1
      simp only [Set.mem_ofPred_eq, smul_dotProduct, mulVec_smul, dotProduct_smul, smul_eq_mul] at h2
      rw [← hε] at h2
      have h3 := mul_le_mul_of_nonneg_right h2 (sq_nonneg (∑ i, x i))
      calc ε * (∑ i, x i) ^ 2 ≤ _ := h3
        _ = x ⬝ᵥ (Q *ᵥ x) := by field_simp
    · rw [← hs]; simpa using hpos x
  -- a bound on the linear term
  set β := ∑ i, |b i| with hβ
  have hβ0 : 0 ≤ β := sum_nonneg fun i _ => abs_nonneg _
  have hlin : ∀ x : Fin k → ℝ, (∀ i, 0 ≤ x i) → -(β * ∑ i, x i) ≤ b ⬝ᵥ x := by
    intro x hx
    rw [dotProduct, mul_sum, ← sum_neg_distrib]
    refine sum_le_sum fun i _ => ?_
    have h1 : |b i| ≤ β := single_le_sum (f := fun i => |b i|) (fun j _ => abs_nonneg _) (mem_univ i)
    have h2 := neg_abs_le (b i)
    nlinarith [hx i]
  -- minimise over a box, outside of which the objective is not below its value at zero
  set R := 2 * β / ε + 1 with hR
  have hR0 : 0 < R := by positivity
  let B : Set (Fin k → ℝ) := Set.pi Set.univ fun _ => Set.Icc (0 : ℝ) R
  have hBc : IsCompact B := isCompact_univ_pi fun _ => isCompact_Icc
  have h0B : (0 : Fin k → ℝ) ∈ B := fun i _ => ⟨le_refl _, hR0.le⟩
  obtain ⟨x, hxB, hmin⟩ := hBc.exists_isMinOn ⟨0, h0B⟩ hcont.continuousOn
  refine ⟨x, fun i => (hxB i trivial).1, fun y hy => ?_⟩
  by_cases hyB : y ∈ B
  · exact hmin hyB
  · have h1 : qpObj Q b x ≤ 0 := by
      have := hmin h0B
      simpa [qpObj] using this
    have h2 : R < ∑ i, y i := by
      by_contra hle
      push Not at hle
      exact hyB fun i _ => ⟨hy i, (single_le_sum (fun j _ => hy j) (mem_univ i)).trans hle⟩
    have h3 := hquad y hy
    have h4 := hlin y hy
    set σ := ∑ i, y i with hσ
    have h5 : 2 * β < ε * σ := by
      have : 2 * β / ε < σ := by linarith
      rw [div_lt_iff₀ hεpos] at this; linarith
    have : 0 ≤ qpObj Q b y := by
      unfold qpObj
      nlinarith
    linarith

/-! ## One simultaneous impact -/

omit [DecidableEq ι] in
/-- the relative velocities after the impulses `x` -/
theorem post_vrel (Minv : Matrix ι ι ℝ) (N : Matrix ι (Fin k) ℝ) (nrel : Fin k → ℝ) (v0 : ι → ℝ) (x : Fin k → ℝ) :
    Nᵀ *ᵥ (v0 + Minv *ᵥ (N *ᵥ x)) + nrel = (Nᵀ * Minv * N) *ᵥ x + (Nᵀ *ᵥ v0 + nrel) := by
  rw [mulVec_add, ← mulVec_mulVec, ← mulVec_mulVec]; abel

omit [DecidableEq ι] in
theorem lcp_residual (Minv : Matrix ι ι ℝ) (N : Matrix ι (Fin k) ℝ) (nrel CoR : Fin k → ℝ) (v0 : ι → ℝ) (x : Fin k → ℝ) (i : Fin k) :
    ((Nᵀ * Minv * N) *ᵥ x + lcpLinearTerm N nrel CoR v0 v0) i =
      (Nᵀ *ᵥ (v0 + Minv *ᵥ (N *ᵥ x)) + nrel) i + CoR i * (Nᵀ *ᵥ v0 + nrel) i := by
  rw [post_vrel]
  simp only [lcpLinearTerm, Pi.add_apply, Pi.mul_apply]
  ring

/-- the energy, in a frame moving with `z`, after an exact solve -/
theorem lcp_energy {M Minv : Matrix ι ι ℝ} (hM : MassMatrix M Minv) (N : Matrix ι (Fin k) ℝ) (nrel : Fin k → ℝ) (c : ℝ) (hc : 0 ≤ c) (v0 z : ι → ℝ)
    (x : Fin k → ℝ) (h : SolvesLCP (Nᵀ * Minv * N) (lcpLinearTerm N nrel (fun _ => c) v0 v0) x) :
    matKE M (v0 + Minv *ᵥ (N *ᵥ x) - z) =
      matKE M (v0 - z) - (1 - c) / (2 * (1 + c)) * (x ⬝ᵥ ((Nᵀ * Minv * N) *ᵥ x)) - x ⬝ᵥ (nrel + Nᵀ *ᵥ z) := by
  have e : v0 + Minv *ᵥ (N *ᵥ x) - z = (v0 - z) + Minv *ᵥ (N *ᵥ x) := by abel
  rw [e, hM.ke_impulse, ← quad_eq, dot_transpose, mulVec_sub, dotProduct_sub, dotProduct_add]
  have h0 := compl_dot h.2.2
  have e1 : lcpLinearTerm N nrel (fun _ => c) v0 v0 = (1 + c) • (Nᵀ *ᵥ v0 + nrel) := by
    funext i; simp only [lcpLinearTerm, Pi.add_apply, Pi.mul_apply, Pi.smul_apply, smul_eq_mul]; ring
  rw [dotProduct_add, e1, dotProduct_smul, dotProduct_add, smul_eq_mul] at h0
  have hc1 : (1 + c) ≠ 0 := by positivity
  have h1 : x ⬝ᵥ (Nᵀ *ᵥ v0) = -(x ⬝ᵥ ((Nᵀ * Minv * N) *ᵥ x)) / (1 + c) - x ⬝ᵥ nrel := by
    field_simp; linarith
  rw [h1]
  field_simp
  ring

/-! ## Generalized reflections -/

theorem grScatter_eq (violated : List (Fin k)) (hnd : violated.Nodup) (l : Fin violated.length → ℝ) (alpha : Fin k → ℝ) :
    (∀ i, grScatter violated l alpha (violated.get i) = alpha (violated.get i) + l i) ∧
    (∀ c, c ∉ violated → grScatter violated l alpha c = alpha c) := by
  have hinj : ∀ i j : Fin violated.length, violated.get i = violated.get j → i = j := fun i j h => hnd.injective_get h
  -- over any duplicate free list of positions
  have gen : ∀ (L : List (Fin violated.length)), L.Nodup → ∀ a : Fin k → ℝ,
      (∀ i, (L.foldl (fun a l' => Function.update a (violated.get l') (a (violated.get l') + l l')) a) (violated.get i) =
        a (violated.get i) + if i ∈ L then l i else 0) ∧
      (∀ c, c ∉ violated → (L.foldl (fun a l' => Function.update a (violated.get l') (a (violated.get l') + l l')) a) c = a c) := by
    intro L
    induction L with
    | nil => intro _ a; simp
    | cons x L ih =>
      intro hL a
      obtain ⟨hx, hL⟩ := List.nodup_cons.mp hL
      obtain ⟨h1, h2⟩ := ih hL (Function.update a (violated.get x) (a (violated.get x) + l x))
      refine ⟨fun i => ?_, fun c hc => ?_⟩
      · rw [List.foldl_cons, h1]
        by_cases hix : i = x
        · subst hix
          rw [Function.update_self, if_neg hx, if_pos (List.mem_cons_self)]; ring
        · rw [Function.update_of_ne (fun h => hix (hinj _ _ h))]
          simp only [List.mem_cons, hix, false_or]
      · rw [List.foldl_cons, h2 c hc, Function.update_of_ne]
        rintro rfl
        exact hc (List.get_mem _ _)
  obtain ⟨h1, h2⟩ := gen (List.finRange violated.length) (List.nodup_finRange _) alpha
  exact ⟨fun i => by rw [grScatter, h1, if_pos (List.mem_finRange i)], h2⟩

omit [DecidableEq ι] [Fintype ι] in
theorem grScatter_mulVec (N : Matrix ι (Fin k) ℝ) (violated : List (Fin k)) (hnd : violated.Nodup) (l : Fin violated.length → ℝ) (alpha : Fin k → ℝ) :
    N *ᵥ grScatter violated l alpha = N *ᵥ alpha + N.submatrix id violated.get *ᵥ l := by
  obtain ⟨h1, h2⟩ := grScatter_eq violated hnd l alpha
  have hinj : Function.Injective violated.get := hnd.injective_get
  funext p
  simp only [mulVec, dotProduct, Pi.add_apply, submatrix_apply, id]
  have e : ∑ i, N p (violated.get i) * l i = ∑ c, N p c * (grScatter violated l alpha c - alpha c) := by
    have e0 : ∀ i, N p (violated.get i) * l i = N p (violated.get i) * (grScatter violated l alpha (violated.get i) - alpha (violated.get i)) :=
      fun i => by rw [h1]; ring
    rw [sum_congr rfl fun i _ => e0 i]
    rw [← Finset.sum_image (f := fun c => N p c * (grScatter violated l alpha c - alpha c)) (s := univ) (g := violated.get) (by
      intro a _ b _ h; exact hinj h)]
    refine sum_subset (subset_univ _) fun c _ hc => ?_
    rw [h2 c, sub_self, mul_zero]
    intro hmem
    obtain ⟨i, hi⟩ := List.get_of_mem hmem
    exact hc (mem_image.mpr ⟨i, mem_univ i, hi⟩)
  rw [e, ← sum_add_distrib]
  exact sum_congr rfl fun c _ => by ring

omit [DecidableEq ι] in
theorem grViolated_nodup (tol : ℝ) (N : Matrix ι (Fin k) ℝ) (nrel : Fin k → ℝ) (v1 : ι → ℝ) : (grViolated tol N nrel v1).Nodup :=
  (List.nodup_finRange k).filter _

omit [DecidableEq ι] in
theorem mem_grViolated {tol : ℝ} {N : Matrix ι (Fin k) ℝ} {nrel : Fin k → ℝ} {v1 : ι → ℝ} {c : Fin k} :
    c ∈ grViolated tol N nrel v1 ↔ (Nᵀ *ᵥ v1 + nrel) c < -tol := by
  simp [grViolated, List.mem_filter, List.mem_finRange]

omit [DecidableEq ι] in
theorem grLoop_induct (solve : LcpSolver) (tol : ℝ) (Minv : Matrix ι ι ℝ) (N : Matrix ι (Fin k) ℝ) (nrel CoR : Fin k → ℝ) (v0F : ι → ℝ)
    (P : (Fin k → ℝ) → Prop)
    (hstep : ∀ alpha, P alpha → (grViolated tol N nrel (afterImpulses Minv N v0F alpha)).length ≠ 0 →
      P (grRound solve Minv N nrel CoR (grViolated tol N nrel (afterImpulses Minv N v0F alpha)) (afterImpulses Minv N v0F alpha) alpha))
    (fuel : Nat) (alpha : Fin k → ℝ) (h : P alpha) :
    P (grLoop solve tol Minv N nrel CoR v0F fuel alpha (afterImpulses Minv N v0F alpha)).1 ∧
    ((grLoop solve tol Minv N nrel CoR v0F fuel alpha (afterImpulses Minv N v0F alpha)).2 = true →
      ∀ c, -tol ≤ (Nᵀ *ᵥ afterImpulses Minv N v0F (grLoop solve tol Minv N nrel CoR v0F fuel alpha (afterImpulses Minv N v0F alpha)).1 + nrel) c) := by
  induction fuel generalizing alpha with
  | zero => exact ⟨h, fun h => by simp [grLoop] at h⟩
  | succ f ih =>
    by_cases hl : (grViolated tol N nrel (afterImpulses Minv N v0F alpha)).length = 0
    · simp only [grLoop, if_pos hl]
      refine ⟨h, fun _ c => ?_⟩
      by_contra hc
      push Not at hc
      have := mem_grViolated.mpr hc
      rw [List.length_eq_zero_iff.mp hl] at this
      simp at this
    · simp only [grLoop, if_neg hl]
      exact ih _ (hstep alpha h hl)

omit [DecidableEq ι] in
theorem grLoop_gain (solve : LcpSolver) (tol : ℝ) (Minv : Matrix ι ι ℝ) (N : Matrix ι (Fin k) ℝ) (nrel CoR : Fin k → ℝ) (v0F : ι → ℝ)
    (P : (Fin k → ℝ) → Prop)
    (hstep : ∀ alpha, P alpha → (grViolated tol N nrel (afterImpulses Minv N v0F alpha)).length ≠ 0 →
      P (grRound solve Minv N nrel CoR (grViolated tol N nrel (afterImpulses Minv N v0F alpha)) (afterImpulses Minv N v0F alpha) alpha))
    (F : (Fin k → ℝ) → ℝ) (δ : ℝ)
    (hF : ∀ alpha, P alpha → (grViolated tol N nrel (afterImpulses Minv N v0F alpha)).length ≠ 0 →
      F alpha + δ ≤ F (grRound solve Minv N nrel CoR (grViolated tol N nrel (afterImpulses Minv N v0F alpha)) (afterImpulses Minv N v0F alpha) alpha))
    (fuel : Nat) (alpha : Fin k → ℝ) (h : P alpha)
    (hr : (grLoop solve tol Minv N nrel CoR v0F fuel alpha (afterImpulses Minv N v0F alpha)).2 = false) :
    F alpha + fuel * δ ≤ F (grLoop solve tol Minv N nrel CoR v0F fuel alpha (afterImpulses Minv N v0F alpha)).1 := by
  induction fuel generalizing alpha with
  | zero => simp [grLoop]
  | succ f ih =>
    by_cases hl : (grViolated tol N nrel (afterImpulses Minv N v0F alpha)).length = 0
    · simp only [grLoop, if_pos hl] at hr; cases hr
    · simp only [grLoop, if_neg hl] at hr ⊢
      have h1 := ih _ (hstep alpha h hl) hr
      have h2 := hF alpha h hl
      have : (afterImpulses Minv N v0F (grRound solve Minv N nrel CoR (grViolated tol N nrel (afterImpulses Minv N v0F alpha))
        (afterImpulses Minv N v0F alpha) alpha)) = v0F + Minv *ᵥ (N *ᵥ (grRound solve Minv N nrel CoR
          (grViolated tol N nrel (afterImpulses Minv N v0F alpha)) (afterImpulses Minv N v0F alpha) alpha)) := rfl
      rw [this] at h1
      push_cast
      linarith

/-- what one round does -/
theorem grRound_spec (solve : LcpSolver) (Minv : Matrix ι ι ℝ) (N : Matrix ι (Fin k) ℝ) (nrel : Fin k → ℝ) (c : ℝ) (v0F : ι → ℝ)
    (hs : solve.ExactOn Minv N nrel c) (S : List (Fin k)) (hS : S.Nodup) (alpha : Fin k → ℝ) :
    ∃ x : Fin S.length → ℝ, SolvesLCP ((N.submatrix id S.get)ᵀ * Minv * N.submatrix id S.get)
        (lcpLinearTerm (N.submatrix id S.get) (nrel ∘ S.get) (fun _ => c) (afterImpulses Minv N v0F alpha) (afterImpulses Minv N v0F alpha)) x ∧
      grRound solve Minv N nrel (fun _ => c) S (afterImpulses Minv N v0F alpha) alpha = grScatter S x alpha ∧
      afterImpulses Minv N v0F (grScatter S x alpha) = afterImpulses Minv N v0F alpha + Minv *ᵥ (N.submatrix id S.get *ᵥ x) := by
  have e : lcpLinearTerm (N.submatrix id S.get) (nrel ∘ S.get) (fun _ => c) (afterImpulses Minv N v0F alpha) (afterImpulses Minv N v0F alpha) =
      fun i => (1 + c) * (((N.submatrix id S.get)ᵀ *ᵥ afterImpulses Minv N v0F alpha) i + nrel (S.get i)) := by
    funext i; simp only [lcpLinearTerm, Pi.add_apply, Pi.mul_apply, Function.comp]; ring
  refine ⟨_, ?_, rfl, ?_⟩
  · have := hs S (afterImpulses Minv N v0F alpha) hS
    rw [← e] at this
    exact this
  · rw [afterImpulses, grScatter_mulVec N S hS, mulVec_add, ← add_assoc]; rfl

theorem grScatter_nonneg (S : List (Fin k)) (hS : S.Nodup) (x : Fin S.length → ℝ) (hx : ∀ i, 0 ≤ x i) (alpha : Fin k → ℝ) (c : Fin k) :
    alpha c ≤ grScatter S x alpha c := by
  obtain ⟨h1, h2⟩ := grScatter_eq S hS x alpha
  by_cases hc : c ∈ S
  · obtain ⟨i, rfl⟩ := List.get_of_mem hc
    rw [h1]; linarith [hx i]
  · rw [h2 c hc]

omit [DecidableEq ι] in
theorem submatrix_transpose_mulVec (N : Matrix ι (Fin k) ℝ) {l : Nat} (f : Fin l → Fin k) (w : ι → ℝ) (i : Fin l) :
    ((N.submatrix id f)ᵀ *ᵥ w) i = (Nᵀ *ᵥ w) (f i) := rfl

/-- the energy in a frame moving with `z`, when no obstacle approaches in that frame -/
theorem grRound_energy {M Minv : Matrix ι ι ℝ} (hM : MassMatrix M Minv) (N : Matrix ι (Fin k) ℝ) (nrel : Fin k → ℝ) (c : ℝ) (hc : 0 ≤ c ∧ c ≤ 1) (z : ι → ℝ)
    (hz : ∀ i, 0 ≤ (nrel + Nᵀ *ᵥ z) i) (S : List (Fin k)) (v : ι → ℝ) (x : Fin S.length → ℝ)
    (h : SolvesLCP ((N.submatrix id S.get)ᵀ * Minv * N.submatrix id S.get) (lcpLinearTerm (N.submatrix id S.get) (nrel ∘ S.get) (fun _ => c) v v) x) :
    matKE M (v + Minv *ᵥ (N.submatrix id S.get *ᵥ x) - z) ≤ matKE M (v - z) := by
  rw [lcp_energy hM _ _ c hc.1 v z x h]
  have h1 : 0 ≤ x ⬝ᵥ (((N.submatrix id S.get)ᵀ * Minv * N.submatrix id S.get) *ᵥ x) := by rw [quad_eq]; exact hM.minv_nonneg _
  have h2 : 0 ≤ x ⬝ᵥ (nrel ∘ S.get + (N.submatrix id S.get)ᵀ *ᵥ z) := dot_nonneg' h.1 fun i => hz (S.get i)
  have h3 : 0 ≤ (1 - c) / (2 * (1 + c)) := div_nonneg (by linarith) (by linarith)
  have := mul_nonneg h3 h1
  linarith

end Scisim
