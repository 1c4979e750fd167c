import Verif.Spec.Dynamics
import Mathlib.Algebra.BigOperators.Group.Finset.Basic
import Mathlib.Tactic.LinearCombination
import Mathlib.Tactic.FieldSimp
import Mathlib.Tactic.FinCases
import Mathlib.Tactic.Ring
import Mathlib.Tactic.Linarith
import Mathlib.Analysis.SpecialFunctions.Pow.Deriv
import Mathlib.Analysis.SpecialFunctions.Sqrt
/-!
# Lemmas about unconstrained motion
-/

namespace Scisim

open Finset

variable {n d : Nat}

theorem foldl_add_eq {α β : Type} [AddCommMonoid β] (f : α → β) (l : List α) (a : β) :
    l.foldl (fun U p => U + f p) a = a + (l.map f).sum := by
  induction l generalizing a with
  | nil => simp
  | cons x l ih => simp [ih, add_assoc]

theorem mem_ballLoop (p : Fin n × Fin n) : p ∈ ballLoop n ↔ p.1 < p.2 := by
  obtain ⟨i, j⟩ := p
  simp [ballLoop]

theorem nodup_ballLoop : (ballLoop n).Nodup := by
  unfold ballLoop
  rw [List.nodup_flatMap]
  refine ⟨fun i _ => ((List.nodup_finRange n).filter _).map (fun a b h => by simpa using h), ?_⟩
  refine (List.nodup_finRange n).imp ?_
  intro a b hab x hx hy
  simp only [List.mem_map] at hx hy
  obtain ⟨_, _, rfl⟩ := hx
  obtain ⟨_, _, h⟩ := hy
  exact hab (Prod.mk.inj h).1.symm

theorem ballLoop_sum {β : Type} [AddCommMonoid β] (f : Fin n × Fin n → β) :
    ((ballLoop n).map f).sum = ∑ i, ∑ j, if i < j then f (i, j) else 0 := by
  classical
  rw [← List.sum_toFinset f nodup_ballLoop]
  have : (ballLoop n).toFinset = univ.filter fun p : Fin n × Fin n => p.1 < p.2 := by
    ext p; simp [mem_ballLoop]
  rw [this, sum_filter, Fintype.sum_prod_type]

/-- symmetric splitting of a sum over ordered pairs -/
theorem sum_pairs {β : Type} [AddCommMonoid β] (f : Fin n → Fin n → β) :
    ∑ i, ∑ j, (if i ≠ j then f i j else 0) = ∑ i, ∑ j, if i < j then f i j + f j i else 0 := by
  have h1 : ∀ i j : Fin n, (if i ≠ j then f i j else 0) = (if i < j then f i j else 0) + (if j < i then f i j else 0) := by
    intro i j
    rcases lt_trichotomy i j with h | h | h
    · simp [h, h.ne, h.not_gt]
    · simp [h]
    · simp [h, h.ne', h.not_gt]
  simp only [h1, sum_add_distrib]
  rw [sum_comm (f := fun i j => if j < i then f i j else 0), ← sum_add_distrib]
  refine sum_congr rfl fun i _ => ?_
  rw [← sum_add_distrib]
  refine sum_congr rfl fun j _ => ?_
  split <;> simp

theorem sqNorm2_sub (a b : Fin 2 → ℝ) : sqNorm2 (a - b) = (b 0 - a 0) ^ 2 + (b 1 - a 1) ^ 2 := by
  simp only [sqNorm2, Pi.sub_apply]; ring

theorem dist2_comm (a b : Fin 2 → ℝ) : dist2 a b = dist2 b a := by
  unfold dist2; congr 1; ring

theorem dist2_pos {a b : Fin 2 → ℝ} (h : a ≠ b) : 0 < dist2 a b := by
  unfold dist2
  apply Real.sqrt_pos.mpr
  by_contra hle
  push Not at hle
  apply h
  have h0 := sq_nonneg (a 0 - b 0)
  have h1 := sq_nonneg (a 1 - b 1)
  funext c
  fin_cases c
  · show a 0 = b 0; nlinarith
  · show a 1 = b 1; nlinarith

theorem repulsion_antisymm (k p : ℝ) (a b : Fin 2 → ℝ) (ra rb : ℝ) : repulsion k p a b ra rb = -repulsion k p b a rb ra := by
  unfold repulsion
  rw [dist2_comm b a, add_comm rb ra]
  split
  · rw [← smul_neg, neg_sub]
  · simp

theorem sqNorm2_eq (a b : Fin 2 → ℝ) : sqNorm2 (a - b) = dist2 a b ^ 2 := by
  unfold dist2
  rw [Real.sq_sqrt (by positivity)]
  simp only [sqNorm2, Pi.sub_apply]; ring

theorem sqrt_sqNorm2 (a b : Fin 2 → ℝ) : Real.sqrt (sqNorm2 (a - b)) = dist2 a b := by
  rw [sqNorm2_eq]; exact Real.sqrt_sq (Real.sqrt_nonneg _)

theorem overlap_iff {a b : Fin 2 → ℝ} {R : ℝ} (hR : 0 ≤ R) : sqNorm2 (a - b) > R * R ↔ ¬dist2 a b ≤ R := by
  rw [sqNorm2_eq, gt_iff_lt, ← sq, not_le]
  exact pow_lt_pow_iff_left₀ hR (Real.sqrt_nonneg _) two_ne_zero

/-- the pair force of the code is the repulsion of the first ball on the second -/
theorem penaltyPairForce_eq (k p : ℝ) (q : VecX n 2) (r : Fin n → ℝ) (hr : ∀ i, 0 ≤ r i) (e : Fin n × Fin n) :
    (penaltyPairForce k p q r e).getD 0 = repulsion k p (q e.2) (q e.1) (r e.2) (r e.1) := by
  unfold penaltyPairForce repulsion
  simp only
  have hR : 0 ≤ r e.1 + r e.2 := add_nonneg (hr _) (hr _)
  by_cases h : dist2 (q e.2) (q e.1) ≤ r e.1 + r e.2
  · rw [if_neg (by rw [overlap_iff hR]; simpa using h), if_pos (by linarith), sqrt_sqNorm2]
    simp only [Option.getD_some]
    funext c
    simp only [Pi.smul_apply, smul_eq_mul]
    rw [neg_sub, add_comm (r e.2)]
    ring
  · rw [if_pos ((overlap_iff hR).mpr h), if_neg (by intro h'; exact h (by linarith))]
    rfl

theorem penaltyPairAdd_eq (k p : ℝ) (q : VecX n 2) (r : Fin n → ℝ) (hr : ∀ i, 0 ≤ r i) (result : VecX n 2) (e : Fin n × Fin n) (he : e.1 < e.2) :
    penaltyPairAdd k p q r result e = result + fun i => (if i = e.2 then repulsion k p (q e.2) (q e.1) (r e.2) (r e.1) else 0) +
      (if i = e.1 then repulsion k p (q e.1) (q e.2) (r e.1) (r e.2) else 0) := by
  have h := penaltyPairForce_eq k p q r hr e
  unfold penaltyPairAdd
  have hne : e.1 ≠ e.2 := he.ne
  rw [repulsion_antisymm k p (q e.1), ← h]
  cases hf : penaltyPairForce k p q r e with
  | none => funext i; simp
  | some F =>
    funext i
    simp only [Option.getD_some, Pi.add_apply]
    by_cases h1 : i = e.1
    · subst h1
      simp [hne, sub_eq_add_neg]
    · by_cases h2 : i = e.2
      · subst h2
        simp [h1]
      · simp [h1, h2]

theorem penaltyForce_eq (k p : ℝ) (q : VecX n 2) (r : Fin n → ℝ) (hr : ∀ i, 0 ≤ r i) (result : VecX n 2) :
    penaltyForce k p q r result = fun i => result i + ∑ j, if i ≠ j then repulsion k p (q i) (q j) (r i) (r j) else 0 := by
  have key : ∀ (l : List (Fin n × Fin n)), (∀ e ∈ l, e.1 < e.2) → ∀ result, l.foldl (penaltyPairAdd k p q r) result =
      l.foldl (fun U e => U + fun i => (if i = e.2 then repulsion k p (q e.2) (q e.1) (r e.2) (r e.1) else 0) +
      (if i = e.1 then repulsion k p (q e.1) (q e.2) (r e.1) (r e.2) else 0)) result := by
    intro l
    induction l with
    | nil => intros; rfl
    | cons e l ih =>
      intro hl result
      rw [List.foldl_cons, List.foldl_cons, penaltyPairAdd_eq k p q r hr result e (hl e List.mem_cons_self),
        ih (fun e he => hl e (List.mem_cons_of_mem _ he))]
  unfold penaltyForce
  rw [key _ (fun e he => (mem_ballLoop e).mp he), foldl_add_eq, ballLoop_sum]
  funext i
  simp only [Pi.add_apply, Finset.sum_apply]
  congr 1
  have h1 : ∀ a b : Fin n, (if a < b then (fun c => (if c = b then repulsion k p (q b) (q a) (r b) (r a) else 0) +
      (if c = a then repulsion k p (q a) (q b) (r a) (r b) else 0)) else (0 : VecX n 2)) i =
      (if a < b then (if i = b then repulsion k p (q b) (q a) (r b) (r a) else 0) else 0) +
      (if a < b then (if i = a then repulsion k p (q a) (q b) (r a) (r b) else 0) else 0) := by
    intro a b
    split <;> simp
  simp only [h1, sum_add_distrib]
  have h2 : ∑ a, ∑ b, (if a < b then (if i = b then repulsion k p (q b) (q a) (r b) (r a) else 0) else 0) =
      ∑ a, if a < i then repulsion k p (q i) (q a) (r i) (r a) else 0 := by
    refine sum_congr rfl fun a _ => ?_
    rw [sum_eq_single i]
    · simp
    · intro b _ hb; simp [Ne.symm hb]
    · simp
  have h3 : ∑ a, ∑ b, (if a < b then (if i = a then repulsion k p (q a) (q b) (r a) (r b) else 0) else 0) =
      ∑ b, if i < b then repulsion k p (q i) (q b) (r i) (r b) else 0 := by
    rw [sum_eq_single i]
    · simp
    · intro a _ ha
      refine sum_eq_zero fun b _ => ?_
      simp [Ne.symm ha]
    · simp
  rw [h2, h3, ← sum_add_distrib]
  refine sum_congr rfl fun j _ => ?_
  rcases lt_trichotomy i j with h | h | h
  · simp [h, h.ne, h.not_gt]
  · simp [h]
  · simp [h, h.ne', h.not_gt]

/-- the internal forces cancel -/
theorem sum_antisymm (f : Fin n → Fin n → Fin 2 → ℝ) (h : ∀ i j, f i j = -f j i) : ∑ i, ∑ j, (if i ≠ j then f i j else 0) = 0 := by
  rw [sum_pairs]
  refine sum_eq_zero fun i _ => sum_eq_zero fun j _ => ?_
  split
  · rw [h i j]; simp
  · rfl

theorem cross2_sum (a : Fin 2 → ℝ) {ι : Type} (s : Finset ι) (f : ι → Fin 2 → ℝ) : cross2 a (∑ j ∈ s, f j) = ∑ j ∈ s, cross2 a (f j) := by
  simp only [cross2, Finset.sum_apply, mul_sum, ← sum_sub_distrib]

theorem dot2_sum (a : Fin 2 → ℝ) {ι : Type} (s : Finset ι) (f : ι → Fin 2 → ℝ) : dot2 (∑ j ∈ s, f j) a = ∑ j ∈ s, dot2 (f j) a := by
  simp only [dot2, Finset.sum_apply, sum_mul, ← sum_add_distrib]

theorem repulsion_central (k p : ℝ) (a b : Fin 2 → ℝ) (ra rb : ℝ) : cross2 (a - b) (repulsion k p a b ra rb) = 0 := by
  unfold repulsion
  split <;> simp [cross2] <;> ring

/-! ## The potential of the penalty force -/

theorem penaltyPairPotential_eq (k p : ℝ) (hp : 0 < p) (q : VecX n 2) (r : Fin n → ℝ) (hr : ∀ i, 0 ≤ r i) (e : Fin n × Fin n) :
    penaltyPairPotential k p q r e = 1 / 2 * k * (max (r e.1 + r e.2 - dist2 (q e.2) (q e.1)) 0) ^ p := by
  unfold penaltyPairPotential
  simp only
  have hR : 0 ≤ r e.1 + r e.2 := add_nonneg (hr _) (hr _)
  by_cases h : dist2 (q e.2) (q e.1) ≤ r e.1 + r e.2
  · rw [if_neg (by rw [overlap_iff hR]; simpa using h), sqrt_sqNorm2, neg_sub, max_eq_left (by linarith)]
  · rw [if_pos ((overlap_iff hR).mpr h), max_eq_right (by linarith), Real.zero_rpow hp.ne', mul_zero]

open Asymptotics Topology in
theorem hasDerivAt_posPart_rpow {p : ℝ} (hp : 1 < p) (x : ℝ) : HasDerivAt (fun s => (max s 0) ^ p) (p * (max x 0) ^ (p - 1)) x := by
  rcases lt_trichotomy x 0 with h | h | h
  · rw [max_eq_right h.le, Real.zero_rpow (by linarith), mul_zero]
    refine (hasDerivAt_const x (0 : ℝ)).congr_of_eventuallyEq ?_
    filter_upwards [gt_mem_nhds h] with s hs
    rw [max_eq_right hs.le, Real.zero_rpow (by linarith)]
  · subst h
    rw [max_self, Real.zero_rpow (by linarith), mul_zero, hasDerivAt_iff_isLittleO]
    have h1 : (fun s : ℝ => s ^ p) =o[𝓝 0] fun s : ℝ => s := by
      have := (hasDerivAt_iff_isLittleO.mp (Real.hasDerivAt_rpow_const (x := 0) (p := p) (Or.inr hp.le)))
      simpa [Real.zero_rpow (show p ≠ 0 by linarith), Real.zero_rpow (show p - 1 ≠ 0 by linarith)] using this
    have h2 : (fun s : ℝ => (max s 0) ^ p) =O[𝓝 0] fun s : ℝ => s ^ p := by
      refine IsBigO.of_bound 1 (Filter.Eventually.of_forall fun s => ?_)
      rcases le_or_gt 0 s with hs | hs
      · rw [max_eq_left hs]; simp
      · rw [max_eq_right hs.le, Real.zero_rpow (by linarith)]; simp
    simpa [Real.zero_rpow (show p ≠ 0 by linarith)] using h2.trans_isLittleO h1
  · rw [max_eq_left h.le]
    refine (Real.hasDerivAt_rpow_const (Or.inl h.ne')).congr_of_eventuallyEq ?_
    filter_upwards [lt_mem_nhds h] with s hs
    rw [max_eq_left hs.le]

theorem hasDerivAt_dist2 (a b u w : Fin 2 → ℝ) (h : a ≠ b) :
    HasDerivAt (fun s : ℝ => dist2 (a + s • u) (b + s • w)) (dot2 (a - b) (u - w) / dist2 a b) 0 := by
  unfold dist2
  have hpos := dist2_pos h
  have h0 : ∀ c : Fin 2, HasDerivAt (fun s : ℝ => (a + s • u) c - (b + s • w) c) (u c - w c) 0 := by
    intro c
    have h1 : HasDerivAt (fun s : ℝ => a c - b c + s * (u c - w c)) (u c - w c) 0 := by
      simpa using ((hasDerivAt_id (0 : ℝ)).mul_const (u c - w c)).const_add (a c - b c)
    refine h1.congr_of_eventuallyEq (Filter.Eventually.of_forall fun s => ?_)
    simp only [Pi.add_apply, Pi.smul_apply, smul_eq_mul]; ring
  have h1 := ((h0 0).pow 2).add ((h0 1).pow 2)
  have hp2 : (a 0 - b 0) ^ 2 + (a 1 - b 1) ^ 2 ≠ 0 := (Real.sqrt_pos.mp hpos).ne'
  have hs : Real.sqrt ((a 0 - b 0) ^ 2 + (a 1 - b 1) ^ 2) ≠ 0 := hpos.ne'
  have h2 := h1.sqrt (by
    simp only [Pi.add_apply, Pi.pow_apply, Pi.smul_apply, zero_smul, add_zero]
    exact hp2)
  refine h2.congr_deriv ?_
  simp only [Pi.add_apply, Pi.pow_apply, Pi.smul_apply, zero_smul, add_zero, dot2, Pi.sub_apply]
  rw [div_eq_div_iff (mul_ne_zero two_ne_zero hs) hs]
  push_cast
  ring

/-- derivative of the contribution of a pair -/
theorem hasDerivAt_pairPotential (k p : ℝ) (hp : 1 < p) (q w : VecX n 2) (r : Fin n → ℝ) (hr : ∀ i, 0 ≤ r i) (i j : Fin n) (hne : q i ≠ q j) :
    HasDerivAt (fun s : ℝ => penaltyPairPotential k p (q + s • w) r (i, j))
      (-(dot2 (repulsion k p (q i) (q j) (r i) (r j)) (w i) + dot2 (repulsion k p (q j) (q i) (r j) (r i)) (w j))) 0 := by
  have hd := hasDerivAt_dist2 (q j) (q i) (w j) (w i) hne.symm
  have h1 : HasDerivAt (fun s : ℝ => r i + r j - dist2 (q j + s • w j) (q i + s • w i)) (-(dot2 (q j - q i) (w j - w i) / dist2 (q j) (q i))) 0 :=
    hd.const_sub _
  have h2 := HasDerivAt.comp (0 : ℝ) (hasDerivAt_posPart_rpow hp (r i + r j - dist2 (q j + (0 : ℝ) • w j) (q i + (0 : ℝ) • w i))) h1
  have h3 := h2.const_mul (1 / 2 * k)
  refine (h3.congr_of_eventuallyEq (Filter.Eventually.of_forall fun s => ?_)).congr_deriv ?_
  · simp only [penaltyPairPotential_eq k p (by linarith) _ r hr]
    rfl
  · simp only [zero_smul, add_zero]
    rw [repulsion_antisymm k p (q i)]
    have hpos := dist2_pos hne.symm
    unfold repulsion
    rw [add_comm (r j) (r i)]
    by_cases h : dist2 (q j) (q i) ≤ r i + r j
    · rw [if_pos h, max_eq_left (by linarith)]
      simp only [dot2, Pi.sub_apply, Pi.neg_apply, Pi.smul_apply, smul_eq_mul]
      field_simp
      ring
    · rw [if_neg h, max_eq_right (by linarith), Real.zero_rpow (by linarith)]
      simp [dot2]

theorem penaltyPotential_eq (k p : ℝ) (q : VecX n 2) (r : Fin n → ℝ) :
    penaltyPotential k p q r = ∑ i, ∑ j, if i < j then penaltyPairPotential k p q r (i, j) else 0 := by
  unfold penaltyPotential
  rw [foldl_add_eq, ballLoop_sum, zero_add]

theorem hasDerivAt_penaltyPotential (k p : ℝ) (hp : 1 < p) (q w : VecX n 2) (r : Fin n → ℝ) (hr : ∀ i, 0 ≤ r i) (hq : Distinct q) :
    HasDerivAt (fun s : ℝ => penaltyPotential k p (q + s • w) r) (-∑ i, dot2 (penaltyForce k p q r 0 i) (w i)) 0 := by
  have h1 : HasDerivAt (fun s : ℝ => penaltyPotential k p (q + s • w) r) (∑ i, ∑ j, if i < j then
      (-(dot2 (repulsion k p (q i) (q j) (r i) (r j)) (w i) + dot2 (repulsion k p (q j) (q i) (r j) (r i)) (w j))) else 0) 0 := by
    simp only [penaltyPotential_eq]
    refine HasDerivAt.fun_sum fun i _ => HasDerivAt.fun_sum fun j _ => ?_
    by_cases h : i < j
    · simp only [h, if_true]
      exact hasDerivAt_pairPotential k p hp q w r hr i j (hq i j h.ne)
    · simp only [h, if_false]
      exact hasDerivAt_const _ _
  refine h1.congr_deriv ?_
  rw [penaltyForce_eq k p q r hr]
  have h2 : ∀ i, dot2 ((0 : VecX n 2) i + ∑ j, if i ≠ j then repulsion k p (q i) (q j) (r i) (r j) else 0) (w i) =
      ∑ j, if i ≠ j then dot2 (repulsion k p (q i) (q j) (r i) (r j)) (w i) else 0 := by
    intro i
    rw [Pi.zero_apply, zero_add, dot2_sum]
    refine sum_congr rfl fun j _ => ?_
    split <;> simp [dot2]
  simp only [h2]
  rw [sum_pairs (fun i j => dot2 (repulsion k p (q i) (q j) (r i) (r j)) (w i)), ← sum_neg_distrib]
  refine sum_congr rfl fun i _ => ?_
  rw [← sum_neg_distrib]
  refine sum_congr rfl fun j _ => ?_
  split <;> simp

end Scisim
