import Mathlib.Analysis.SpecialFunctions.Trigonometric.Basic
import Mathlib.Tactic.LinearCombination
import Mathlib.Tactic.IntervalCases
import Mathlib.Tactic.FieldSimp
import Verif.Spec.Picture2D
/-!
# Lemmas about pictures
-/

namespace Scisim
namespace Picture2

open Real

/-! ## Polygons on a circle -/

/-- The point of the circle at an angle -/
noncomputable def arcPoint (x : V2 ℝ) (r a : ℝ) : V2 ℝ := ⟨x.x + r * cos a, x.y + r * sin a⟩

theorem edge_cross (x : V2 ℝ) (r m h : ℝ) (p : V2 ℝ) :
    (arcPoint x r (m + h) - arcPoint x r (m - h)).cross (p - arcPoint x r (m - h)) =
      2 * r * sin h * (r * cos h - (cos m * (p.x - x.x) + sin m * (p.y - x.y))) := by
  simp only [arcPoint, V2.cross, V2.sub_x, V2.sub_y, cos_add, sin_add, cos_sub, sin_sub]
  have h1 := sin_sq_add_cos_sq m
  linear_combination (2 * r ^ 2 * sin h * cos h) * h1

theorem near_le {x : V2 ℝ} {r : ℝ} {p : V2 ℝ} (m : ℝ) {c : ℝ} (hc : 0 ≤ c) (h : (p.x - x.x) ^ 2 + (p.y - x.y) ^ 2 ≤ c ^ 2) :
    cos m * (p.x - x.x) + sin m * (p.y - x.y) ≤ c := by
  refine abs_le_of_sq_le_sq' ?_ hc |>.2
  have h1 := sin_sq_add_cos_sq m
  nlinarith [sq_nonneg (cos m * (p.y - x.y) - sin m * (p.x - x.x))]

/-- The angle of a point, between zero and a full turn -/
theorem exists_angle (d : V2 ℝ) : ∃ a : ℝ, 0 ≤ a ∧ a < 2 * π ∧ d.x = sqrt (d.x ^ 2 + d.y ^ 2) * cos a ∧ d.y = sqrt (d.x ^ 2 + d.y ^ 2) * sin a := by
  have e : ‖(⟨d.x, d.y⟩ : ℂ)‖ = sqrt (d.x ^ 2 + d.y ^ 2) := by
    rw [Complex.norm_def, Complex.normSq_mk]; congr 1; ring
  have hx := Complex.norm_mul_cos_arg ⟨d.x, d.y⟩
  have hy := Complex.norm_mul_sin_arg ⟨d.x, d.y⟩
  rw [e] at hx hy
  simp only at hx hy
  have l := Complex.neg_pi_lt_arg ⟨d.x, d.y⟩
  have u := Complex.arg_le_pi ⟨d.x, d.y⟩
  have pp := pi_pos
  by_cases hn : 0 ≤ Complex.arg ⟨d.x, d.y⟩
  · exact ⟨_, hn, by linarith, hx.symm, hy.symm⟩
  · push Not at hn
    exact ⟨Complex.arg ⟨d.x, d.y⟩ + 2 * π, by linarith, by linarith, by rw [cos_add_two_pi]; exact hx.symm, by rw [sin_add_two_pi]; exact hy.symm⟩

/-- An angle falls into one of `n` equal parts of the full turn -/
theorem exists_part {n : ℕ} (hn : 0 < n) {a : ℝ} (h0 : 0 ≤ a) (h1 : a < 2 * π) :
    ∃ k < n, |a - ((k : ℝ) * (2 * π / n) + π / n)| ≤ π / n := by
  have pp := pi_pos
  have hn' : (0 : ℝ) < n := by exact_mod_cast hn
  have ht : 0 < 2 * π / n := by positivity
  refine ⟨⌊a / (2 * π / n)⌋₊, ?_, ?_⟩
  · rw [Nat.floor_lt (by positivity), div_lt_iff₀ ht]
    have : (n : ℝ) * (2 * π / n) = 2 * π := by field_simp
    linarith
  · have f1 := Nat.floor_le (a := a / (2 * π / n)) (by positivity)
    have f2 := Nat.lt_floor_add_one (a / (2 * π / n))
    rw [le_div_iff₀ ht] at f1
    rw [div_lt_iff₀ ht] at f2
    have e : 2 * π / n = π / n + π / n := by ring
    rw [abs_le]
    constructor
    · linarith
    · have : ((⌊a / (2 * π / ↑n)⌋₊ : ℝ) + 1) * (2 * π / n) = (⌊a / (2 * π / ↑n)⌋₊ : ℝ) * (2 * π / n) + (π / n + π / n) := by rw [← e]; ring
      linarith

/-- In a regular polygon some edge faces a given point -/
theorem exists_facing {n : ℕ} (hn : 2 ≤ n) (d : V2 ℝ) :
    ∃ k < n, sqrt (d.x ^ 2 + d.y ^ 2) * cos (π / n) ≤ cos ((k : ℝ) * (2 * π / n) + π / n) * d.x + sin ((k : ℝ) * (2 * π / n) + π / n) * d.y := by
  obtain ⟨a, h0, h1, hx, hy⟩ := exists_angle d
  obtain ⟨k, hk, ha⟩ := exists_part (by omega : 0 < n) h0 h1
  refine ⟨k, hk, ?_⟩
  set m := (k : ℝ) * (2 * π / n) + π / n
  set ρ := sqrt (d.x ^ 2 + d.y ^ 2) with hρ
  have hn' : (1 : ℝ) ≤ n := by exact_mod_cast (by omega : 1 ≤ n)
  have e : cos m * d.x + sin m * d.y = ρ * cos (a - m) := by
    rw [hx, hy, cos_sub]; ring
  rw [e]
  refine mul_le_mul_of_nonneg_left ?_ (sqrt_nonneg _)
  rw [← cos_abs (a - m)]
  refine cos_le_cos_of_nonneg_of_le_pi (abs_nonneg _) ?_ ha
  exact div_le_self pi_pos.le hn'

/-- The corners of a regular polygon -/
theorem convex_circle {n : ℕ} (hn : 3 ≤ n) (x : V2 ℝ) {r : ℝ} (hr : 0 < r) (p : V2 ℝ) :
    InConvex ((List.range n).map fun (k : ℕ) => arcPoint x r ((k : ℝ) * (2 * π / n))) p ↔
      ∀ k < n, cos ((k : ℝ) * (2 * π / n) + π / n) * (p.x - x.x) + sin ((k : ℝ) * (2 * π / n) + π / n) * (p.y - x.y) ≤ r * cos (π / n) := by
  have pp := pi_pos
  have hn' : (3 : ℝ) ≤ n := by exact_mod_cast hn
  have hs : 0 < sin (π / n) := by
    apply sin_pos_of_pos_of_lt_pi (by positivity)
    rw [div_lt_iff₀ (by linarith)]; nlinarith
  have hc : 0 < cos (π / n) := by
    apply cos_pos_of_mem_Ioo
    constructor
    · have : 0 < π / n := by positivity
      linarith
    · rw [div_lt_div_iff₀ (by linarith) (by norm_num)]; nlinarith
  have key : ∀ i < n, (((List.range n).map fun (k : ℕ) => arcPoint x r ((k : ℝ) * (2 * π / n))).getD ((i + 1) % n) 0 -
      ((List.range n).map fun (k : ℕ) => arcPoint x r ((k : ℝ) * (2 * π / n))).getD i 0).cross
      (p - ((List.range n).map fun (k : ℕ) => arcPoint x r ((k : ℝ) * (2 * π / n))).getD i 0) =
      2 * r * sin (π / n) * (r * cos (π / n) - (cos ((i : ℝ) * (2 * π / n) + π / n) * (p.x - x.x) + sin ((i : ℝ) * (2 * π / n) + π / n) * (p.y - x.y))) := by
    intro i hi
    rw [← edge_cross]
    have e1 : ((List.range n).map fun (k : ℕ) => arcPoint x r ((k : ℝ) * (2 * π / n))).getD i 0 =
        arcPoint x r ((i : ℝ) * (2 * π / n) + π / n - π / n) := by
      rw [List.getD_eq_getElem?_getD, List.getElem?_map, List.getElem?_range hi]
      simp
    have e2 : ((List.range n).map fun (k : ℕ) => arcPoint x r ((k : ℝ) * (2 * π / n))).getD ((i + 1) % n) 0 =
        arcPoint x r ((i : ℝ) * (2 * π / n) + π / n + π / n) := by
      rw [List.getD_eq_getElem?_getD, List.getElem?_map, List.getElem?_range (Nat.mod_lt _ (by omega))]
      simp only [Option.map_some, Option.getD_some]
      rcases Nat.lt_or_ge (i + 1) n with hlt | hge
      · rw [Nat.mod_eq_of_lt hlt]
        congr 1; push_cast; ring
      · have : i + 1 = n := by omega
        rw [this, Nat.mod_self]
        have e : (i : ℝ) * (2 * π / n) + π / n + π / n = 2 * π := by
          have : (i : ℝ) = n - 1 := by rw [← this]; push_cast; ring
          rw [this]; field_simp; ring
        rw [e]
        simp [arcPoint]
    rw [e1, e2]
  have hpos : 0 < 2 * r * sin (π / n) := by positivity
  unfold InConvex
  simp only [List.length_map, List.length_range]
  constructor
  · rintro (h | h)
    · intro k hk
      have := h k hk
      rw [key k hk] at this
      have := (mul_nonneg_iff_of_pos_left hpos).mp this
      linarith
    · exfalso
      obtain ⟨k, hk, hk'⟩ := exists_facing (n := n) (by omega) ⟨-(p.x - x.x), -(p.y - x.y)⟩
      have := h k hk
      rw [key k hk] at this
      have h2 : r * cos (π / n) - (cos ((k : ℝ) * (2 * π / n) + π / n) * (p.x - x.x) + sin ((k : ℝ) * (2 * π / n) + π / n) * (p.y - x.y)) ≤ 0 := by
        by_contra hcon
        push Not at hcon
        have := mul_pos hpos hcon
        linarith
      have h3 : 0 ≤ sqrt ((-(p.x - x.x)) ^ 2 + (-(p.y - x.y)) ^ 2) * cos (π / n) := mul_nonneg (sqrt_nonneg _) hc.le
      have h4 : 0 < r * cos (π / n) := by positivity
      simp only at hk'
      nlinarith
  · intro h
    left
    intro k hk
    rw [key k hk]
    have := h k hk
    exact mul_nonneg hpos.le (by linarith)

/-- A regular polygon contains the disc of radius `r cos (π / n)` -/
theorem convex_circle_of_near {n : ℕ} (hn : 3 ≤ n) (x : V2 ℝ) {r : ℝ} (hr : 0 < r) (p : V2 ℝ)
    (h : (p.x - x.x) ^ 2 + (p.y - x.y) ^ 2 ≤ (r * cos (π / n)) ^ 2) :
    InConvex ((List.range n).map fun (k : ℕ) => arcPoint x r ((k : ℝ) * (2 * π / n))) p := by
  rw [convex_circle hn x hr]
  intro k _
  have pp := pi_pos
  have hn' : (3 : ℝ) ≤ n := by exact_mod_cast hn
  have hc : 0 ≤ cos (π / n) := by
    apply cos_nonneg_of_mem_Icc
    constructor
    · have : 0 < π / n := by positivity
      linarith
    · rw [div_le_div_iff₀ (by linarith) (by norm_num)]; nlinarith
  exact near_le (r := r) _ (by positivity) h

/-- A regular polygon is contained in the disc of radius `r` -/
theorem near_of_convex_circle {n : ℕ} (hn : 3 ≤ n) (x : V2 ℝ) {r : ℝ} (hr : 0 < r) (p : V2 ℝ)
    (h : InConvex ((List.range n).map fun (k : ℕ) => arcPoint x r ((k : ℝ) * (2 * π / n))) p) :
    (p.x - x.x) ^ 2 + (p.y - x.y) ^ 2 ≤ r ^ 2 := by
  rw [convex_circle hn x hr] at h
  obtain ⟨k, hk, hk'⟩ := exists_facing (n := n) (by omega) ⟨p.x - x.x, p.y - x.y⟩
  have := h k hk
  have pp := pi_pos
  have hn' : (3 : ℝ) ≤ n := by exact_mod_cast hn
  have hc : 0 < cos (π / n) := by
    apply cos_pos_of_mem_Ioo
    constructor
    · have : 0 < π / n := by positivity
      linarith
    · rw [div_lt_div_iff₀ (by linarith) (by norm_num)]; nlinarith
  simp only at hk'
  have h2 : sqrt ((p.x - x.x) ^ 2 + (p.y - x.y) ^ 2) ≤ r := by
    by_contra hcon
    push Not at hcon
    nlinarith
  rwa [sqrt_le_left hr.le] at h2

/-! ## Half circles -/

theorem exists_half_part {N : ℕ} (hN : 0 < N) {a : ℝ} (h0 : 0 ≤ a) (h1 : a ≤ π) :
    ∃ k < N, |a - ((k : ℝ) * (π / N) + π / (2 * N))| ≤ π / (2 * N) := by
  have pp := pi_pos
  have hn' : (0 : ℝ) < N := by exact_mod_cast hN
  have ht : 0 < π / N := by positivity
  have e : π / N = π / (2 * N) + π / (2 * N) := by field_simp; norm_num
  rcases lt_or_eq_of_le h1 with h1 | h1
  · refine ⟨⌊a / (π / N)⌋₊, ?_, ?_⟩
    · rw [Nat.floor_lt (by positivity), div_lt_iff₀ ht]
      have : (N : ℝ) * (π / N) = π := by field_simp
      linarith
    · have f1 := Nat.floor_le (a := a / (π / N)) (by positivity)
      have f2 := Nat.lt_floor_add_one (a / (π / N))
      rw [le_div_iff₀ ht] at f1
      rw [div_lt_iff₀ ht] at f2
      rw [abs_le]
      constructor
      · linarith
      · have : ((⌊a / (π / ↑N)⌋₊ : ℝ) + 1) * (π / N) = (⌊a / (π / ↑N)⌋₊ : ℝ) * (π / N) + (π / (2 * N) + π / (2 * N)) := by rw [← e]; ring
        linarith
  · refine ⟨N - 1, by omega, ?_⟩
    have : ((N - 1 : ℕ) : ℝ) = N - 1 := by push_cast [Nat.cast_sub (show 1 ≤ N by omega)]; ring
    rw [this, h1]
    have e2 : π - (((N : ℝ) - 1) * (π / N) + π / (2 * N)) = π / (2 * N) := by field_simp; ring
    rw [e2, abs_of_pos (by positivity)]

theorem half_consts {N : ℕ} (hN : 2 ≤ N) : 0 < sin (π / (2 * N)) ∧ 0 < cos (π / (2 * N)) := by
  have pp := pi_pos
  have hn' : (2 : ℝ) ≤ N := by exact_mod_cast hN
  have h0 : 0 < π / (2 * N) := by positivity
  have h1 : π / (2 * N) < π / 2 := by
    rw [div_lt_div_iff₀ (by linarith) (by norm_num)]; nlinarith
  exact ⟨sin_pos_of_pos_of_lt_pi h0 (by linarith), cos_pos_of_mem_Ioo ⟨by linarith, h1⟩⟩

/-- The polygon with corners on half of a circle -/
theorem convex_half {N : ℕ} (hN : 2 ≤ N) (x : V2 ℝ) {r : ℝ} (hr : 0 < r) (β : ℝ) (p : V2 ℝ) :
    InConvex ((List.range (N + 1)).map fun (k : ℕ) => arcPoint x r (β + (k : ℝ) * (π / N))) p ↔
      0 ≤ upward x β p ∧
      ∀ k < N, cos (β + ((k : ℝ) * (π / N) + π / (2 * N))) * (p.x - x.x) + sin (β + ((k : ℝ) * (π / N) + π / (2 * N))) * (p.y - x.y) ≤ r * cos (π / (2 * N)) := by
  obtain ⟨hs, hc⟩ := half_consts hN
  have hn' : (2 : ℝ) ≤ N := by exact_mod_cast hN
  have eN : π / N = π / (2 * N) + π / (2 * N) := by field_simp; norm_num
  set V := (List.range (N + 1)).map fun (k : ℕ) => arcPoint x r (β + (k : ℝ) * (π / N)) with hV
  have get : ∀ i < N + 1, V.getD i 0 = arcPoint x r (β + (i : ℝ) * (π / N)) := by
    intro i hi
    rw [hV, List.getD_eq_getElem?_getD, List.getElem?_map, List.getElem?_range hi]
    simp
  have key : ∀ i < N, (V.getD ((i + 1) % (N + 1)) 0 - V.getD i 0).cross (p - V.getD i 0) =
      2 * r * sin (π / (2 * N)) * (r * cos (π / (2 * N)) - (cos (β + ((i : ℝ) * (π / N) + π / (2 * N))) * (p.x - x.x) + sin (β + ((i : ℝ) * (π / N) + π / (2 * N))) * (p.y - x.y))) := by
    intro i hi
    rw [← edge_cross, Nat.mod_eq_of_lt (by omega), get i (by omega), get (i + 1) (by omega)]
    have e1 : β + (i : ℝ) * (π / N) = β + ((i : ℝ) * (π / N) + π / (2 * N)) - π / (2 * N) := by ring
    have e2 : β + ((i + 1 : ℕ) : ℝ) * (π / N) = β + ((i : ℝ) * (π / N) + π / (2 * N)) + π / (2 * N) := by
      push_cast
      have : ((i : ℝ) + 1) * (π / N) = i * (π / N) + (π / (2 * N) + π / (2 * N)) := by rw [← eN]; ring
      rw [this]; ring
    rw [← e1, e2]
  have last : (V.getD ((N + 1) % (N + 1)) 0 - V.getD N 0).cross (p - V.getD N 0) = 2 * r * upward x β p := by
    rw [Nat.mod_self, get 0 (by omega), get N (by omega)]
    have e : β + (N : ℝ) * (π / N) = β + π := by field_simp
    rw [e]
    simp only [arcPoint, V2.cross, V2.sub_x, V2.sub_y, cos_add_pi, sin_add_pi, upward, Nat.cast_zero, zero_mul, add_zero]
    ring
  have hpos : 0 < 2 * r * sin (π / (2 * N)) := by positivity
  unfold InConvex
  have hl : V.length = N + 1 := by rw [hV]; simp
  rw [hl]
  constructor
  · rintro (h | h)
    · refine ⟨?_, ?_⟩
      · have := h N (by omega)
        rw [last] at this
        exact (mul_nonneg_iff_of_pos_left (by positivity)).mp this
      · intro k hk
        have := h k (by omega)
        rw [key k hk] at this
        have := (mul_nonneg_iff_of_pos_left hpos).mp this
        linarith
    · exfalso
      have h0 := h 0 (by omega)
      have h1 := h (N - 1) (by omega)
      have h2 := h N (by omega)
      rw [key 0 (by omega)] at h0
      rw [key (N - 1) (by omega)] at h1
      rw [last] at h2
      have h2' : upward x β p ≤ 0 := by
        by_contra hcon
        push Not at hcon
        have := mul_pos (show 0 < 2 * r by positivity) hcon
        linarith
      have neg : ∀ z : ℝ, 2 * r * sin (π / (2 * N)) * z ≤ 0 → z ≤ 0 := by
        intro z hz
        by_contra hcon
        push Not at hcon
        have := mul_pos hpos hcon
        linarith
      have h0' := neg _ h0
      have h1' := neg _ h1
      have e : β + (((N - 1 : ℕ) : ℝ) * (π / N) + π / (2 * N)) = (β - π / (2 * N)) + π := by
        have : ((N - 1 : ℕ) : ℝ) = N - 1 := by push_cast [Nat.cast_sub (show 1 ≤ N by omega)]; ring
        rw [this]; field_simp; ring
      rw [e, cos_add_pi, sin_add_pi, cos_sub, sin_sub] at h1'
      simp only [Nat.cast_zero, zero_mul, zero_add] at h0'
      rw [cos_add, sin_add] at h0'
      have hrc : 0 < r * cos (π / (2 * N)) := by positivity
      unfold upward at h2'
      have : sin (π / (2 * N)) * (-sin β * (p.x - x.x) + cos β * (p.y - x.y)) ≤ 0 := mul_nonpos_of_nonneg_of_nonpos hs.le h2'
      nlinarith
  · rintro ⟨hu, h⟩
    left
    intro k hk
    rcases Nat.lt_or_ge k N with hkN | hkN
    · rw [key k hkN]
      have := h k hkN
      exact mul_nonneg hpos.le (by linarith)
    · have : k = N := by omega
      subst this
      rw [last]
      positivity

theorem convex_half_of_near {N : ℕ} (hN : 2 ≤ N) (x : V2 ℝ) {r : ℝ} (hr : 0 < r) (β : ℝ) (p : V2 ℝ) (hu : 0 ≤ upward x β p)
    (h : (p.x - x.x) ^ 2 + (p.y - x.y) ^ 2 ≤ (r * cos (π / (2 * N))) ^ 2) :
    InConvex ((List.range (N + 1)).map fun (k : ℕ) => arcPoint x r (β + (k : ℝ) * (π / N))) p := by
  rw [convex_half hN x hr]
  have hc := (half_consts hN).2
  exact ⟨hu, fun k _ => near_le (r := r) _ (by positivity) h⟩

theorem near_of_convex_half {N : ℕ} (hN : 2 ≤ N) (x : V2 ℝ) {r : ℝ} (hr : 0 < r) (β : ℝ) (p : V2 ℝ)
    (h : InConvex ((List.range (N + 1)).map fun (k : ℕ) => arcPoint x r (β + (k : ℝ) * (π / N))) p) :
    0 ≤ upward x β p ∧ (p.x - x.x) ^ 2 + (p.y - x.y) ^ 2 ≤ r ^ 2 := by
  rw [convex_half hN x hr] at h
  obtain ⟨hu, h⟩ := h
  refine ⟨hu, ?_⟩
  have hc := (half_consts hN).2
  have hn' : (2 : ℝ) ≤ N := by exact_mod_cast hN
  have pp := pi_pos
  obtain ⟨a, h0, h1, hx, hy⟩ := exists_angle ⟨cos β * (p.x - x.x) + sin β * (p.y - x.y), upward x β p⟩
  have e : (cos β * (p.x - x.x) + sin β * (p.y - x.y)) ^ 2 + upward x β p ^ 2 = (p.x - x.x) ^ 2 + (p.y - x.y) ^ 2 := by
    have := sin_sq_add_cos_sq β
    unfold upward
    linear_combination ((p.x - x.x) ^ 2 + (p.y - x.y) ^ 2) * this
  simp only at hx hy
  rw [e] at hx hy
  rcases (sqrt_nonneg ((p.x - x.x) ^ 2 + (p.y - x.y) ^ 2)).eq_or_lt with hz | hz
  · have : (p.x - x.x) ^ 2 + (p.y - x.y) ^ 2 = 0 := by
      have h3 := sqrt_eq_zero'.mp hz.symm
      exact le_antisymm h3 (by positivity)
    rw [this]; positivity
  have ha : a ≤ π := by
    by_contra hcon
    push Not at hcon
    have : sin (a - 2 * π) < 0 := sin_neg_of_neg_of_neg_pi_lt (by linarith) (by linarith)
    rw [sin_sub_two_pi] at this
    have := mul_neg_of_pos_of_neg hz this
    linarith
  obtain ⟨k, hk, hka⟩ := exists_half_part (by omega : 0 < N) h0 ha
  have h2 := h k hk
  set m := (k : ℝ) * (π / N) + π / (2 * N)
  have e2 : cos (β + m) * (p.x - x.x) + sin (β + m) * (p.y - x.y) = sqrt ((p.x - x.x) ^ 2 + (p.y - x.y) ^ 2) * cos (a - m) := by
    have hy' := hy
    unfold upward at hy'
    rw [cos_sub a m, cos_add β m, sin_add β m]
    linear_combination cos m * hx + sin m * hy'
  rw [e2] at h2
  have h3 : cos (π / (2 * N)) ≤ cos (a - m) := by
    rw [← cos_abs (a - m)]
    refine cos_le_cos_of_nonneg_of_le_pi (abs_nonneg _) ?_ hka
    rw [div_le_iff₀ (by linarith)]; nlinarith
  have h4 : sqrt ((p.x - x.x) ^ 2 + (p.y - x.y) ^ 2) ≤ r := by
    by_contra hcon
    push Not at hcon
    nlinarith
  rwa [sqrt_le_left hr.le] at h4

/-! ## Where the vertices come to lie -/

theorem circle_vertices (x : V2 ℝ) (r : ℝ) (n : ℕ) :
    (circlePoints n).map (circleMatrix x r).apply = (List.range n).map fun (k : ℕ) => (⟨arcPoint x r ((k : ℝ) * (2 * π / n)), 1⟩ : Vertex) := by
  unfold circlePoints
  rw [List.map_map]
  refine List.map_congr_left fun k _ => ?_
  simp only [Function.comp, circleMatrix, GlMatrix.ident, GlMatrix.translated, GlMatrix.scaled, GlMatrix.apply, M22.mulVec, M22.mul, Vertex.at, arcPoint]
  congr 1
  ext <;> simp [V2.add_x, V2.smul_x] <;> ring

theorem half_angle (k : ℕ) : (if k = 0 then 0 else if k = 32 - 1 then π else k * (π / ((32 : ℕ) - 1)) : ℝ) = (k : ℝ) * (π / (31 : ℕ)) := by
  split
  · next h => subst h; simp
  · split
    · next h => subst h; push_cast; ring
    · push_cast; norm_num

theorem body_degrees (theta : ℝ) : 180 * theta / π * π / 180 = theta := by
  have := pi_ne_zero
  field_simp

theorem half_vertices (x : V2 ℝ) (theta r : ℝ) :
    (halfCirclePoints 32).map ((bodyMatrix x theta).scaled ⟨r, r⟩).apply =
      (List.range (31 + 1)).map fun (k : ℕ) => (⟨arcPoint x r (theta + (k : ℝ) * (π / (31 : ℕ))), 1⟩ : Vertex) := by
  unfold halfCirclePoints
  rw [List.map_map]
  refine List.map_congr_left fun k _ => ?_
  simp only [Function.comp]
  rw [half_angle]
  simp only [bodyMatrix, GlMatrix.ident, GlMatrix.translated, GlMatrix.rotated, GlMatrix.scaled, GlMatrix.apply, M22.mulVec, M22.mul, Vertex.at, arcPoint,
    rotation2D, body_degrees, cos_add, sin_add]
  congr 1
  ext <;> simp [V2.add_x, V2.smul_x] <;> ring

theorem half_vertices_lower (x : V2 ℝ) (theta r : ℝ) :
    (halfCirclePoints 32).map (((bodyMatrix x theta).scaled ⟨r, r⟩).rotated 180).apply =
      (List.range (31 + 1)).map fun (k : ℕ) => (⟨arcPoint x r (theta + π + (k : ℝ) * (π / (31 : ℕ))), 1⟩ : Vertex) := by
  unfold halfCirclePoints
  rw [List.map_map]
  refine List.map_congr_left fun k _ => ?_
  simp only [Function.comp]
  rw [half_angle]
  have e : (180 : ℝ) * π / 180 = π := by ring
  simp only [bodyMatrix, GlMatrix.ident, GlMatrix.translated, GlMatrix.rotated, GlMatrix.scaled, GlMatrix.apply, M22.mulVec, M22.mul, Vertex.at, arcPoint,
    rotation2D, body_degrees, e, cos_add, sin_add, cos_pi, sin_pi]
  congr 1
  ext <;> simp [V2.add_x, V2.smul_x] <;> ring

/-- A corner of a box -/
noncomputable def boxPoint (x : V2 ℝ) (theta : ℝ) (a b : ℝ) : V2 ℝ := ⟨x.x + a * cos theta - b * sin theta, x.y + a * sin theta + b * cos theta⟩

theorem box_vertex (x : V2 ℝ) (theta : ℝ) (r : V2 ℝ) (a b : ℝ) :
    ((bodyMatrix x theta).scaled r).apply (.at a b) = ⟨boxPoint x theta (a * r.x) (b * r.y), 1⟩ := by
  simp only [bodyMatrix, GlMatrix.ident, GlMatrix.translated, GlMatrix.rotated, GlMatrix.scaled, GlMatrix.apply, M22.mulVec, M22.mul, Vertex.at, boxPoint,
    rotation2D, body_degrees]
  congr 1
  ext <;> simp [V2.add_x, V2.smul_x] <;> ring

theorem box_cross (x : V2 ℝ) (theta a0 b0 a1 b1 a b : ℝ) :
    (boxPoint x theta a1 b1 - boxPoint x theta a0 b0).cross (boxPoint x theta a b - boxPoint x theta a0 b0) = (a1 - a0) * (b - b0) - (b1 - b0) * (a - a0) := by
  simp only [boxPoint, V2.cross, V2.sub_x, V2.sub_y]
  have := sin_sq_add_cos_sq theta
  linear_combination ((a1 - a0) * (b - b0) - (b1 - b0) * (a - a0)) * this

theorem boxPoint_surj (x : V2 ℝ) (theta : ℝ) (p : V2 ℝ) : ∃ a b : ℝ, p = boxPoint x theta a b := by
  refine ⟨cos theta * (p.x - x.x) + sin theta * (p.y - x.y), -sin theta * (p.x - x.x) + cos theta * (p.y - x.y), ?_⟩
  have := sin_sq_add_cos_sq theta
  unfold boxPoint
  ext
  · simp only; linear_combination (-(p.x - x.x)) * this
  · simp only; linear_combination (-(p.y - x.y)) * this

theorem boxPoint_inj {x : V2 ℝ} {theta a b a' b' : ℝ} (h : boxPoint x theta a b = boxPoint x theta a' b') : a = a' ∧ b = b' := by
  have t := sin_sq_add_cos_sq theta
  unfold boxPoint at h
  simp only [V2.mk.injEq] at h
  obtain ⟨h1, h2⟩ := h
  constructor
  · linear_combination cos theta * h1 + sin theta * h2 - (a - a') * t
  · linear_combination (-sin theta) * h1 + cos theta * h2 - (b - b') * t

theorem mem_boxSet_boxPoint (x : V2 ℝ) (theta : ℝ) (r : V2 ℝ) (a b : ℝ) : boxPoint x theta a b ∈ boxSet x theta r ↔ |a| ≤ r.x ∧ |b| ≤ r.y := by
  constructor
  · rintro ⟨a', b', ha, hb, e⟩
    obtain ⟨rfl, rfl⟩ := boxPoint_inj (x := x) (theta := theta) (a' := a') (b' := b') e
    exact ⟨ha, hb⟩
  · rintro ⟨ha, hb⟩
    exact ⟨a, b, ha, hb, rfl⟩

theorem triangle_iff (x : V2 ℝ) (theta a0 b0 a1 b1 a2 b2 a b : ℝ) :
    InConvex [boxPoint x theta a0 b0, boxPoint x theta a1 b1, boxPoint x theta a2 b2] (boxPoint x theta a b) ↔
      (0 ≤ (a1 - a0) * (b - b0) - (b1 - b0) * (a - a0) ∧ 0 ≤ (a2 - a1) * (b - b1) - (b2 - b1) * (a - a1) ∧ 0 ≤ (a0 - a2) * (b - b2) - (b0 - b2) * (a - a2)) ∨
      ((a1 - a0) * (b - b0) - (b1 - b0) * (a - a0) ≤ 0 ∧ (a2 - a1) * (b - b1) - (b2 - b1) * (a - a1) ≤ 0 ∧ (a0 - a2) * (b - b2) - (b0 - b2) * (a - a2) ≤ 0) := by
  rw [← box_cross x theta, ← box_cross x theta, ← box_cross x theta]
  unfold InConvex
  simp only [List.length_cons, List.length_nil, zero_add, Nat.reduceAdd]
  refine or_congr ⟨fun h => ⟨h 0 (by omega), h 1 (by omega), h 2 (by omega)⟩, ?_⟩ ⟨fun h => ⟨h 0 (by omega), h 1 (by omega), h 2 (by omega)⟩, ?_⟩ <;>
  · rintro ⟨h0, h1, h2⟩ i hi
    interval_cases i
    · exact h0
    · exact h1
    · exact h2

theorem strip_covers (color : Color) (x : V2 ℝ) (theta : ℝ) {r : V2 ℝ} (hx : 0 < r.x) (hy : 0 < r.y) (p : V2 ℝ) :
    Draw.Covers ⟨.triangleStrip, color, [.at (-1) 1, .at (-1) (-1), .at 1 (-1), .at 1 1, .at (-1) 1].map ((bodyMatrix x theta).scaled r).apply⟩ p ↔ p ∈ boxSet x theta r := by
  obtain ⟨a, b, rfl⟩ := boxPoint_surj x theta p
  rw [mem_boxSet_boxPoint, abs_le, abs_le]
  simp only [Draw.Covers, List.map_cons, List.map_nil, box_vertex, List.length_cons, List.length_nil]
  constructor
  · rintro ⟨i, hi, h⟩
    have hi' : i < 3 := by omega
    interval_cases i <;> simp only [List.getD_cons_zero, List.getD_cons_succ, zero_add, Nat.reduceAdd] at h <;> rw [triangle_iff] at h <;>
      rcases h with ⟨h0, h1, h2⟩ | ⟨h0, h1, h2⟩ <;> refine ⟨⟨?_, ?_⟩, ?_, ?_⟩ <;> by_contra hcon <;> push Not at hcon <;> nlinarith
  · rintro ⟨⟨h1, h2⟩, h3, h4⟩
    rcases le_total (a * r.y + b * r.x) 0 with h | h
    · refine ⟨0, by omega, ?_⟩
      simp only [List.getD_cons_zero, List.getD_cons_succ, zero_add, Nat.reduceAdd]
      rw [triangle_iff]
      left
      refine ⟨?_, ?_, ?_⟩ <;> nlinarith
    · refine ⟨2, by omega, ?_⟩
      simp only [List.getD_cons_zero, List.getD_cons_succ, zero_add, Nat.reduceAdd]
      rw [triangle_iff]
      left
      refine ⟨?_, ?_, ?_⟩ <;> nlinarith

/-! ## The colour seen -/

open Classical in
theorem foldl_not_covers (ds : List Draw) (p : V2 ℝ) (c : Color) (h : ∀ d ∈ ds, ¬ d.Covers p) :
    ds.foldl (fun c d => if d.Covers p then d.color else c) c = c := by
  induction ds generalizing c with
  | nil => rfl
  | cons d ds ih =>
    rw [List.foldl_cons, if_neg (h d (by simp))]
    exact ih _ fun d hd => h d (by simp [hd])

theorem seen_of_split {ds a b : List Draw} {d : Draw} {p : V2 ℝ} (e : ds = a ++ d :: b) (hd : d.Covers p) (hb : ∀ d ∈ b, ¬ d.Covers p) : seen ds p = d.color := by
  unfold seen
  rw [e, List.foldl_append, List.foldl_cons, if_pos hd]
  exact foldl_not_covers _ _ _ hb

theorem seen_white {ds : List Draw} {p : V2 ℝ} (h : ∀ d ∈ ds, ¬ d.Covers p) : seen ds p = white := foldl_not_covers _ _ _ h

/-- A primitive made of lines -/
def Draw.Thin (d : Draw) : Prop := d.mode = .lines ∨ d.mode = .lineStrip ∨ d.mode = .lineLoop

theorem Draw.Thin.not_covers {d : Draw} (h : d.Thin) (p : V2 ℝ) : ¬ d.Covers p := by
  rcases d with ⟨m, c, vs⟩
  unfold Draw.Covers
  rcases h with h | h | h <;> simp only at h <;> subst h <;> simp

/-! ## Lines -/

theorem line_rotation {n : V2 ℝ} (hn : n.x ^ 2 + n.y ^ 2 = 1) : rotation2D (lineDegrees n * π / 180) = ⟨n.y, n.x, -n.x, n.y⟩ := by
  have e : lineDegrees n * π / 180 = -Complex.arg ⟨n.y, n.x⟩ := by
    unfold lineDegrees
    have := pi_ne_zero
    field_simp
  have l : ‖(⟨n.y, n.x⟩ : ℂ)‖ = 1 := by
    rw [Complex.norm_def, Complex.normSq_mk, sqrt_eq_one]; linarith
  have h0 : (⟨n.y, n.x⟩ : ℂ) ≠ 0 := by
    intro h; rw [h] at l; simp at l
  have hc := Complex.norm_mul_cos_arg ⟨n.y, n.x⟩
  have hs := Complex.norm_mul_sin_arg ⟨n.y, n.x⟩
  rw [l, one_mul] at hc hs
  unfold rotation2D
  rw [e, cos_neg, sin_neg, hc, hs]
  simp

theorem line_apply {n : V2 ℝ} (hn : n.x ^ 2 + n.y ^ 2 = 1) (x : V2 ℝ) (a b w : ℝ) :
    (lineMatrix x n).apply ⟨⟨a, b⟩, w⟩ = ⟨⟨n.y * a + n.x * b + w * x.x, -n.x * a + n.y * b + w * x.y⟩, w⟩ := by
  unfold lineMatrix GlMatrix.rotated
  rw [line_rotation hn]
  simp only [GlMatrix.ident, GlMatrix.translated, GlMatrix.apply, M22.mulVec, M22.mul]
  congr 1
  ext <;> simp

theorem line_translated_apply {n : V2 ℝ} (hn : n.x ^ 2 + n.y ^ 2 = 1) (x : V2 ℝ) (s a b w : ℝ) :
    ((lineMatrix x n).translated ⟨s, 0⟩).apply ⟨⟨a, b⟩, w⟩ =
      ⟨⟨n.y * a + n.x * b + w * (x.x + s * n.y), -n.x * a + n.y * b + w * (x.y - s * n.x)⟩, w⟩ := by
  unfold lineMatrix GlMatrix.rotated
  rw [line_rotation hn]
  simp only [GlMatrix.ident, GlMatrix.translated, GlMatrix.apply, M22.mulVec, M22.mul]
  congr 1
  ext
  · simp only [V2.add_x, V2.smul_x]; ring
  · simp only [V2.add_y, V2.smul_y]; ring

/-- One line between two vertices -/
theorem marks_two (c : Color) (a b : Vertex) (p : V2 ℝ) : Draw.Marks ⟨.lines, c, [a, b]⟩ p ↔ OnSegment a b p := by
  simp only [Draw.Marks, List.length_cons, List.length_nil]
  constructor
  · rintro ⟨i, hi, h⟩
    have : i = 0 := by omega
    subst this
    exact h
  · exact fun h => ⟨0, by omega, h⟩

theorem marks_four (c : Color) (a b a' b' : Vertex) (p : V2 ℝ) : Draw.Marks ⟨.lines, c, [a, b, a', b']⟩ p ↔ OnSegment a b p ∨ OnSegment a' b' p := by
  simp only [Draw.Marks, List.length_cons, List.length_nil]
  constructor
  · rintro ⟨i, hi, h⟩
    have : i < 2 := by omega
    interval_cases i
    · exact Or.inl h
    · exact Or.inr h
  · rintro (h | h)
    · exact ⟨0, by omega, h⟩
    · exact ⟨1, by omega, h⟩

theorem onSegment_ray (x d p : V2 ℝ) : OnSegment ⟨x, 1⟩ ⟨d, 0⟩ p ↔ p ∈ raySet x d := by
  constructor
  · rintro ⟨s, t, hs, ht, h, e⟩
    have : s = 1 := by simpa using h
    subst this
    refine ⟨t, ht, ?_⟩
    rw [e]; ext <;> simp
  · rintro ⟨s, hs, e⟩
    refine ⟨1, s, by norm_num, hs, by simp, ?_⟩
    rw [e]; ext <;> simp

theorem onSegment_stub {x d : V2 ℝ} {l : ℝ} (hl : 0 ≤ l) (p : V2 ℝ) : OnSegment ⟨x, 1⟩ ⟨⟨x.x + l * d.x, x.y + l * d.y⟩, 1⟩ p ↔ p ∈ stubSet x d l := by
  constructor
  · rintro ⟨s, t, hs, ht, h, e⟩
    have h' : s = 1 - t := by simp only [mul_one] at h; linarith
    refine ⟨t * l, by positivity, ?_, ?_⟩
    · have : t ≤ 1 := by linarith
      nlinarith
    · rw [e, h']
      ext <;> simp <;> ring
  · rintro ⟨s, hs, hsl, e⟩
    rcases hl.eq_or_lt with h0 | h0
    · refine ⟨1, 0, by norm_num, le_refl _, by simp, ?_⟩
      have : s = 0 := by linarith
      rw [e, this]; ext <;> simp
    · refine ⟨1 - s / l, s / l, ?_, by positivity, by simp, ?_⟩
      · rw [sub_nonneg, div_le_one h0]; exact hsl
      · rw [e]
        ext
        · simp only [V2.add_x, V2.smul_x]; field_simp; ring
        · simp only [V2.add_y, V2.smul_y]; field_simp; ring

theorem line_eq_rays {x n : V2 ℝ} (hn : n.x ^ 2 + n.y ^ 2 = 1) (p : V2 ℝ) : p ∈ lineSet x n ↔ p ∈ raySet x ⟨n.y, -n.x⟩ ∨ p ∈ raySet x ⟨-n.y, n.x⟩ := by
  constructor
  · intro h
    have h' : n.x * (p.x - x.x) + n.y * (p.y - x.y) = 0 := h
    rcases le_total 0 (n.y * (p.x - x.x) - n.x * (p.y - x.y)) with hs | hs
    · refine Or.inl ⟨_, hs, ?_⟩
      ext
      · simp only; linear_combination n.x * h' - (p.x - x.x) * hn
      · simp only; linear_combination n.y * h' - (p.y - x.y) * hn
    · refine Or.inr ⟨_, neg_nonneg.mpr hs, ?_⟩
      ext
      · simp only; linear_combination n.x * h' - (p.x - x.x) * hn
      · simp only; linear_combination n.y * h' - (p.y - x.y) * hn
  · rintro (⟨s, _, rfl⟩ | ⟨s, _, rfl⟩) <;> simp only [lineSet, Set.mem_setOf_eq] <;> ring

theorem infinite_line_marks (c : Color) {x n : V2 ℝ} (hn : n.x ^ 2 + n.y ^ 2 = 1) (p : V2 ℝ) : (paintInfiniteLine c x n).Marks p ↔ p ∈ lineSet x n := by
  unfold paintInfiniteLine
  simp only [List.map_cons, List.map_nil, Vertex.at, Vertex.towards, line_apply hn]
  rw [marks_four, line_eq_rays hn, ← onSegment_ray, ← onSegment_ray]
  simp

theorem portal_plane_marks (c : Color) (q : PlanarPortal ℝ) {h : HalfPlane ℝ} (ok : PlaneOk h) (hb : 0 ≤ q.bounds) (p : V2 ℝ) :
    (∃ d ∈ paintPortalPlane c q h (transformedX q h), d.Marks p) ↔ p ∈ portalPlaneSet q h := by
  obtain ⟨hn, ht⟩ := ok
  unfold paintPortalPlane portalPlaneSet
  have hb5 : 0 ≤ q.bounds / 5 := by linarith
  rw [Set.mem_union, line_eq_rays hn]
  by_cases hv : q.v = 0
  · have hl : q.isLeesEdwards = false := by simp [PlanarPortal.isLeesEdwards, hv]
    rw [if_pos hv]
    simp only [hl, Bool.false_eq_true, if_false]
    simp only [List.map_cons, List.map_nil, Vertex.at, Vertex.towards, line_apply hn, List.cons_append, List.nil_append, List.mem_cons, List.not_mem_nil,
      or_false, exists_eq_or_imp, exists_eq_left, marks_two]
    rw [← onSegment_ray, ← onSegment_ray, ← onSegment_ray]
    simp only [mul_zero, add_zero, zero_add, one_mul, mul_one, mul_neg, zero_mul, neg_neg, neg_zero]
    tauto
  · have hl : q.isLeesEdwards = true := by simp [PlanarPortal.isLeesEdwards, hv]
    rw [if_neg hv]
    simp only [hl, if_true]
    simp only [List.map_cons, List.map_nil, Vertex.at, Vertex.towards, line_apply hn, line_translated_apply hn, List.cons_append, List.nil_append, List.mem_cons,
      List.not_mem_nil, or_false, exists_eq_or_imp, exists_eq_left, marks_two, Set.mem_union]
    rw [← onSegment_ray, ← onSegment_ray, ← onSegment_ray, ← onSegment_ray, ← onSegment_stub hb5, ← onSegment_stub hb5]
    simp only [ht, transformedX, V2.add_x, V2.add_y, V2.smul_x, V2.smul_y, mul_zero, add_zero, zero_add, one_mul, mul_one, mul_neg, zero_mul, neg_neg, neg_zero, neg_mul,
      sub_neg_eq_add, sub_eq_add_neg]
    have e1 : ∀ a b : ℝ, -(a * (1 / 5 * q.bounds)) + b = b + -(q.bounds / 5 * a) := by intros; ring
    simp only [e1]
    tauto

end Picture2
end Scisim
