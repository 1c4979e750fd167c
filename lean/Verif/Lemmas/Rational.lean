import Verif.Spec.Rational
import Mathlib.Tactic.Ring
import Mathlib.Tactic.FieldSimp
import Mathlib.Tactic.Linarith

namespace Scisim

theorem chk_eq_ok {x y : ℤ} : chk x = .ok y ↔ inI64 x = true ∧ x = y := by
  unfold chk; split <;> simp_all

theorem divC_eq_ok {a b y : ℤ} : divC a b = .ok y ↔ b ≠ 0 ∧ inI64 (a.tdiv b) = true ∧ a.tdiv b = y := by
  unfold divC; split <;> simp_all [chk_eq_ok]

theorem Fits.inI64 {x : ℤ} (h : Fits x) : inI64 x = true := by
  unfold Fits at h; unfold Scisim.inI64; simp; omega

theorem gcdC_ok {n d g : ℤ} (h : gcdC n d = .ok g) : g.natAbs = Int.gcd n d := by
  fun_induction gcdC n d with
  | case1 n => simp at h; simp [h]
  | case2 n d hd hr ih =>
    rw [ih h, Int.gcd_comm]
    have : Int.gcd (n.tmod d) d = Int.gcd n d := by
      rw [Int.gcd, Int.natAbs_tmod, Int.gcd]
      rw [← Nat.gcd_rec, Nat.gcd_comm]
    exact this
  | case3 => simp at h

theorem tdiv_natAbs_le (n d : ℤ) : (n.tdiv d).natAbs ≤ n.natAbs := by
  rw [Int.natAbs_tdiv]; exact Nat.div_le_self _ _

theorem gcdC_fits {n d : ℤ} (hn : Fits n) (hd : Fits d) : ∃ g, gcdC n d = .ok g := by
  fun_induction gcdC n d with
  | case1 n => exact ⟨_, rfl⟩
  | case2 n d h0 hr ih =>
    apply ih hd
    unfold Fits at *
    rw [Int.natAbs_tmod]
    exact lt_of_le_of_lt (Nat.mod_le _ _) hn
  | case3 n d h0 hr =>
    exfalso; apply hr
    apply Fits.inI64
    exact lt_of_le_of_lt (tdiv_natAbs_le n d) hn

/-- dividing both by a common divisor of full absolute value gives a coprime pair with the same value -/
theorem tdiv_gcd {n d g : ℤ} (hd : d ≠ 0) (hg : g.natAbs = Int.gcd n d) :
    g ≠ 0 ∧ n = g * (n.tdiv g) ∧ d = g * (d.tdiv g) ∧ Int.gcd (n.tdiv g) (d.tdiv g) = 1 := by
  have hg0 : g ≠ 0 := by
    intro h; rw [h] at hg; simp at hg
    exact hd (Int.gcd_eq_zero_iff.mp hg.symm).2
  have hgn : g ∣ n := by
    rw [← Int.natAbs_dvd, hg]; exact Int.gcd_dvd_left ..
  have hgd : g ∣ d := by
    rw [← Int.natAbs_dvd, hg]; exact Int.gcd_dvd_right ..
  have h1 := (Int.mul_tdiv_cancel' hgn).symm
  have h2 := (Int.mul_tdiv_cancel' hgd).symm
  refine ⟨hg0, h1, h2, ?_⟩
  have h3 : g.natAbs * Int.gcd (n.tdiv g) (d.tdiv g) = Int.gcd n d := by
    conv_rhs => rw [h1, h2]
    rw [Int.gcd_mul_left]
  rw [hg] at h3
  have : 0 < Int.gcd n d := by
    rw [← hg]; exact Int.natAbs_pos.mpr hg0
  exact Nat.eq_of_mul_eq_mul_left this (by rw [h3, mul_one])

theorem represents_of_coprime {n d : ℤ} (hd : 0 < d) (h : Int.gcd n d = 1) :
    Represents ⟨n, d⟩ ((n : ℚ) / d) := by
  unfold Represents
  have hc : n.natAbs.Coprime d.natAbs := h
  have hq : (n : ℚ) / d = mkRat n d.natAbs := by
    rw [Rat.mkRat_eq_div]
    have : ((d.natAbs : ℕ) : ℚ) = (d : ℚ) := by
      have h1 : ((d.natAbs : ℕ) : ℤ) = d := Int.natAbs_of_nonneg hd.le
      rw [← Int.cast_natCast, h1]
    rw [this]
  have h2 : mkRat n d.natAbs = ⟨n, d.natAbs, by omega, hc⟩ := by
    rw [Rat.mk_eq_mkRat]
  rw [hq, h2]
  exact ⟨rfl, (Int.natAbs_of_nonneg hd.le).symm⟩

theorem simplify_ok {n d : ℤ} {r : Rat64} (hd : d ≠ 0) (h : simplify ⟨n, d⟩ = .ok r) :
    Represents r ((n : ℚ) / d) := by
  unfold simplify at h
  split at h
  · rename_i h0
    simp at h h0
    subst h; subst h0
    simp [Represents]
  · rename_i h0
    simp only [Outcome.bind_eq_ok] at h
    obtain ⟨g, hg, a, ha, b, hb, h⟩ := h
    have hg' := gcdC_ok hg
    obtain ⟨hg0, h1, h2, h3⟩ := tdiv_gcd (n := n) hd hg'
    rw [divC_eq_ok] at ha hb
    obtain ⟨-, -, rfl⟩ := ha
    obtain ⟨-, -, rfl⟩ := hb
    have hdd : d.tdiv g ≠ 0 := by
      intro h; rw [h] at h2; simp at h2; exact hd h2
    have hgq : (g : ℚ) ≠ 0 := by exact_mod_cast hg0
    have hdq : ((d.tdiv g : ℤ) : ℚ) ≠ 0 := by exact_mod_cast hdd
    have hval : (n : ℚ) / d = ((n.tdiv g : ℤ) : ℚ) / ((d.tdiv g : ℤ) : ℚ) := by
      conv_lhs => rw [h1, h2]
      push_cast
      rw [mul_div_mul_left _ _ hgq]
    rw [hval]
    split at h
    · rename_i hneg
      simp only [Outcome.bind_eq_ok, chk_eq_ok] at h
      obtain ⟨n', ⟨-, rfl⟩, d', ⟨-, rfl⟩, h⟩ := h
      simp at h; subst h
      have := represents_of_coprime (n := -(n.tdiv g)) (d := -(d.tdiv g)) (by omega)
        (by rw [Int.neg_gcd, Int.gcd_neg]; exact h3)
      push_cast at this
      rwa [neg_div_neg_eq] at this
    · rename_i hneg
      simp at h; subst h
      exact represents_of_coprime (by omega) h3

theorem simplify_fits {n d : ℤ} (hd : d ≠ 0) (hn : Fits n) (hd' : Fits d) :
    ∃ r, simplify ⟨n, d⟩ = .ok r := by
  unfold simplify
  split
  · exact ⟨_, rfl⟩
  · obtain ⟨g, hg⟩ := gcdC_fits hn hd'
    have hg0 := (tdiv_gcd (n := n) hd (gcdC_ok hg)).1
    have fn : Fits (n.tdiv g) := lt_of_le_of_lt (tdiv_natAbs_le n g) hn
    have fd : Fits (d.tdiv g) := lt_of_le_of_lt (tdiv_natAbs_le d g) hd'
    have fn' : Fits (-(n.tdiv g)) := by unfold Fits at *; rwa [Int.natAbs_neg]
    have fd' : Fits (-(d.tdiv g)) := by unfold Fits at *; rwa [Int.natAbs_neg]
    simp only [hg, Outcome.ok_bind]
    simp only [divC, hg0, if_false, chk, fn.inI64, fd.inI64, if_true, Outcome.ok_bind, fn'.inI64, fd'.inI64]
    split <;> exact ⟨_, rfl⟩

theorem Represents.value {r : Rat64} {q : ℚ} (h : Represents r q) : (r.num : ℚ) / r.den = q := by
  obtain ⟨h1, h2⟩ := h
  rw [h1, h2]
  exact_mod_cast Rat.num_div_den q

theorem Represents.den_pos {r : Rat64} {q : ℚ} (h : Represents r q) : 0 < r.den := by
  rw [h.2]; exact_mod_cast q.den_pos

theorem Represents.den_ne {r : Rat64} {q : ℚ} (h : Represents r q) : (r.den : ℚ) ≠ 0 := by
  have := h.den_pos
  exact_mod_cast this.ne'

theorem Represents.num_ne {r : Rat64} {q : ℚ} (h : Represents r q) (hq : q ≠ 0) : r.num ≠ 0 := by
  rw [h.1]; exact Rat.num_ne_zero.mpr hq

end Scisim
