import Verif.Lemmas.Rational
/-!
# C01 — exact rational arithmetic in canonical form
-/

namespace Scisim

/-- C01, construction: whenever building a rational from `n`, `d ≠ 0` does not overflow, the stored pair is the
canonical representation of `n / d`. -/
theorem C01_construct {n d : ℤ} {r : Rat64} (hd : d ≠ 0) (h : mkRat64 n d = .ok r) :
    Represents r ((n : ℚ) / d) := simplify_ok hd h

/-- C01, construction never overflows for values strictly inside the machine range. -/
theorem C01_construct_total {n d : ℤ} (hd : d ≠ 0) (hn : Fits n) (hd' : Fits d) :
    ∃ r, mkRat64 n d = .ok r ∧ Represents r ((n : ℚ) / d) := by
  obtain ⟨r, hr⟩ := simplify_fits hd hn hd'
  exact ⟨r, hr, simplify_ok hd hr⟩

example : ∃ r, mkRat64 6 (-8) = .ok r ∧ r = ⟨-3, 4⟩ := ⟨_, by decide +kernel, rfl⟩

theorem C01_add {l r s : Rat64} {p q : ℚ} (hl : Represents l p) (hr : Represents r q) (h : l.add r = .ok s) :
    Represents s (p + q) := by
  unfold Rat64.add at h
  simp only [Outcome.bind_eq_ok, chk_eq_ok] at h
  obtain ⟨a, ⟨-, rfl⟩, b, ⟨-, rfl⟩, n, ⟨-, rfl⟩, d, ⟨-, rfl⟩, h⟩ := h
  have hd := hl.den_pos
  have hd2 := hr.den_pos
  have := simplify_ok (by positivity) h
  have e : ((r.den * l.num + l.den * r.num : ℤ) : ℚ) / ((l.den * r.den : ℤ) : ℚ) = p + q := by
    rw [← hl.value, ← hr.value]
    have := hl.den_ne
    have := hr.den_ne
    push_cast; field_simp
  rwa [e] at this

theorem C01_sub {l r s : Rat64} {p q : ℚ} (hl : Represents l p) (hr : Represents r q) (h : l.sub r = .ok s) :
    Represents s (p - q) := by
  unfold Rat64.sub at h
  simp only [Outcome.bind_eq_ok, chk_eq_ok] at h
  obtain ⟨a, ⟨-, rfl⟩, b, ⟨-, rfl⟩, n, ⟨-, rfl⟩, d, ⟨-, rfl⟩, h⟩ := h
  have hd := hl.den_pos
  have hd2 := hr.den_pos
  have := simplify_ok (by positivity) h
  have e : ((r.den * l.num - l.den * r.num : ℤ) : ℚ) / ((l.den * r.den : ℤ) : ℚ) = p - q := by
    rw [← hl.value, ← hr.value]
    have := hl.den_ne
    have := hr.den_ne
    push_cast; field_simp
  rwa [e] at this

theorem C01_mul {l r s : Rat64} {p q : ℚ} (hl : Represents l p) (hr : Represents r q) (h : l.mul r = .ok s) :
    Represents s (p * q) := by
  unfold Rat64.mul at h
  simp only [Outcome.bind_eq_ok, chk_eq_ok] at h
  obtain ⟨n, ⟨-, rfl⟩, d, ⟨-, rfl⟩, h⟩ := h
  have hd := hl.den_pos
  have hd2 := hr.den_pos
  have := simplify_ok (by positivity) h
  have e : ((l.num * r.num : ℤ) : ℚ) / ((l.den * r.den : ℤ) : ℚ) = p * q := by
    rw [← hl.value, ← hr.value]
    have := hl.den_ne
    have := hr.den_ne
    push_cast; field_simp
  rwa [e] at this

theorem C01_div {l r s : Rat64} {p q : ℚ} (hl : Represents l p) (hr : Represents r q) (hq : q ≠ 0)
    (h : l.div r = .ok s) : Represents s (p / q) := by
  unfold Rat64.div at h
  simp only [Outcome.bind_eq_ok, chk_eq_ok] at h
  obtain ⟨n, ⟨-, rfl⟩, d, ⟨-, rfl⟩, h⟩ := h
  have hd := hl.den_pos
  have hn := hr.num_ne hq
  have := simplify_ok (by positivity) h
  have e : ((r.den * l.num : ℤ) : ℚ) / ((r.num * l.den : ℤ) : ℚ) = p / q := by
    rw [← hl.value, ← hr.value]
    have := hl.den_ne
    have := hr.den_ne
    have : (r.num : ℚ) ≠ 0 := by exact_mod_cast hn
    push_cast; field_simp
  rwa [e] at this

theorem C01_mulInt {l s : Rat64} {p : ℚ} {k : ℤ} (hl : Represents l p) (h : l.mulInt k = .ok s) :
    Represents s (p * k) := by
  unfold Rat64.mulInt at h
  simp only [Outcome.bind_eq_ok, chk_eq_ok] at h
  obtain ⟨n, ⟨-, rfl⟩, h⟩ := h
  have := simplify_ok hl.den_pos.ne' h
  have e : ((l.num * k : ℤ) : ℚ) / (l.den : ℚ) = p * k := by
    rw [← hl.value]
    have := hl.den_ne
    push_cast; field_simp
  rwa [e] at this

theorem C01_divInt {l s : Rat64} {p : ℚ} {k : ℤ} (hl : Represents l p) (hk : k ≠ 0) (h : l.divInt k = .ok s) :
    Represents s (p / k) := by
  unfold Rat64.divInt at h
  simp only [Outcome.bind_eq_ok, chk_eq_ok] at h
  obtain ⟨n, ⟨-, rfl⟩, h⟩ := h
  have hd := hl.den_pos
  have := simplify_ok (by positivity) h
  have e : (l.num : ℚ) / ((l.den * k : ℤ) : ℚ) = p / k := by
    rw [← hl.value]
    have := hl.den_ne
    have : (k : ℚ) ≠ 0 := by exact_mod_cast hk
    push_cast; field_simp
  rwa [e] at this

theorem C01_intDiv {r s : Rat64} {q : ℚ} {k : ℤ} (hr : Represents r q) (hq : q ≠ 0)
    (h : Rat64.intDiv k r = .ok s) : Represents s (k / q) := by
  unfold Rat64.intDiv at h
  simp only [Outcome.bind_eq_ok, chk_eq_ok] at h
  obtain ⟨n, ⟨-, rfl⟩, h⟩ := h
  have hn := hr.num_ne hq
  have := simplify_ok hn h
  have e : ((r.den * k : ℤ) : ℚ) / (r.num : ℚ) = k / q := by
    rw [← hr.value]
    have := hr.den_ne
    have : (r.num : ℚ) ≠ 0 := by exact_mod_cast hn
    push_cast; field_simp
  rwa [e] at this

/-- C01, any finite nesting of operations: if evaluation with the machine operators returns (no overflow), the stored
result is the canonical representation of the exact value. -/
theorem C01_expressions (e : RExpr) {r : Rat64} (hdef : e.Defined) (h : e.eval = .ok r) :
    Represents r e.value := by
  induction e generalizing r with
  | lit n d => exact simplify_ok hdef h
  | add a b iha ihb =>
    simp only [RExpr.eval, Outcome.bind_eq_ok] at h
    obtain ⟨x, hx, y, hy, h⟩ := h
    exact C01_add (iha hdef.1 hx) (ihb hdef.2 hy) h
  | sub a b iha ihb =>
    simp only [RExpr.eval, Outcome.bind_eq_ok] at h
    obtain ⟨x, hx, y, hy, h⟩ := h
    exact C01_sub (iha hdef.1 hx) (ihb hdef.2 hy) h
  | mul a b iha ihb =>
    simp only [RExpr.eval, Outcome.bind_eq_ok] at h
    obtain ⟨x, hx, y, hy, h⟩ := h
    exact C01_mul (iha hdef.1 hx) (ihb hdef.2 hy) h
  | div a b iha ihb =>
    simp only [RExpr.eval, Outcome.bind_eq_ok] at h
    obtain ⟨x, hx, y, hy, h⟩ := h
    exact C01_div (iha hdef.1 hx) (ihb hdef.2.1 hy) hdef.2.2 h
  | mulInt a k iha =>
    simp only [RExpr.eval, Outcome.bind_eq_ok] at h
    obtain ⟨x, hx, h⟩ := h
    exact C01_mulInt (iha hdef hx) h
  | divInt a k iha =>
    simp only [RExpr.eval, Outcome.bind_eq_ok] at h
    obtain ⟨x, hx, h⟩ := h
    exact C01_divInt (iha hdef.1 hx) hdef.2 h
  | intDiv k a iha =>
    simp only [RExpr.eval, Outcome.bind_eq_ok] at h
    obtain ⟨x, hx, h⟩ := h
    exact C01_intDiv (iha hdef.1 hx) hdef.2 h

/-- `1/(dt*f)` as computed by the command line tools, for `dt = 1/100`, `f = 50`. -/
example : (RExpr.intDiv 1 (.mulInt (.lit 1 100) 50)).Defined ∧
    (RExpr.intDiv 1 (.mulInt (.lit 1 100) 50)).eval = .ok ⟨2, 1⟩ := by
  refine ⟨?_, by decide +kernel⟩
  norm_num [RExpr.Defined, RExpr.value]

/-- C01, equality is equality of values. -/
theorem C01_eq {l r : Rat64} {p q : ℚ} (hl : Represents l p) (hr : Represents r q) :
    l.eq r = true ↔ p = q := by
  unfold Rat64.eq
  rw [Bool.and_eq_true, beq_iff_eq, beq_iff_eq, hl.1, hl.2, hr.1, hr.2]
  constructor
  · rintro ⟨h1, h2⟩
    exact Rat.ext h1 (by exact_mod_cast h2)
  · rintro rfl; simp

/-- C01, comparison with an integer literal. -/
theorem C01_eqInt {l : Rat64} {p : ℚ} {k : ℤ} {b : Bool} (hl : Represents l p) (h : l.eqInt k = .ok b) :
    b = true ↔ p = k := by
  unfold Rat64.eqInt at h
  simp only [Outcome.bind_eq_ok, Outcome.ok.injEq] at h
  obtain ⟨r, hr, rfl⟩ := h
  have := simplify_ok (by norm_num) hr
  simp only [Int.cast_one, div_one] at this
  exact C01_eq hl this

/-- C01, the predicates read off the sign and integrality of the value. -/
theorem C01_predicates {r : Rat64} {q : ℚ} (h : Represents r q) :
    (r.positive = true ↔ 0 < q) ∧ (r.nonNegative = true ↔ 0 ≤ q) ∧
    (r.isInteger = true ↔ ∃ k : ℤ, q = k) := by
  refine ⟨?_, ?_, ?_⟩
  · simp [Rat64.positive, h.1]
  · simp [Rat64.nonNegative, h.1]
  · unfold Rat64.isInteger
    rw [decide_eq_true_eq, h.2]
    constructor
    · intro hd
      exact ⟨q.num, by rw [Rat.coe_int_num_of_den_eq_one (by exact_mod_cast hd)]⟩
    · rintro ⟨k, rfl⟩; simp

/-- The boundary is real: the most negative machine integer overflows (`-(-2^63)` in `simplify`). -/
theorem C01_overflow_witness : mkRat64 (-9223372036854775808) (-3) = .ub ∧ mkRat64 (-9223372036854775808) (-1) = .ub := by
  constructor <;> decide +kernel

end Scisim
