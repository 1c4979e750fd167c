import Verif.Model.Texts
import Verif.Spec.Texts
import Verif.Lemmas.Parsing
import Verif.Lemmas.SceneText
import Verif.Lemmas.XmlExport
/-!
# Lemmas for C87 and C88
-/

namespace Scisim.Texts

theorem roundHalfEven_close (x : ℚ) : |(roundHalfEven x : ℚ) - x| ≤ 1 / 2 := by
  have h1 := Int.floor_le x
  have h2 := Int.lt_floor_add_one x
  unfold roundHalfEven
  simp only
  split_ifs with ha hb hc
  · rw [abs_le]; constructor <;> linarith
  · push_cast; rw [abs_le]; constructor <;> linarith
  · rw [abs_le]; constructor <;> linarith
  · push_cast; rw [abs_le]; constructor <;> linarith

theorem roundHalfEven_int (n : ℤ) : roundHalfEven (n : ℚ) = n := by
  simp [roundHalfEven]

theorem roundHalfEven_mono {x y : ℚ} (h : x ≤ y) : roundHalfEven x ≤ roundHalfEven y := by
  by_contra hc
  push Not at hc
  have h1 : (roundHalfEven y : ℚ) + 1 ≤ roundHalfEven x := by exact_mod_cast hc
  have h2 := abs_le.mp (roundHalfEven_close x)
  have h3 := abs_le.mp (roundHalfEven_close y)
  have : x = y := by linarith
  rw [this] at hc
  exact lt_irrefl _ hc

theorem roundHalfEven_nonneg {x : ℚ} (h : 0 ≤ x) : 0 ≤ roundHalfEven x := by
  have h1 : 0 ≤ ⌊x⌋ := Int.floor_nonneg.mpr h
  unfold roundHalfEven
  simp only
  split_ifs <;> omega

theorem natText_length {n p : ℕ} (hp : 0 < p) (h : n < 10 ^ p) : (natText n).length ≤ p := by
  induction p generalizing n with
  | zero => omega
  | succ p ih =>
    rw [natText]
    split
    · simp
    · rename_i h10
      rw [List.length_append, List.length_singleton]
      have hlt : n / 10 < 10 ^ p := by
        rw [Nat.div_lt_iff_lt_mul (by norm_num)]
        rwa [pow_succ] at h
      rcases Nat.eq_zero_or_pos p with rfl | hp'
      · simp at h; omega
      · have := ih hp' hlt
        omega

theorem padded_digits {n p : ℕ} (hp : 0 < p) (h : n < 10 ^ p) :
    ∃ ds : List Digit, padWithZeros (natText n) p = digitText ds ∧ ds.length = p ∧ digitsNat ds = n := by
  obtain ⟨ds, h1, -, h3⟩ := natText_digits n
  have hl := natText_length hp h
  have hlen : (natText n).length = ds.length := by rw [h1]; simp [digitText]
  refine ⟨List.replicate (p - (natText n).length) 0 ++ ds, ?_, ?_, ?_⟩
  · rw [padWithZeros, digitText_append, ← h1]
    congr 1
    simp [digitText, Digit.char]
  · rw [List.length_append, List.length_replicate]; omega
  · rw [digitsNat_append, digitsNat_zeros, h3]; simp

theorem fixedText_shows (p : ℕ) (x : ℚ) : ShowsDecimal (fixedText p x) p (((roundHalfEven (x * 10 ^ p)).toNat : ℚ) / 10 ^ p) := by
  unfold fixedText
  simp only
  generalize (roundHalfEven (x * 10 ^ p)).toNat = n
  by_cases hp : p = 0
  · rw [if_pos hp]
    obtain ⟨ds, h1, h2, h3⟩ := natText_digits n
    refine ⟨⟨.none, ds, none, none⟩, ?_, ⟨.inl h2, by simp⟩, rfl, rfl, by simp [Numeral.fraction, hp], ?_⟩
    · simp [Numeral.text, Sign.chars, h1]
    · simp [Numeral.value, Numeral.fraction, Numeral.exponent, Sign.factor, h3, hp, digitsNat_nil]
  · rw [if_neg hp]
    obtain ⟨ds, h1, h2, h3⟩ := natText_digits (n / 10 ^ p)
    obtain ⟨fs, g1, g2, g3⟩ := padded_digits (Nat.pos_of_ne_zero hp) (Nat.mod_lt n (pow_pos (by norm_num : 0 < 10) p))
    refine ⟨⟨.none, ds, some fs, none⟩, ?_, ⟨.inl h2, by simp⟩, rfl, rfl, by simp [Numeral.fraction, g2], ?_⟩
    · simp [Numeral.text, Sign.chars, h1, g1]
    · have h10 : (10 : ℚ) ^ p ≠ 0 := by positivity
      simp only [Numeral.value, Numeral.fraction, Numeral.exponent, Sign.factor, h3, g3, g2, Option.getD_some, Int.cast_one, one_mul, zpow_zero, mul_one]
      rw [eq_div_iff h10, add_mul, div_mul_cancel₀ _ h10]
      have := Nat.div_add_mod n (10 ^ p)
      rw [mul_comm] at this
      exact_mod_cast this

theorem splitFirst_of_mem {s : List Char} {c : Char} (h : c ∈ s) : ∃ l r, splitFirst c s = some (l, r) ∧ s = l ++ c :: r ∧ c ∉ l := by
  induction s with
  | nil => simp at h
  | cons a t ih =>
    rw [splitFirst]
    by_cases ha : a = c
    · exact ⟨[], t, by simp [ha], by simp [ha], by simp⟩
    · obtain ⟨l, r, h1, h2, h3⟩ := ih ((List.mem_cons.mp h).resolve_left (Ne.symm ha))
      exact ⟨a :: l, r, by simp [ha, h1], by simp [h2], by simp [h3, Ne.symm ha]⟩

theorem charsToRight_of_mem {s : List Char} {c : Char} (h : c ∈ s) :
    ∃ l r, s = l ++ c :: r ∧ c ∉ l ∧ computeNumCharactersToRight s c = r.length := by
  obtain ⟨l, r, h1, h2, h3⟩ := splitFirst_of_mem h
  refine ⟨l, r, h2, h3, ?_⟩
  rw [computeNumCharactersToRight, h1]
  simp only
  rw [h2, List.length_append, List.length_cons]
  omega

theorem readLiteral_plain {v : List Char} (h : Plain v) (rest : List Char) : readLiteral (v ++ '\'' :: rest) = some (v, rest) := by
  induction v with
  | nil => simp [readLiteral]
  | cons c t ih =>
    have hc : c ≠ '\'' ∧ c ≠ '\\' ∧ c ≠ '\n' :=
      ⟨fun e => h.1 (by simp [e]), fun e => h.2.1 (by simp [e]), fun e => h.2.2 (by simp [e])⟩
    have ht : Plain t := ⟨fun e => h.1 (by simp [e]), fun e => h.2.1 (by simp [e]), fun e => h.2.2 (by simp [e])⟩
    rw [List.cons_append, readLiteral, if_neg hc.1, if_neg (by simp [hc]), ih ht]
    rfl

theorem readLiteral_value_plain {s v rest : List Char} (h : readLiteral s = some (v, rest)) : Plain v := by
  induction s generalizing v with
  | nil => simp [readLiteral] at h
  | cons c t ih =>
    rw [readLiteral] at h
    split_ifs at h with h1 h2
    · simp only [Option.some.injEq, Prod.mk.injEq] at h
      rw [← h.1]; simp [Plain]
    · obtain ⟨r, hr, he⟩ := Option.map_eq_some_iff.mp h
      simp only [Prod.mk.injEq] at he
      have := ih (v := r.1) (by rw [hr, ← he.2])
      rw [← he.1]
      push Not at h2
      exact ⟨by simp [Ne.symm h1, this.1], by simp [Ne.symm h2.1, this.2.1], by simp [Ne.symm h2.2, this.2.2]⟩

theorem insertedPath_plain {v : List Char} (h : Plain v) : insertedPath v = some v := by
  rw [insertedPath, readLiteral_plain h]
  rfl

theorem insertedPath_value_plain {p v : List Char} (h : insertedPath p = some v) : Plain v := by
  unfold insertedPath at h
  split at h
  · rename_i heq
    simp only [Option.some.injEq] at h
    rw [← h]
    exact readLiteral_value_plain heq
  · simp at h

end Scisim.Texts
