import Verif.Model.CLI
/-!
# Decimal digits, zero padding and alphabetical order
-/

namespace Scisim

theorem computeNumDigitsLoop_eq (n d : Nat) : computeNumDigitsLoop n d = computeNumDigitsLoop n 0 + d := by
  induction n using Nat.strongRecOn generalizing d with
  | _ n ih =>
    rw [computeNumDigitsLoop.eq_def n d, computeNumDigitsLoop.eq_def n 0]
    split
    · omega
    · rename_i h
      rw [ih (n / 10) (by omega) (d + 1), ih (n / 10) (by omega) (0 + 1)]
      omega

theorem computeNumDigits_small (n : Nat) (h : n < 10) : computeNumDigits n = 1 := by
  unfold computeNumDigits
  split
  · rfl
  · rw [computeNumDigitsLoop.eq_def, if_neg (by assumption), computeNumDigitsLoop.eq_def,
      if_pos (by omega)]

theorem computeNumDigits_step (n : Nat) (h : 10 ≤ n) : computeNumDigits n = computeNumDigits (n / 10) + 1 := by
  unfold computeNumDigits
  rw [if_neg (by omega), if_neg (by omega), computeNumDigitsLoop.eq_def, if_neg (by omega), computeNumDigitsLoop_eq]

theorem decDigits_length (n : Nat) : (decDigits n).length = computeNumDigits n := by
  induction n using Nat.strongRecOn with
  | _ n ih =>
    rw [decDigits.eq_def]
    split
    · rename_i h
      rw [computeNumDigits_small n h]; rfl
    · rename_i h
      rw [computeNumDigits_step n (by omega), List.length_append, ih (n / 10) (by omega)]; rfl

/-- Exactly the numbers with at most `w` digits are below `10 ^ w`. -/
theorem computeNumDigits_le_iff (n w : Nat) (hw : 0 < w) : computeNumDigits n ≤ w ↔ n < 10 ^ w := by
  induction w generalizing n with
  | zero => omega
  | succ w ih =>
    by_cases h : n < 10
    · rw [computeNumDigits_small n h]
      constructor
      · intro _
        have : 10 ^ 1 ≤ 10 ^ (w + 1) := Nat.pow_le_pow_right (by omega) (by omega)
        omega
      · intro _; omega
    · rw [computeNumDigits_step n (by omega), Nat.add_le_add_iff_right]
      by_cases hw0 : w = 0
      · subst hw0
        have h1 : 0 < computeNumDigits (n / 10) := by
          by_cases h2 : n / 10 < 10
          · rw [computeNumDigits_small _ h2]; omega
          · rw [computeNumDigits_step _ (by omega)]; omega
        constructor
        · intro _; omega
        · intro _; simp at *; omega
      · rw [ih _ (by omega), Nat.pow_succ]
        constructor
        · intro _; omega
        · intro _; omega

theorem computeNumDigits_mono {m n : Nat} (h : m ≤ n) : computeNumDigits m ≤ computeNumDigits n := by
  have h1 : 0 < computeNumDigits n := by
    by_cases h2 : n < 10
    · rw [computeNumDigits_small _ h2]; omega
    · rw [computeNumDigits_step _ (by omega)]; omega
  rw [computeNumDigits_le_iff _ _ h1]
  exact Nat.lt_of_le_of_lt h ((computeNumDigits_le_iff n _ h1).mp (Nat.le_refl _))

/-- The number written by a list of digit characters. -/
def digitsValue (l : Bytes) : Nat := l.foldl (fun acc b => 10 * acc + (b.toNat - 48)) 0

theorem digitsValue_append (l : Bytes) (b : UInt8) : digitsValue (l ++ [b]) = 10 * digitsValue l + (b.toNat - 48) := by
  simp [digitsValue]

theorem digit_toNat (d : Nat) (h : d < 10) : (UInt8.ofNat (48 + d)).toNat = 48 + d := by
  rw [UInt8.toNat_ofNat']; exact Nat.mod_eq_of_lt (by omega)

theorem digitsValue_decDigits (n : Nat) : digitsValue (decDigits n) = n := by
  induction n using Nat.strongRecOn with
  | _ n ih =>
    rw [decDigits.eq_def]
    split
    · rename_i h
      show 10 * 0 + ((UInt8.ofNat (48 + n)).toNat - 48) = n
      rw [digit_toNat n h]; omega
    · rw [digitsValue_append, ih (n / 10) (by omega), digit_toNat _ (by omega)]; omega

theorem digitsValue_padded (w n : Nat) : digitsValue (padded w n) = n := by
  unfold padded
  have : ∀ k (l : Bytes), digitsValue (List.replicate k 48 ++ l) = digitsValue l := by
    intro k l
    induction k with
    | zero => rfl
    | succ k ih =>
      rw [List.replicate_succ, List.cons_append]
      show List.foldl _ (10 * 0 + ((48 : UInt8).toNat - 48)) _ = _
      exact ih
  rw [this, digitsValue_decDigits]

theorem padded_injective {w m n : Nat} (h : padded w m = padded w n) : m = n := by
  rw [← digitsValue_padded w m, h, digitsValue_padded]

theorem padded_length (w n : Nat) (h : computeNumDigits n ≤ w) : (padded w n).length = w := by
  unfold padded
  rw [List.length_append, List.length_replicate, decDigits_length]; omega

/-- digits in a fixed width -/
def fixedDigits : Nat → Nat → Bytes
  | 0, _ => []
  | w + 1, n => fixedDigits w (n / 10) ++ [UInt8.ofNat (48 + n % 10)]

theorem fixedDigits_length (w n : Nat) : (fixedDigits w n).length = w := by
  induction w generalizing n with
  | zero => rfl
  | succ w ih => simp [fixedDigits, ih]

theorem fixedDigits_zero (w : Nat) : fixedDigits w 0 = List.replicate w 48 := by
  induction w with
  | zero => rfl
  | succ w ih =>
    simp only [fixedDigits, Nat.zero_div, ih]
    rw [List.replicate_succ']; rfl

theorem padded_eq_fixed (w n : Nat) (hw : 0 < w) (h : computeNumDigits n ≤ w) : padded w n = fixedDigits w n := by
  induction w generalizing n with
  | zero => omega
  | succ w ih =>
    by_cases h10 : n < 10
    · have e1 : decDigits n = [UInt8.ofNat (48 + n)] := by rw [decDigits.eq_def, if_pos h10]
      have e2 : fixedDigits (w + 1) n = List.replicate w 48 ++ [UInt8.ofNat (48 + n)] := by
        simp only [fixedDigits]
        rw [show n / 10 = 0 by omega, fixedDigits_zero, show n % 10 = n by omega]
      rw [e2]
      unfold padded
      rw [e1]; rfl
    · rw [computeNumDigits_step n (by omega)] at h
      have hpos : 0 < computeNumDigits (n / 10) := by
        by_cases h2 : n / 10 < 10
        · rw [computeNumDigits_small _ h2]; omega
        · rw [computeNumDigits_step _ (by omega)]; omega
      have ih' := ih (n / 10) (by omega) (by omega)
      simp only [fixedDigits]
      rw [← ih']
      unfold padded
      have e1 : decDigits n = decDigits (n / 10) ++ [UInt8.ofNat (48 + n % 10)] := by rw [decDigits.eq_def, if_neg h10]
      rw [e1, List.length_append, ← List.append_assoc]
      simp

/-! ### Alphabetical order -/

theorem lex_append_right {a b : Bytes} (h : a < b) (hl : a.length = b.length) (c d : Bytes) : a ++ c < b ++ d := by
  have h' : List.Lex (· < ·) a b := h
  show List.Lex (· < ·) (a ++ c) (b ++ d)
  induction h' with
  | nil => simp at hl
  | cons _ ih => exact List.Lex.cons (ih (by assumption) (by simpa using hl))
  | rel hr => exact List.Lex.rel hr

theorem lex_append_left (c : Bytes) {a b : Bytes} (h : a < b) : c ++ a < c ++ b := by
  have h' : List.Lex (· < ·) a b := h
  show List.Lex (· < ·) (c ++ a) (c ++ b)
  induction c with
  | nil => exact h'
  | cons x c ih => exact List.Lex.cons ih

theorem fixedDigits_lt (w m n : Nat) (h : m < n) (hn : n < 10 ^ w) : fixedDigits w m < fixedDigits w n := by
  induction w generalizing m n with
  | zero => simp at hn; omega
  | succ w ih =>
    simp only [fixedDigits]
    by_cases hq : m / 10 < n / 10
    · refine lex_append_right (ih _ _ hq ?_) (by rw [fixedDigits_length, fixedDigits_length]) _ _
      rw [Nat.pow_succ] at hn; omega
    · have he : m / 10 = n / 10 := by omega
      rw [he]
      refine lex_append_left _ (List.Lex.rel ?_)
      show (UInt8.ofNat (48 + m % 10)) < (UInt8.ofNat (48 + n % 10))
      rw [UInt8.lt_iff_toNat_lt, digit_toNat _ (by omega), digit_toNat _ (by omega)]
      omega

theorem padded_lt {w m n : Nat} (hw : 0 < w) (h : m < n) (hn : computeNumDigits n ≤ w) : padded w m < padded w n := by
  have hm : computeNumDigits m ≤ w := Nat.le_trans (computeNumDigits_mono (by omega)) hn
  rw [padded_eq_fixed w m hw hm, padded_eq_fixed w n hw hn]
  exact fixedDigits_lt w m n h ((computeNumDigits_le_iff n w hw).mp hn)

end Scisim
