import Verif.Lemmas.Rational
import Verif.Spec.Literals
import Mathlib.Tactic.NormNum
import Mathlib.Data.List.Induction

namespace Scisim

theorem Digit.char_toNat (d : Digit) : d.char.toNat = 48 + d.val := by
  revert d; decide

theorem Digit.isDigit (d : Digit) : isDigitC d.char = true := by
  revert d; decide

theorem Digit.not_space (d : Digit) : isSpace d.char = false := by
  revert d; decide

theorem Digit.val_char (d : Digit) : digitVal d.char = d.val := by
  revert d; decide

theorem Digit.ne_slash (d : Digit) : d.char ≠ '/' := by revert d; decide
theorem Digit.ne_dot (d : Digit) : d.char ≠ '.' := by revert d; decide
theorem Digit.ne_minus (d : Digit) : d.char ≠ '-' := by revert d; decide
theorem Digit.ne_plus (d : Digit) : d.char ≠ '+' := by revert d; decide
theorem Digit.char_eq_zero (d : Digit) : d.char = '0' ↔ d = 0 := by revert d; decide

theorem digitsNat_nil : digitsNat [] = 0 := by simp [digitsNat]

theorem digitsNat_append (a b : List Digit) : digitsNat (a ++ b) = digitsNat a * 10 ^ b.length + digitsNat b := by
  unfold digitsNat
  rw [List.reverse_append, List.map_append, Nat.ofDigits_append]
  simp; ring

theorem digitsNat_singleton (d : Digit) : digitsNat [d] = d.val := by simp [digitsNat]

theorem digitsNat_zeros (k : ℕ) : digitsNat (List.replicate k 0) = 0 := by
  induction k with
  | zero => simp [digitsNat]
  | succ k ih => rw [List.replicate_succ', digitsNat_append, ih, digitsNat_singleton]; simp

theorem digitsNat_lt (ds : List Digit) : digitsNat ds < 10 ^ ds.length := by
  induction ds using List.reverseRecOn with
  | nil => simp [digitsNat]
  | append_singleton ds d ih =>
    rw [digitsNat_append, digitsNat_singleton]
    simp only [List.length_singleton, pow_one, List.length_append]
    have := d.isLt
    rw [pow_succ]; omega

theorem digitsVal_text (ds : List Digit) : digitsVal (digitText ds) = digitsNat ds := by
  induction ds using List.reverseRecOn with
  | nil => simp [digitsNat, digitsVal, digitText]
  | append_singleton ds d ih =>
    rw [digitsNat_append, digitsNat_singleton, ← ih]
    simp only [digitsVal, digitText, List.map_append, List.foldl_append, List.map_cons, List.map_nil,
      List.foldl_cons, List.foldl_nil, List.length_singleton, pow_one, Digit.val_char]
    ring

theorem digitText_mem {ds : List Digit} {c : Char} (h : c ∈ digitText ds) : ∃ d : Digit, c = d.char := by
  unfold digitText at h
  obtain ⟨d, -, rfl⟩ := List.mem_map.mp h
  exact ⟨d, rfl⟩

theorem takeWhile_text (ds : List Digit) : (digitText ds).takeWhile isDigitC = digitText ds := by
  induction ds with
  | nil => rfl
  | cons d ds ih => 
    unfold digitText at *
    rw [List.map_cons, List.takeWhile_cons, d.isDigit, if_pos rfl, ih]

theorem extractInt_text (s : Sign) (ds : List Digit) (h0 : ds ≠ []) (hs : digitsNat ds < 9223372036854775808) :
    extractInt (s.chars ++ digitText ds) = .ok (s.factor * digitsNat ds) := by
  have hne : digitText ds ≠ [] := by simpa [digitText] using h0
  have hfit : ∀ b : Bool, inI64 (if b = true then -(digitsNat ds : ℤ) else (digitsNat ds : ℤ)) = true := by
    intro b; apply Fits.inI64; unfold Fits; split <;> simpa using hs
  cases s with
  | none =>
    obtain ⟨d, ds', rfl⟩ := List.exists_cons_of_ne_nil h0
    have e : (digitText (d :: ds')).dropWhile isSpace = digitText (d :: ds') := by
      simp [digitText, List.dropWhile_cons, Digit.not_space]
    simp only [extractInt, Sign.chars, List.nil_append, e]
    have e2 : readSign (digitText (d :: ds')) = (false, digitText (d :: ds')) := by
      simp [digitText, readSign, d.ne_minus, d.ne_plus]
    rw [e2]
    simp only [takeWhile_text, digitsVal_text]
    have := hfit false
    simp at this
    simp [Sign.factor, this, digitText]
  | plus =>
    have e : ('+' :: digitText ds).dropWhile isSpace = '+' :: digitText ds := by
      simp [List.dropWhile_cons, show isSpace '+' = false by decide]
    simp only [extractInt, Sign.chars, List.cons_append, List.nil_append, e, readSign]
    have := hfit false
    simp at this
    simp [Sign.factor, this, hne, takeWhile_text, digitsVal_text]
  | minus =>
    have e : ('-' :: digitText ds).dropWhile isSpace = '-' :: digitText ds := by
      simp [List.dropWhile_cons, show isSpace '-' = false by decide]
    simp only [extractInt, Sign.chars, List.cons_append, List.nil_append, e, readSign]
    have := hfit true
    simp at this
    simp [Sign.factor, this, hne, takeWhile_text, digitsVal_text]

theorem splitLast_none {chr : Char} {s : List Char} (h : chr ∉ s) : splitLast chr s = none := by
  induction s with
  | nil => rfl
  | cons c cs ih =>
    simp only [List.mem_cons, not_or] at h
    simp [splitLast, ih h.2, Ne.symm h.1]

theorem splitLast_append {chr : Char} {a b : List Char} (h : chr ∉ b) :
    splitLast chr (a ++ chr :: b) = some (a, b) := by
  induction a with
  | nil => simp [splitLast, splitLast_none h]
  | cons c cs ih => simp [splitLast, ih]

theorem splitAtLast_none {chr : Char} {s : List Char} (h : chr ∉ s) : splitAtLast s chr = (s, []) := by
  simp [splitAtLast, splitLast_none h]

theorem splitAtLast_append {chr : Char} {a b : List Char} (h : chr ∉ b) :
    splitAtLast (a ++ chr :: b) chr = (a, b) := by
  simp [splitAtLast, splitLast_append h]

theorem powTenC_ok (n : ℕ) (h : 10 ^ n < 9223372036854775808) : powTenC n = .ok (10 ^ n) := by
  induction n with
  | zero => rfl
  | succ n ih =>
    have h' : 10 ^ n < 9223372036854775808 := lt_of_le_of_lt (Nat.pow_le_pow_right (by norm_num) (Nat.le_succ n)) h
    rw [powTenC, ih h']
    simp only [Outcome.ok_bind]
    rw [chk, if_pos]
    · rw [pow_succ]
    · apply Fits.inI64; unfold Fits
      have : ((10 : ℤ) ^ n * 10) = ((10 ^ (n + 1) : ℕ) : ℤ) := by push_cast; ring
      rw [this, Int.natAbs_natCast]; exact h

/-- trailing zeros split off -/
theorem trim_zeros (fp : List Digit) : ∃ (t : List Digit) (k : ℕ), fp = t ++ List.replicate k 0 ∧
    trimCharacterRight (digitText fp) '0' = digitText t ∧ (t = [] ↔ digitsNat fp = 0) := by
  induction fp using List.reverseRecOn with
  | nil => exact ⟨[], 0, by simp, by simp [trimCharacterRight, digitText], by simp [digitsNat]⟩
  | append_singleton ds d ih =>
    obtain ⟨t, k, h1, h2, h3⟩ := ih
    by_cases hd : d = 0
    · subst hd
      refine ⟨t, k + 1, ?_, ?_, ?_⟩
      · rw [List.replicate_succ', ← List.append_assoc, ← h1]
      · rw [← h2]
        simp [trimCharacterRight, digitText, show Digit.char 0 = '0' by decide]
      · rw [h3, digitsNat_append, digitsNat_singleton]; simp
    · refine ⟨ds ++ [d], 0, by simp, ?_, ?_⟩
      · have : d.char ≠ '0' := by rw [Ne, Digit.char_eq_zero]; exact hd
        simp [trimCharacterRight, digitText, this]
      · constructor
        · intro h; simp at h
        · intro h
          rw [digitsNat_append, digitsNat_singleton] at h
          have : d.val = 0 := by omega
          exact absurd (Fin.ext this) hd

theorem Sign.chars_no (s : Sign) : '/' ∉ s.chars ∧ '.' ∉ s.chars := by
  cases s <;> simp [Sign.chars]

theorem text_no_slash (ds : List Digit) : '/' ∉ digitText ds := by
  intro h; obtain ⟨d, hd⟩ := digitText_mem h; exact d.ne_slash hd.symm

theorem text_no_dot (ds : List Digit) : '.' ∉ digitText ds := by
  intro h; obtain ⟨d, hd⟩ := digitText_mem h; exact d.ne_dot hd.symm

theorem removeWhiteSpace_count (s : List Char) (c : Char) (hc : isSpace c = false) :
    (removeWhiteSpace s).count c = s.count c := by
  unfold removeWhiteSpace
  rw [List.count_filter]; simp [hc]

theorem removeWhiteSpace_idem (s : List Char) : removeWhiteSpace (removeWhiteSpace s) = removeWhiteSpace s := by
  unfold removeWhiteSpace; simp [List.filter_filter]

theorem extractRational_ws (s : List Char) : extractRational (removeWhiteSpace s) = extractRational s := by
  unfold extractRational
  rw [removeWhiteSpace_count s '/' (by decide), removeWhiteSpace_count s '.' (by decide), removeWhiteSpace_idem]

theorem Literal.text_no_space (l : Literal) : removeWhiteSpace l.text = l.text := by
  unfold removeWhiteSpace
  rw [List.filter_eq_self]
  have hd : ∀ ds : List Digit, ∀ c ∈ digitText ds, (!isSpace c) = true := by
    intro ds c hc; obtain ⟨d, rfl⟩ := digitText_mem hc; simp [d.not_space]
  have hs : ∀ s : Sign, ∀ c ∈ s.chars, (!isSpace c) = true := by
    intro s; cases s <;> simp [Sign.chars] <;> decide
  intro c hc
  cases l with
  | int s ip =>
    simp only [Literal.text, List.mem_append] at hc
    rcases hc with hc | hc
    · exact hs _ _ hc
    · exact hd _ _ hc
  | dec s ip fp =>
    simp only [Literal.text, List.mem_append, List.mem_cons] at hc
    rcases hc with (hc | hc) | rfl | hc
    · exact hs _ _ hc
    · exact hd _ _ hc
    · decide
    · exact hd _ _ hc
  | frac s ip s' jp =>
    simp only [Literal.text, List.mem_append, List.mem_cons] at hc
    rcases hc with (hc | hc) | rfl | hc | hc
    · exact hs _ _ hc
    · exact hd _ _ hc
    · decide
    · exact hs _ _ hc
    · exact hd _ _ hc

theorem text_signed_no_slash (s : Sign) (ip : List Digit) : '/' ∉ s.chars ++ digitText ip := by
  simp [s.chars_no.1, text_no_slash]

theorem text_signed_no_dot (s : Sign) (ip : List Digit) : '.' ∉ s.chars ++ digitText ip := by
  simp [s.chars_no.2, text_no_dot]

/-- the left substring fix-ups amount to inserting the digit zero when there is none -/
theorem left_fixup (s : Sign) (ip : List Digit) :
    (let left := s.chars ++ digitText ip
     let left := if left = [] then ['0'] else left
     let left := if left = ['+'] then ['+', '0'] else left
     if left = ['-'] then ['-', '0'] else left) = s.chars ++ digitText (if ip = [] then [0] else ip) := by
  cases ip with
  | nil => cases s <;> simp [Sign.chars, digitText] <;> decide
  | cons d ds =>
    have h1 := d.ne_minus
    have h2 := d.ne_plus
    cases s <;> simp [Sign.chars, digitText, h1, h2]

/-- The non-fraction branch on `±ip` followed by mantissa digits `fp`. -/
theorem decimal_branch (s : Sign) (ip fp : List Digit)
    (hsmall : (digitsNat ip + 1) * 10 ^ fp.length < 9223372036854775808) :
    ∃ (t : List Digit) (k : ℕ), fp = t ++ List.replicate k 0 ∧ (t = [] ↔ digitsNat fp = 0) ∧
    (let left := s.chars ++ digitText ip
     let right := trimCharacterRight (digitText fp) '0'
     let left := if left = [] then ['0'] else left
     let left := if left = ['+'] then ['+', '0'] else left
     let left := if left = ['-'] then ['-', '0'] else left
     (do
      let leftInt ← extractInt left
      let rightInt ← extractMantissa right
      let den ← powTenC right.length
      let a ← chk (leftInt * den)
      let b ← chk ((if leftInt < 0 then -1 else 1) * rightInt)
      let num ← chk (a + b)
      mkRat64 num den : Outcome Rat64)) =
    mkRat64 (s.factor * digitsNat ip * 10 ^ t.length +
      (if s.factor * (digitsNat ip : ℤ) < 0 then -1 else 1) * digitsNat t) (10 ^ t.length) := by
  obtain ⟨t, k, h1, h2, h3⟩ := trim_zeros fp
  refine ⟨t, k, h1, h3, ?_⟩
  have hlen : t.length ≤ fp.length := by rw [h1]; simp
  have hpow : 10 ^ t.length ≤ 10 ^ fp.length := Nat.pow_le_pow_right (by norm_num) hlen
  have hip : digitsNat (if ip = [] then [0] else ip) = digitsNat ip := by
    split <;> simp_all [digitsNat]
  have hipb : digitsNat ip < 9223372036854775808 := by
    have : 1 ≤ 10 ^ fp.length := Nat.one_le_pow _ _ (by norm_num)
    nlinarith
  have hleft := left_fixup s ip
  simp only at hleft
  simp only [h2, hleft]
  rw [extractInt_text s _ (by split <;> simp_all) (by rw [hip]; exact hipb), hip]
  simp only [Outcome.ok_bind]
  have ht : digitsNat t < 10 ^ t.length := digitsNat_lt t
  have ht63 : digitsNat t < 9223372036854775808 := by nlinarith
  have hr : extractMantissa (digitText t) = .ok (digitsNat t : ℤ) := by
    unfold extractMantissa
    split
    · rename_i h
      have : t = [] := by simpa [digitText] using h
      simp [this, digitsNat]
    · rename_i h
      have h' : t ≠ [] := by simpa [digitText] using h
      have := extractInt_text .none t h' ht63
      simpa [Sign.chars, Sign.factor] using this
  rw [hr]
  have htl : (digitText t).length = t.length := by simp [digitText]
  rw [htl, powTenC_ok _ (by nlinarith)]
  simp only [Outcome.ok_bind]
  have hsum : digitsNat ip * 10 ^ t.length + digitsNat t < 9223372036854775808 := by nlinarith
  have hf : s.factor = 1 ∨ s.factor = -1 := by cases s <;> simp [Sign.factor]
  have e1 : chk (s.factor * (digitsNat ip : ℤ) * 10 ^ t.length) = .ok (s.factor * (digitsNat ip : ℤ) * 10 ^ t.length) := by
    rw [chk, if_pos]
    apply Fits.inI64; unfold Fits
    have : (s.factor * (digitsNat ip : ℤ) * 10 ^ t.length).natAbs = digitsNat ip * 10 ^ t.length := by
      rw [Int.natAbs_mul, Int.natAbs_mul, Int.natAbs_pow]
      rcases hf with h | h <;> rw [h] <;> simp
    rw [this]; omega
  have hc : (if s.factor * (digitsNat ip : ℤ) < 0 then (-1 : ℤ) else 1) = 1 ∨
      (if s.factor * (digitsNat ip : ℤ) < 0 then (-1 : ℤ) else 1) = -1 := by
    split <;> simp
  have e2 : chk ((if s.factor * (digitsNat ip : ℤ) < 0 then -1 else 1) * (digitsNat t : ℤ)) =
      .ok ((if s.factor * (digitsNat ip : ℤ) < 0 then -1 else 1) * (digitsNat t : ℤ)) := by
    rw [chk, if_pos]
    apply Fits.inI64; unfold Fits
    rw [Int.natAbs_mul]
    rcases hc with h | h <;> rw [h] <;> simpa using ht63
  have e3 : chk (s.factor * (digitsNat ip : ℤ) * 10 ^ t.length + (if s.factor * (digitsNat ip : ℤ) < 0 then -1 else 1) * (digitsNat t : ℤ)) =
      .ok (s.factor * (digitsNat ip : ℤ) * 10 ^ t.length + (if s.factor * (digitsNat ip : ℤ) < 0 then -1 else 1) * (digitsNat t : ℤ)) := by
    rw [chk, if_pos]
    apply Fits.inI64; unfold Fits
    refine lt_of_le_of_lt (Int.natAbs_add_le _ _) ?_
    have : (s.factor * (digitsNat ip : ℤ) * 10 ^ t.length).natAbs = digitsNat ip * 10 ^ t.length := by
      rw [Int.natAbs_mul, Int.natAbs_mul, Int.natAbs_pow]
      rcases hf with h | h <;> rw [h] <;> simp
    rw [this, Int.natAbs_mul]
    rcases hc with h | h <;> rw [h] <;> simpa using hsum
  rw [e1, e2]
  simp only [Outcome.ok_bind]
  rw [e3]
  simp only [Outcome.ok_bind]

end Scisim
