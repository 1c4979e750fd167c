import Verif.Lemmas.Parsing
/-!
# C02, C03 — reading rationals from text
-/

namespace Scisim

theorem dec_value (s : Sign) (ip t : List Digit) (k : ℕ)
    (hs : ¬ Literal.NegativeProper (.dec s ip (t ++ List.replicate k 0))) :
    (((s.factor * digitsNat ip * 10 ^ t.length +
      (if s.factor * (digitsNat ip : ℤ) < 0 then -1 else 1) * digitsNat t : ℤ)) : ℚ) / ((10 ^ t.length : ℤ) : ℚ)
    = (Literal.dec s ip (t ++ List.replicate k 0)).value := by
  have hv : digitsNat (t ++ List.replicate k 0) = digitsNat t * 10 ^ k := by
    rw [digitsNat_append, digitsNat_zeros]; simp
  have hc : (if s.factor * (digitsNat ip : ℤ) < 0 then (-1 : ℤ) else 1) * digitsNat t = s.factor * digitsNat t := by
    cases s with
    | none => simp [Sign.factor]
    | plus => simp [Sign.factor]
    | minus =>
      simp only [Literal.NegativeProper, hv, not_and_or, not_not] at hs
      rcases hs with h | h
      · have : 0 < digitsNat ip := Nat.pos_of_ne_zero h
        simp [Sign.factor, this]
      · have : digitsNat t = 0 := by
          rcases Nat.mul_eq_zero.mp h with h | h
          · exact h
          · exact absurd h (by positivity)
        simp [this]
  rw [hc]
  simp only [Literal.value, hv, List.length_append, List.length_replicate]
  push_cast
  rw [pow_add]
  field_simp

/-- Auxiliary: the parser on a decimal or integer literal, in closed form. -/
theorem parse_decimal (s : Sign) (ip fp : List Digit) (point : Bool) (hp : point = false → fp = [])
    (hsmall : (digitsNat ip + 1) * 10 ^ fp.length < 9223372036854775808) :
    ∃ (t : List Digit) (k : ℕ), fp = t ++ List.replicate k 0 ∧ (t = [] ↔ digitsNat fp = 0) ∧
    extractRational (s.chars ++ digitText ip ++ (if point then '.' :: digitText fp else [])) =
    mkRat64 (s.factor * digitsNat ip * 10 ^ t.length +
      (if s.factor * (digitsNat ip : ℤ) < 0 then -1 else 1) * digitsNat t) (10 ^ t.length) := by
  obtain ⟨t, k, h1, h2, h3⟩ := decimal_branch s ip fp hsmall
  refine ⟨t, k, h1, h2, ?_⟩
  rw [← h3]
  have hsp : removeWhiteSpace (s.chars ++ digitText ip ++ (if point then '.' :: digitText fp else [])) =
      s.chars ++ digitText ip ++ (if point then '.' :: digitText fp else []) := by
    cases point with
    | true => exact (Literal.dec s ip fp).text_no_space
    | false => simpa [Literal.text] using (Literal.int s ip).text_no_space
  have hslash : (s.chars ++ digitText ip ++ (if point then '.' :: digitText fp else [])).count '/' = 0 := by
    rw [List.count_eq_zero]
    simp only [List.mem_append, not_or]
    refine ⟨⟨s.chars_no.1, text_no_slash ip⟩, ?_⟩
    split <;> simp [text_no_slash]
  have hdot : (s.chars ++ digitText ip ++ (if point then '.' :: digitText fp else [])).count '.' ≤ 1 := by
    rw [List.count_append, List.count_eq_zero.mpr (text_signed_no_dot s ip)]
    split
    · simp [List.count_eq_zero.mpr (text_no_dot fp)]
    · simp
  have hsplit : splitAtLast (s.chars ++ digitText ip ++ (if point then '.' :: digitText fp else [])) '.' =
      (s.chars ++ digitText ip, digitText fp) := by
    cases point with
    | true => simpa using splitAtLast_append (a := s.chars ++ digitText ip) (text_no_dot fp)
    | false =>
      simp only [hp rfl]
      simpa [digitText] using splitAtLast_none (text_signed_no_dot s ip)
  unfold extractRational
  simp only [hslash, hsp, hsplit]
  rw [if_neg (by omega), if_neg (by omega), if_neg (by omega), if_neg (by omega), if_pos (by omega)]

/-- C02 (partial): every well-formed literal of machine size, with white space anywhere, is read as exactly the number
it denotes, in canonical form — unless it is a negative decimal with zero integer part.
*Missing from the full property:* exactly the literals `NegativeProper` (such as `-0.5`), for which the property is
false of the code, see `C02_negative_proper_misread`. -/
theorem C02_exact_reading_partial (l : Literal) (hw : l.Wellformed) (hsmall : l.Small) (hn : ¬ l.NegativeProper)
    (s : List Char) (hs : Spells s l) :
    ∃ r, extractRational s = .ok r ∧ Represents r l.value := by
  rw [← extractRational_ws, show removeWhiteSpace s = l.text from hs]
  cases l with
  | int sg ip =>
    obtain ⟨t, k, h1, -, h3⟩ := parse_decimal sg ip [] false (fun _ => rfl) (by
      simp only [List.length_nil, pow_zero, mul_one]
      exact hsmall)
    have ht : t = [] := by
      have := congrArg List.length h1
      simp only [List.length_nil, List.length_append, List.length_replicate] at this
      exact List.eq_nil_of_length_eq_zero (by omega)
    subst ht
    simp only [Bool.false_eq_true, if_false, List.append_nil, digitsNat_nil, List.length_nil, pow_zero, mul_one,
      Nat.cast_zero, mul_zero, add_zero] at h3
    have hfit : Fits (sg.factor * (digitsNat ip : ℤ)) := by
      unfold Fits
      rw [Int.natAbs_mul]
      have : sg.factor.natAbs = 1 := by cases sg <;> rfl
      rw [this]
      simp only [Literal.Small] at hsmall
      simp only [Int.natAbs_natCast, one_mul]; omega
    obtain ⟨r, hr⟩ := simplify_fits (n := sg.factor * (digitsNat ip : ℤ)) (d := 1) (by norm_num) hfit (by simp [Fits])
    refine ⟨r, by rw [Literal.text, h3]; exact hr, ?_⟩
    have := simplify_ok (by norm_num) hr
    simpa [Literal.value] using this
  | dec sg ip fp =>
    obtain ⟨t, k, h1, -, h3⟩ := parse_decimal sg ip fp true (by simp) hsmall
    simp only [if_true] at h3
    subst h1
    have hlen : 10 ^ t.length ≤ 10 ^ (t ++ List.replicate k (0 : Digit)).length :=
      Nat.pow_le_pow_right (by norm_num) (by simp)
    have ht := digitsNat_lt t
    simp only [Literal.Small] at hsmall
    have hsum : digitsNat ip * 10 ^ t.length + digitsNat t < 9223372036854775808 := by nlinarith
    have hfit : Fits (sg.factor * digitsNat ip * 10 ^ t.length +
      (if sg.factor * (digitsNat ip : ℤ) < 0 then -1 else 1) * digitsNat t) := by
      unfold Fits
      refine lt_of_le_of_lt (Int.natAbs_add_le _ _) (lt_of_le_of_lt (le_of_eq ?_) hsum)
      congr 1
      · rw [Int.natAbs_mul, Int.natAbs_mul, Int.natAbs_pow]
        have : sg.factor.natAbs = 1 := by cases sg <;> rfl
        rw [this]; simp
      · rw [Int.natAbs_mul]; split <;> simp
    have hfit2 : Fits (10 ^ t.length) := by
      unfold Fits
      rw [Int.natAbs_pow]
      have : (10 : ℤ).natAbs = 10 := rfl
      rw [this]; nlinarith
    obtain ⟨r, hr⟩ := simplify_fits (by positivity) hfit hfit2
    refine ⟨r, by rw [Literal.text, h3]; exact hr, ?_⟩
    have := simplify_ok (by positivity) hr
    rw [dec_value sg ip t k hn] at this
    exact this
  | frac sg ip sg' jp =>
    obtain ⟨hi, hj, hj0⟩ := hw
    obtain ⟨hsi, hsj⟩ := hsmall
    have hsp := (Literal.frac sg ip sg' jp).text_no_space
    have hslash : (Literal.frac sg ip sg' jp).text.count '/' = 1 := by
      simp only [Literal.text, List.count_append, List.count_cons_self]
      rw [List.count_eq_zero.mpr sg.chars_no.1, List.count_eq_zero.mpr sg'.chars_no.1,
        List.count_eq_zero.mpr (text_no_slash ip), List.count_eq_zero.mpr (text_no_slash jp)]
    have hdot : (Literal.frac sg ip sg' jp).text.count '.' = 0 := by
      rw [List.count_eq_zero]
      simp only [Literal.text, List.mem_append, List.mem_cons, not_or]
      exact ⟨⟨sg.chars_no.2, text_no_dot ip⟩, by decide, sg'.chars_no.2, text_no_dot jp⟩
    have hsplit : splitAtLast (Literal.frac sg ip sg' jp).text '/' =
        (sg.chars ++ digitText ip, sg'.chars ++ digitText jp) :=
      splitAtLast_append (text_signed_no_slash sg' jp)
    unfold extractRational
    simp only [hslash, hdot, hsp, hsplit]
    rw [if_neg (by omega), if_neg (by omega), if_neg (by omega), if_neg (by omega), if_neg (by omega),
      extractInt_text sg ip hi hsi, extractInt_text sg' jp hj hsj]
    simp only [Outcome.ok_bind]
    have f1 : Fits (sg.factor * (digitsNat ip : ℤ)) := by
      unfold Fits
      rw [Int.natAbs_mul]
      have : sg.factor.natAbs = 1 := by cases sg <;> rfl
      rw [this]; simpa using hsi
    have f2 : Fits (sg'.factor * (digitsNat jp : ℤ)) := by
      unfold Fits
      rw [Int.natAbs_mul]
      have : sg'.factor.natAbs = 1 := by cases sg' <;> rfl
      rw [this]; simpa using hsj
    have hd : sg'.factor * (digitsNat jp : ℤ) ≠ 0 := by
      have : sg'.factor ≠ 0 := by cases sg' <;> simp [Sign.factor]
      have : (digitsNat jp : ℤ) ≠ 0 := by exact_mod_cast hj0
      positivity
    obtain ⟨r, hr⟩ := simplify_fits hd f1 f2
    refine ⟨r, hr, ?_⟩
    have := simplify_ok hd hr
    simpa [Literal.value] using this

/-- the hypotheses of `C02_exact_reading_partial` on `" -3 .250"` -/
example : ∃ s, Spells s (.dec .minus [3] [2, 5, 0]) ∧ s = " -3 .250".toList ∧
    (Literal.dec .minus [3] [2, 5, 0]).Wellformed ∧ (Literal.dec .minus [3] [2, 5, 0]).Small ∧
    ¬ (Literal.dec .minus [3] [2, 5, 0]).NegativeProper :=
  ⟨_, by unfold Spells; decide, rfl, .inl (by decide), by unfold Literal.Small; decide,
    by unfold Literal.NegativeProper; decide⟩

/-- C02 is false of the code on every negative decimal whose integer part is zero and whose value is not: the sign is
lost and the *positive* number is returned. -/
theorem C02_negative_proper_misread (l : Literal) (hsmall : l.Small) (hn : l.NegativeProper)
    (s : List Char) (hs : Spells s l) :
    ∃ r, extractRational s = .ok r ∧ Represents r (-l.value) ∧ l.value < 0 := by
  rw [← extractRational_ws, show removeWhiteSpace s = l.text from hs]
  cases l with
  | int => exact hn.elim
  | frac => exact hn.elim
  | dec sg ip fp =>
    cases sg with
    | none => exact hn.elim
    | plus => exact hn.elim
    | minus =>
      obtain ⟨hip, hfp⟩ := hn
      obtain ⟨t, k, h1, -, h3⟩ := parse_decimal .minus ip fp true (by simp) hsmall
      simp only [if_true, hip, Nat.cast_zero, mul_zero, zero_mul, zero_add, lt_self_iff_false, if_false, one_mul] at h3
      have hlen : 10 ^ t.length ≤ 10 ^ fp.length :=
        Nat.pow_le_pow_right (by norm_num) (by rw [h1]; simp)
      have ht := digitsNat_lt t
      simp only [Literal.Small] at hsmall
      have hfit : Fits (digitsNat t : ℤ) := by
        unfold Fits; rw [Int.natAbs_natCast]; nlinarith
      have hfit2 : Fits (10 ^ t.length) := by
        unfold Fits
        rw [Int.natAbs_pow]
        have : (10 : ℤ).natAbs = 10 := rfl
        rw [this]; nlinarith
      have hp10 : (10 : ℤ) ^ t.length ≠ 0 := by positivity
      obtain ⟨r, hr⟩ := simplify_fits hp10 hfit hfit2
      have hval := dec_value .none ip t k (by simp [Literal.NegativeProper])
      simp only [Sign.factor, hip, Nat.cast_zero, mul_zero, zero_mul, zero_add, lt_self_iff_false, if_false, one_mul] at hval
      have hneg : -(Literal.dec .minus ip fp).value = (Literal.dec .none ip fp).value := by
        simp [Literal.value, Sign.factor]
      refine ⟨r, by rw [Literal.text, h3]; exact hr, ?_, ?_⟩
      · have := simplify_ok hp10 hr
        rw [hneg, h1, ← hval]
        exact this
      · simp only [Literal.value, Sign.factor, hip]
        have : 0 < (digitsNat fp : ℚ) := by exact_mod_cast Nat.pos_of_ne_zero hfp
        have : 0 < (digitsNat fp : ℚ) / 10 ^ fp.length := div_pos this (by positivity)
        push_cast; linarith

/-- `-0.5` is read as `+1/2`. -/
theorem C02_counterexample : extractRational "-0.5".toList = .ok ⟨1, 2⟩ := by decide +kernel

/-- The full statement of C02 does not hold. -/
theorem C02_full_is_false : ¬ ∀ (l : Literal), l.Wellformed → l.Small → ∀ s, Spells s l →
    ∃ r, extractRational s = .ok r ∧ Represents r l.value := by
  intro h
  obtain ⟨r, hr, h2⟩ := h (.dec .minus [0] [5]) (.inl (by decide))
    (by unfold Literal.Small; decide) "-0.5".toList (by unfold Spells; decide)
  obtain ⟨r', hr', h2', h3⟩ := C02_negative_proper_misread (.dec .minus [0] [5])
    (by unfold Literal.Small; decide) (by unfold Literal.NegativeProper; decide)
    "-0.5".toList (by unfold Spells; decide)
  rw [hr] at hr'
  simp only [Outcome.ok.injEq] at hr'
  subst hr'
  have e1 := h2.value
  have e2 := h2'.value
  rw [e1] at e2
  linarith

/-- C03 (partial): text with three or more slashes or periods, or with one of them together with exactly one of the
other, or whose first significant character cannot begin a number, is rejected.
*Missing:* the full property (every text that spells no literal is rejected) is false of the code, see
`C03_full_is_false` and `C03_accepted_garbage`. -/
theorem C03_rejects_partial (s : List Char)
    (h : 2 < s.count '/' ∨ 2 < s.count '.' ∨ (s.count '/' = 1 ∧ s.count '.' ≠ 0) ∨ (s.count '.' = 1 ∧ s.count '/' ≠ 0) ∨
      ∃ c t, s.filter (fun c => !isSpace c) = c :: t ∧ c ∉ ['+', '-', '.', '0', '1', '2', '3', '4', '5', '6', '7', '8', '9']) :
    extractRational s = .fail := by
  by_cases h1 : s.count '/' > 2
  · simp [extractRational, h1]
  by_cases h2 : s.count '.' > 2
  · simp [extractRational, h1, h2]
  by_cases h3 : s.count '/' = 1 ∧ s.count '.' ≠ 0
  · unfold extractRational; simp only; rw [if_neg h1, if_neg h2, if_pos h3]
  by_cases h4 : s.count '.' = 1 ∧ s.count '/' ≠ 0
  · unfold extractRational; simp only; rw [if_neg h1, if_neg h2, if_neg h3, if_pos h4]
  rcases h with h | h | h | h | ⟨c, t, hct, hc⟩
  · exact absurd h h1
  · exact absurd h h2
  · exact absurd h h3
  · exact absurd h h4
  have hnosp : isSpace c = false := by
    have : c ∈ s.filter (fun c => !isSpace c) := by rw [hct]; simp
    simpa using (List.mem_filter.mp this).2
  have hnd : isDigitC c = false := by
    by_contra hd
    simp only [Bool.not_eq_false] at hd
    simp only [isDigitC, Bool.and_eq_true, decide_eq_true_eq] at hd
    have h48 : '0'.toNat = 48 := rfl
    have h57 : '9'.toNat = 57 := rfl
    rw [h48, h57] at hd
    have hcc : c = Char.ofNat c.toNat := by rw [Char.ofNat_toNat]
    obtain ⟨n, hn⟩ : ∃ n, n = c.toNat := ⟨_, rfl⟩
    rw [← hn] at hd hcc
    have : n = 48 ∨ n = 49 ∨ n = 50 ∨ n = 51 ∨ n = 52 ∨ n = 53 ∨ n = 54 ∨ n = 55 ∨ n = 56 ∨ n = 57 := by omega
    rcases this with h | h | h | h | h | h | h | h | h | h <;> subst h <;> subst hcc <;> exact absurd hc (by decide)
  have hbad : ∀ l, extractInt (c :: l) = .fail := by
    intro l
    have e1 : (c :: l).dropWhile isSpace = c :: l := by simp [List.dropWhile_cons, hnosp]
    have e2 : c ≠ '-' := by rintro rfl; simp at hc
    have e3 : c ≠ '+' := by rintro rfl; simp at hc
    simp [extractInt, e1, readSign, e2, e3, hnd]
  have hdot : c ≠ '.' := by rintro rfl; simp at hc
  have hm : c ≠ '-' := by rintro rfl; simp at hc
  have hp : c ≠ '+' := by rintro rfl; simp at hc
  have hleft : ∀ chr, c ≠ chr → ∃ l r, splitAtLast (removeWhiteSpace s) chr = (c :: l, r) := by
    intro chr hne
    rw [show removeWhiteSpace s = c :: t from hct]
    unfold splitAtLast
    simp only [splitLast]
    cases splitLast chr t with
    | none => simp [hne]
    | some p => exact ⟨p.1, p.2, rfl⟩
  unfold extractRational
  simp only
  rw [if_neg h1, if_neg h2, if_neg h3, if_neg h4]
  split
  · obtain ⟨l, r, e⟩ := hleft '.' hdot
    rw [e]
    simp [hm, hp, hbad]
  · by_cases hsl : c = '/'
    · -- the single slash comes first: the left part is empty
      rename_i hs1
      simp only [ne_eq, not_not] at hs1
      have : removeWhiteSpace s = [] ++ '/' :: t := by rw [show removeWhiteSpace s = c :: t from hct, hsl]; rfl
      have hnt : '/' ∉ t := by
        have hcnt := removeWhiteSpace_count s '/' (by decide)
        rw [this, hs1] at hcnt
        simp at hcnt
        exact List.count_eq_zero.mp hcnt
      rw [this, splitAtLast_append hnt]
      rfl
    · obtain ⟨l, r, e⟩ := hleft '/' hsl
      rw [e]
      simp [hbad]

example : extractRational "dt=1".toList = .fail :=
  C03_rejects_partial _ (.inr (.inr (.inr (.inr ⟨'d', "t=1".toList, by decide, by decide⟩))))

/-- Text that spells no literal but is accepted, with the number returned: two slashes, two periods, scientific
notation, a unit suffix (which changes the value a hundredfold), nothing at all, and a fraction with denominator zero. -/
theorem C03_accepted_garbage :
    extractRational "1/2/3".toList = .ok ⟨1, 1⟩ ∧
    extractRational "1.2.3".toList = .ok ⟨13, 10⟩ ∧
    extractRational "1e-4".toList = .ok ⟨1, 1⟩ ∧
    extractRational "0.01sec".toList = .ok ⟨1, 100000⟩ ∧
    extractRational "".toList = .ok ⟨0, 1⟩ ∧
    extractRational "1/0".toList = .ok ⟨1, 0⟩ := by
  refine ⟨?_, ?_, ?_, ?_, ?_, ?_⟩ <;> decide +kernel

/-- The full statement of C03 does not hold: `1/2/3` spells no literal and is accepted. -/
theorem C03_full_is_false : ¬ ∀ s : List Char, (¬ ∃ l : Literal, l.Wellformed ∧ Spells s l) → extractRational s = .fail := by
  intro h
  have := h "1/2/3".toList ?_
  · rw [C03_accepted_garbage.1] at this; simp at this
  · rintro ⟨l, -, hs⟩
    unfold Spells at hs
    have hc : l.text.count '/' = 2 := by rw [← hs]; decide
    cases l with
    | int s ip =>
      rw [Literal.text, List.count_eq_zero.mpr (text_signed_no_slash s ip)] at hc
      omega
    | dec s ip fp =>
      rw [Literal.text, List.count_append, List.count_eq_zero.mpr (text_signed_no_slash s ip), List.count_cons,
        List.count_eq_zero.mpr (text_no_slash fp)] at hc
      simp at hc
    | frac s ip s' jp =>
      rw [Literal.text, List.count_append, List.count_eq_zero.mpr (text_signed_no_slash s ip), List.count_cons,
        List.count_eq_zero.mpr (text_signed_no_slash s' jp)] at hc
      simp at hc

end Scisim
