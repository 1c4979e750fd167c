import Verif.Lemmas.Texts
/-!
# C87: times are shown truly. C88: a script is looked for beside its scene
-/

namespace Scisim.Texts

/-- The time that is shown after so many steps of a scene with this time step, and the text of the time step in it -/
def shownTime (dtText : List Char) (q : ℚ) (i : ℕ) : List Char := generateSimulationTimeString (computeTimestepDisplayPrecision q dtText) i q

/-- The number that is shown -/
theorem shown_number (dtText : List Char) (q : ℚ) (i : ℕ) :
    ShowsDecimal (shownTime dtText q i) (computeTimestepDisplayPrecision q dtText)
      (((roundHalfEven (i * q * 10 ^ computeTimestepDisplayPrecision q dtText)).toNat : ℚ) / 10 ^ computeTimestepDisplayPrecision q dtText) :=
  fixedText_shows _ _

theorem toNat_cast {z : ℤ} (h : 0 ≤ z) : ((z.toNat : ℕ) : ℚ) = (z : ℚ) := by
  have h3 : ((z.toNat : ℕ) : ℤ) = z := Int.toNat_of_nonneg h
  exact_mod_cast congrArg (Int.cast (R := ℚ)) h3

/-- **C87, exact times.** If the time step is written with a decimal point, as in ` .01`, the time that is shown in any step is the exact time, with at least as many decimals as the
time step has. Hence different steps show different times. -/
theorem C87_exact {dtText : List Char} {s : Sign} {ip fp : List Digit} (h : Spells dtText (.dec s ip fp)) (hq : 0 ≤ (Literal.dec s ip fp).value) (i : ℕ) :
    ∃ p, fp.length ≤ p ∧ ShowsDecimal (shownTime dtText (Literal.dec s ip fp).value i) p (i * (Literal.dec s ip fp).value) := by
  have hmem : '.' ∈ dtText := by
    have : '.' ∈ dtText.filter (fun c => !isSpace c) := by rw [h]; simp [Literal.text]
    exact (List.mem_filter.mp this).1
  obtain ⟨l, r, h1, h2, h3⟩ := charsToRight_of_mem hmem
  have hp : computeTimestepDisplayPrecision (Literal.dec s ip fp).value dtText = r.length := by
    rw [computeTimestepDisplayPrecision, if_pos hmem, h3]
  have hle : fp.length ≤ r.length := by
    have h4 : dtText.filter (fun c => !isSpace c) = l.filter (fun c => !isSpace c) ++ '.' :: r.filter (fun c => !isSpace c) := by
      rw [h1, List.filter_append, List.filter_cons_of_pos (by decide)]
    have h5 : l.filter (fun c => !isSpace c) ++ '.' :: r.filter (fun c => !isSpace c) = (s.chars ++ digitText ip) ++ '.' :: digitText fp := by
      rw [← h4, h]; rfl
    have hl : '.' ∉ l.filter (fun c => !isSpace c) := fun hc => h2 (List.mem_filter.mp hc).1
    have hr : '.' ∉ s.chars ++ digitText ip := text_signed_no_dot s ip
    have h6 : l.filter (fun c => !isSpace c) = s.chars ++ digitText ip ∧ r.filter (fun c => !isSpace c) = digitText fp := by
      have e1 : (l.filter (fun c => !isSpace c) ++ '.' :: r.filter (fun c => !isSpace c)).takeWhile (· ≠ '.') = l.filter (fun c => !isSpace c) := by
        rw [List.takeWhile_append_of_pos]
        · simp
        · intro a ha
          simp only [ne_eq, decide_not, Bool.not_eq_true', decide_eq_false_iff_not]
          rintro rfl; exact hl ha
      have e2 : ((s.chars ++ digitText ip) ++ '.' :: digitText fp).takeWhile (· ≠ '.') = s.chars ++ digitText ip := by
        rw [List.takeWhile_append_of_pos]
        · simp
        · intro a ha
          simp only [ne_eq, decide_not, Bool.not_eq_true', decide_eq_false_iff_not]
          rintro rfl; exact hr ha
      have e3 : l.filter (fun c => !isSpace c) = s.chars ++ digitText ip := by rw [← e1, ← e2, h5]
      rw [e3] at h5
      exact ⟨e3, (List.cons.inj (List.append_cancel_left h5)).2⟩
    have := List.length_filter_le (fun c => !isSpace c) r
    rw [h6.2] at this
    simpa [digitText] using this
  refine ⟨r.length, hle, ?_⟩
  have hs := shown_number dtText (Literal.dec s ip fp).value i
  rw [hp] at hs
  -- the product is an integer
  obtain ⟨m, hm⟩ : ∃ m : ℤ, (i : ℚ) * (Literal.dec s ip fp).value * 10 ^ r.length = m := by
    refine ⟨i * (s.factor * (digitsNat ip * 10 ^ fp.length + digitsNat fp)) * 10 ^ (r.length - fp.length), ?_⟩
    have h10 : (10 : ℚ) ^ fp.length ≠ 0 := by positivity
    have hpow : (10 : ℚ) ^ r.length = 10 ^ fp.length * 10 ^ (r.length - fp.length) := by rw [← pow_add]; congr 1; omega
    rw [hpow]
    simp only [Literal.value]
    push_cast
    field_simp
  have hm0 : (0 : ℚ) ≤ m := by rw [← hm]; positivity
  have hval : (((roundHalfEven ((i : ℚ) * (Literal.dec s ip fp).value * 10 ^ r.length)).toNat : ℚ) / 10 ^ r.length) = i * (Literal.dec s ip fp).value := by
    rw [hm, roundHalfEven_int, toNat_cast (by exact_mod_cast hm0), ← hm, mul_div_assoc, div_self (by positivity), mul_one]
  rwa [hval] at hs

/-- **C87, all time steps.** Whatever the text of the time step: the time that is shown is the nearest one with so many decimals (six if the time step is an integer or a fraction), and
shown times do not decrease. -/
theorem C87_close (dtText : List Char) {q : ℚ} (hq : 0 ≤ q) :
    ∃ (p : ℕ) (v : ℕ → ℚ), (∀ i, ShowsDecimal (shownTime dtText q i) p (v i) ∧ |v i - i * q| ≤ 1 / 2 / 10 ^ p) ∧ (∀ i j, i ≤ j → v i ≤ v j) ∧
      ('.' ∉ dtText → p = 6) := by
  refine ⟨computeTimestepDisplayPrecision q dtText,
    fun i => ((roundHalfEven (i * q * 10 ^ computeTimestepDisplayPrecision q dtText)).toNat : ℚ) / 10 ^ computeTimestepDisplayPrecision q dtText,
    fun i => ⟨shown_number dtText q i, ?_⟩, fun i j hij => ?_, fun hno => ?_⟩
  · simp only
    generalize computeTimestepDisplayPrecision q dtText = p
    have h10 : (0 : ℚ) < 10 ^ p := by positivity
    rw [toNat_cast (roundHalfEven_nonneg (by positivity))]
    have h1 := roundHalfEven_close (i * q * 10 ^ p)
    have h2 : (roundHalfEven (i * q * 10 ^ p) : ℚ) / 10 ^ p - i * q = ((roundHalfEven (i * q * 10 ^ p) : ℚ) - i * q * 10 ^ p) / 10 ^ p := by
      field_simp
    rw [h2, abs_div, abs_of_pos h10]
    exact div_le_div_of_nonneg_right h1 h10.le
  · simp only
    generalize computeTimestepDisplayPrecision q dtText = p
    have h10 : (0 : ℚ) < 10 ^ p := by positivity
    refine div_le_div_of_nonneg_right ?_ h10.le
    have : (i : ℚ) ≤ j := by exact_mod_cast hij
    have hm : roundHalfEven (i * q * 10 ^ p) ≤ roundHalfEven (j * q * 10 ^ p) :=
      roundHalfEven_mono (mul_le_mul_of_nonneg_right (mul_le_mul_of_nonneg_right this hq) h10.le)
    exact_mod_cast Int.toNat_le_toNat hm
  · rw [computeTimestepDisplayPrecision, if_neg hno]
    have hs := fixedText_shows 6 q
    obtain ⟨n, h1, -, h3, h4, h5, -⟩ := hs
    have hfp : ∃ fp, n.fp = some fp := by
      cases hf : n.fp with
      | none => simp [Numeral.fraction, hf] at h5
      | some fp => exact ⟨fp, rfl⟩
    obtain ⟨fp, hfp⟩ := hfp
    have htext : fixedText 6 q = digitText n.ip ++ '.' :: digitText fp := by
      rw [h1]; simp [Numeral.text, h3, h4, hfp, Sign.chars]
    obtain ⟨l, r, e1, e2, e3⟩ := charsToRight_of_mem (s := fixedText 6 q) (c := '.') (by rw [htext]; simp)
    rw [e3]
    have hl : l.length + 1 + r.length = n.ip.length + 1 + 6 := by
      have := congrArg List.length (e1.symm.trans htext)
      simp only [List.length_append, List.length_cons, digitText, List.length_map] at this
      have h6 : fp.length = 6 := by simpa [Numeral.fraction, hfp] using h5
      omega
    have hll : l.length = n.ip.length := by
      have ha : (l ++ '.' :: r).takeWhile (· ≠ '.') = l := by
        rw [List.takeWhile_append_of_pos]
        · simp
        · intro a ha
          simp only [ne_eq, decide_not, Bool.not_eq_true', decide_eq_false_iff_not]
          rintro rfl; exact e2 ha
      have hb : (digitText n.ip ++ '.' :: digitText fp).takeWhile (· ≠ '.') = digitText n.ip := by
        rw [List.takeWhile_append_of_pos]
        · simp
        · intro a ha
          simp only [ne_eq, decide_not, Bool.not_eq_true', decide_eq_false_iff_not]
          rintro rfl; exact text_no_dot n.ip ha
      have : l = digitText n.ip := by rw [← ha, ← hb, ← e1, htext]
      rw [this]; simp [digitText]
    omega

/-- **C87 is false of small fractions.** With the time step `1/10000000` different steps, and different files, are said to be at the same time. -/
theorem C87_fraction_false : shownTime ['1', '/', '1', '0', '0', '0', '0', '0', '0', '0'] (1 / 10000000) 1 = shownTime ['1', '/', '1', '0', '0', '0', '0', '0', '0', '0'] (1 / 10000000) 2 := by
  decide +kernel

example : shownTime ['0', '.', '0', '1'] (1 / 100) 250 = ['2', '.', '5', '0'] ∧ shownTime ['1', '/', '3'] (1 / 3) 2 = ['0', '.', '6', '6', '6', '6', '6', '7'] ∧
    shownTime ['2', '.'] 2 3 = ['6'] := by
  refine ⟨by decide +kernel, by decide +kernel, by decide +kernel⟩

example : ∃ p, 2 ≤ p ∧ ShowsDecimal (shownTime ['0', '.', '0', '1', ' '] (Literal.dec .none [0] [0, 1]).value 250) p ((250 : ℕ) * (Literal.dec .none [0] [0, 1]).value) :=
  C87_exact (s := .none) (ip := [0]) (fp := [0, 1]) (by unfold Spells; decide) (by simp only [Literal.value, Sign.factor]; positivity) 250

/-- **C88, scripts (part).** A scene outside the root, in a directory with an ordinary name: its script is looked for there. What is missing: the root (`C88_root_false`), and names with
quotes, backslashes or newlines (`C88_quote_false`). -/
theorem C88_script_partial {file d : List Char} (h : Directory file d) (hr : d ≠ ['/']) (hp : Plain d) : scriptDirectory file = some d := by
  cases h with
  | here h =>
    have : xmlFilePath file = [] := by simp [xmlFilePath, splitAtLast_none h]
    rw [scriptDirectory, this]
    rfl
  | root h hn => exact absurd rfl hr
  | @dir _ name h hn hd =>
    have : xmlFilePath (d ++ '/' :: name) = d := by
      rw [xmlFilePath, splitAtLast_append h]
      simp [hn]
    rw [scriptDirectory, this]
    exact insertedPath_plain hp

/-- **C88 is false of the root.** The script of a scene in the root is looked for in the current directory. -/
theorem C88_root_false {name : List Char} (h : '/' ∉ name) (hn : name ≠ []) : Directory ('/' :: name) ['/'] ∧ scriptDirectory ('/' :: name) = some [] := by
  refine ⟨.root h hn, ?_⟩
  have : xmlFilePath ('/' :: name) = [] := by
    have := splitAtLast_append (chr := '/') (a := []) h
    rw [List.nil_append] at this
    rw [xmlFilePath, this]
    simp [hn]
  rw [scriptDirectory, this]
  rfl

/-- **C88 is false of quotes.** In a directory with a quote, backslash or newline in its name no script is found; the name of the directory becomes part of a program. For instance
`a', x) or f('` is taken as a call of a function. -/
theorem C88_quote_false {file d : List Char} (hp : ¬ Plain d) : scriptDirectory file ≠ some d := by
  intro h
  exact hp (insertedPath_value_plain h)

example : scriptDirectory ['/', 'a', '/', 'b', '.', 'x'] = some ['/', 'a'] ∧ scriptDirectory ['b', '.', 'x'] = some [] ∧ scriptDirectory ['o', '\'', 'b', '/', 's'] = none := by
  refine ⟨C88_script_partial (.dir (d := ['/', 'a']) (name := ['b', '.', 'x']) (by decide) (by decide) (by decide)) (by decide) (by unfold Plain; decide),
    C88_script_partial (.here (by decide)) (by decide) (by unfold Plain; decide), by decide +kernel⟩

end Scisim.Texts
