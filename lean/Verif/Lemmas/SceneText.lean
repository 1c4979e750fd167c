import Verif.Spec.SceneText
import Verif.Lemmas.Parsing
import Mathlib.Tactic.Ring
import Mathlib.Tactic.FieldSimp
import Mathlib.Tactic.Linarith
/-!
# Reading numbers from texts: helper lemmas
-/

namespace Scisim

theorem isDigitC_iff (c : Char) : isDigitC c = true ↔ ∃ d : Digit, c = d.char := by
  constructor
  · intro h
    simp only [isDigitC, Bool.and_eq_true, decide_eq_true_eq] at h
    have h1 : (48 : ℕ) ≤ c.toNat := h.1
    have h2 : c.toNat ≤ 57 := h.2
    refine ⟨⟨c.toNat - 48, by omega⟩, ?_⟩
    have h3 : 48 + (c.toNat - 48) = c.toNat := by omega
    show c = Char.ofNat (48 + (c.toNat - 48))
    rw [h3]
    exact (Char.ofNat_toNat c).symm
  · rintro ⟨d, rfl⟩
    exact d.isDigit

/-- The text does not begin with a digit -/
def NoDigit (s : List Char) : Prop := ∀ c, s.head? = some c → ¬ ∃ d : Digit, c = d.char

theorem span_digits (ds : List Digit) (rest : List Char) (h : NoDigit rest) :
    (digitText ds ++ rest).takeWhile isDigitC = digitText ds ∧ (digitText ds ++ rest).dropWhile isDigitC = rest := by
  induction ds with
  | nil =>
    cases rest with
    | nil => exact ⟨rfl, rfl⟩
    | cons c t =>
      have hc : isDigitC c = false := by
        rw [Bool.eq_false_iff]
        exact fun hd => h c rfl ((isDigitC_iff c).mp hd)
      simp [digitText, hc]
  | cons d ds ih =>
    have := d.isDigit
    simp only [digitText, List.map_cons, List.cons_append, List.takeWhile_cons, List.dropWhile_cons, this, if_true]
    exact ⟨by rw [← digitText, ih.1], ih.2⟩

theorem exists_digits (s : List Char) : ∃ ds rest, s = digitText ds ++ rest ∧ NoDigit rest := by
  induction s with
  | nil => exact ⟨[], [], rfl, by intro c hc; cases hc⟩
  | cons c t ih =>
    by_cases h : ∃ d : Digit, c = d.char
    · obtain ⟨d, rfl⟩ := h
      obtain ⟨ds, rest, rfl, hr⟩ := ih
      exact ⟨d :: ds, rest, rfl, hr⟩
    · refine ⟨[], c :: t, rfl, ?_⟩
      intro c' hc'
      cases hc'
      exact h

theorem digitText_isEmpty (ds : List Digit) : (digitText ds).isEmpty = ds.isEmpty := by cases ds <;> rfl

theorem digitText_append (a b : List Digit) : digitText (a ++ b) = digitText a ++ digitText b := by simp [digitText]

theorem readSign_chars (sg : Sign) (t : List Char) (h : ∀ c, t.head? = some c → c ≠ '-' ∧ c ≠ '+') :
    readSign (sg.chars ++ t) = (decide (sg = .minus), t) := by
  cases sg with
  | none =>
    cases t with
    | nil => rfl
    | cons c t =>
      have := h c rfl
      simp [Sign.chars, readSign, this.1, this.2]
  | plus => simp [Sign.chars, readSign]
  | minus => simp [Sign.chars, readSign]

theorem exists_sign (s : List Char) : ∃ (sg : Sign) (t : List Char), s = sg.chars ++ t ∧ readSign s = (decide (sg = .minus), t) := by
  cases s with
  | nil => exact ⟨.none, [], rfl, rfl⟩
  | cons c t =>
    by_cases h1 : c = '-'
    · exact ⟨.minus, t, by simp [Sign.chars, h1], by simp [readSign, h1]⟩
    · by_cases h2 : c = '+'
      · exact ⟨.plus, t, by simp [Sign.chars, h2], by simp [readSign, h2]⟩
      · exact ⟨.none, c :: t, by simp [Sign.chars], by simp [readSign, h1, h2]⟩

theorem pow10_eq (z : ℤ) : pow10 z = (10 : ℚ) ^ z := by
  cases z with
  | ofNat n => simp [pow10]
  | negSucc n => rw [pow10, zpow_negSucc]; push_cast; rw [one_div]

theorem sign_factor (sg : Sign) (x : ℚ) : (if decide (sg = Sign.minus) = true then -x else x) = sg.factor * x := by
  cases sg <;> simp [Sign.factor]

theorem sign_factor_int (sg : Sign) (x : ℤ) : (if decide (sg = Sign.minus) = true then -x else x) = sg.factor * x := by
  cases sg <;> simp [Sign.factor]

theorem mantissa_value (ip fp : List Digit) (e : ℤ) :
    (digitsVal (digitText ip ++ digitText fp) : ℚ) * pow10 (e - (digitText fp).length) =
      ((digitsNat ip : ℚ) + (digitsNat fp : ℚ) / 10 ^ fp.length) * (10 : ℚ) ^ e := by
  have hl : (digitText fp).length = fp.length := by simp [digitText]
  rw [← digitText_append, digitsVal_text, digitsNat_append, pow10_eq, hl, zpow_sub₀ (by norm_num), zpow_natCast]
  push_cast
  field_simp

theorem scanExponent_some (u : Bool) (sg : Sign) (ds : List Digit) (rest : List Char) (hd : ds ≠ []) (hr : NoDigit rest) :
    scanExponent ((if u then 'E' else 'e') :: (sg.chars ++ digitText ds) ++ rest) = some (sg.factor * digitsNat ds, rest) := by
  have hc : (if u then 'E' else 'e') = 'e' ∨ (if u then 'E' else 'e') = 'E' := by cases u <;> simp
  have hs := readSign_chars sg (digitText ds ++ rest) (by
    obtain ⟨d, ds, rfl⟩ := List.exists_cons_of_ne_nil hd
    intro c hc
    cases hc
    exact ⟨d.ne_minus, d.ne_plus⟩)
  obtain ⟨h1, h2⟩ := span_digits ds rest hr
  have he : ds.isEmpty = false := by cases ds <;> simp_all
  rw [List.cons_append, List.append_assoc, scanExponent, if_pos hc]
  simp only [hs, h1, h2, digitText_isEmpty, he, digitsVal_text]
  simp only [Bool.false_eq_true, if_false, sign_factor_int]

theorem scanExponent_none (rest : List Char) (h : ∀ c, rest.head? = some c → c ≠ 'e' ∧ c ≠ 'E') : scanExponent rest = some (0, rest) := by
  cases rest with
  | nil => rfl
  | cons c t =>
    have := h c rfl
    simp [scanExponent, this.1, this.2]

/-- The exponent as it is written -/
def expText : Option (Bool × Sign × List Digit) → List Char
  | none => []
  | some (u, s, ds) => (if u then 'E' else 'e') :: (s.chars ++ digitText ds)

/-- The fraction as it is written -/
def fracText : Option (List Digit) → List Char
  | none => []
  | some fp => '.' :: digitText fp

theorem Numeral.text_eq (n : Numeral) : n.text = n.sign.chars ++ (digitText n.ip ++ (fracText n.fp ++ expText n.exp)) := by
  obtain ⟨s, ip, fp, e⟩ := n
  cases fp <;> cases e <;> simp [Numeral.text, fracText, expText]

theorem Digit.char_ne_e (d : Digit) : d.char ≠ 'e' ∧ d.char ≠ 'E' := by revert d; decide

/-- The scanner on a numeral -/
theorem scanScalar_numeral (n : Numeral) (hg : n.Grammatical) (rest : List Char) (hr : ∀ c, rest.head? = some c → ¬ n.Continues c) :
    scanScalar (n.text ++ rest) = some (n.value, rest) := by
  obtain ⟨sg, ip, fp, e⟩ := n
  have hnd : NoDigit rest := fun c hc hd => hr c hc (Or.inl hd)
  -- the exponent
  have hexp : scanExponent (expText e ++ rest) = some (Numeral.exponent ⟨sg, ip, fp, e⟩, rest) := by
    cases e with
    | none =>
      apply scanExponent_none
      intro c hc
      have := hr c hc
      simp only [Numeral.Continues, true_and, not_or] at this
      exact ⟨this.2.1.1, this.2.1.2⟩
    | some x =>
      obtain ⟨u, s, ds⟩ := x
      exact scanExponent_some u s ds rest (hg.2 u s ds rfl) hnd
  have hend : NoDigit (expText e ++ rest) := by
    cases e with
    | none => exact hnd
    | some x =>
      obtain ⟨u, s, ds⟩ := x
      intro c hc
      have : c = if u then 'E' else 'e' := by
        simp only [expText, List.cons_append, List.head?_cons, Option.some.injEq] at hc
        exact hc.symm
      rintro ⟨d, rfl⟩
      cases u
      · exact d.char_ne_e.1 this
      · exact d.char_ne_e.2 this
  -- the fraction
  have hfrac : scanFraction (fracText fp ++ (expText e ++ rest)) = (digitText (fp.getD []), expText e ++ rest) := by
    cases fp with
    | none =>
      show scanFraction (expText e ++ rest) = ([], expText e ++ rest)
      cases hx : expText e ++ rest with
      | nil => rfl
      | cons c t =>
        have : c ≠ '.' := by
          cases e with
          | none =>
            intro hc
            exact hr c (by rw [← List.nil_append rest]; exact congrArg List.head? hx) (Or.inr (Or.inr ⟨rfl, rfl, hc⟩))
          | some x =>
            obtain ⟨u, s, ds⟩ := x
            simp only [expText, List.cons_append, List.cons.injEq] at hx
            rw [← hx.1]
            cases u <;> decide
        simp [scanFraction, this]
    | some fp =>
      obtain ⟨h1, h2⟩ := span_digits fp _ hend
      show scanFraction ('.' :: (digitText fp ++ (expText e ++ rest))) = _
      rw [scanFraction, if_pos rfl, h1, h2]
      rfl
  have hmid : NoDigit (fracText fp ++ (expText e ++ rest)) := by
    cases fp with
    | none => exact hend
    | some fp =>
      intro c hc
      cases hc
      rintro ⟨d, hd⟩
      exact d.ne_dot hd.symm
  obtain ⟨h1, h2⟩ := span_digits ip _ hmid
  have hs := readSign_chars sg (digitText ip ++ (fracText fp ++ (expText e ++ rest))) (by
    intro c hc
    cases ip with
    | cons d ip =>
      cases hc
      exact ⟨d.ne_minus, d.ne_plus⟩
    | nil =>
      cases fp with
      | some fp =>
        cases hc
        exact ⟨by decide, by decide⟩
      | none => exact absurd hg.1 (by simp [Numeral.fraction]))
  have hne : (digitText ip ++ digitText (fp.getD [])).isEmpty = false := by
    rw [← digitText_append, digitText_isEmpty]
    rcases hg.1 with h | h
    · obtain ⟨d, ip, rfl⟩ := List.exists_cons_of_ne_nil h
      rfl
    · simp only [Numeral.fraction] at h
      cases ip with
      | nil => simpa using h
      | cons => rfl
  rw [Numeral.text_eq]
  simp only [List.append_assoc]
  unfold scanScalar
  simp only [hs, h1, h2, hfrac, hne, hexp]
  simp only [Bool.false_eq_true, if_false, sign_factor]
  rw [mantissa_value]
  simp only [Numeral.value, Numeral.fraction]
  ring_nf

/-- What the scanner accepts is a numeral -/
theorem scanScalar_some (s : List Char) (q : ℚ) (rest : List Char) (h : scanScalar s = some (q, rest)) :
    ∃ n : Numeral, n.Grammatical ∧ s = n.text ++ rest ∧ q = n.value ∧ ∀ c, rest.head? = some c → ¬ n.Continues c := by
  obtain ⟨sg, t, rfl, hs⟩ := exists_sign s
  obtain ⟨ip, u, rfl, hu⟩ := exists_digits t
  obtain ⟨h1, h2⟩ := span_digits ip u hu
  -- the fraction
  obtain ⟨fp, w, hfw, hfrac, hwd, hwf⟩ : ∃ (fp : Option (List Digit)) (w : List Char), u = fracText fp ++ w ∧
      scanFraction u = (digitText (fp.getD []), w) ∧ NoDigit w ∧ (fp = none → ∀ c, w.head? = some c → c ≠ '.') := by
    cases u with
    | nil => exact ⟨none, [], rfl, rfl, hu, fun _ c hc => by (cases hc)⟩
    | cons c t =>
      by_cases hc : c = '.'
      · subst hc
        obtain ⟨fp, w, rfl, hw⟩ := exists_digits t
        obtain ⟨h1, h2⟩ := span_digits fp w hw
        exact ⟨some fp, w, rfl, by rw [scanFraction, if_pos rfl, h1, h2]; rfl, hw, fun h => by (cases h)⟩
      · refine ⟨none, c :: t, rfl, by simp [scanFraction, hc, digitText], hu, fun _ c' hc' => ?_⟩
        cases hc'
        exact hc
  unfold scanScalar at h
  simp only [hs, h1, h2, hfrac] at h
  split at h
  · cases h
  rename_i hne
  -- the exponent
  have hexp : ∃ (e : Option (Bool × Sign × List Digit)), scanExponent w = some (Numeral.exponent ⟨sg, ip, fp, e⟩, rest) ∧ w = expText e ++ rest ∧
      (∀ u s ds, e = some (u, s, ds) → ds ≠ []) ∧ NoDigit rest ∧ (e = none → ∀ c, rest.head? = some c → c ≠ 'e' ∧ c ≠ 'E') := by
    cases hw : scanExponent w with
    | none => rw [hw] at h; cases h
    | some p =>
      obtain ⟨x, r⟩ := p
      rw [hw] at h
      simp only [Option.some.injEq, Prod.mk.injEq] at h
      have hr : r = rest := h.2
      subst hr
      cases w with
      | nil =>
        simp only [scanExponent, Option.some.injEq, Prod.mk.injEq] at hw
        obtain ⟨rfl, rfl⟩ := hw
        exact ⟨none, rfl, rfl, fun _ _ _ h => by (cases h), hwd, fun _ c hc => by (cases hc)⟩
      | cons c t =>
        by_cases hc : c = 'e' ∨ c = 'E'
        · obtain ⟨sg', t', rfl, hs'⟩ := exists_sign t
          obtain ⟨ds, v, rfl, hv⟩ := exists_digits t'
          obtain ⟨g1, g2⟩ := span_digits ds v hv
          rw [scanExponent, if_pos hc] at hw
          simp only [hs', g1, g2, digitText_isEmpty, digitsVal_text] at hw
          split at hw
          · cases hw
          · rename_i hd
            simp only [Option.some.injEq, Prod.mk.injEq, sign_factor_int] at hw
            obtain ⟨rfl, rfl⟩ := hw
            refine ⟨some (decide (c = 'E'), sg', ds), rfl, ?_, ?_, hv, fun h => by (cases h)⟩
            · rcases hc with rfl | rfl <;> simp [expText]
            · intro u s ds' he
              cases he
              simpa using hd
        · rw [scanExponent, if_neg hc] at hw
          simp only [Option.some.injEq, Prod.mk.injEq] at hw
          obtain ⟨rfl, rfl⟩ := hw
          refine ⟨none, rfl, rfl, fun _ _ _ h => by (cases h), hwd, fun _ c' hc' => ?_⟩
          cases hc'
          exact not_or.mp hc
  obtain ⟨e, hx, hwe, hds, hrd, hre⟩ := hexp
  rw [hx] at h
  simp only [Option.some.injEq, Prod.mk.injEq, and_true, sign_factor, mantissa_value] at h
  refine ⟨⟨sg, ip, fp, e⟩, ⟨?_, hds⟩, ?_, ?_, ?_⟩
  · rw [← digitText_append, digitText_isEmpty] at hne
    by_contra hcon
    rw [not_or, not_not, not_not] at hcon
    have : fp.getD [] = [] := hcon.2
    have h0 : ip = [] := hcon.1
    rw [this, h0] at hne
    exact hne rfl
  · rw [Numeral.text_eq, hfw, hwe]
    simp only [List.append_assoc]
  · rw [← h]
    simp only [Numeral.value, Numeral.fraction]
    ring_nf
  · intro c hc hcon
    rcases hcon with hd | ⟨he, hd⟩ | ⟨he, hf, hd⟩
    · exact hrd c hc hd
    · have := hre he c hc
      rcases hd with hd | hd
      · exact this.1 hd
      · exact this.2 hd
    · simp only at he hf
      subst he
      exact hwf hf c (by rw [hwe]; exact hc) hd

/-! ## White space -/

theorem dropWhile_blank (ws t : List Char) (h : Blank ws) (ht : ∀ c, t.head? = some c → isSpace c = false) : (ws ++ t).dropWhile isSpace = t := by
  induction ws with
  | nil =>
    cases t with
    | nil => rfl
    | cons c t =>
      have := ht c rfl
      simp [this]
  | cons c ws ih =>
    have hc : isSpace c = true := h c (by simp)
    simp only [List.cons_append, List.dropWhile_cons, hc, if_true]
    exact ih fun x hx => h x (by simp [hx])

theorem exists_blank (s : List Char) : ∃ ws, Blank ws ∧ s = ws ++ s.dropWhile isSpace ∧ ∀ c, (s.dropWhile isSpace).head? = some c → isSpace c = false := by
  induction s with
  | nil => exact ⟨[], fun c hc => by (cases hc), rfl, fun c hc => by (cases hc)⟩
  | cons c t ih =>
    by_cases hc : isSpace c = true
    · obtain ⟨ws, h1, h2, h3⟩ := ih
      simp only [List.dropWhile_cons, hc, if_true]
      refine ⟨c :: ws, ?_, by rw [List.cons_append, ← h2], h3⟩
      intro x hx
      rcases List.mem_cons.mp hx with rfl | hx
      · exact hc
      · exact h1 x hx
    · simp only [List.dropWhile_cons, hc]
      refine ⟨[], fun c hc => by (cases hc), rfl, ?_⟩
      intro x hx
      cases hx
      simpa using hc

theorem blank_iff (s : List Char) : s.dropWhile isSpace = [] ↔ Blank s := by
  constructor
  · intro h
    obtain ⟨ws, h1, h2, -⟩ := exists_blank s
    rw [h, List.append_nil] at h2
    rw [h2]
    exact h1
  · intro h
    have := dropWhile_blank s [] h (fun c hc => by cases hc)
    rwa [List.append_nil] at this

theorem Digit.char_no_space (d : Digit) : isSpace d.char = false := d.not_space

theorem Sign.head_no_space (sg : Sign) (t : List Char) (ht : ∀ c, t.head? = some c → isSpace c = false) :
    ∀ c, (sg.chars ++ t).head? = some c → isSpace c = false := by
  intro c hc
  cases sg with
  | none => exact ht c hc
  | plus => cases hc; decide
  | minus => cases hc; decide

theorem Numeral.head_no_space (n : Numeral) (hg : n.Grammatical) (rest : List Char) : ∀ c, (n.text ++ rest).head? = some c → isSpace c = false := by
  rw [Numeral.text_eq, List.append_assoc]
  apply Sign.head_no_space
  intro c hc
  cases hi : n.ip with
  | cons d ip =>
    rw [hi] at hc
    cases hc
    exact d.not_space
  | nil =>
    cases hf : n.fp with
    | some fp =>
      rw [hi, hf] at hc
      cases hc
      decide
    | none =>
      have := hg.1
      rw [hi] at this
      simp [Numeral.fraction, hf] at this

theorem Numeral.text_ne_nil (n : Numeral) (hg : n.Grammatical) : n.text ≠ [] := by
  intro h
  rw [Numeral.text_eq] at h
  simp only [List.append_eq_nil_iff] at h
  obtain ⟨-, h1, h2, -⟩ := h
  have hi : n.ip = [] := by
    cases hx : n.ip with
    | nil => rfl
    | cons => rw [hx] at h1; cases h1
  have hf : n.fp = none := by
    cases hx : n.fp with
    | none => rfl
    | some => rw [hx] at h2; cases h2
  have := hg.1
  rw [hi] at this
  simp [Numeral.fraction, hf] at this

/-- The scanner after white space finds exactly the numerals that a text begins with -/
theorem beginsWith_iff (s : List Char) (rest : List Char) (q : ℚ) :
    scanScalar (s.dropWhile isSpace) = some (q, rest) ↔ ∃ n, BeginsWith s n rest ∧ q = n.value := by
  constructor
  · intro h
    obtain ⟨n, hg, hs, hq, hc⟩ := scanScalar_some _ _ _ h
    obtain ⟨ws, h1, h2, -⟩ := exists_blank s
    exact ⟨n, ⟨ws, h1, by rw [List.append_assoc, ← hs]; exact h2, hg, hc⟩, hq⟩
  · rintro ⟨n, ⟨ws, h1, rfl, hg, hc⟩, rfl⟩
    rw [List.append_assoc, dropWhile_blank ws _ h1 (n.head_no_space hg rest)]
    exact scanScalar_numeral n hg rest hc

theorem doubleRange_iff (q : ℚ) : DoubleRange q ↔ ¬ (q ≥ dblOverflow) ∧ ¬ (q ≤ -dblOverflow) := by
  rw [DoubleRange, abs_lt, ← dblOverflow, not_le, not_le, and_comm]

theorem scan_nil : scanScalar [] = none := rfl

theorem extractScalar_value (s : List Char) (q : ℚ) (rest : List Char) : extractScalar s = .value q rest ↔ BeginsWithNumber s q rest := by
  have key := beginsWith_iff s rest
  unfold extractScalar BeginsWithNumber
  cases hd : s.dropWhile isSpace with
  | nil =>
    rw [hd] at key
    simp only [reduceCtorEq, false_iff]
    rintro ⟨n, hn, rfl, -⟩
    have := (key n.value).mpr ⟨n, hn, rfl⟩
    rw [scan_nil] at this
    cases this
  | cons c t =>
    rw [hd] at key
    simp only
    cases hx : scanScalar (c :: t) with
    | none =>
      simp only [reduceCtorEq, false_iff]
      rintro ⟨n, hn, rfl, -⟩
      have := (key n.value).mpr ⟨n, hn, rfl⟩
      rw [hx] at this
      cases this
    | some p =>
      obtain ⟨x, r⟩ := p
      simp only
      constructor
      · intro h
        split at h
        · cases h
        · rename_i h1
          split at h
          · cases h
          · rename_i h2
            cases h
            obtain ⟨n, hn, hq⟩ := (key q).mp hx
            exact ⟨n, hn, hq, (doubleRange_iff q).mpr ⟨h1, h2⟩⟩
      · rintro ⟨n, hn, hq, hr⟩
        have := (key q).mpr ⟨n, hn, hq⟩
        rw [hx] at this
        cases this
        obtain ⟨h1, h2⟩ := (doubleRange_iff q).mp hr
        rw [if_neg h1, if_neg h2]

theorem extractScalar_nothing (s : List Char) : extractScalar s = .nothing ↔ Blank s := by
  rw [← blank_iff]
  unfold extractScalar
  cases hd : s.dropWhile isSpace with
  | nil => simp
  | cons c t =>
    simp only [reduceCtorEq, iff_false]
    cases scanScalar (c :: t) with
    | none => simp
    | some p =>
      simp only
      split
      · simp
      · split <;> simp

theorem dblOverflow_pos : 0 < dblOverflow := by
  rw [dblOverflow, sub_pos]
  exact pow_lt_pow_right₀ (by norm_num) (by norm_num)

theorem extractScalar_failed (s : List Char) (q : ℚ) : extractScalar s = .failed q ↔ SilentNumber s q := by
  have key := fun rest => beginsWith_iff s rest
  have hb := blank_iff s
  unfold extractScalar SilentNumber
  rw [← dblOverflow]
  cases hd : s.dropWhile isSpace with
  | nil =>
    rw [hd] at key hb
    have hs : Blank s := hb.mp rfl
    simp only [reduceCtorEq, false_iff]
    rintro (⟨-, h, -⟩ | ⟨n, rest, hn, -⟩)
    · exact h hs
    · have := (key rest n.value).mpr ⟨n, hn, rfl⟩
      rw [scan_nil] at this
      cases this
  | cons c t =>
    rw [hd] at key hb
    have hs : ¬ Blank s := fun h => by have := hb.mpr h; cases this
    simp only
    cases hx : scanScalar (c :: t) with
    | none =>
      have hno : ¬ ∃ n rest, BeginsWith s n rest := by
        rintro ⟨n, rest, hn⟩
        have := (key rest n.value).mpr ⟨n, hn, rfl⟩
        rw [hx] at this
        cases this
      simp only [Extracted.failed.injEq]
      constructor
      · rintro rfl
        exact Or.inl ⟨rfl, hs, hno⟩
      · rintro (⟨rfl, -, -⟩ | ⟨n, rest, hn, -⟩)
        · rfl
        · exact absurd ⟨n, rest, hn⟩ hno
    | some p =>
      obtain ⟨x, r⟩ := p
      obtain ⟨n, hn, rfl⟩ := (key r x).mp hx
      simp only
      have uniq : ∀ n' rest, BeginsWith s n' rest → n'.value = n.value := by
        intro n' rest hn'
        have := (key rest n'.value).mpr ⟨n', hn', rfl⟩
        rw [hx, Option.some.injEq, Prod.mk.injEq] at this
        exact this.1.symm
      have hpos := dblOverflow_pos
      constructor
      · intro h
        right
        split at h
        · rename_i h1
          cases h
          exact ⟨n, r, hn, Or.inl ⟨h1, rfl⟩⟩
        · split at h
          · rename_i h1 h2
            cases h
            exact ⟨n, r, hn, Or.inr ⟨h2, rfl⟩⟩
          · cases h
      · rintro (⟨-, -, h⟩ | ⟨n', rest, hn', h | h⟩)
        · exact absurd ⟨n, r, hn⟩ h
        · rw [uniq n' rest hn'] at h
          rw [if_pos h.1, h.2]
        · rw [uniq n' rest hn'] at h
          rw [if_neg (by linarith [h.1]), if_pos h.1, h.2]

/-! ## Integers -/

/-- The scanner of integers after white space -/
theorem beginsWithInteger_iff (s rest : List Char) (sg : Sign) (ds : List Digit) :
    BeginsWithInteger s sg ds rest ↔ ds ≠ [] ∧ NoDigit rest ∧ s.dropWhile isSpace = sg.chars ++ (digitText ds ++ rest) := by
  constructor
  · rintro ⟨ws, h1, rfl, hd, hr⟩
    refine ⟨hd, hr, ?_⟩
    rw [List.append_assoc, List.append_assoc]
    apply dropWhile_blank ws _ h1
    apply Sign.head_no_space
    obtain ⟨d, ds, rfl⟩ := List.exists_cons_of_ne_nil hd
    intro c hc
    cases hc
    exact d.not_space
  · rintro ⟨hd, hr, h⟩
    obtain ⟨ws, h1, h2, -⟩ := exists_blank s
    exact ⟨ws, h1, by rw [h] at h2; simpa using h2, hd, hr⟩

theorem readSign_digits (sg : Sign) (ds : List Digit) (rest : List Char) (hd : ds ≠ []) :
    readSign (sg.chars ++ (digitText ds ++ rest)) = (decide (sg = .minus), digitText ds ++ rest) := by
  apply readSign_chars
  obtain ⟨d, ds, rfl⟩ := List.exists_cons_of_ne_nil hd
  intro c hc
  cases hc
  exact ⟨d.ne_minus, d.ne_plus⟩

/-- Every text is blank, begins with an integer, or has neither -/
theorem integer_cases (s : List Char) : (∃ sg ds rest, BeginsWithInteger s sg ds rest) ∨
    (¬ (∃ sg ds rest, BeginsWithInteger s sg ds rest) ∧ ∃ (b : Bool) (t : List Char), readSign (s.dropWhile isSpace) = (b, t) ∧ t.takeWhile isDigitC = []) := by
  obtain ⟨sg, t, h, hs⟩ := exists_sign (s.dropWhile isSpace)
  obtain ⟨ds, rest, rfl, hr⟩ := exists_digits t
  obtain ⟨h1, h2⟩ := span_digits ds rest hr
  by_cases hd : ds = []
  · right
    subst hd
    refine ⟨?_, _, _, hs, h1⟩
    rintro ⟨sg', ds', rest', h'⟩
    obtain ⟨hd', hr', he'⟩ := (beginsWithInteger_iff _ _ _ _).mp h'
    have hs' := readSign_digits sg' ds' rest' hd'
    rw [← he', hs] at hs'
    obtain ⟨-, hx⟩ := Prod.mk.inj hs'
    obtain ⟨h3, -⟩ := span_digits ds' rest' hr'
    rw [← hx, h1] at h3
    obtain ⟨d, ds', rfl⟩ := List.exists_cons_of_ne_nil hd'
    cases h3
  · exact Or.inl ⟨sg, ds, rest, (beginsWithInteger_iff _ _ _ _).mpr ⟨hd, hr, h⟩⟩

theorem extractBounded_integer (lo hi : ℤ) (s : List Char) (sg : Sign) (ds : List Digit) (rest : List Char) (h : BeginsWithInteger s sg ds rest) :
    extractBounded lo hi s =
      if sg.factor * (digitsNat ds : ℤ) < lo then .failed lo else if hi < sg.factor * (digitsNat ds : ℤ) then .failed hi
      else .value (sg.factor * (digitsNat ds : ℤ)) rest := by
  obtain ⟨hd, hr, he⟩ := (beginsWithInteger_iff _ _ _ _).mp h
  obtain ⟨h1, h2⟩ := span_digits ds rest hr
  have hs := readSign_digits sg ds rest hd
  unfold extractBounded
  rw [he]
  have hemp : ds.isEmpty = false := by cases ds <;> simp_all
  cases hx : sg.chars ++ (digitText ds ++ rest) with
  | nil =>
    obtain ⟨d, ds, rfl⟩ := List.exists_cons_of_ne_nil hd
    cases sg <;> cases hx
  | cons c t =>
    simp only
    rw [← hx, hs]
    simp only [h1, h2, digitText_isEmpty, hemp, digitsVal_text]
    simp only [sign_factor_int, Bool.false_eq_true, if_false]

theorem extractBounded_no_integer (lo hi : ℤ) (s : List Char) (h : ¬ ∃ sg ds rest, BeginsWithInteger s sg ds rest) (hb : ¬ Blank s) :
    extractBounded lo hi s = .failed 0 := by
  rcases integer_cases s with h' | ⟨-, b, t, h1, h2⟩
  · exact absurd h' h
  · rw [← blank_iff] at hb
    unfold extractBounded
    cases hx : s.dropWhile isSpace with
    | nil => exact absurd hx hb
    | cons c u =>
      rw [hx] at h1
      simp only [h1, h2, List.isEmpty_nil, if_true]

theorem extractBounded_blank (lo hi : ℤ) (s : List Char) (hb : Blank s) : extractBounded lo hi s = .nothing := by
  rw [← blank_iff] at hb
  unfold extractBounded
  rw [hb]

theorem BeginsWithInteger.not_blank {s rest : List Char} {sg : Sign} {ds : List Digit} (h : BeginsWithInteger s sg ds rest) : ¬ Blank s := by
  obtain ⟨ws, -, rfl, hd, -⟩ := h
  obtain ⟨d, ds, rfl⟩ := List.exists_cons_of_ne_nil hd
  intro hb
  have := hb d.char (by simp [digitText])
  rw [d.not_space] at this
  cases this

theorem BeginsWithInteger.unique {s rest rest' : List Char} {sg sg' : Sign} {ds ds' : List Digit} (h : BeginsWithInteger s sg ds rest)
    (h' : BeginsWithInteger s sg' ds' rest') : sg.factor * (digitsNat ds : ℤ) = sg'.factor * digitsNat ds' ∧ rest = rest' ∧ digitsNat ds = digitsNat ds' ∧
      (decide (sg = .minus) = decide (sg' = .minus)) := by
  obtain ⟨hd, hr, he⟩ := (beginsWithInteger_iff _ _ _ _).mp h
  obtain ⟨hd', hr', he'⟩ := (beginsWithInteger_iff _ _ _ _).mp h'
  have hs := readSign_digits sg ds rest hd
  have hs' := readSign_digits sg' ds' rest' hd'
  rw [← he] at hs
  rw [← he', hs] at hs'
  obtain ⟨hm, hx⟩ := Prod.mk.inj hs'
  obtain ⟨h1, h2⟩ := span_digits ds rest hr
  obtain ⟨h3, h4⟩ := span_digits ds' rest' hr'
  have hds : digitsNat ds = digitsNat ds' := by
    rw [← digitsVal_text, ← digitsVal_text, ← h1, ← h3, hx]
  refine ⟨?_, by rw [← h2, ← h4, hx], hds, hm⟩
  rw [hds]
  cases sg <;> cases sg' <;> simp_all [Sign.factor]

theorem extractInt32_value (s : List Char) (z : ℤ) : (∃ rest, extractInt32 s = .value z rest) ↔ BeginsWithInt s z := by
  unfold extractInt32 BeginsWithInt
  rcases integer_cases s with ⟨sg, ds, rest, h⟩ | ⟨h, -⟩
  · rw [extractBounded_integer _ _ s sg ds rest h]
    constructor
    · rintro ⟨r, hr⟩
      split at hr
      · cases hr
      · split at hr
        · cases hr
        · cases hr
          exact ⟨sg, ds, rest, h, rfl, by omega, by omega⟩
    · rintro ⟨sg', ds', rest', h', rfl, h1, h2⟩
      obtain ⟨hu, -⟩ := h.unique h'
      refine ⟨rest, ?_⟩
      rw [hu, if_neg (by omega), if_neg (by omega)]
  · constructor
    · rintro ⟨r, hr⟩
      by_cases hb : Blank s
      · rw [extractBounded_blank _ _ s hb] at hr
        cases hr
      · rw [extractBounded_no_integer _ _ s h hb] at hr
        cases hr
    · rintro ⟨sg', ds', rest', h', -⟩
      exact absurd ⟨_, _, _, h'⟩ h

theorem extractBool_value (s : List Char) (b : Bool) : (∃ rest, extractBool s = .value b rest) ↔ BeginsWithFlag s b := by
  unfold extractBool BeginsWithFlag
  rcases integer_cases s with ⟨sg, ds, rest, h⟩ | ⟨h, -⟩
  · rw [extractBounded_integer _ _ s sg ds rest h]
    generalize hv : sg.factor * (digitsNat ds : ℤ) = v
    constructor
    · rintro ⟨r, hr⟩
      refine ⟨sg, ds, rest, h, ?_⟩
      rw [hv]
      split at hr
      · cases hr
      · cases hr
      · rename_i l rest' heq
        split at heq
        · cases heq
        · split at heq
          · cases heq
          · cases heq
            split at hr
            · rename_i h0
              cases hr
              exact h0
            · split at hr
              · rename_i h1
                cases hr
                exact h1
              · cases hr
    · rintro ⟨sg', ds', rest', h', hb⟩
      obtain ⟨hu, -⟩ := h.unique h'
      have hvb : v = if b then 1 else 0 := by rw [← hv, hu, hb]
      refine ⟨rest, ?_⟩
      cases b
      · simp only [Bool.false_eq_true, if_false] at hvb
        subst hvb
        simp
      · simp only [if_true] at hvb
        subst hvb
        simp
  · constructor
    · rintro ⟨r, hr⟩
      by_cases hb : Blank s
      · rw [extractBounded_blank _ _ s hb] at hr
        cases hr
      · rw [extractBounded_no_integer _ _ s h hb] at hr
        cases hr
    · rintro ⟨sg', ds', rest', h', -⟩
      exact absurd ⟨_, _, _, h'⟩ h

theorem extractBool_failed (s : List Char) (b : Bool) : extractBool s = .failed b ↔ SilentFlag s b := by
  unfold extractBool SilentFlag
  rcases integer_cases s with ⟨sg, ds, rest, h⟩ | ⟨h, -⟩
  · rw [extractBounded_integer _ _ s sg ds rest h]
    generalize hv : sg.factor * (digitsNat ds : ℤ) = v
    have hnb := h.not_blank
    constructor
    · intro hr
      right
      split at hr
      · cases hr
      · rename_i l heq
        split at heq
        · cases heq
          cases hr
          exact ⟨by decide, sg, ds, rest, h, by omega, by omega⟩
        · split at heq
          · cases heq
            cases hr
            exact ⟨by decide, sg, ds, rest, h, by omega, by omega⟩
          · cases heq
      · rename_i l rest' heq
        split at heq
        · cases heq
        · split at heq
          · cases heq
          · cases heq
            split at hr
            · cases hr
            · split at hr
              · cases hr
              · cases hr
                exact ⟨rfl, sg, ds, rest, h, by omega, by omega⟩
    · rintro (⟨-, -, hno⟩ | ⟨rfl, sg', ds', rest', h', h0, h1⟩)
      · exact absurd ⟨sg, ds, rest, h⟩ hno
      · obtain ⟨hu, -⟩ := h.unique h'
        rw [← hu, hv] at h0 h1
        by_cases hlo : v < -9223372036854775808
        · rw [if_pos hlo]; rfl
        · rw [if_neg hlo]
          by_cases hhi : 9223372036854775807 < v
          · rw [if_pos hhi]; rfl
          · rw [if_neg hhi]
            simp only
            rw [if_neg h0, if_neg h1]
  · by_cases hb : Blank s
    · rw [extractBounded_blank _ _ s hb]
      simp only [reduceCtorEq, false_iff]
      rintro (⟨-, hnb, -⟩ | ⟨-, sg', ds', rest', h', -⟩)
      · exact hnb hb
      · exact h ⟨_, _, _, h'⟩
    · rw [extractBounded_no_integer _ _ s h hb]
      simp only [Extracted.failed.injEq]
      constructor
      · intro hx
        exact Or.inl ⟨by rw [← hx]; rfl, hb, h⟩
      · rintro (⟨rfl, -, -⟩ | ⟨-, sg', ds', rest', h', -⟩)
        · rfl
        · exact absurd ⟨_, _, _, h'⟩ h

theorem extractBool_nothing (s : List Char) : extractBool s = .nothing ↔ Blank s := by
  constructor
  · intro h
    by_contra hb
    unfold extractBool at h
    rcases integer_cases s with ⟨sg, ds, rest, h'⟩ | ⟨h', -⟩
    · rw [extractBounded_integer _ _ s sg ds rest h'] at h
      split at h
      · rename_i heq
        split at heq
        · cases heq
        · split at heq <;> cases heq
      · cases h
      · split at h
        · cases h
        · split at h <;> cases h
    · rw [extractBounded_no_integer _ _ s h' hb] at h
      cases h
  · intro hb
    unfold extractBool
    rw [extractBounded_blank _ _ s hb]

theorem extractModular_value (m : ℕ) (hm : 0 < m) (s : List Char) (n : ℕ) : (∃ rest, extractModular m s = .value n rest) ↔
    ∃ sg ds rest, BeginsWithInteger s sg ds rest ∧ digitsNat ds < m ∧ (n : ℤ) = (sg.factor * digitsNat ds) % m := by
  have hint : ∀ sg ds rest, BeginsWithInteger s sg ds rest →
      extractModular m s = if m - 1 < digitsNat ds then .failed (m - 1)
        else .value (if decide (sg = .minus) = true then (m - digitsNat ds) % m else digitsNat ds) rest := by
    intro sg ds rest h
    obtain ⟨hd, hr, he⟩ := (beginsWithInteger_iff _ _ _ _).mp h
    obtain ⟨h1, h2⟩ := span_digits ds rest hr
    have hs := readSign_digits sg ds rest hd
    unfold extractModular
    rw [he]
    have hemp : ds.isEmpty = false := by cases ds <;> simp_all
    cases hx : sg.chars ++ (digitText ds ++ rest) with
    | nil =>
      obtain ⟨d, ds, rfl⟩ := List.exists_cons_of_ne_nil hd
      cases sg <;> cases hx
    | cons c t =>
      simp only
      rw [← hx, hs]
      simp only [h1, h2, digitText_isEmpty, hemp, digitsVal_text]
      simp only [Bool.false_eq_true, if_false]
  rcases integer_cases s with ⟨sg, ds, rest, h⟩ | ⟨h, b, t, h1, h2⟩
  · rw [hint sg ds rest h]
    have hval : ∀ (sg : Sign), digitsNat ds ≤ m - 1 →
        (((if decide (sg = .minus) = true then (m - digitsNat ds) % m else digitsNat ds : ℕ) : ℤ)) = (sg.factor * digitsNat ds) % m := by
      intro sg hle
      have hlt : digitsNat ds < m := by omega
      have hpos : ((digitsNat ds : ℤ)) % m = digitsNat ds := Int.emod_eq_of_lt (by positivity) (by exact_mod_cast hlt)
      cases sg with
      | minus =>
        simp only [Sign.factor, decide_true, if_true, neg_mul, one_mul]
        push_cast [Nat.cast_sub hlt.le]
        rw [Int.sub_emod, Int.emod_self, zero_sub, hpos]
      | none => simpa [Sign.factor] using hpos.symm
      | plus => simpa [Sign.factor] using hpos.symm
    constructor
    · rintro ⟨r, hr⟩
      split at hr
      · cases hr
      · rename_i hle
        cases hr
        exact ⟨sg, ds, rest, h, by omega, hval sg (by omega)⟩
    · rintro ⟨sg', ds', rest', h', hlt, hn⟩
      obtain ⟨hu, -, hdd, -⟩ := h.unique h'
      rw [← hdd] at hlt
      rw [← hu, ← hval sg (by omega)] at hn
      exact ⟨rest, by rw [if_neg (by omega), Int.ofNat.inj hn]⟩
  · constructor
    · rintro ⟨r, hr⟩
      unfold extractModular at hr
      cases hx : s.dropWhile isSpace with
      | nil => rw [hx] at hr; cases hr
      | cons c u =>
        rw [hx] at hr h1
        simp only [h1, h2, List.isEmpty_nil, if_true] at hr
        cases hr
    · rintro ⟨sg', ds', rest', h', -⟩
      exact absurd ⟨_, _, _, h'⟩ h

theorem extractUnsigned_value (s : List Char) (n : ℕ) : (∃ rest, extractUnsigned s = .value n rest) ↔ BeginsWithUnsigned s n :=
  extractModular_value 4294967296 (by norm_num) s n

theorem extractSize_value (s : List Char) (n : ℕ) : (∃ rest, extractSize s = .value n rest) ↔ BeginsWithSize s n :=
  extractModular_value 18446744073709551616 (by norm_num) s n

end Scisim
