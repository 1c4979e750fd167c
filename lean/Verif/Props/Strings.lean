import Verif.Model.Strings
import Mathlib.Tactic.Conv
import Mathlib.Tactic.ByContra
/-!
# C04 — tokenising and trimming lose no text
-/

namespace Scisim

theorem splitFirst_some {chr : Char} {s l r : List Char} (h : splitFirst chr s = some (l, r)) :
    s = l ++ chr :: r ∧ chr ∉ l := by
  induction s generalizing l r with
  | nil => simp [splitFirst] at h
  | cons c cs ih =>
    unfold splitFirst at h
    split at h
    · rename_i hc
      simp only [Option.some.injEq, Prod.mk.injEq] at h
      obtain ⟨rfl, rfl⟩ := h
      simp [hc]
    · rename_i hc
      split at h
      · rename_i l' r' heq
        simp only [Option.some.injEq, Prod.mk.injEq] at h
        obtain ⟨rfl, rfl⟩ := h
        obtain ⟨h1, h2⟩ := ih heq
        refine ⟨by rw [h1]; simp, ?_⟩
        simp only [List.mem_cons, not_or]
        exact ⟨fun h => hc h.symm, h2⟩
      · simp at h

theorem splitFirst_none {chr : Char} {s : List Char} (h : splitFirst chr s = none) : chr ∉ s := by
  induction s with
  | nil => simp
  | cons c cs ih =>
    unfold splitFirst at h
    split at h
    · simp at h
    · rename_i hc
      split at h
      · simp at h
      · rename_i heq
        simp only [List.mem_cons, not_or]
        exact ⟨fun h => hc h.symm, ih heq⟩

/-- The loop hands back the text behind the last delimiter; with it the tokens spell the input. -/
theorem tokenizeLoop_spec (chr : Char) (rest : List Char) (tokens : List (List Char)) :
    ∃ new, (tokenizeLoop chr rest tokens).2 = tokens ++ new ∧
      rest = (new.flatMap fun t => t ++ [chr]) ++ (tokenizeLoop chr rest tokens).1 ∧
      (∀ t ∈ new, chr ∉ t) ∧ chr ∉ (tokenizeLoop chr rest tokens).1 := by
  fun_induction tokenizeLoop chr rest tokens with
  | case1 rest tokens l r h ih =>
    obtain ⟨new, h1, h2, h3, h4⟩ := ih
    obtain ⟨e, hl⟩ := splitFirst_some h
    refine ⟨l :: new, by rw [h1]; simp, ?_, ?_, h4⟩
    · rw [e]; conv_lhs => rw [h2]
      simp
    · intro t ht
      rcases List.mem_cons.mp ht with rfl | ht
      · exact hl
      · exact h3 t ht
  | case2 rest tokens h => exact ⟨[], by simp, by simp, by simp, splitFirst_none h⟩

theorem intercalate_snoc (chr : Char) (new : List (List Char)) (last : List Char) :
    List.intercalate [chr] (new ++ [last]) = (new.flatMap fun t => t ++ [chr]) ++ last := by
  induction new with
  | nil => simp [List.intercalate]
  | cons t ts ih =>
    cases ts with
    | nil => simp [List.intercalate]
    | cons u us =>
      simp only [List.cons_append, List.intercalate, List.intersperse_cons_cons,
        List.flatten_cons, List.flatMap_cons] at ih ⊢
      rw [ih]; simp

/-- C04, tokenising: for a non-empty string the pieces contain no delimiter, joined with the delimiter they give back
the string, and there is one more piece than delimiters.  (The three together determine the pieces.) -/
theorem C04_tokenize (str : List Char) (chr : Char) (hne : str ≠ []) :
    ∃ tokens, tokenize str chr = .ok tokens ∧ List.intercalate [chr] tokens = str ∧
      (∀ t ∈ tokens, chr ∉ t) ∧ tokens.length = str.count chr + 1 := by
  obtain ⟨new, h1, h2, h3, h4⟩ := tokenizeLoop_spec chr str []
  generalize hr : tokenizeLoop chr str [] = res at *
  obtain ⟨rest, toks⟩ := res
  simp only [List.nil_append] at h1 h2 h4
  subst h1
  have hcount : str.count chr = toks.length := by
    rw [h2, List.count_append, List.count_eq_zero.mpr h4]
    clear hr h2
    induction toks with
    | nil => simp
    | cons t ts ih =>
      simp only [List.flatMap_cons, List.count_append, List.length_cons] at ih ⊢
      rw [List.count_eq_zero.mpr (h3 t (by simp))]
      have := ih (fun t ht => h3 t (by simp [ht]))
      simp at this ⊢
      omega
  have hbody : (if rest.length > 0 then toks ++ [rest] else toks) ++ (if rest = [] then [[]] else []) = toks ++ [rest] := by
    cases rest <;> simp
  have hlast : ∃ c, str.getLast? = some c ∧ (c = chr ↔ rest = []) := by
    obtain ⟨c, hc⟩ : ∃ c, str.getLast? = some c := by
      cases h : str.getLast? with
      | none => simp at h; exact absurd h hne
      | some c => exact ⟨c, rfl⟩
    refine ⟨c, hc, ?_⟩
    constructor
    · rintro rfl
      by_contra hrest
      have : str.getLast? = rest.getLast? := by
        rw [h2, List.getLast?_append]
        cases hg : rest.getLast? with
        | none => simp at hg; exact absurd hg hrest
        | some x => rfl
      rw [this] at hc
      exact h4 (List.mem_of_getLast? hc)
    · rintro rfl
      have htoks : toks ≠ [] := by
        rintro rfl; simp at h2; exact hne h2
      obtain ⟨ts, t, rfl⟩ : ∃ ts t, toks = ts ++ [t] := ⟨toks.dropLast, toks.getLast htoks, (List.dropLast_concat_getLast htoks).symm⟩
      rw [h2] at hc
      simp at hc
      exact hc.symm
  obtain ⟨c, hc, hcr⟩ := hlast
  refine ⟨toks ++ [rest], ?_, ?_, ?_, ?_⟩
  · unfold tokenize
    simp only [hr, hc]
    rw [← hbody]
    by_cases hrest : rest = []
    · simp [hrest, hcr.mpr hrest]
    · have hcc : c ≠ chr := fun h => hrest (hcr.mp h)
      have : rest.length > 0 := List.length_pos_iff.mpr hrest
      simp [hrest, hcc, this]
  · rw [intercalate_snoc]; exact h2.symm
  · intro t ht
    rcases List.mem_append.mp ht with h | h
    · exact h3 t h
    · simp at h; subst h; exact h4
  · simp [hcount]

example : tokenize "1  2 ".toList ' ' = .ok ["1".toList, [], "2".toList, []] := by
  obtain ⟨t, h, -, -, -⟩ := C04_tokenize "1  2 ".toList ' ' (by decide)
  rw [h]
  have : tokenize "1  2 ".toList ' ' = .ok ["1".toList, [], "2".toList, []] := by
    simp [tokenize, tokenizeLoop, splitFirst]
  rw [← h, this]

/-- C04, the excluded case is real: on the empty string `tokenize` reads `str.back()`, undefined behaviour. -/
theorem C04_tokenize_empty (chr : Char) : tokenize [] chr = .ub := by
  simp [tokenize, tokenizeLoop, splitFirst]

theorem dropWhile_spec (p : Char → Bool) (s : List Char) :
    ∃ a, s = a ++ s.dropWhile p ∧ (∀ c ∈ a, p c = true) ∧ ∀ c, (s.dropWhile p).head? = some c → p c = false := by
  induction s with
  | nil => exact ⟨[], by simp⟩
  | cons c cs ih =>
    by_cases h : p c = true
    · obtain ⟨a, h1, h2, h3⟩ := ih
      refine ⟨c :: a, ?_, ?_, ?_⟩
      · rw [List.dropWhile_cons_of_pos h]; simp [← h1]
      · intro d hd
        rcases List.mem_cons.mp hd with rfl | hd
        · exact h
        · exact h2 d hd
      · rw [List.dropWhile_cons_of_pos h]; exact h3
    · refine ⟨[], ?_, by simp, ?_⟩
      · rw [List.dropWhile_cons_of_neg h]; simp
      · rw [List.dropWhile_cons_of_neg h]
        intro d hd
        simp at hd; subst hd; simpa using h

/-- C04, trimming at the back removes a maximal run of matching characters (white space; also used by
`trimCharacterRight`). -/
theorem dropBack_spec (p : Char → Bool) (s : List Char) :
    ∃ b, s = (s.reverse.dropWhile p).reverse ++ b ∧ (∀ c ∈ b, p c = true) ∧
      ∀ c, (s.reverse.dropWhile p).reverse.getLast? = some c → p c = false := by
  obtain ⟨a, h1, h2, h3⟩ := dropWhile_spec p s.reverse
  refine ⟨a.reverse, ?_, ?_, ?_⟩
  · have := congrArg List.reverse h1
    rw [List.reverse_reverse, List.reverse_append] at this
    exact this
  · intro c hc; exact h2 c (List.mem_reverse.mp hc)
  · intro c hc
    rw [List.getLast?_reverse] at hc
    exact h3 c hc

/-- C04, trimming: the result is what is left of the string after removing a run of white space at each end, and it
neither starts nor ends with white space (so the runs removed were maximal). -/
theorem C04_trim (s : List Char) :
    ∃ a b, s = a ++ trim s ++ b ∧ (∀ c ∈ a ++ b, isSpace c = true) ∧
      (∀ c, (trim s).head? = some c → isSpace c = false) ∧ (∀ c, (trim s).getLast? = some c → isSpace c = false) := by
  obtain ⟨b, h1, h2, h3⟩ := dropBack_spec isSpace s
  obtain ⟨a, g1, g2, g3⟩ := dropWhile_spec isSpace (trimBack s)
  refine ⟨a, b, ?_, ?_, g3, ?_⟩
  · conv_lhs => rw [h1]
    show trimBack s ++ b = _
    conv_lhs => rw [g1]
    rfl
  · intro c hc
    rcases List.mem_append.mp hc with h | h
    · exact g2 c h
    · exact h2 c h
  · intro c hc
    apply h3 c
    show (trimBack s).getLast? = some c
    rw [g1, List.getLast?_append]
    have : (trim s).getLast? = ((trimBack s).dropWhile isSpace).getLast? := rfl
    rw [← this, hc]; rfl

/-- C04: removing white space keeps exactly the other characters, in order. -/
theorem C04_removeWhiteSpace (s : List Char) :
    (removeWhiteSpace s).Sublist s ∧ (∀ c ∈ removeWhiteSpace s, isSpace c = false) ∧
      ∀ c, isSpace c = false → (removeWhiteSpace s).count c = s.count c := by
  refine ⟨List.filter_sublist, ?_, ?_⟩
  · intro c hc
    simpa using (List.mem_filter.mp hc).2
  · intro c hc
    unfold removeWhiteSpace
    rw [List.count_filter]; simp [hc]

/-- C04: trimming a character on the right removes a maximal run of it (including the whole string). -/
theorem C04_trimCharacterRight (s : List Char) (chr : Char) :
    ∃ k, s = trimCharacterRight s chr ++ List.replicate k chr ∧ (trimCharacterRight s chr).getLast? ≠ some chr := by
  obtain ⟨b, h1, h2, h3⟩ := dropBack_spec (fun c => decide (c = chr)) s
  refine ⟨b.length, ?_, ?_⟩
  · have : b = List.replicate b.length chr := by
      rw [List.eq_replicate_iff]
      exact ⟨rfl, fun c hc => by simpa using h2 c hc⟩
    rw [← this]; exact h1
  · intro h
    have := h3 chr h
    simp at this

/-- C04: splitting at the last occurrence loses only that occurrence. -/
theorem C04_splitAtLast (s : List Char) (chr : Char) :
    (chr ∉ s ∧ splitAtLast s chr = (s, [])) ∨
    (s = (splitAtLast s chr).1 ++ chr :: (splitAtLast s chr).2 ∧ chr ∉ (splitAtLast s chr).2) := by
  have key : ∀ s, (splitLast chr s = none ∧ chr ∉ s) ∨
      ∃ l r, splitLast chr s = some (l, r) ∧ s = l ++ chr :: r ∧ chr ∉ r := by
    intro s
    induction s with
    | nil => left; simp [splitLast]
    | cons c cs ih =>
      rcases ih with ⟨h1, h2⟩ | ⟨l, r, h1, h2, h3⟩
      · by_cases hc : c = chr
        · right; exact ⟨[], cs, by simp [splitLast, h1, hc], by simp [hc], h2⟩
        · left
          refine ⟨by simp [splitLast, h1, hc], ?_⟩
          simp only [List.mem_cons, not_or]
          exact ⟨fun h => hc h.symm, h2⟩
      · right; exact ⟨c :: l, r, by simp [splitLast, h1], by simp [h2], h3⟩
  rcases key s with ⟨h1, h2⟩ | ⟨l, r, h1, h2, h3⟩
  · left; exact ⟨h2, by simp [splitAtLast, h1]⟩
  · right; simp only [splitAtLast, h1]; exact ⟨h2, h3⟩

example : splitAtLast "1.2.3".toList '.' = ("1.2".toList, "3".toList) := by decide

end Scisim
