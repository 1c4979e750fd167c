import Verif.Lemmas.SceneText
import Verif.Props.Parsing
import Verif.Props.Strings
import Mathlib.Data.List.SplitOn
/-!
# Lists of numbers and words, and the two readings: helper lemmas
-/

namespace Scisim

theorem BeginsWithNumber.length {s rest : List Char} {q : ℚ} (h : BeginsWithNumber s q rest) : rest.length < s.length := by
  obtain ⟨n, ⟨ws, -, rfl, hg, -⟩, -, -⟩ := h
  have := List.length_pos_of_ne_nil (n.text_ne_nil hg)
  simp only [List.length_append]
  omega

theorem BeginsWithNumber.unique {s rest rest' : List Char} {q q' : ℚ} (h : BeginsWithNumber s q rest) (h' : BeginsWithNumber s q' rest') :
    q = q' ∧ rest = rest' := by
  have h1 := (extractScalar_value s q rest).mpr h
  have h2 := (extractScalar_value s q' rest').mpr h'
  rw [h1] at h2
  injection h2 with h3 h4
  exact ⟨h3, h4⟩

theorem components_spec : ∀ (fuel : ℕ) (s : List Char), s.length ≤ fuel → BeginWithNumbers s (components fuel s)
  | 0, s, h => by
    have hs : s = [] := List.eq_nil_of_length_eq_zero (by omega)
    subst hs
    refine .nil ?_
    rintro ⟨q, rest, hq⟩
    exact absurd hq.length (by simp)
  | fuel + 1, s, h => by
    rw [components]
    cases he : extractScalar s with
    | value q rest =>
      have hq := (extractScalar_value s q rest).mp he
      have := hq.length
      exact .cons hq (components_spec fuel rest (by omega))
    | nothing =>
      refine .nil ?_
      rintro ⟨q, rest, hq⟩
      rw [(extractScalar_value s q rest).mpr hq] at he
      cases he
    | failed x =>
      refine .nil ?_
      rintro ⟨q, rest, hq⟩
      rw [(extractScalar_value s q rest).mpr hq] at he
      cases he

theorem BeginWithNumbers.unique {s : List Char} {l l' : List ℚ} (h : BeginWithNumbers s l) (h' : BeginWithNumbers s l') : l = l' := by
  induction h generalizing l' with
  | nil hn =>
    cases h' with
    | nil => rfl
    | cons hq _ => exact absurd ⟨_, _, hq⟩ hn
  | cons hq _ ih =>
    cases h' with
    | nil hn => exact absurd ⟨_, _, hq⟩ hn
    | cons hq' ht =>
      obtain ⟨rfl, rfl⟩ := hq.unique hq'
      rw [ih ht]

theorem components_iff (s : List Char) (l : List ℚ) : components s.length s = l ↔ BeginWithNumbers s l := by
  constructor
  · rintro rfl
    exact components_spec _ s le_rfl
  · intro h
    exact (components_spec _ s le_rfl).unique h

theorem AreNumbers.begin {s : List Char} {l : List ℚ} (h : AreNumbers s l) : BeginWithNumbers s l := by
  induction h with
  | nil hb =>
    refine .nil ?_
    rintro ⟨q, rest, hq⟩
    have h1 := (extractScalar_value _ q rest).mpr hq
    rw [(extractScalar_nothing _).mpr hb] at h1
    cases h1
  | cons h _ _ ih => exact .cons h ih

/-! ## Words -/

theorem takeWhile_word (w rest : List Char) (hw : ∀ c ∈ w, isSpace c = false) (hr : ∀ c, rest.head? = some c → isSpace c = true) :
    (w ++ rest).takeWhile (fun x => !isSpace x) = w ∧ (w ++ rest).dropWhile (fun x => !isSpace x) = rest := by
  induction w with
  | nil =>
    cases rest with
    | nil => exact ⟨rfl, rfl⟩
    | cons c t =>
      have := hr c rfl
      simp [this]
  | cons c w ih =>
    have hc : isSpace c = false := hw c (by simp)
    have := ih fun x hx => hw x (by simp [hx])
    simp only [List.cons_append, List.takeWhile_cons, List.dropWhile_cons, hc, Bool.not_false, if_true]
    exact ⟨by rw [this.1], this.2⟩

theorem exists_word (s : List Char) : ∃ w rest, s = w ++ rest ∧ (∀ c ∈ w, isSpace c = false) ∧ ∀ c, rest.head? = some c → isSpace c = true := by
  induction s with
  | nil => exact ⟨[], [], rfl, fun c hc => by (cases hc), fun c hc => by (cases hc)⟩
  | cons c t ih =>
    by_cases h : isSpace c = true
    · refine ⟨[], c :: t, rfl, fun c hc => by (cases hc), fun x hx => ?_⟩
      cases hx
      exact h
    · obtain ⟨w, rest, rfl, h1, h2⟩ := ih
      refine ⟨c :: w, rest, rfl, ?_, h2⟩
      intro x hx
      rcases List.mem_cons.mp hx with rfl | hx
      · simpa using h
      · exact h1 x hx

theorem streamWords_spec : ∀ (fuel : ℕ) (s : List Char), s.length ≤ fuel → AreWords s (streamWords fuel s)
  | 0, s, h => by
    have hs : s = [] := List.eq_nil_of_length_eq_zero (by omega)
    subst hs
    exact .nil fun c hc => by cases hc
  | fuel + 1, s, h => by
    rw [streamWords]
    obtain ⟨ws, hb, he, hh⟩ := exists_blank s
    cases hd : s.dropWhile isSpace with
    | nil => exact .nil ((blank_iff s).mp hd)
    | cons c t =>
      simp only
      obtain ⟨w, rest, hx, hw, hr⟩ := exists_word (c :: t)
      obtain ⟨h1, h2⟩ := takeWhile_word w rest hw hr
      rw [hx, h1, h2]
      have hs : s = ws ++ w ++ rest := by rw [List.append_assoc, ← hx, ← hd]; exact he
      have hne : w ≠ [] := by
        rintro rfl
        rw [List.nil_append] at hx
        have e1 := hh c (by rw [hd]; rfl)
        have e2 := hr c (by rw [← hx]; rfl)
        rw [e1] at e2
        cases e2
      have hl : rest.length ≤ fuel := by
        have := List.length_pos_of_ne_nil hne
        rw [hs] at h
        simp only [List.length_append] at h
        omega
      have := AreWords.cons hb ⟨hne, hw⟩ hr (streamWords_spec fuel rest hl)
      rwa [← hs] at this

theorem streamWords_of (s : List Char) (l : List (List Char)) (h : AreWords s l) : ∀ fuel, s.length ≤ fuel → streamWords fuel s = l := by
  induction h with
  | nil hb =>
    intro fuel _
    cases fuel with
    | zero => rfl
    | succ fuel => rw [streamWords, (blank_iff _).mpr hb]
  | @cons ws w rest l hb hw hr _ ih =>
    intro fuel hf
    have hpos := List.length_pos_of_ne_nil hw.1
    simp only [List.length_append] at hf
    cases fuel with
    | zero => omega
    | succ fuel =>
      obtain ⟨c, t, hx⟩ := List.exists_cons_of_ne_nil hw.1
      have hd : (ws ++ w ++ rest).dropWhile isSpace = w ++ rest := by
        rw [List.append_assoc]
        apply dropWhile_blank ws _ hb
        intro x hxx
        rw [hx] at hxx
        cases hxx
        exact hw.2 c (by rw [hx]; simp)
      obtain ⟨h1, h2⟩ := takeWhile_word w rest hw.2 hr
      rw [streamWords, hd]
      have hcons : w ++ rest = c :: (t ++ rest) := by rw [hx]; rfl
      rw [hcons]
      simp only
      rw [← hcons, h1, h2, ih fuel (by omega)]

theorem streamWords_iff (s : List Char) (l : List (List Char)) : streamWords s.length s = l ↔ AreWords s l := by
  constructor
  · rintro rfl
    exact streamWords_spec _ s le_rfl
  · intro h
    exact streamWords_of s l h _ le_rfl

theorem IsEntry.begins {s : List Char} {x : ListScalar} (h : IsEntry s x) : BeginsWithEntry s x := by
  cases x with
  | finite q =>
    obtain ⟨n, hg, rfl, rfl, hd⟩ := h
    exact ⟨[], n, ⟨[], fun _ h => (by cases h), by simp, hg, fun _ h => by cases h⟩, rfl, hd⟩
  | inf b => exact h

theorem extractScalar_inf (b : Bool) : extractScalar (if b then ['-', 'i', 'n', 'f'] else ['i', 'n', 'f']) = .failed 0 := by
  cases b <;> decide +kernel

theorem extractListScalar_ok (s : List Char) (x : ListScalar) : extractListScalar s = .ok x ↔ BeginsWithEntry s x := by
  cases x with
  | finite q =>
    have h : BeginsWithEntry s (.finite q) ↔ ∃ rest, extractScalar s = .value q rest := by simp only [BeginsWithEntry, extractScalar_value]
    rw [h]
    unfold extractListScalar
    cases extractScalar s with
    | value q' rest => simp
    | _ =>
      simp only [reduceCtorEq, exists_false, iff_false]
      split_ifs <;> simp
  | inf b =>
    have hinf := extractScalar_inf b
    constructor
    · unfold extractListScalar
      cases extractScalar s with
      | value q' rest => simp
      | _ =>
        intro h
        simp only at h
        split_ifs at h with h1 h2
        · cases h
          exact h1
        · cases h
          exact h2
    · intro h
      have hs : s = if b then ['-', 'i', 'n', 'f'] else ['i', 'n', 'f'] := h
      rw [← hs] at hinf
      unfold extractListScalar
      rw [hinf, hs]
      cases b
      · rfl
      · rfl

/-! ## The two readings -/

/-- Whatever the first reading understands, the second understands in the same way -/
structure SceneReading.Le (R R' : SceneReading) : Prop where
  number : ∀ s q, R.number s q → R'.number s q
  bareNumber : ∀ s q, R.bareNumber s q → R'.bareNumber s q
  flag : ∀ s q, R.flag s q → R'.flag s q
  bareFlag : ∀ s q, R.bareFlag s q → R'.bareFlag s q
  int : ∀ s q, R.int s q → R'.int s q
  unsigned : ∀ s q, R.unsigned s q → R'.unsigned s q
  size : ∀ s q, R.size s q → R'.size s q
  numbers : ∀ s q, R.numbers s q → R'.numbers s q
  list : ∀ s q, R.list s q → R'.list s q
  timestep : ∀ s q, R.timestep s q → R'.timestep s q

theorem exact_le_lenient : exactReading.Le lenientReading where
  number := fun s q ⟨rest, h, _⟩ => ⟨rest, h⟩
  bareNumber := fun s q ⟨rest, h, _⟩ => Or.inl ⟨rest, h⟩
  flag := fun s b ⟨sg, ds, rest, h, _, h'⟩ => ⟨sg, ds, rest, h, h'⟩
  bareFlag := fun s b ⟨sg, ds, rest, h, _, h'⟩ => Or.inl ⟨sg, ds, rest, h, h'⟩
  int := fun s z ⟨sg, ds, rest, h, _, h'⟩ => ⟨sg, ds, rest, h, h'⟩
  unsigned := by
    rintro s n ⟨sg, ds, rest, h, -, hs, rfl, hlt⟩
    refine ⟨sg, ds, rest, h, hlt, ?_⟩
    cases sg with
    | minus => exact absurd rfl hs
    | none => simp only [Sign.factor, one_mul]; omega
    | plus => simp only [Sign.factor, one_mul]; omega
  size := by
    rintro s n ⟨sg, ds, rest, h, -, hs, rfl, hlt⟩
    refine ⟨sg, ds, rest, h, hlt, ?_⟩
    cases sg with
    | minus => exact absurd rfl hs
    | none => simp only [Sign.factor, one_mul]; omega
    | plus => simp only [Sign.factor, one_mul]; omega
  numbers := fun s l h => h.begin
  list := fun s l ⟨hs, texts, ht, hf, he⟩ => ⟨hs, texts, ht, hf, he.imp fun t x hx => hx.begins⟩
  timestep := by
    rintro s dt ⟨l, hw, hsm, hn, hsp, hr, hpos⟩
    obtain ⟨r, h1, h2⟩ := C02_exact_reading_partial l hw hsm hn s hsp
    have hrd : r = dt := by
      cases r
      cases dt
      simp only [Represents] at h2 hr
      rw [Rat64.mk.injEq]
      exact ⟨by rw [h2.1, hr.1], by rw [h2.2, hr.2]⟩
    subst hrd
    exact ⟨h1, by rw [hr.1]; exact Rat.num_pos.mpr hpos⟩

/-! ## Attributes -/

theorem checked_ok {α : Type} (x : Extracted α) (a : α) : x.checked = .ok a ↔ ∃ rest, x = .value a rest := by
  cases x <;> simp [Extracted.checked]

theorem unchecked_ok {α : Type} (x : Extracted α) (a : α) : x.unchecked = .ok a ↔ (∃ rest, x = .value a rest) ∨ x = .failed a := by
  cases x <;> simp [Extracted.unchecked]

theorem require_ok (nd : XmlNode) (a t : String) : nd.require a = .ok t ↔ nd.attr a = some t := by
  unfold XmlNode.require
  cases nd.attr a <;> simp

theorem requireChild_ok (nd : XmlNode) (a : String) (c : XmlNode) : nd.requireChild a = .ok c ↔ nd.first a = some c := by
  unfold XmlNode.requireChild
  cases nd.first a <;> simp

theorem scalar_ok (nd : XmlNode) (a : String) (q : ℚ) : nd.scalar a = .ok q ↔ ∃ t, nd.attr a = some t ∧ lenientReading.number t.toList q := by
  simp only [XmlNode.scalar, Outcome.bind_eq_ok, require_ok, checked_ok, extractScalar_value]
  rfl

theorem scalarUnchecked_ok (nd : XmlNode) (a : String) (q : ℚ) :
    nd.scalarUnchecked a = .ok q ↔ ∃ t, nd.attr a = some t ∧ lenientReading.bareNumber t.toList q := by
  simp only [XmlNode.scalarUnchecked, Outcome.bind_eq_ok, require_ok, unchecked_ok, extractScalar_value, extractScalar_failed]
  rfl

theorem flag_ok (nd : XmlNode) (a : String) (q : Bool) : nd.flag a = .ok q ↔ ∃ t, nd.attr a = some t ∧ lenientReading.flag t.toList q := by
  simp only [XmlNode.flag, Outcome.bind_eq_ok, require_ok, checked_ok, extractBool_value]
  rfl

theorem flagUnchecked_ok (nd : XmlNode) (a : String) (q : Bool) :
    nd.flagUnchecked a = .ok q ↔ ∃ t, nd.attr a = some t ∧ lenientReading.bareFlag t.toList q := by
  simp only [XmlNode.flagUnchecked, Outcome.bind_eq_ok, require_ok, unchecked_ok, extractBool_value, extractBool_failed]
  rfl

theorem int_ok (nd : XmlNode) (a : String) (q : ℤ) : nd.int a = .ok q ↔ ∃ t, nd.attr a = some t ∧ lenientReading.int t.toList q := by
  simp only [XmlNode.int, Outcome.bind_eq_ok, require_ok, checked_ok, extractInt32_value]
  rfl

theorem unsigned_ok (nd : XmlNode) (a : String) (q : ℕ) : nd.unsigned a = .ok q ↔ ∃ t, nd.attr a = some t ∧ lenientReading.unsigned t.toList q := by
  simp only [XmlNode.unsigned, Outcome.bind_eq_ok, require_ok, checked_ok, extractUnsigned_value]
  rfl

theorem size_ok (nd : XmlNode) (a : String) (q : ℕ) : nd.size a = .ok q ↔ ∃ t, nd.attr a = some t ∧ lenientReading.size t.toList q := by
  simp only [XmlNode.size, Outcome.bind_eq_ok, require_ok, checked_ok, extractSize_value]
  rfl

theorem failIf_ok (b : Bool) (u : Unit) : failIf b = .ok u ↔ b = false := by
  cases b <;> simp [failIf]

theorem mapNodes_ok {α β : Type} (f : α → Outcome β) (l : List α) (r : List β) : mapNodes f l = .ok r ↔ List.Forall₂ (fun a b => f a = .ok b) l r := by
  induction l generalizing r with
  | nil =>
    simp only [mapNodes, Outcome.ok.injEq]
    constructor
    · rintro rfl
      exact .nil
    · intro h
      cases h
      rfl
  | cons a l ih =>
    simp only [mapNodes, Outcome.bind_eq_ok, ih, Outcome.ok.injEq]
    constructor
    · rintro ⟨b, hb, bs, hbs, rfl⟩
      exact .cons hb hbs
    · intro h
      cases h with
      | cons hb hbs => exact ⟨_, hb, _, hbs, rfl⟩

theorem readScalarList_ok (s : List Char) (n : ℕ) (l : List ListScalar) :
    readScalarList s n = .ok l ↔ l.length = n ∧ SpacedList BeginsWithEntry s l := by
  have hf : ∀ texts, mapNodes extractListScalar texts = .ok l ↔ List.Forall₂ BeginsWithEntry texts l := by
    intro texts
    rw [mapNodes_ok]
    exact ⟨fun h => h.imp fun a b => (extractListScalar_ok a b).mp, fun h => h.imp fun a b => (extractListScalar_ok a b).mpr⟩
  by_cases hs : s = []
  · subst hs
    unfold readScalarList
    rw [C04_tokenize_empty]
    constructor
    · intro h
      cases h
    · rintro ⟨-, h, -⟩
      exact absurd rfl h
  · obtain ⟨tokens, ht, hj, hn, -⟩ := C04_tokenize s ' ' hs
    unfold readScalarList
    rw [ht]
    show (if tokens.length ≠ n then Outcome.fail else mapNodes extractListScalar tokens) = .ok l ↔ _
    constructor
    · intro h
      split_ifs at h with hl
      have h := (hf _).mp h
      exact ⟨h.length_eq.symm.trans (not_not.mp hl), hs, tokens, hj.symm, hn, h⟩
    · rintro ⟨hl, -, texts, hj', hn', h⟩
      have h1 : tokens ≠ [] := by
        rintro rfl
        exact hs hj.symm
      have h2 : texts ≠ [] := by
        rintro rfl
        exact hs hj'
      have : tokens = texts := by
        rw [← List.splitOn_intercalate ' ' hn h1, ← List.splitOn_intercalate ' ' hn' h2, hj, hj']
      subst this
      rw [if_neg (by rw [not_not, h.length_eq, hl])]
      exact (hf _).mpr h

/-- A list in an attribute -/
theorem list_ok (nd : XmlNode) (a : String) (n : ℕ) (l : List ListScalar) :
    nd.scalarList a n = .ok l ↔ l.length = n ∧ ∃ t, nd.attr a = some t ∧ lenientReading.list t.toList l := by
  simp only [XmlNode.scalarList, Outcome.bind_eq_ok, require_ok, readScalarList_ok]
  constructor
  · rintro ⟨t, ht, hl, h⟩
    exact ⟨hl, t, ht, h⟩
  · rintro ⟨hl, t, ht, h⟩
    exact ⟨t, ht, hl, h⟩

end Scisim
