import Verif.Spec.Colours
import Mathlib.Tactic.Linarith
/-! # Lemmas on colours -/

namespace Scisim.Colours
variable {G : Type}

/-- The state after `k` triples -/
def Gen.after (D : Gen G) : ℕ → G → G
  | 0, g => g
  | k + 1, g => Gen.after D k (D.triple g).2

theorem three_eq (D : Gen G) (g) : three D g = D.triple g := rfl

theorem not_visible_iff (c : Colour) : (luminance c > 9 / 10 ∨ luminance c < 1 / 10) ↔ ¬ Visible c := by
  unfold luminance Visible
  constructor
  · rintro (h | h) ⟨h1, h2⟩ <;> linarith
  · intro h
    by_contra hc
    push Not at hc
    exact h ⟨hc.2, hc.1⟩

theorem triples_add (D : Gen G) (j k : ℕ) (g) : D.triples (j + k) g = D.triples j g ++ D.triples k (D.after j g) := by
  induction j generalizing g with
  | zero => simp [Gen.triples, Gen.after]
  | succ j ih =>
    rw [show j + 1 + k = (j + k) + 1 by omega]
    simp only [Gen.triples, Gen.after, List.cons_append, ih]

theorem after_add (D : Gen G) (j k : ℕ) (g) : D.after (j + k) g = D.after k (D.after j g) := by
  induction j generalizing g with
  | zero => simp [Gen.after]
  | succ j ih =>
    rw [show j + 1 + k = (j + k) + 1 by omega]
    simp only [Gen.after, ih]

/-- The visible ones of the first `k` triples -/
def Gen.seen (D : Gen G) (k : ℕ) (g : G) : List Colour := (D.triples k g).filter fun c => Visible c

theorem seen_add (D : Gen G) (j k : ℕ) (g) : D.seen (j + k) g = D.seen j g ++ D.seen k (D.after j g) := by
  simp [Gen.seen, triples_add]

theorem seen_prefix (D : Gen G) {j k : ℕ} (h : j ≤ k) (g) : D.seen j g <+: D.seen k g := by
  obtain ⟨d, rfl⟩ := Nat.exists_eq_add_of_le h
  rw [seen_add]; exact List.prefix_append _ _

theorem pick_spec (D : Gen G) (bound : ℕ) : ∀ c g c' g', pick D bound c g = .ok (c', g') →
    (Visible c ∧ c' = c ∧ g' = g) ∨ (¬ Visible c ∧ ∃ k, g' = D.after k g ∧ D.seen k g = [c']) := by
  induction bound with
  | zero =>
    intro c g c' g' h
    simp only [pick, not_visible_iff] at h
    by_cases hv : Visible c
    · simp [hv] at h; exact .inl ⟨hv, h.1.symm, h.2.symm⟩
    · simp [hv] at h
  | succ k ih =>
    intro c g c' g' h
    simp only [pick, not_visible_iff] at h
    by_cases hv : Visible c
    · simp [hv] at h; exact .inl ⟨hv, h.1.symm, h.2.symm⟩
    · rw [if_pos hv, three_eq] at h
      refine .inr ⟨hv, ?_⟩
      rcases ih _ _ _ _ h with ⟨h1, h2, h3⟩ | ⟨h1, j, h2, h3⟩
      · exact ⟨1, by simp [Gen.after, h3], by simp [Gen.seen, Gen.triples, h1, h2]⟩
      · refine ⟨j + 1, by simp [Gen.after, h2], ?_⟩
        simp only [Gen.seen, Gen.triples] at h3 ⊢
        rw [List.filter_cons_of_neg (by simpa using h1), h3]

theorem white_not_visible : ¬ Visible (1, 1, 1) := by unfold Visible; norm_num

theorem fill_spec (D : Gen G) (bound : ℕ) : ∀ n g r, fill D bound n g = .ok r → ∃ k, r.2 = D.after k g ∧ r.1 = D.seen k g ∧ r.1.length = n := by
  intro n
  induction n with
  | zero => intro g r h; simp only [fill, Outcome.ok.injEq] at h; subst h; exact ⟨0, rfl, rfl, rfl⟩
  | succ n ih =>
    intro g r h
    obtain ⟨⟨c, g1⟩, e1, h⟩ := Outcome.bind_ok_iff.mp h
    obtain ⟨⟨cs, g2⟩, e2, h⟩ := Outcome.bind_ok_iff.mp h
    simp only [Outcome.ok.injEq] at h
    subst h
    rcases pick_spec D bound _ _ _ _ e1 with ⟨h1, _⟩ | ⟨_, j, h2, h3⟩
    · exact absurd h1 white_not_visible
    · obtain ⟨k, k1, k2, k3⟩ := ih _ _ e2
      simp only at k1 k2 k3 h2
      refine ⟨j + k, ?_, ?_, by simp [k3]⟩
      · simp only; rw [after_add, ← h2, k1]
      · simp only; rw [seen_add, h3, ← h2, k2]; rfl

theorem seen_visible (D : Gen G) (k g) : ∀ c ∈ D.seen k g, Visible c := by
  intro c hc; simpa using (List.mem_filter.mp hc).2

theorem firstVisible_prefix {D : Gen G} {cs ds : List Colour} (h : FirstVisible D cs) (h' : FirstVisible D ds) (hl : cs.length ≤ ds.length) : cs <+: ds := by
  obtain ⟨j, rfl⟩ := h
  obtain ⟨k, rfl⟩ := h'
  rcases Nat.le_total j k with hjk | hjk
  · exact seen_prefix D hjk _
  · have := seen_prefix D hjk D.seed
    have he := this.eq_of_length (le_antisymm this.length_le hl)
    show D.seen j D.seed <+: D.seen k D.seed
    rw [← he]
    exact List.prefix_rfl

theorem restart_spec {D : Gen G} {bound n : ℕ} {s} (h : restart D bound n = .ok s) :
    ∃ k, s.gen = D.after k D.seed ∧ s.colours = D.seen k D.seed ∧ s.colours.length = n := by
  obtain ⟨r, e, h⟩ := Outcome.bind_ok_iff.mp h
  simp only [Outcome.ok.injEq] at h; subst h
  exact fill_spec D bound n _ _ e

/-! ## The loops end -/

theorem pick_ends (D : Gen G) : ∀ k g, (∃ c ∈ D.triples k g, Visible c) → ∀ c bound, k ≤ bound → ∃ r, pick D bound c g = .ok r := by
  intro k
  induction k with
  | zero => intro g h; simp [Gen.triples] at h
  | succ k ih =>
    intro g ⟨c, hc, hv⟩ c0 bound hb
    obtain ⟨bound, rfl⟩ : ∃ b, bound = b + 1 := ⟨bound - 1, by omega⟩
    simp only [pick, not_visible_iff, three_eq]
    by_cases h0 : Visible c0
    · exact ⟨_, by rw [if_neg (not_not.mpr h0)]⟩
    · rw [if_pos h0]
      by_cases h1 : Visible (D.triple g).1
      · cases bound with
        | zero => exact ⟨((D.triple g).1, (D.triple g).2), by simp only [pick, not_visible_iff, h1]; simp⟩
        | succ b => exact ⟨((D.triple g).1, (D.triple g).2), by simp only [pick, not_visible_iff, h1]; simp⟩
      · refine ih _ ?_ _ bound (by omega)
        simp only [Gen.triples, List.mem_cons] at hc
        rcases hc with rfl | hc
        · exact absurd hv h1
        · exact ⟨c, hc, hv⟩

theorem pick_mono (D : Gen G) : ∀ b c g r, pick D b c g = .ok r → ∀ b', b ≤ b' → pick D b' c g = .ok r := by
  intro b
  induction b with
  | zero =>
    intro c g r h b' _
    simp only [pick] at h
    split at h
    · simp at h
    · next hn => cases b' <;> simp only [pick, if_neg hn, h]
  | succ b ih =>
    intro c g r h b' hb
    obtain ⟨b', rfl⟩ : ∃ x, b' = x + 1 := ⟨b' - 1, by omega⟩
    simp only [pick] at h ⊢
    split
    · next hc => rw [if_pos hc] at h; exact ih _ _ _ h b' (by omega)
    · next hc => rwa [if_neg hc] at h

theorem fill_mono (D : Gen G) {b b' : ℕ} (hb : b ≤ b') : ∀ n g r, fill D b n g = .ok r → fill D b' n g = .ok r := by
  intro n
  induction n with
  | zero => intro g r h; exact h
  | succ n ih =>
    intro g r h
    obtain ⟨c, e1, h⟩ := Outcome.bind_ok_iff.mp h
    obtain ⟨cs, e2, h⟩ := Outcome.bind_ok_iff.mp h
    exact Outcome.bind_ok_iff.mpr ⟨c, pick_mono D b _ _ _ e1 b' hb, Outcome.bind_ok_iff.mpr ⟨cs, ih _ _ e2, h⟩⟩

theorem fill_ends (D : Gen G) (h : D.Lively) : ∀ n g, ∃ b r, fill D b n g = .ok r := by
  intro n
  induction n with
  | zero => intro g; exact ⟨0, _, rfl⟩
  | succ n ih =>
    intro g
    obtain ⟨k, hk⟩ := h g
    obtain ⟨c, e1⟩ := pick_ends D k g hk (1, 1, 1) k le_rfl
    obtain ⟨b, r, e2⟩ := ih c.2
    refine ⟨max k b, (c.1 :: r.1, r.2), Outcome.bind_ok_iff.mpr ⟨c, pick_mono D k _ _ _ e1 _ (le_max_left _ _), ?_⟩⟩
    exact Outcome.bind_ok_iff.mpr ⟨r, fill_mono D (le_max_right _ _) _ _ _ e2, rfl⟩

/-! ## Histories -/

/-- Colours of balls while none were removed, and of rigid bodies always -/
def Fresh (D : Gen G) (s : State G) : Prop := ∃ k, s.gen = D.after k D.seed ∧ s.colours = D.seen k D.seed

theorem Fresh.first {D : Gen G} {s} (h : Fresh D s) : FirstVisible D s.colours := ⟨h.choose, h.choose_spec.2⟩

theorem stepBalls_keeps {D : Gen G} {b n : ℕ} {s s'} (h : stepBalls D b n s = .ok s') :
    s'.colours.length = n ∧ (s.colours.length ≤ n → s.colours <+: s'.colours ∧ (Fresh D s → Fresh D s')) ∧ (n ≤ s.colours.length → s'.colours <+: s.colours) ∧
    ((∀ c ∈ s.colours, Visible c) → ∀ c ∈ s'.colours, Visible c) := by
  unfold stepBalls at h
  split at h
  · next hne =>
    simp only at h
    split at h
    · next hgt =>
      obtain ⟨r, e, h⟩ := Outcome.bind_ok_iff.mp h
      simp only [Outcome.ok.injEq] at h; subst h
      obtain ⟨k, k1, k2, k3⟩ := fill_spec D b _ _ _ e
      have ht : s.colours.take n = s.colours := List.take_of_length_le (by omega)
      simp only [ht]
      refine ⟨by simp [k3]; omega, fun _ => ⟨List.prefix_append _ _, ?_⟩, fun hc => by omega, fun hv c hc => ?_⟩
      · rintro ⟨j, j1, j2⟩
        refine ⟨j + k, ?_, ?_⟩
        · simp only; rw [after_add, ← j1, k1]
        · simp only; rw [seen_add, ← j1, ← j2, k2]
      · rcases List.mem_append.mp hc with hc | hc
        · exact hv c hc
        · rw [k2] at hc; exact seen_visible D _ _ c hc
    · next hle =>
      simp only [Outcome.ok.injEq] at h; subst h
      exact ⟨by simp; omega, fun hc => by omega, fun _ => List.take_prefix _ _, fun hv c hc => hv c (List.mem_of_mem_take hc)⟩
  · next heq =>
    simp only [Outcome.ok.injEq] at h; subst h
    simp only [ne_eq, not_not] at heq
    exact ⟨heq, fun _ => ⟨List.prefix_rfl, id⟩, fun _ => List.prefix_rfl, fun hv => hv⟩

theorem stepBodies_keeps {D : Gen G} {b n : ℕ} {s s'} (h : stepBodies D b n s = .ok s') : s'.colours.length = n ∧ (Fresh D s → Fresh D s') := by
  unfold stepBodies at h
  split at h
  · obtain ⟨k, h1, h2, h3⟩ := restart_spec h; exact ⟨h3, fun _ => ⟨k, h1, h2⟩⟩
  · next heq =>
    simp only [Outcome.ok.injEq] at h; subst h
    simp only [ne_eq, not_not] at heq
    exact ⟨heq, id⟩

theorem history_induct {D : Gen G} {b : ℕ} {step} (I : State G → Prop) (hr : ∀ n s, restart D b n = .ok s → s.colours.length = n ∧ I s)
    (hs : ∀ n s s', I s → step D b n s = .ok s' → s'.colours.length = n ∧ I s') :
    ∀ es s s', I s → history D b step es s = .ok s' → s'.colours.length = count es s.colours.length ∧ I s' := by
  intro es
  induction es with
  | nil => intro s s' hi h; simp only [history, Outcome.ok.injEq] at h; subst h; exact ⟨rfl, hi⟩
  | cons e es ih =>
    intro s s' hi h
    obtain ⟨s1, e1, hh⟩ := Outcome.bind_ok_iff.mp h
    cases e with
    | restart n =>
      obtain ⟨h1, h2⟩ := hr n s1 e1
      have := ih s1 s' h2 hh
      rw [h1] at this; exact this
    | step n =>
      obtain ⟨h1, h2⟩ := hs n s s1 hi e1
      have := ih s1 s' h2 hh
      rw [h1] at this; exact this

theorem restart_mono (D : Gen G) {b b' n : ℕ} (hb : b ≤ b') {s} (h : restart D b n = .ok s) : restart D b' n = .ok s := by
  obtain ⟨r, e, h⟩ := Outcome.bind_ok_iff.mp h
  exact Outcome.bind_ok_iff.mpr ⟨r, fill_mono D hb _ _ _ e, h⟩

theorem stepBalls_mono (D : Gen G) {b b' n : ℕ} (hb : b ≤ b') {s s'} (h : stepBalls D b n s = .ok s') : stepBalls D b' n s = .ok s' := by
  unfold stepBalls at h ⊢
  split
  · next h1 =>
    rw [if_pos h1] at h
    simp only at h ⊢
    split
    · next h2 =>
      rw [if_pos h2] at h
      obtain ⟨r, e, h⟩ := Outcome.bind_ok_iff.mp h
      exact Outcome.bind_ok_iff.mpr ⟨r, fill_mono D hb _ _ _ e, h⟩
    · next h2 => rwa [if_neg h2] at h
  · next h1 => rwa [if_neg h1] at h

theorem stepBodies_mono (D : Gen G) {b b' n : ℕ} (hb : b ≤ b') {s s'} (h : stepBodies D b n s = .ok s') : stepBodies D b' n s = .ok s' := by
  unfold stepBodies at h ⊢
  split
  · next h1 => rw [if_pos h1] at h; exact restart_mono D hb h
  · next h1 => rwa [if_neg h1] at h

theorem history_mono {D : Gen G} {step} (hm : ∀ b b' n s s', b ≤ b' → step D b n s = .ok s' → step D b' n s = .ok s') {b b' : ℕ} (hb : b ≤ b') :
    ∀ es s s', history D b step es s = .ok s' → history D b' step es s = .ok s' := by
  intro es
  induction es with
  | nil => intro s s' h; exact h
  | cons e es ih =>
    intro s s' h
    obtain ⟨s1, e1, h⟩ := Outcome.bind_ok_iff.mp h
    refine Outcome.bind_ok_iff.mpr ⟨s1, ?_, ih _ _ h⟩
    cases e with
    | restart n => exact restart_mono D hb e1
    | step n => exact hm b b' n s s1 hb e1

theorem restart_ends {D : Gen G} (h : D.Lively) (n) : ∃ b s, restart D b n = .ok s := by
  obtain ⟨b, r, e⟩ := fill_ends D h n D.seed
  exact ⟨b, _, Outcome.bind_ok_iff.mpr ⟨r, e, rfl⟩⟩

theorem stepBalls_ends {D : Gen G} (h : D.Lively) (n) (s : State G) : ∃ b s', stepBalls D b n s = .ok s' := by
  obtain ⟨b, r, e⟩ := fill_ends D h (n - s.colours.length) s.gen
  refine ⟨b, ?_⟩
  unfold stepBalls
  split
  · simp only
    split
    · exact ⟨_, Outcome.bind_ok_iff.mpr ⟨r, e, rfl⟩⟩
    · exact ⟨_, rfl⟩
  · exact ⟨_, rfl⟩

theorem stepBodies_ends {D : Gen G} (h : D.Lively) (n) (s : State G) : ∃ b s', stepBodies D b n s = .ok s' := by
  obtain ⟨b, r, e⟩ := restart_ends h n
  refine ⟨b, ?_⟩
  unfold stepBodies
  split
  · exact ⟨r, e⟩
  · exact ⟨_, rfl⟩

theorem history_ends {D : Gen G} {step} (h : D.Lively) (hm : ∀ b b' n s s', b ≤ b' → step D b n s = .ok s' → step D b' n s = .ok s') (hs : ∀ n s, ∃ b s', step D b n s = .ok s') :
    ∀ es s, ∃ b s', history D b step es s = .ok s' := by
  intro es
  induction es with
  | nil => intro s; exact ⟨0, s, rfl⟩
  | cons e es ih =>
    intro s
    have he : ∃ b s1, event D b step s e = .ok s1 := by
      cases e with
      | restart n => exact restart_ends h n
      | step n => exact hs n s
    obtain ⟨b1, s1, e1⟩ := he
    obtain ⟨b2, s2, e2⟩ := ih s1
    refine ⟨max b1 b2, s2, Outcome.bind_ok_iff.mpr ⟨s1, ?_, history_mono hm (le_max_right _ _) _ _ _ e2⟩⟩
    cases e with
    | restart n => exact restart_mono D (le_max_left _ _) e1
    | step n => exact hm _ _ n s s1 (le_max_left _ _) e1

theorem grow_fresh {D : Gen G} {b : ℕ} : ∀ es s s', Fresh D s → NeverFewer es s.colours.length → history D b stepBalls es s = .ok s' → Fresh D s' := by
  intro es
  induction es with
  | nil => intro s s' hi _ h; simp only [history, Outcome.ok.injEq] at h; subst h; exact hi
  | cons e es ih =>
    intro s s' hi hn h
    obtain ⟨s1, e1, hh⟩ := Outcome.bind_ok_iff.mp h
    cases e with
    | restart n =>
      obtain ⟨k, h1, h2, h3⟩ := restart_spec e1
      exact ih s1 s' ⟨k, h1, h2⟩ (by rw [h3]; exact hn) hh
    | step n =>
      obtain ⟨h1, h2, _⟩ := stepBalls_keeps e1
      exact ih s1 s' ((h2 hn.1).2 hi) (by rw [h1]; exact hn.2) hh

end Scisim.Colours
