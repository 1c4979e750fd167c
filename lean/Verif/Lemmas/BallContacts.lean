import Verif.Props.CCD
import Verif.Props.Grid
import Verif.Spec.BallContacts
/-!
# Lemmas about the contact list
-/

namespace Scisim

theorem normSq_sub (a b : V2 ℝ) : (a - b).normSq = distSq a b := by
  simp only [V2.normSq, distSq, V2.sub_x, V2.sub_y]; ring

theorem ballBallIsActive_iff {x0 x1 : V2 ℝ} {r0 r1 : ℝ} (h0 : 0 ≤ r0) (h1 : 0 ≤ r1) :
    ballBallIsActive x0 x1 r0 r1 = true ↔ DiscsMeet x0 r0 x1 r1 := by
  unfold ballBallIsActive
  rw [decide_eq_true_iff, discsMeet_iff h0 h1, normSq_sub, sq]

theorem abs_le_of_inDisc {p c : V2 ℝ} {r : ℝ} (hr : 0 ≤ r) (h : InDisc p c r) :
    c.x - r ≤ p.x ∧ p.x ≤ c.x + r ∧ c.y - r ≤ p.y ∧ p.y ≤ c.y + r := by
  unfold InDisc distSq at h
  have hx : (p.x - c.x) ^ 2 ≤ r ^ 2 := by nlinarith [sq_nonneg (p.y - c.y)]
  have hy : (p.y - c.y) ^ 2 ≤ r ^ 2 := by nlinarith [sq_nonneg (p.x - c.x)]
  have h1 := abs_le_of_sq_le_sq' hx hr
  have h2 := abs_le_of_sq_le_sq' hy hr
  exact ⟨by linarith [h1.1], by linarith [h1.2], by linarith [h2.1], by linarith [h2.2]⟩

theorem boxAround_valid {x : V2 ℝ} {r : ℝ} (hr : 0 < r) : (boxAround x r).Valid := by
  intro i
  fin_cases i
  · show x.x - r < x.x + r; linarith
  · show x.y - r < x.y + r; linarith

theorem boxAround_overlap {x y : V2 ℝ} {r s : ℝ} (hr : 0 ≤ r) (hs : 0 ≤ s) (h : DiscsMeet x r y s) :
    Overlap (boxAround x r) (boxAround y s) := by
  obtain ⟨p, h1, h2⟩ := h
  obtain ⟨a1, a2, a3, a4⟩ := abs_le_of_inDisc hr h1
  obtain ⟨b1, b2, b3, b4⟩ := abs_le_of_inDisc hs h2
  refine ⟨![p.x, p.y], fun i => ?_, fun i => ?_⟩ <;> fin_cases i
  · exact ⟨a1, a2⟩
  · exact ⟨a3, a4⟩
  · exact ⟨b1, b2⟩
  · exact ⟨b3, b4⟩

theorem sweptBox_valid {b : BallStep} (hr : 0 < b.r) : (sweptBox b).Valid := by
  intro i
  have h1 : min b.q1.x b.q0.x ≤ max b.q1.x b.q0.x := min_le_max
  have h2 : min b.q1.y b.q0.y ≤ max b.q1.y b.q0.y := min_le_max
  fin_cases i
  · show min b.q1.x b.q0.x - b.r < max b.q1.x b.q0.x + b.r; linarith
  · show min b.q1.y b.q0.y - b.r < max b.q1.y b.q0.y + b.r; linarith

theorem between (p q t : ℝ) (h0 : 0 ≤ t) (h1 : t ≤ 1) : min q p ≤ (1 - t) * p + t * q ∧ (1 - t) * p + t * q ≤ max q p := by
  have hp1 : min q p ≤ p := min_le_right _ _
  have hq1 : min q p ≤ q := min_le_left _ _
  have hp2 : p ≤ max q p := le_max_right _ _
  have hq2 : q ≤ max q p := le_max_left _ _
  constructor <;> nlinarith

/-- the swept box contains the ball throughout the step -/
theorem sweptBox_contains {b : BallStep} (hr : 0 ≤ b.r) {t : ℝ} (h0 : 0 ≤ t) (h1 : t ≤ 1) {p : V2 ℝ}
    (hp : InDisc p (moveTo b.q0 b.q1 t) b.r) : (sweptBox b).Contains ![p.x, p.y] := by
  obtain ⟨a1, a2, a3, a4⟩ := abs_le_of_inDisc hr hp
  have hx := between b.q0.x b.q1.x t h0 h1
  have hy := between b.q0.y b.q1.y t h0 h1
  simp only [moveTo] at a1 a2 a3 a4
  intro i
  fin_cases i
  · exact ⟨by show min b.q1.x b.q0.x - b.r ≤ p.x; linarith [hx.1], by show p.x ≤ max b.q1.x b.q0.x + b.r; linarith [hx.2]⟩
  · exact ⟨by show min b.q1.y b.q0.y - b.r ≤ p.y; linarith [hy.1], by show p.y ≤ max b.q1.y b.q0.y + b.r; linarith [hy.2]⟩

theorem sweptBox_overlap {a b : BallStep} (ha : 0 ≤ a.r) (hb : 0 ≤ b.r) (h : SweptCollide a b) : Overlap (sweptBox a) (sweptBox b) := by
  obtain ⟨t, h0, h1, p, hp1, hp2⟩ := h
  exact ⟨_, sweptBox_contains ha h0 h1 hp1, sweptBox_contains hb h0 h1 hp2⟩

theorem ccd_isSome {a b : BallStep} (ha : 0 ≤ a.r) (hb : 0 ≤ b.r) :
    (∃ t, ballBallCCD a.q0 a.q1 a.r b.q0 b.q1 b.r = some t) ↔ SweptCollide a b := by
  constructor
  · rintro ⟨t, h⟩
    exact ⟨t, C16_sound _ _ _ _ _ _ ha hb t h⟩
  · intro h
    cases hc : ballBallCCD a.q0 a.q1 a.r b.q0 b.q1 b.r with
    | some t => exact ⟨t, rfl⟩
    | none => exact absurd h ((C17_complete _ _ _ _ _ _ ha hb).mp hc)

/-- the narrow phase keeps a pair exactly when the balls collide -/
theorem narrowPhase_some {bs : List BallStep} (hr : ∀ b ∈ bs, 0 < b.r) (p : Nat × Nat) (c : Contact) :
    narrowPhase bs p = some c ↔ ∃ a b, bs[p.1]? = some a ∧ bs[p.2]? = some b ∧ SweptCollide a b ∧
      c = .ballBall (mkBallBall p.1 p.2 a.q0 b.q0 a.r b.r false) := by
  unfold narrowPhase
  cases h1 : bs[p.1]? with
  | none => simp
  | some a =>
    cases h2 : bs[p.2]? with
    | none => simp
    | some b =>
      have ha := hr a (List.mem_of_getElem? h1)
      have hb := hr b (List.mem_of_getElem? h2)
      have := ccd_isSome ha.le hb.le
      cases h3 : ballBallCCD a.q0 a.q1 a.r b.q0 b.q1 b.r with
      | none =>
        simp only [h3]
        simp only [h3, reduceCtorEq, exists_false, false_iff] at this
        constructor
        · intro h; cases h
        · rintro ⟨a', b', ha', hb', hs, _⟩
          cases ha'; cases hb'
          exact absurd hs this
      | some t =>
        simp only [h3]
        simp only [h3] at this
        constructor
        · intro h
          cases h
          exact ⟨a, b, rfl, rfl, this.mp ⟨t, rfl⟩, rfl⟩
        · rintro ⟨a', b', ha', hb', hs, hc⟩
          cases ha'; cases hb'
          rw [hc]

/-! ## Collision sets -/

def sameKey (a b : TeleportedCollision) : Prop := a.fst.body = b.fst.body ∧ a.snd.body = b.snd.body

theorem mem_insertCollision {c d : TeleportedCollision} {s : List TeleportedCollision} (h : d ∈ insertCollision c s) : d = c ∨ d ∈ s := by
  induction s with
  | nil => simpa [insertCollision] using h
  | cons e s ih =>
    unfold insertCollision at h
    split at h
    · rcases List.mem_cons.mp h with h | h
      · exact Or.inl h
      · exact Or.inr h
    · split at h
      · rcases List.mem_cons.mp h with h | h
        · exact Or.inr (h ▸ List.mem_cons_self)
        · rcases ih h with h | h
          · exact Or.inl h
          · exact Or.inr (List.mem_cons_of_mem _ h)
      · exact Or.inr h

theorem insertCollision_mono {c d : TeleportedCollision} {s : List TeleportedCollision} (h : d ∈ s) : d ∈ insertCollision c s := by
  induction s with
  | nil => simp at h
  | cons e s ih =>
    unfold insertCollision
    split
    · exact List.mem_cons_of_mem _ h
    · split
      · rcases List.mem_cons.mp h with h | h
        · exact h ▸ List.mem_cons_self
        · exact List.mem_cons_of_mem _ (ih h)
      · exact h

theorem insertCollision_has {c : TeleportedCollision} {s : List TeleportedCollision} : ∃ d ∈ insertCollision c s, sameKey d c := by
  induction s with
  | nil => exact ⟨c, by simp [insertCollision], rfl, rfl⟩
  | cons e s ih =>
    unfold insertCollision
    split
    · exact ⟨c, List.mem_cons_self, rfl, rfl⟩
    · split
      · obtain ⟨d, hd, hk⟩ := ih
        exact ⟨d, List.mem_cons_of_mem _ hd, hk⟩
      · rename_i h1 h2
        refine ⟨e, List.mem_cons_self, ?_⟩
        unfold TeleportedCollision.lt at h1 h2
        unfold sameKey
        omega

theorem tc_lt_trans {a b c : TeleportedCollision} (h1 : a.lt b) (h2 : b.lt c) : a.lt c := by
  unfold TeleportedCollision.lt at *
  omega

theorem insertCollision_sorted {c : TeleportedCollision} {s : List TeleportedCollision} (h : s.Pairwise TeleportedCollision.lt) :
    (insertCollision c s).Pairwise TeleportedCollision.lt := by
  induction s with
  | nil => simp [insertCollision]
  | cons e s ih =>
    rw [List.pairwise_cons] at h
    unfold insertCollision
    split
    · rename_i hc
      refine List.pairwise_cons.mpr ⟨fun d hd => ?_, List.pairwise_cons.mpr h⟩
      rcases List.mem_cons.mp hd with hd | hd
      · exact hd ▸ hc
      · exact tc_lt_trans hc (h.1 d hd)
    · split
      · rename_i hc
        refine List.pairwise_cons.mpr ⟨fun d hd => ?_, ih h.2⟩
        rcases mem_insertCollision hd with hd | hd
        · exact hd ▸ hc
        · exact h.1 d hd
      · exact List.pairwise_cons.mpr h

/-- inserting a list of collisions one after the other -/
theorem foldl_collisions (l : List TeleportedCollision) (s : List TeleportedCollision) (hs : s.Pairwise TeleportedCollision.lt) :
    (l.foldl (fun s c => insertCollision c s) s).Pairwise TeleportedCollision.lt ∧
    (∀ d ∈ l.foldl (fun s c => insertCollision c s) s, d ∈ l ∨ d ∈ s) ∧
    (∀ d, d ∈ l ∨ d ∈ s → ∃ e ∈ l.foldl (fun s c => insertCollision c s) s, sameKey e d) := by
  induction l generalizing s with
  | nil => exact ⟨hs, fun d hd => Or.inr hd, fun d hd => ⟨d, by simpa using hd, rfl, rfl⟩⟩
  | cons c l ih =>
    obtain ⟨h1, h2, h3⟩ := ih (insertCollision c s) (insertCollision_sorted hs)
    refine ⟨h1, fun d hd => ?_, fun d hd => ?_⟩
    · rcases h2 d hd with h | h
      · exact Or.inl (List.mem_cons_of_mem _ h)
      · rcases mem_insertCollision h with h | h
        · exact Or.inl (h ▸ List.mem_cons_self)
        · exact Or.inr h
    · rcases hd with hd | hd
      · rcases List.mem_cons.mp hd with hd | hd
        · obtain ⟨e, he, hk⟩ := insertCollision_has (c := c) (s := s)
          obtain ⟨f, hf, hk'⟩ := h3 e (Or.inr he)
          refine ⟨f, hf, hd ▸ ⟨hk'.1.trans hk.1, hk'.2.trans hk.2⟩⟩
        · exact h3 d (Or.inl hd)
      · exact h3 d (Or.inr (insertCollision_mono hd))

end Scisim
