import Mathlib.Data.List.Count
import Verif.Lemmas.RigidContacts2D
import Verif.Props.Grid
import Verif.Props.CCD
import Verif.Props.Geometry2D
import Verif.Props.BoxBox
/-!
# The contact list of the 2D rigid body simulation: helper lemmas
-/

namespace Scisim

namespace Step2

variable {s : Step2}

/-! ## The boxes -/

theorem toBox_valid {b : Body2} (hb : b.Solid) (x0 : V2 ℝ) (t0 : ℝ) (x1 : V2 ℝ) (t1 : ℝ) : (toBox (b.geometry.collisionAABB x0 t0 x1 t1)).Valid := by
  obtain ⟨g, f⟩ := b
  cases g with
  | circle r =>
    have hr : (0 : ℝ) < r := hb
    have h1 := min_le_max (a := x0.x) (b := x1.x)
    have h2 := min_le_max (a := x0.y) (b := x1.y)
    intro i
    fin_cases i <;> simp [toBox, Geometry2D.collisionAABB, circleCollisionAABB] <;> linarith
  | box r =>
    obtain ⟨hx, hy⟩ : 0 < r.x ∧ 0 < r.y := hb
    have hcs := Real.sin_sq_add_cos_sq t1
    have hc := abs_nonneg (Real.cos t1)
    have hs := abs_nonneg (Real.sin t1)
    have hpos : 0 < |Real.cos t1| ∨ 0 < |Real.sin t1| := by
      by_contra hcon
      push Not at hcon
      have e1 : Real.cos t1 = 0 := abs_eq_zero.mp (le_antisymm hcon.1 hc)
      have e2 : Real.sin t1 = 0 := abs_eq_zero.mp (le_antisymm hcon.2 hs)
      rw [e1, e2] at hcs
      norm_num at hcs
    have k1 : 0 < |Real.cos t1| * r.x + |Real.sin t1| * r.y := by
      rcases hpos with h | h
      · exact add_pos_of_pos_of_nonneg (mul_pos h hx) (mul_nonneg hs hy.le)
      · exact add_pos_of_nonneg_of_pos (mul_nonneg hc hx.le) (mul_pos h hy)
    have k2 : 0 < |Real.sin t1| * r.x + |Real.cos t1| * r.y := by
      rcases hpos with h | h
      · exact add_pos_of_nonneg_of_pos (mul_nonneg hs hx.le) (mul_pos h hy)
      · exact add_pos_of_pos_of_nonneg (mul_pos h hx) (mul_nonneg hc hy.le)
    intro i
    fin_cases i <;> simp [toBox, Geometry2D.collisionAABB, boxCollisionAABB, boxAABB, rotation2D, M22.cwiseAbs, M22.mulVec] <;> linarith

theorem toBox_contains {box : V2 ℝ × V2 ℝ} {S : Set (V2 ℝ)} (h : Contains2 box S) {z : V2 ℝ} (hz : z ∈ S) : (toBox box).Contains ![z.x, z.y] := by
  obtain ⟨h1, h2, h3, h4⟩ := h z hz
  intro i
  fin_cases i
  · exact ⟨h1, h2⟩
  · exact ⟨h3, h4⟩

/-- The collision box of a body covers it at the end of the step. -/
theorem box_covers_end {b : Body2} (hb : b.Solid) (q0 q1 : Dofs) (i : Nat) {z : V2 ℝ} (hz : z ∈ b.pointsAt q1 i) :
    (toBox (b.geometry.collisionAABB (seg2 q0 i) (ang2 q0 i) (seg2 q1 i) (ang2 q1 i))).Contains ![z.x, z.y] := by
  obtain ⟨g, f⟩ := b
  cases g with
  | circle r =>
    have hr : (0 : ℝ) < r := hb
    refine toBox_contains ((C44_moving_circle (seg2 q0 i) (seg2 q1 i) r hr.le).1 1 zero_le_one le_rfl) ?_
    simpa [lerp2, seg2, Body2.pointsAt, PosedBody2D.points] using hz
  | box r =>
    have h : 0 < r.x ∧ 0 < r.y := hb
    exact toBox_contains (C44_box (seg2 q1 i) (ang2 q1 i) r h.1.le h.2.le).1 hz

theorem collide2_overlap {a b : Body2} {i j : Nat} (ha : a.Solid) (hb : b.Solid) (h : Collide2 s i j a b) :
    Overlap (toBox (a.geometry.collisionAABB (seg2 s.q0 i) (ang2 s.q0 i) (seg2 s.q1 i) (ang2 s.q1 i)))
      (toBox (b.geometry.collisionAABB (seg2 s.q0 j) (ang2 s.q0 j) (seg2 s.q1 j) (ang2 s.q1 j))) := by
  have hends : (∃ z, z ∈ a.pointsAt s.q1 i ∧ z ∈ b.pointsAt s.q1 j) → Overlap
      (toBox (a.geometry.collisionAABB (seg2 s.q0 i) (ang2 s.q0 i) (seg2 s.q1 i) (ang2 s.q1 i)))
      (toBox (b.geometry.collisionAABB (seg2 s.q0 j) (ang2 s.q0 j) (seg2 s.q1 j) (ang2 s.q1 j))) := by
    rintro ⟨z, h1, h2⟩
    exact ⟨_, box_covers_end ha s.q0 s.q1 i h1, box_covers_end hb s.q0 s.q1 j h2⟩
  obtain ⟨ga, fa⟩ := a
  obtain ⟨gb, fb⟩ := b
  cases ga with
  | circle ra =>
    cases gb with
    | circle rb =>
      have h1 : (0 : ℝ) < ra := ha
      have h2 : (0 : ℝ) < rb := hb
      obtain ⟨t, ht0, ht1, z, hza, hzb⟩ := h
      refine ⟨![z.x, z.y], toBox_contains ((C44_moving_circle (seg2 s.q0 i) (seg2 s.q1 i) ra h1.le).1 t ht0 ht1) ?_,
        toBox_contains ((C44_moving_circle (seg2 s.q0 j) (seg2 s.q1 j) rb h2.le).1 t ht0 ht1) ?_⟩
      · simp only [InDisc, distSq, moveTo] at hza
        simp only [discSet, Set.mem_ofPred_eq, lerp2, seg2]
        refine le_trans (le_of_eq ?_) hza
        ring
      · simp only [InDisc, distSq, moveTo] at hzb
        simp only [discSet, Set.mem_ofPred_eq, lerp2, seg2]
        refine le_trans (le_of_eq ?_) hzb
        ring
    | box rb => exact hends h
  | box ra =>
    cases gb with
    | circle rb => exact hends h
    | box rb => exact hends h

theorem collide2_symm {a b : Body2} {i j : Nat} : Collide2 s i j a b ↔ Collide2 s j i b a := by
  have h2 : (∃ z, z ∈ a.pointsAt s.q1 i ∧ z ∈ b.pointsAt s.q1 j) ↔ ∃ z, z ∈ b.pointsAt s.q1 j ∧ z ∈ a.pointsAt s.q1 i :=
    ⟨fun ⟨z, h1, h2⟩ => ⟨z, h2, h1⟩, fun ⟨z, h1, h2⟩ => ⟨z, h2, h1⟩⟩
  obtain ⟨ga, fa⟩ := a
  obtain ⟨gb, fb⟩ := b
  cases ga with
  | circle ra =>
    cases gb with
    | circle rb =>
      constructor
      · rintro ⟨t, h0, h1, z, h3, h4⟩
        exact ⟨t, h0, h1, z, h4, h3⟩
      · rintro ⟨t, h0, h1, z, h3, h4⟩
        exact ⟨t, h0, h1, z, h4, h3⟩
    | box rb => exact h2
  | box ra =>
    cases gb with
    | circle rb => exact h2
    | box rb => exact h2

theorem unsupported2_symm {a b : Body2} (h : Unsupported2 a b) : Unsupported2 b a := by
  obtain ⟨ga, fa⟩ := a
  obtain ⟨gb, fb⟩ := b
  obtain ⟨h1, h2⟩ := h
  refine ⟨fun h => h1 h.symm, ?_⟩
  cases ga <;> cases gb <;> exact h2

/-! ## The narrow phase -/

/-- Both bodies are boxes. -/
def BothBoxes (a b : Body2) : Prop := (∃ ra, a.geometry = .box ra) ∧ ∃ rb, b.geometry = .box rb

theorem bothBoxes_symm {a b : Body2} (h : BothBoxes a b) : BothBoxes b a := ⟨h.2, h.1⟩

theorem mkBodyBody_pair (i j : Nat) (p n : V2 ℝ) (q : Dofs) : (Contact2.mkBodyBody i j p n q).pair = some (min i j, max i j) := rfl

/-- What the narrow phase does for a pair of which the first body is not scripted -/
theorem ordered_spec {i j : Nat} {a b : Body2} (hsa : a.Solid) (hsb : b.Solid) (hf : a.fixed = false) (hu : ¬Unsupported2 a b) :
    ∃ l, s.dispatchOrdered i j a b = .ok l ∧ (∀ c ∈ l, c.pair = some (min i j, max i j) ∧ c.planePair = none) ∧ (l ≠ [] ↔ Collide2 s i j a b) ∧
      l.length ≤ 2 ∧ (l.length ≤ 1 ∨ BothBoxes a b) := by
  have hboxCircle : ∀ (ic ib : Nat) (c b : Body2) (r : ℝ) (rb : V2 ℝ), c.fixed = false → 0 < r → 0 < rb.x → 0 < rb.y →
      ∃ l, s.boxCircleNarrowPhaseCollision ic ib c b r rb = .ok l ∧ (∀ c ∈ l, c.pair = some (min ic ib, max ic ib) ∧ c.planePair = none) ∧
        (l ≠ [] ↔ ∃ z, z ∈ discSet (seg2 s.q1 ic) r ∧ z ∈ boxSet (seg2 s.q1 ib) (ang2 s.q1 ib) rb) ∧ l.length ≤ 1 := by
    intro ic ib c b r rb hc hr hx hy
    unfold boxCircleNarrowPhaseCollision
    rw [if_neg (by simp [hc]), ← C45_exact _ _ _ _ _ hr.le hx hy]
    cases hact : circleBoxIsActive (seg2 s.q1 ic) r (seg2 s.q1 ib) (ang2 s.q1 ib) rb with
    | none => exact ⟨[], rfl, by simp, by simp, by simp⟩
    | some np =>
      obtain ⟨n, p⟩ := np
      dsimp only
      by_cases hbf : b.fixed = true
      · rw [if_neg (by simp [hbf])]
        exact ⟨_, rfl, by simp [Contact2.pair, Contact2.planePair], by simp, by simp⟩
      · rw [if_pos (by simp [hbf])]
        by_cases hlt : ic < ib
        · rw [if_pos hlt]
          exact ⟨_, rfl, by simp [Contact2.mkBodyBody, Contact2.pair, Contact2.planePair], by simp, by simp⟩
        · rw [if_neg hlt]
          exact ⟨_, rfl, by simp [Contact2.mkBodyBody, Contact2.pair, Contact2.planePair, min_comm, max_comm], by simp, by simp⟩
  obtain ⟨ga, fa⟩ := a
  obtain ⟨gb, fb⟩ := b
  dsimp only at hf
  subst hf
  cases ga with
  | circle ra =>
    have hra : (0 : ℝ) < ra := hsa
    cases gb with
    | circle rb =>
      have hrb : (0 : ℝ) < rb := hsb
      refine ⟨_, rfl, ?_⟩
      have hccd := C17_complete (seg2 s.q0 i) (seg2 s.q1 i) ra (seg2 s.q0 j) (seg2 s.q1 j) rb hra.le hrb.le
      unfold circleCircleNarrowPhaseCollision
      dsimp only
      cases hc : ballBallCCD (seg2 s.q0 i) (seg2 s.q1 i) ra (seg2 s.q0 j) (seg2 s.q1 j) rb with
      | none =>
        refine ⟨by simp, ?_, by simp, by simp⟩
        simp only [ne_eq, not_true_eq_false, false_iff]
        exact hccd.mp hc
      | some t =>
        have hcol : Collide2 s i j ⟨.circle ra, false⟩ ⟨.circle rb, fb⟩ := by
          by_contra hcon
          rw [hccd.mpr hcon] at hc
          cases hc
        cases fb <;> exact ⟨by simp [Contact2.pair, Contact2.planePair], by simp [hcol], by simp, by simp⟩
    | box rb =>
      have hrb : 0 < rb.x ∧ 0 < rb.y := hsb
      obtain ⟨l, h1, h2, h3, h4⟩ := hboxCircle i j ⟨.circle ra, false⟩ ⟨.box rb, fb⟩ ra rb rfl hra hrb.1 hrb.2
      exact ⟨l, h1, h2, h3, by omega, Or.inl h4⟩
  | box ra =>
    have hra : 0 < ra.x ∧ 0 < ra.y := hsa
    cases gb with
    | circle rb =>
      have hrb : (0 : ℝ) < rb := hsb
      have hfb : fb = false := by
        by_contra hcon
        exact hu ⟨by simpa using hcon, by simpa using hcon⟩
      obtain ⟨l, h1, h2, h3, h4⟩ := hboxCircle j i ⟨.circle rb, fb⟩ ⟨.box ra, false⟩ rb ra hfb hrb hra.1 hra.2
      refine ⟨l, h1, ?_, ?_, by omega, Or.inl h4⟩
      · rw [min_comm, max_comm]; exact h2
      · rw [h3]
        exact ⟨fun ⟨z, h1, h2⟩ => ⟨z, h2, h1⟩, fun ⟨z, h1, h2⟩ => ⟨z, h2, h1⟩⟩
    | box rb =>
      have hrb : 0 < rb.x ∧ 0 < rb.y := hsb
      have hfb : fb = false := by
        by_contra hcon
        exact hu ⟨by simpa using hcon, trivial⟩
      subst hfb
      obtain ⟨n, pts, h1, h2, _⟩ := C46_exact (seg2 s.q1 i) (ang2 s.q1 i) ra (seg2 s.q1 j) (ang2 s.q1 j) rb 0 hra.1.le hra.2.le hrb.1.le hrb.2.le
      refine ⟨pts.map fun point => .mkBodyBody i j point n s.q0, ?_, ?_, ?_, ?_, Or.inr ⟨⟨ra, rfl⟩, rb, rfl⟩⟩
      · simp [dispatchOrdered, boxBoxNarrowPhaseCollision, h1, Outcome.bind]
      · intro c hc
        obtain ⟨p, _, rfl⟩ := List.mem_map.mp hc
        exact ⟨rfl, rfl⟩
      · rw [ne_eq, List.map_eq_nil_iff]
        exact h2
      · rw [List.length_map]
        by_cases hne : pts = []
        · simp [hne]
        · exact (C46_penetration (seg2 s.q1 i) (ang2 s.q1 i) ra (seg2 s.q1 j) (ang2 s.q1 j) rb 0 n pts hra.1.le hra.2.le hrb.1.le hrb.2.le h1 hne).2.1

theorem dispatch_spec {i j : Nat} {a b : Body2} (hij : i < j) (ha : s.bodies[i]? = some a) (hb : s.bodies[j]? = some b) (hsa : a.Solid) (hsb : b.Solid)
    (hu : ¬Unsupported2 a b) :
    ∃ l, s.dispatchNarrowPhaseCollision (i, j) = .ok l ∧ (∀ c ∈ l, c.pair = some (i, j) ∧ c.planePair = none) ∧
      (l ≠ [] ↔ ¬(a.fixed = true ∧ b.fixed = true) ∧ Collide2 s i j a b) ∧ l.length ≤ 2 ∧ (l.length ≤ 1 ∨ BothBoxes a b) := by
  unfold dispatchNarrowPhaseCollision
  dsimp only
  rw [ha, hb]
  dsimp only
  have hmin : min i j = i := min_eq_left hij.le
  have hmax : max i j = j := max_eq_right hij.le
  by_cases hfa : a.fixed = true
  · by_cases hfb : b.fixed = true
    · rw [if_pos (by simp [hfa, hfb])]
      exact ⟨[], rfl, by simp, by simp [hfa, hfb], by simp, by simp⟩
    · rw [if_neg (by simp [hfb]), if_pos hfa]
      obtain ⟨l, h1, h2, h3, h4, h5⟩ := ordered_spec (s := s) (i := j) (j := i) hsb hsa (by simpa using hfb) (fun h => hu (unsupported2_symm h))
      rw [min_comm, max_comm, hmin, hmax] at h2
      refine ⟨l, h1, h2, ?_, h4, h5.imp_right bothBoxes_symm⟩
      rw [h3, collide2_symm]
      simp [hfb]
  · rw [if_neg (by simp [hfa]), if_neg hfa]
    obtain ⟨l, h1, h2, h3, h4, h5⟩ := ordered_spec (s := s) (i := i) (j := j) hsa hsb (by simpa using hfa) hu
    rw [hmin, hmax] at h2
    refine ⟨l, h1, h2, ?_, h4, h5⟩
    rw [h3]
    simp [hfa]

theorem ordered_exit {i j : Nat} {a b : Body2} (hf : a.fixed = false) (hu : Unsupported2 a b) : s.dispatchOrdered i j a b = .exit := by
  obtain ⟨ga, fa⟩ := a
  obtain ⟨gb, fb⟩ := b
  obtain ⟨h1, h2⟩ := hu
  dsimp only at hf h1
  subst hf
  have hfb : fb = true := by
    cases fb
    · exact absurd rfl h1
    · rfl
  subst hfb
  cases ga with
  | circle ra =>
    cases gb with
    | circle rb => exact h2.elim
    | box rb => cases h2
  | box ra =>
    cases gb with
    | circle rb => rfl
    | box rb => rfl

theorem dispatch_exit {i j : Nat} {a b : Body2} (ha : s.bodies[i]? = some a) (hb : s.bodies[j]? = some b) (hu : Unsupported2 a b) :
    s.dispatchNarrowPhaseCollision (i, j) = .exit := by
  unfold dispatchNarrowPhaseCollision
  dsimp only
  rw [ha, hb]
  dsimp only
  have hne := hu.1
  by_cases hfa : a.fixed = true
  · have hfb : b.fixed = false := by
      rw [hfa] at hne
      simpa using hne.symm
    rw [if_neg (by simp [hfb]), if_pos hfa]
    exact ordered_exit hfb (unsupported2_symm hu)
  · rw [if_neg (by simp [hfa]), if_neg hfa]
    exact ordered_exit (by simpa using hfa) hu

/-! ## The loops -/

theorem collect_spec {α β : Type} (f : α → Outcome (List β)) : ∀ l : List α, (∀ a ∈ l, ∃ here, f a = .ok here) → ∃ out, collect f l = .ok out
  | [], _ => ⟨[], rfl⟩
  | a :: l, h => by
    obtain ⟨here, h1⟩ := h a (by simp)
    obtain ⟨out, h2⟩ := collect_spec f l fun a' ha' => h a' (by simp [ha'])
    exact ⟨here ++ out, by simp [collect, h1, h2, Outcome.bind]⟩

theorem collect_exit {α β : Type} (f : α → Outcome (List β)) : ∀ l : List α, (∀ a ∈ l, (∃ here, f a = .ok here) ∨ f a = .exit) →
    (∃ a ∈ l, f a = .exit) → collect f l = .exit
  | [], _, h => by
    obtain ⟨a, ha, _⟩ := h
    cases ha
  | a :: l, h, hex => by
    rcases h a (by simp) with ⟨here, h1⟩ | h1
    · have hrest : ∃ a ∈ l, f a = .exit := by
        obtain ⟨a', ha', he⟩ := hex
        rcases List.mem_cons.mp ha' with rfl | ha'
        · rw [h1] at he; cases he
        · exact ⟨a', ha', he⟩
      simp [collect, h1, collect_exit f l (fun a' ha' => h a' (by simp [ha'])) hrest, Outcome.bind]
    · simp [collect, h1, Outcome.bind]

theorem collect_count {α β : Type} [BEq α] [LawfulBEq α] (f : α → Outcome (List β)) (g : β → Option α) : ∀ (l : List α) (out : List β), l.Nodup →
    collect f l = .ok out → (∀ a ∈ l, ∀ here, f a = .ok here → ∀ b ∈ here, g b = some a) →
    ∀ x, (x ∉ l → (out.filterMap g).count x = 0) ∧ ∀ here, x ∈ l → f x = .ok here → (out.filterMap g).count x = here.length
  | [], out, _, h, _ => by
    unfold collect at h
    cases h
    simp
  | a :: l, out, hn, h, hg => by
    unfold collect at h
    obtain ⟨here, h1, h⟩ := Outcome.bind_ok_iff.mp h
    obtain ⟨rest, h2, h⟩ := Outcome.bind_ok_iff.mp h
    cases h
    obtain ⟨hna, hnl⟩ := List.nodup_cons.mp hn
    have ih := collect_count f g l rest hnl h2 fun a' ha' => hg a' (by simp [ha'])
    have hhere : here.filterMap g = List.replicate here.length a := by
      have hall := hg a (by simp) here h1
      clear h1 h
      clear * - hall
      induction here with
      | nil => rfl
      | cons b t ihb =>
        rw [List.filterMap_cons, hall b (by simp)]
        dsimp only
        rw [ihb fun b' hb' => hall b' (by simp [hb'])]
        rfl
    intro x
    rw [List.filterMap_append, List.count_append, hhere, List.count_replicate]
    constructor
    · intro hx
      rw [List.mem_cons, not_or] at hx
      rw [if_neg (by simpa using fun h => hx.1 h.symm), (ih x).1 hx.2]
    · intro here' hx hfx
      rcases List.mem_cons.mp hx with rfl | hx
      · rw [h1] at hfx
        cases hfx
        rw [if_pos (by simp), (ih x).1 hna]
        rfl
      · have hne : a ≠ x := fun h => hna (h ▸ hx)
        rw [if_neg (by simpa using hne), (ih x).2 here' hx hfx]
        omega

/-! ## Planes -/

theorem box_below {x n px : V2 ℝ} {theta : ℝ} {r : V2 ℝ} (hx : 0 < r.x) (hy : 0 < r.y) :
    (∃ z ∈ boxSet x theta r, n.dot (z - px) ≤ 0) ↔
      ∃ e ∈ ([(-1, -1), (-1, 1), (1, -1), (1, 1)] : List (ℝ × ℝ)), n.dot (x + (rotation2D theta).mulVec ⟨e.1 * r.x, e.2 * r.y⟩ - px) ≤ 0 := by
  constructor
  · rintro ⟨z, ⟨a, b, ha, hb, rfl⟩, hz⟩
    obtain ⟨ha1, ha2⟩ := abs_le.mp ha
    obtain ⟨hb1, hb2⟩ := abs_le.mp hb
    have hlin : ∀ e : ℝ × ℝ, n.dot (x + (rotation2D theta).mulVec ⟨e.1 * r.x, e.2 * r.y⟩ - px) =
        n.dot (x - px) + e.1 * r.x * (n.x * Real.cos theta + n.y * Real.sin theta) + e.2 * r.y * (n.y * Real.cos theta - n.x * Real.sin theta) := by
      intro e
      simp [V2.dot, rotation2D, M22.mulVec]
      ring
    have hz' : n.dot (x - px) + a * (n.x * Real.cos theta + n.y * Real.sin theta) + b * (n.y * Real.cos theta - n.x * Real.sin theta) ≤ 0 := by
      refine le_trans (le_of_eq ?_) hz
      simp [V2.dot]
      ring
    simp only [hlin]
    generalize n.x * Real.cos theta + n.y * Real.sin theta = u at hz' ⊢
    generalize n.y * Real.cos theta - n.x * Real.sin theta = w at hz' ⊢
    rcases le_total 0 u with hu | hu <;> rcases le_total 0 w with hw | hw
    · exact ⟨(-1, -1), by simp, by nlinarith [mul_nonneg (by linarith : 0 ≤ a + r.x) hu, mul_nonneg (by linarith : 0 ≤ b + r.y) hw]⟩
    · exact ⟨(-1, 1), by simp, by nlinarith [mul_nonneg (by linarith : 0 ≤ a + r.x) hu, mul_nonneg (by linarith : 0 ≤ r.y - b) (by linarith : 0 ≤ -w)]⟩
    · exact ⟨(1, -1), by simp, by nlinarith [mul_nonneg (by linarith : 0 ≤ r.x - a) (by linarith : 0 ≤ -u), mul_nonneg (by linarith : 0 ≤ b + r.y) hw]⟩
    · have k1 := mul_nonneg (by linarith : 0 ≤ r.x - a) (by linarith : 0 ≤ -u)
      have k2 := mul_nonneg (by linarith : 0 ≤ r.y - b) (by linarith : 0 ≤ -w)
      exact ⟨(1, 1), by simp, by nlinarith⟩
  · rintro ⟨e, he, h⟩
    have hab : |e.1 * r.x| ≤ r.x ∧ |e.2 * r.y| ≤ r.y := by
      simp only [List.mem_cons, List.not_mem_nil, or_false] at he
      rcases he with rfl | rfl | rfl | rfl <;> simp [abs_of_pos hx, abs_of_pos hy]
    refine ⟨_, ⟨e.1 * r.x, e.2 * r.y, hab.1, hab.2, rfl⟩, le_trans (le_of_eq ?_) h⟩
    simp [V2.dot, rotation2D, M22.mulVec]
    ring

theorem disc_below {x n px : V2 ℝ} {r : ℝ} (hr : 0 < r) (hn : n.x ^ 2 + n.y ^ 2 = 1) :
    (∃ z ∈ discSet x r, n.dot (z - px) ≤ 0) ↔ n.dot (x - px) ≤ r := by
  constructor
  · rintro ⟨z, hz, h⟩
    simp only [discSet, Set.mem_ofPred_eq] at hz
    simp only [V2.dot, V2.sub_x, V2.sub_y] at h ⊢
    have hcs : (n.x * (x.x - z.x) + n.y * (x.y - z.y)) ^ 2 ≤ r ^ 2 := by
      nlinarith [sq_nonneg (n.x * (x.y - z.y) - n.y * (x.x - z.x))]
    have := abs_le_of_sq_le_sq' hcs hr.le
    linarith [this.2]
  · intro h
    refine ⟨x - r • n, ?_, ?_⟩
    · simp only [discSet, Set.mem_ofPred_eq, V2.sub_x, V2.sub_y, V2.smul_x, V2.smul_y]
      apply le_of_eq
      linear_combination r ^ 2 * hn
    · simp only [V2.dot, V2.sub_x, V2.sub_y, V2.smul_x, V2.smul_y] at h ⊢
      nlinarith

end Step2

end Scisim
