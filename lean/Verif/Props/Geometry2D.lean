import Mathlib.Tactic.Linarith
import Mathlib.Tactic.Positivity
import Mathlib.Tactic.LinearCombination
import Verif.Spec.Geometry2D
/-!
# C44, C45: boxes around plane bodies, circle against box
-/

namespace Scisim

/-! ## C44 -/

/-- **C44** The box of a circle contains it and touches it on every side. -/
theorem C44_circle (x : V2 ℝ) (r : ℝ) (hr : 0 ≤ r) : Contains2 (circleAABB r x) (discSet x r) ∧ Touches2 (circleAABB r x) (discSet x r) := by
  refine ⟨?_, ⟨⟨x.x - r, x.y⟩, ?_, rfl⟩, ⟨⟨x.x + r, x.y⟩, ?_, rfl⟩, ⟨⟨x.x, x.y - r⟩, ?_, rfl⟩, ⟨⟨x.x, x.y + r⟩, ?_, rfl⟩⟩
  · intro z hz
    simp only [discSet, Set.mem_ofPred_eq] at hz
    have hx := abs_le_of_sq_le_sq' (by nlinarith [sq_nonneg (z.y - x.y)] : (z.x - x.x) ^ 2 ≤ r ^ 2) hr
    have hy := abs_le_of_sq_le_sq' (by nlinarith [sq_nonneg (z.x - x.x)] : (z.y - x.y) ^ 2 ≤ r ^ 2) hr
    simp only [circleAABB]
    refine ⟨?_, ?_, ?_, ?_⟩ <;> linarith [hx.1, hx.2, hy.1, hy.2]
  all_goals (simp only [discSet, Set.mem_ofPred_eq]; apply le_of_eq; ring)

example : circleAABB 2 ⟨1, 1⟩ = (⟨-1, -1⟩, ⟨3, 3⟩) := by norm_num [circleAABB]

theorem abs_sign (c : ℝ) : ∃ s : ℝ, |s| = 1 ∧ s * c = |c| := by
  rcases le_total 0 c with h | h
  · exact ⟨1, by norm_num, by rw [abs_of_nonneg h]; ring⟩
  · exact ⟨-1, by norm_num, by rw [abs_of_nonpos h]; ring⟩

/-- **C44** The box of a turned box contains it and touches it on every side. -/
theorem C44_box (x : V2 ℝ) (theta : ℝ) (r : V2 ℝ) (hx : 0 ≤ r.x) (hy : 0 ≤ r.y) :
    Contains2 (boxAABB r x theta) (boxSet x theta r) ∧ Touches2 (boxAABB r x theta) (boxSet x theta r) := by
  have key : ∀ a b c s : ℝ, |a| ≤ r.x → |b| ≤ r.y → |a * c + b * s| ≤ |c| * r.x + |s| * r.y := by
    intro a b c s ha hb
    calc |a * c + b * s| ≤ |a * c| + |b * s| := abs_add_le _ _
      _ = |c| * |a| + |s| * |b| := by rw [abs_mul, abs_mul]; ring
      _ ≤ _ := add_le_add (mul_le_mul_of_nonneg_left ha (abs_nonneg _)) (mul_le_mul_of_nonneg_left hb (abs_nonneg _))
  obtain ⟨sc, hsc, hsc'⟩ := abs_sign (Real.cos theta)
  obtain ⟨ss, hss, hss'⟩ := abs_sign (Real.sin theta)
  have m : ∀ s w : ℝ, |s| = 1 → 0 ≤ w → |s * w| ≤ w ∧ |-s * w| ≤ w := by
    intro s w hs hw
    constructor <;> simp [abs_mul, hs, abs_of_nonneg hw]
  simp only [Contains2, Touches2, boxAABB, rotation2D, M22.cwiseAbs, M22.mulVec, boxSet, abs_neg, V2.sub_x, V2.sub_y, V2.add_x, V2.add_y]
  refine ⟨?_, ⟨_, ⟨-sc * r.x, ss * r.y, (m _ _ hsc hx).2, (m _ _ hss hy).1, rfl⟩, ?_⟩, ⟨_, ⟨sc * r.x, -ss * r.y, (m _ _ hsc hx).1, (m _ _ hss hy).2, rfl⟩, ?_⟩,
    ⟨_, ⟨-ss * r.x, -sc * r.y, (m _ _ hss hx).2, (m _ _ hsc hy).2, rfl⟩, ?_⟩, ⟨_, ⟨ss * r.x, sc * r.y, (m _ _ hss hx).1, (m _ _ hsc hy).1, rfl⟩, ?_⟩⟩
  · rintro z ⟨a, b, ha, hb, rfl⟩
    have h1 := abs_le.mp (key a b (Real.cos theta) (-Real.sin theta) ha hb)
    have h2 := abs_le.mp (key a b (Real.sin theta) (Real.cos theta) ha hb)
    rw [abs_neg] at h1
    refine ⟨?_, ?_, ?_, ?_⟩ <;> dsimp only <;> linarith [h1.1, h1.2, h2.1, h2.2]
  · dsimp only; rw [← hsc', ← hss']; ring
  · dsimp only; rw [← hsc', ← hss']; ring
  · dsimp only; rw [← hsc', ← hss']; ring
  · dsimp only; rw [← hsc', ← hss']; ring

/-- The box of a unit square turned by a quarter turn -/
example : boxAABB ⟨2, 1⟩ ⟨0, 0⟩ (Real.pi / 2) = (⟨-1, -2⟩, ⟨1, 2⟩) := by
  simp [boxAABB, rotation2D, M22.cwiseAbs, M22.mulVec]
  constructor <;> ext <;> simp

/-- **C44** The collision box of a moving circle contains it at every moment of the step, and on each side it is touched at the beginning or at
the end. -/
theorem C44_moving_circle (x0 x1 : V2 ℝ) (r : ℝ) (hr : 0 ≤ r) :
    (∀ t, 0 ≤ t → t ≤ 1 → Contains2 (circleCollisionAABB r x0 x1) (discSet (lerp2 x0 x1 t) r)) ∧
      Touches2 (circleCollisionAABB r x0 x1) (discSet x0 r ∪ discSet x1 r) := by
  constructor
  · intro t h0 h1 z hz
    have hz' := (C44_circle _ r hr).1 z hz
    simp only [circleAABB, lerp2] at hz'
    have lo : ∀ a b : ℝ, min a b ≤ a + t * (b - a) := by
      intro a b
      rcases le_total a b with h | h
      · rw [min_eq_left h]; nlinarith
      · rw [min_eq_right h]; nlinarith
    have hi : ∀ a b : ℝ, a + t * (b - a) ≤ max a b := by
      intro a b
      rcases le_total a b with h | h
      · rw [max_eq_right h]; nlinarith
      · rw [max_eq_left h]; nlinarith
    simp only [circleCollisionAABB]
    refine ⟨?_, ?_, ?_, ?_⟩
    · linarith [lo x0.x x1.x, hz'.1]
    · linarith [hi x0.x x1.x, hz'.2.1]
    · linarith [lo x0.y x1.y, hz'.2.2.1]
    · linarith [hi x0.y x1.y, hz'.2.2.2]
  · obtain ⟨⟨a0, ha0, ha0'⟩, ⟨b0, hb0, hb0'⟩, ⟨c0, hc0, hc0'⟩, ⟨d0, hd0, hd0'⟩⟩ := (C44_circle x0 r hr).2
    obtain ⟨⟨a1, ha1, ha1'⟩, ⟨b1, hb1, hb1'⟩, ⟨c1, hc1, hc1'⟩, ⟨d1, hd1, hd1'⟩⟩ := (C44_circle x1 r hr).2
    simp only [circleAABB] at *
    simp only [Touches2, circleCollisionAABB]
    refine ⟨?_, ?_, ?_, ?_⟩
    · rcases le_total x0.x x1.x with h | h
      · exact ⟨a0, Or.inl ha0, by rw [ha0', min_eq_left h]⟩
      · exact ⟨a1, Or.inr ha1, by rw [ha1', min_eq_right h]⟩
    · rcases le_total x0.x x1.x with h | h
      · exact ⟨b1, Or.inr hb1, by rw [hb1', max_eq_right h]⟩
      · exact ⟨b0, Or.inl hb0, by rw [hb0', max_eq_left h]⟩
    · rcases le_total x0.y x1.y with h | h
      · exact ⟨c0, Or.inl hc0, by rw [hc0', min_eq_left h]⟩
      · exact ⟨c1, Or.inr hc1, by rw [hc1', min_eq_right h]⟩
    · rcases le_total x0.y x1.y with h | h
      · exact ⟨d1, Or.inr hd1, by rw [hd1', max_eq_right h]⟩
      · exact ⟨d0, Or.inl hd0, by rw [hd0', max_eq_left h]⟩

/-- A circle that moves by ten units -/
example : circleCollisionAABB 1 ⟨0, 0⟩ ⟨10, -4⟩ = (⟨-1, -5⟩, ⟨11, 1⟩) := by norm_num [circleCollisionAABB]

/-- The box of a body contains it and touches it on every side. -/
theorem C44_body (b : PosedBody2D) (hb : b.Solid) :
    Contains2 (b.geometry.aabb b.x b.theta) b.points ∧ Touches2 (b.geometry.aabb b.x b.theta) b.points := by
  obtain ⟨g, x, th⟩ := b
  cases g with
  | circle r => exact C44_circle x r (le_of_lt hb)
  | box r => exact C44_box x th r (le_of_lt hb.1) (le_of_lt hb.2)

/-- **C44** The collision box of a moving box is the box of its last pose: it does not cover the step. -/
theorem C44_false_moving_box : ∃ (r x0 x1 : V2 ℝ), ¬ Contains2 (boxCollisionAABB r x0 0 x1 0) (boxSet x0 0 r) := by
  refine ⟨⟨1, 1⟩, ⟨0, 0⟩, ⟨10, 0⟩, fun h => ?_⟩
  have h0 := (h ⟨0, 0⟩ ⟨0, 0, by norm_num, by norm_num, by simp⟩).1
  simp [boxCollisionAABB, boxAABB, rotation2D, M22.cwiseAbs, M22.mulVec] at h0

theorem sceneBoundingBox_go (bs : List PosedBody2D) (hs : ∀ b ∈ bs, b.Solid) :
    ∀ (S : Set (V2 ℝ)) (bb : V2 ℝ × V2 ℝ), Contains2 bb S → Touches2 bb S →
    ∃ bb', bs.foldl (fun bounds b =>
      let bb := PosedBody2D.geometry b |>.aabb b.x b.theta
      match bounds with
      | none => some bb
      | some (lo, hi) => some ((⟨min lo.x bb.1.x, min lo.y bb.1.y⟩ : V2 ℝ), (⟨max hi.x bb.2.x, max hi.y bb.2.y⟩ : V2 ℝ))) (some bb) = some bb' ∧
      Contains2 bb' (S ∪ {z | ∃ b ∈ bs, z ∈ b.points}) ∧ Touches2 bb' (S ∪ {z | ∃ b ∈ bs, z ∈ b.points}) := by
  induction bs with
  | nil =>
    intro S bb h1 h2
    exact ⟨bb, rfl, by simpa using h1, by simpa using h2⟩
  | cons b bs ih =>
    intro S bb hc ht
    obtain ⟨bc, bt⟩ := C44_body b (hs b (by simp))
    obtain ⟨lo, hi⟩ := bb
    obtain ⟨bl, bh⟩ : V2 ℝ × V2 ℝ := b.geometry.aabb b.x b.theta
    have hset : S ∪ {z | ∃ b' ∈ b :: bs, z ∈ b'.points} = (S ∪ b.points) ∪ {z | ∃ b' ∈ bs, z ∈ b'.points} := by
      ext z
      simp only [Set.mem_union, Set.mem_ofPred_eq, List.mem_cons, exists_eq_or_imp, or_assoc]
    rw [hset]
    simp only [List.foldl_cons]
    refine ih (fun b' hb' => hs b' (by simp [hb'])) (S ∪ b.points) _ ?_ ?_
    · rintro z (hz | hz)
      · obtain ⟨h1, h2, h3, h4⟩ := hc z hz
        exact ⟨le_trans (min_le_left _ _) h1, le_trans h2 (le_max_left _ _), le_trans (min_le_left _ _) h3, le_trans h4 (le_max_left _ _)⟩
      · obtain ⟨h1, h2, h3, h4⟩ := bc z hz
        exact ⟨le_trans (min_le_right _ _) h1, le_trans h2 (le_max_right _ _), le_trans (min_le_right _ _) h3, le_trans h4 (le_max_right _ _)⟩
    · obtain ⟨⟨a0, ha0, ha0'⟩, ⟨b0, hb0, hb0'⟩, ⟨c0, hc0, hc0'⟩, ⟨d0, hd0, hd0'⟩⟩ := ht
      obtain ⟨⟨a1, ha1, ha1'⟩, ⟨b1, hb1, hb1'⟩, ⟨c1, hc1, hc1'⟩, ⟨d1, hd1, hd1'⟩⟩ := bt
      dsimp only at *
      refine ⟨?_, ?_, ?_, ?_⟩ <;> dsimp only
      · rcases min_choice lo.x (b.geometry.aabb b.x b.theta).1.x with h | h
        · exact ⟨a0, Or.inl ha0, by rw [h, ha0']⟩
        · exact ⟨a1, Or.inr ha1, by rw [h, ha1']⟩
      · rcases max_choice hi.x (b.geometry.aabb b.x b.theta).2.x with h | h
        · exact ⟨b0, Or.inl hb0, by rw [h, hb0']⟩
        · exact ⟨b1, Or.inr hb1, by rw [h, hb1']⟩
      · rcases min_choice lo.y (b.geometry.aabb b.x b.theta).1.y with h | h
        · exact ⟨c0, Or.inl hc0, by rw [h, hc0']⟩
        · exact ⟨c1, Or.inr hc1, by rw [h, hc1']⟩
      · rcases max_choice hi.y (b.geometry.aabb b.x b.theta).2.y with h | h
        · exact ⟨d0, Or.inl hd0, by rw [h, hd0']⟩
        · exact ⟨d1, Or.inr hd1, by rw [h, hd1']⟩

/-- **C44** The bounding box of a scene with at least one body contains every point of every body and is touched by a body on every side. -/
theorem C44_scene (bodies : List PosedBody2D) (hne : bodies ≠ []) (hs : ∀ b ∈ bodies, b.Solid) :
    ∃ box, sceneBoundingBox bodies = some box ∧ Contains2 box {z | ∃ b ∈ bodies, z ∈ b.points} ∧ Touches2 box {z | ∃ b ∈ bodies, z ∈ b.points} := by
  cases bodies with
  | nil => exact absurd rfl hne
  | cons b bs =>
    obtain ⟨bc, bt⟩ := C44_body b (hs b (by simp))
    obtain ⟨bb', h1, h2, h3⟩ := sceneBoundingBox_go bs (fun b' hb' => hs b' (by simp [hb'])) b.points _ bc bt
    have hset : {z | ∃ b' ∈ b :: bs, z ∈ b'.points} = b.points ∪ {z | ∃ b' ∈ bs, z ∈ b'.points} := by
      ext z
      simp only [Set.mem_union, Set.mem_ofPred_eq, List.mem_cons, exists_eq_or_imp]
    rw [hset]
    exact ⟨bb', h1, h2, h3⟩

/-- A circle and a box -/
example : ∀ b ∈ [(⟨.circle 1, ⟨0, 0⟩, 0⟩ : PosedBody2D), ⟨.box ⟨1, 2⟩, ⟨5, 5⟩, 1⟩], b.Solid := by
  intro b hb
  simp only [List.mem_cons, List.not_mem_nil, or_false] at hb
  rcases hb with rfl | rfl <;> simp [PosedBody2D.Solid]

/-! ## C45 -/

/-- The disc with centre `x` and radius `r` meets the box with half widths `w` centred at the origin -/
def MeetsLocal (x : V2 ℝ) (r : ℝ) (w : V2 ℝ) : Prop := ∃ a b : ℝ, |a| ≤ w.x ∧ |b| ≤ w.y ∧ (a - x.x) ^ 2 + (b - x.y) ^ 2 ≤ r ^ 2

theorem meets_local_iff (x0 : V2 ℝ) (r0 : ℝ) (x1 : V2 ℝ) (th : ℝ) (r1 : V2 ℝ) :
    (∃ z, z ∈ discSet x0 r0 ∧ z ∈ boxSet x1 th r1) ↔ MeetsLocal ((rotation2D th).transpose.mulVec (x0 - x1)) r0 r1 := by
  have hcs := Real.sin_sq_add_cos_sq th
  simp only [MeetsLocal, rotation2D, M22.transpose, M22.mulVec, V2.sub_x, V2.sub_y, discSet, boxSet, Set.mem_ofPred_eq]
  have e : ∀ a b : ℝ, (a - (Real.cos th * (x0.x - x1.x) + Real.sin th * (x0.y - x1.y))) ^ 2 + (b - (-Real.sin th * (x0.x - x1.x) + Real.cos th * (x0.y - x1.y))) ^ 2
      = (x1.x + a * Real.cos th - b * Real.sin th - x0.x) ^ 2 + (x1.y + a * Real.sin th + b * Real.cos th - x0.y) ^ 2 := by
    intro a b
    linear_combination (-(a ^ 2 + b ^ 2) + ((x0.x - x1.x) ^ 2 + (x0.y - x1.y) ^ 2)) * hcs
  constructor
  · rintro ⟨z, hd, a, b, ha, hb, rfl⟩
    refine ⟨a, b, ha, hb, ?_⟩
    rw [e]; exact hd
  · rintro ⟨a, b, ha, hb, h⟩
    rw [e] at h
    exact ⟨_, h, a, b, ha, hb, rfl⟩

theorem meetsLocal_flipX (x : V2 ℝ) (r : ℝ) (w : V2 ℝ) : MeetsLocal ⟨-x.x, x.y⟩ r w ↔ MeetsLocal x r w := by
  constructor
  · rintro ⟨a, b, ha, hb, h⟩
    exact ⟨-a, b, by rwa [abs_neg], hb, by dsimp only at h; nlinarith⟩
  · rintro ⟨a, b, ha, hb, h⟩
    exact ⟨-a, b, by rwa [abs_neg], hb, by dsimp only; nlinarith⟩

theorem meetsLocal_flipY (x : V2 ℝ) (r : ℝ) (w : V2 ℝ) : MeetsLocal ⟨x.x, -x.y⟩ r w ↔ MeetsLocal x r w := by
  constructor
  · rintro ⟨a, b, ha, hb, h⟩
    exact ⟨a, -b, ha, by rwa [abs_neg], by dsimp only at h; nlinarith⟩
  · rintro ⟨a, b, ha, hb, h⟩
    exact ⟨a, -b, ha, by rwa [abs_neg], by dsimp only; nlinarith⟩

theorem corner_spec (xc : V2 ℝ) (r0 : ℝ) (r1 : V2 ℝ) (h0 : 0 ≤ r0) (hx : 0 < r1.x) (hy : 0 < r1.y) (cx : r1.x < xc.x) (cy : r1.y < xc.y) :
    let pd := (xc - r1).normSq
    let n : V2 ℝ := ⟨(xc - r1).x / √pd, (xc - r1).y / √pd⟩
    (pd > r0 * r0 → ¬ MeetsLocal xc r0 r1) ∧
    (¬ pd > r0 * r0 → MeetsLocal xc r0 r1 ∧ √pd - r0 ≤ 0 ∧ n.normSq = 1 ∧ 0 ≤ n.x ∧ 0 ≤ n.y ∧
      MeetsLocal (xc + (-(√pd - r0)) • n) r0 r1 ∧ ∀ e > -(√pd - r0), ¬ MeetsLocal (xc + e • n) r0 r1) := by
  intro pd n
  have hux : 0 < xc.x - r1.x := by linarith
  have huy : 0 < xc.y - r1.y := by linarith
  have hpd : pd = (xc.x - r1.x) * (xc.x - r1.x) + (xc.y - r1.y) * (xc.y - r1.y) := rfl
  have hpos : 0 < pd := by rw [hpd]; positivity
  have hs : 0 < √pd := Real.sqrt_pos.mpr hpos
  have hss : √pd * √pd = pd := Real.mul_self_sqrt hpos.le
  have hnx : n.x * √pd = xc.x - r1.x := by simp only [n, V2.sub_x]; field_simp
  have hny : n.y * √pd = xc.y - r1.y := by simp only [n, V2.sub_y]; field_simp
  have hnx0 : 0 ≤ n.x := by simp only [n, V2.sub_x]; positivity
  have hny0 : 0 ≤ n.y := by simp only [n, V2.sub_y]; positivity
  have hn1 : n.x * n.x + n.y * n.y = 1 := by
    have : (n.x * n.x + n.y * n.y) * pd = 1 * pd := by
      rw [← hss]
      have : (n.x * n.x + n.y * n.y) * (√pd * √pd) = (n.x * √pd) * (n.x * √pd) + (n.y * √pd) * (n.y * √pd) := by ring
      rw [this, hnx, hny, hss, hpd]; ring
    exact mul_right_cancel₀ hpos.ne' this
  have far : ∀ e, √pd + e > r0 → ¬ MeetsLocal (xc + e • n) r0 r1 := by
    rintro e he ⟨a, b, ha, hb, h⟩
    simp only [V2.add_x, V2.add_y, V2.smul_x, V2.smul_y] at h
    have ha := (abs_le.mp ha).2
    have hb := (abs_le.mp hb).2
    -- (x - (a,b)) · n ≥ √pd + e
    set u := xc.x + e * n.x - a with hu
    set v := xc.y + e * n.y - b with hv
    have hdot : √pd + e ≤ u * n.x + v * n.y := by
      have e1 : u * n.x + v * n.y = (xc.x - r1.x) * n.x + (xc.y - r1.y) * n.y + (r1.x - a) * n.x + (r1.y - b) * n.y + e * (n.x * n.x + n.y * n.y) := by
        rw [hu, hv]; ring
      have e2 : (xc.x - r1.x) * n.x + (xc.y - r1.y) * n.y = √pd * (n.x * n.x + n.y * n.y) := by rw [← hnx, ← hny]; ring
      rw [e1, e2, hn1]
      linarith [mul_nonneg (sub_nonneg.mpr ha) hnx0, mul_nonneg (sub_nonneg.mpr hb) hny0]
    have hcs : (u * n.x + v * n.y) ^ 2 ≤ u ^ 2 + v ^ 2 := by
      have : (u * n.x + v * n.y) ^ 2 + (u * n.y - v * n.x) ^ 2 = (u ^ 2 + v ^ 2) * (n.x * n.x + n.y * n.y) := by ring
      rw [hn1, mul_one] at this
      linarith [sq_nonneg (u * n.y - v * n.x)]
    have h' : u ^ 2 + v ^ 2 ≤ r0 ^ 2 := by
      have : (a - (xc.x + e * n.x)) ^ 2 + (b - (xc.y + e * n.y)) ^ 2 = u ^ 2 + v ^ 2 := by rw [hu, hv]; ring
      rw [← this]; exact h
    have hd : r0 < u * n.x + v * n.y := lt_of_lt_of_le he hdot
    have := pow_lt_pow_left₀ hd h0 two_ne_zero
    linarith
  refine ⟨fun h => ?_, fun h => ⟨?_, ?_, hn1, hnx0, hny0, ?_, ?_⟩⟩
  · have := far 0 (by
      have : r0 < √pd := by
        apply Real.lt_sqrt_of_sq_lt
        nlinarith
      linarith)
    intro hm
    apply this
    convert hm using 1
    ext <;> simp
  · exact ⟨r1.x, r1.y, by rw [abs_of_pos hx], by rw [abs_of_pos hy], by rw [hpd] at h; linarith [h]⟩
  · have : √pd ≤ r0 := by
      apply Real.sqrt_le_iff.mpr
      exact ⟨h0, by nlinarith⟩
    linarith
  · refine ⟨r1.x, r1.y, by rw [abs_of_pos hx], by rw [abs_of_pos hy], ?_⟩
    simp only [V2.add_x, V2.add_y, V2.smul_x, V2.smul_y]
    have e1 : r1.x - (xc.x + -(√pd - r0) * n.x) = -(r0 * n.x) := by linear_combination hnx
    have e2 : r1.y - (xc.y + -(√pd - r0) * n.y) = -(r0 * n.y) := by linear_combination hny
    rw [e1, e2]
    have : (-(r0 * n.x)) ^ 2 + (-(r0 * n.y)) ^ 2 = r0 ^ 2 * (n.x * n.x + n.y * n.y) := by ring
    rw [this, hn1, mul_one]
  · intro e he
    exact far e (by linarith)

theorem circleBoxRegion_spec (xc : V2 ℝ) (r0 : ℝ) (r1 : V2 ℝ) (h0 : 0 ≤ r0) (hx : 0 < r1.x) (hy : 0 < r1.y) (px : 0 ≤ xc.x) (py : 0 ≤ xc.y) :
    (circleBoxRegion xc r0 r1 = none → ¬ MeetsLocal xc r0 r1) ∧
    (∀ n d, circleBoxRegion xc r0 r1 = some (n, d) → MeetsLocal xc r0 r1 ∧ d ≤ 0 ∧ n.normSq = 1 ∧ 0 ≤ n.x ∧ 0 ≤ n.y ∧
      MeetsLocal (xc + (-d) • n) r0 r1 ∧ ∀ e > -d, ¬ MeetsLocal (xc + e • n) r0 r1) := by
  unfold circleBoxRegion
  by_cases h : r1.x * xc.y < r1.y * xc.x
  · simp only [if_pos h]
    by_cases hr : xc.y ≤ r1.y
    · simp only [if_pos hr]
      have far : ∀ e, xc.x + e > r0 + r1.x → ¬ MeetsLocal (xc + e • (⟨1, 0⟩ : V2 ℝ)) r0 r1 := by
        rintro e he ⟨a, b, ha, hb, hm⟩
        simp only [V2.add_x, V2.add_y, V2.smul_x, V2.smul_y] at hm
        have ha := (abs_le.mp ha).2
        nlinarith [sq_nonneg (b - (xc.y + e * 0))]
      by_cases hp : xc.x - r0 - r1.x > 0
      · simp only [if_pos hp]
        refine ⟨fun _ hm => far 0 (by linarith) (by convert hm using 1; ext <;> simp), fun n d hh => by simp at hh⟩
      · simp only [if_neg hp]
        refine ⟨fun hh => by simp at hh, fun n d hh => ?_⟩
        simp only [Option.some.injEq, Prod.mk.injEq] at hh
        obtain ⟨rfl, rfl⟩ := hh
        refine ⟨?_, by linarith, by simp [V2.normSq], by norm_num, by norm_num, ⟨r1.x, xc.y, by rw [abs_of_pos hx], by rw [abs_of_nonneg py]; exact hr, ?_⟩, fun e he => far e (by linarith)⟩
        · rcases le_total xc.x r1.x with hin | hout
          · exact ⟨xc.x, xc.y, by rw [abs_of_nonneg px]; exact hin, by rw [abs_of_nonneg py]; exact hr, by nlinarith⟩
          · exact ⟨r1.x, xc.y, by rw [abs_of_pos hx], by rw [abs_of_nonneg py]; exact hr, by nlinarith⟩
        simp only [V2.add_x, V2.add_y, V2.smul_x, V2.smul_y]
        apply le_of_eq; ring
    · simp only [if_neg hr]
      have hcy : r1.y < xc.y := not_le.mp hr
      have hcx : r1.x < xc.x := by nlinarith
      obtain ⟨c1, c2⟩ := corner_spec xc r0 r1 h0 hx hy hcx hcy
      by_cases hp : (xc - r1).normSq > r0 * r0
      · simp only [if_pos hp]
        exact ⟨fun _ => c1 hp, fun n d hh => by simp at hh⟩
      · simp only [if_neg hp]
        refine ⟨fun hh => by simp at hh, fun n d hh => ?_⟩
        simp only [Option.some.injEq, Prod.mk.injEq] at hh
        obtain ⟨rfl, rfl⟩ := hh
        exact c2 hp
  · simp only [if_neg h]
    by_cases hr : xc.x ≤ r1.x
    · simp only [if_pos hr]
      have far : ∀ e, xc.y + e > r0 + r1.y → ¬ MeetsLocal (xc + e • (⟨0, 1⟩ : V2 ℝ)) r0 r1 := by
        rintro e he ⟨a, b, ha, hb, hm⟩
        simp only [V2.add_x, V2.add_y, V2.smul_x, V2.smul_y] at hm
        have hb := (abs_le.mp hb).2
        nlinarith [sq_nonneg (a - (xc.x + e * 0))]
      by_cases hp : xc.y - r0 - r1.y > 0
      · simp only [if_pos hp]
        refine ⟨fun _ hm => far 0 (by linarith) (by convert hm using 1; ext <;> simp), fun n d hh => by simp at hh⟩
      · simp only [if_neg hp]
        refine ⟨fun hh => by simp at hh, fun n d hh => ?_⟩
        simp only [Option.some.injEq, Prod.mk.injEq] at hh
        obtain ⟨rfl, rfl⟩ := hh
        refine ⟨?_, by linarith, by simp [V2.normSq], by norm_num, by norm_num, ⟨xc.x, r1.y, by rw [abs_of_nonneg px]; exact hr, by rw [abs_of_pos hy], ?_⟩, fun e he => far e (by linarith)⟩
        · rcases le_total xc.y r1.y with hin | hout
          · exact ⟨xc.x, xc.y, by rw [abs_of_nonneg px]; exact hr, by rw [abs_of_nonneg py]; exact hin, by nlinarith⟩
          · exact ⟨xc.x, r1.y, by rw [abs_of_nonneg px]; exact hr, by rw [abs_of_pos hy], by nlinarith⟩
        simp only [V2.add_x, V2.add_y, V2.smul_x, V2.smul_y]
        apply le_of_eq; ring
    · simp only [if_neg hr]
      have hcx : r1.x < xc.x := not_le.mp hr
      have hcy : r1.y < xc.y := by
        push Not at h
        nlinarith
      obtain ⟨c1, c2⟩ := corner_spec xc r0 r1 h0 hx hy hcx hcy
      by_cases hp : (xc - r1).normSq > r0 * r0
      · simp only [if_pos hp]
        exact ⟨fun _ => c1 hp, fun n d hh => by simp at hh⟩
      · simp only [if_neg hp]
        refine ⟨fun hh => by simp at hh, fun n d hh => ?_⟩
        simp only [Option.some.injEq, Prod.mk.injEq] at hh
        obtain ⟨rfl, rfl⟩ := hh
        exact c2 hp

/-- The sign with which a coordinate is mirrored -/
noncomputable def flipSign (x : ℝ) : ℝ := if x < 0 then -1 else 1

theorem flipSign_sq (x : ℝ) : flipSign x * flipSign x = 1 := by unfold flipSign; split <;> norm_num

theorem flipSign_nonneg (x : ℝ) : 0 ≤ flipSign x * x := by
  unfold flipSign; split <;> nlinarith

theorem flip_eq (x y : ℝ) : (if decide (x < 0) = true then y * -1 else y) = flipSign x * y := by
  unfold flipSign
  by_cases h : x < 0
  · simp [h]
  · simp [h]

theorem meetsLocal_flips (sx sy : ℝ) (hsx : sx * sx = 1) (hsy : sy * sy = 1) (x : V2 ℝ) (r : ℝ) (w : V2 ℝ) :
    MeetsLocal ⟨sx * x.x, sy * x.y⟩ r w ↔ MeetsLocal x r w := by
  have h1 : sx = 1 ∨ sx = -1 := by
    have : (sx - 1) * (sx + 1) = 0 := by linear_combination hsx
    rcases mul_eq_zero.mp this with h | h
    · left; linarith
    · right; linarith
  have h2 : sy = 1 ∨ sy = -1 := by
    have : (sy - 1) * (sy + 1) = 0 := by linear_combination hsy
    rcases mul_eq_zero.mp this with h | h
    · left; linarith
    · right; linarith
  rcases h1 with rfl | rfl <;> rcases h2 with rfl | rfl
  · simp
  · simp only [one_mul, neg_mul]; exact meetsLocal_flipY x r w
  · simp only [one_mul, neg_mul]; exact meetsLocal_flipX x r w
  · simp only [one_mul, neg_mul]
    exact (meetsLocal_flipX ⟨x.x, -x.y⟩ r w).trans (meetsLocal_flipY x r w)

/-- **C45** The circle-box test reports a contact exactly when the disc and the turned box share a point. -/
theorem C45_exact (x0 : V2 ℝ) (r0 : ℝ) (x1 : V2 ℝ) (theta1 : ℝ) (r1 : V2 ℝ) (h0 : 0 ≤ r0) (hx : 0 < r1.x) (hy : 0 < r1.y) :
    (circleBoxIsActive x0 r0 x1 theta1 r1).isSome ↔ ∃ z, z ∈ discSet x0 r0 ∧ z ∈ boxSet x1 theta1 r1 := by
  rw [meets_local_iff]
  unfold circleBoxIsActive
  simp only [flip_eq, Option.isSome_map]
  set xc := (rotation2D theta1).transpose.mulVec (x0 - x1)
  rw [← meetsLocal_flips (flipSign xc.x) (flipSign xc.y) (flipSign_sq _) (flipSign_sq _) xc r0 r1]
  obtain ⟨s1, s2⟩ := circleBoxRegion_spec ⟨flipSign xc.x * xc.x, flipSign xc.y * xc.y⟩ r0 r1 h0 hx hy (flipSign_nonneg _) (flipSign_nonneg _)
  cases hres : circleBoxRegion ⟨flipSign xc.x * xc.x, flipSign xc.y * xc.y⟩ r0 r1 with
  | none => simpa using s1 hres
  | some nd =>
    simpa using (s2 nd.1 nd.2 hres).1

/-- **C45** The reported normal is a unit vector that points from the box to the circle: there is a depth by which the circle has to be moved along
it to touch the box without going into it, and the reported point lies on the normal, half of the depth below the surface of the circle. -/
theorem C45_normal (x0 : V2 ℝ) (r0 : ℝ) (x1 : V2 ℝ) (theta1 : ℝ) (r1 : V2 ℝ) (h0 : 0 ≤ r0) (hx : 0 < r1.x) (hy : 0 < r1.y) (n p : V2 ℝ)
    (h : circleBoxIsActive x0 r0 x1 theta1 r1 = some (n, p)) :
    n.x ^ 2 + n.y ^ 2 = 1 ∧ ∃ d : ℝ, 0 ≤ d ∧
      (∃ z, z ∈ discSet (x0 + d • n) r0 ∧ z ∈ boxSet x1 theta1 r1) ∧
      (∀ e > d, ¬ ∃ z, z ∈ discSet (x0 + e • n) r0 ∧ z ∈ boxSet x1 theta1 r1) ∧
      p = x0 - (r0 - d / 2) • n := by
  unfold circleBoxIsActive at h
  simp only [flip_eq] at h
  have hxc : (rotation2D theta1).transpose.mulVec (x0 - x1) = (rotation2D theta1).transpose.mulVec (x0 - x1) := rfl
  generalize hgen : (rotation2D theta1).transpose.mulVec (x0 - x1) = xc at h
  obtain ⟨_, s2⟩ := circleBoxRegion_spec ⟨flipSign xc.x * xc.x, flipSign xc.y * xc.y⟩ r0 r1 h0 hx hy (flipSign_nonneg _) (flipSign_nonneg _)
  cases hres : circleBoxRegion ⟨flipSign xc.x * xc.x, flipSign xc.y * xc.y⟩ r0 r1 with
  | none => simp [hres] at h
  | some nd =>
    obtain ⟨m, d⟩ := nd
    obtain ⟨_, hd, hm1, _, _, hm, hf⟩ := s2 m d hres
    rw [hres] at h
    simp only [Option.map_some, Option.some.injEq, Prod.mk.injEq] at h
    obtain ⟨hn, hp⟩ := h
    have hsx := flipSign_sq xc.x
    have hsy := flipSign_sq xc.y
    set sx := flipSign xc.x
    set sy := flipSign xc.y
    have hcs := Real.sin_sq_add_cos_sq theta1
    set c := Real.cos theta1 with hc
    set s := Real.sin theta1 with hs
    -- moving along the normal in the world is moving along the local one
    have hmove : ∀ e : ℝ, (rotation2D theta1).transpose.mulVec (x0 + e • n - x1) = ⟨sx * (sx * xc.x + e * m.x), sy * (sy * xc.y + e * m.y)⟩ := by
      intro e
      rw [← hn, ← hgen]
      simp only [rotation2D, M22.transpose, M22.mulVec, V2.add_x, V2.add_y, V2.sub_x, V2.sub_y, V2.smul_x, V2.smul_y, ← hc, ← hs]
      ext
      · simp only
        linear_combination (e * (sx * m.x)) * hcs - (c * (x0.x - x1.x) + s * (x0.y - x1.y)) * hsx
      · simp only
        linear_combination (e * (sy * m.y)) * hcs - (-s * (x0.x - x1.x) + c * (x0.y - x1.y)) * hsy
    have hmeet : ∀ e : ℝ, (∃ z, z ∈ discSet (x0 + e • n) r0 ∧ z ∈ boxSet x1 theta1 r1) ↔
        MeetsLocal ((⟨sx * xc.x, sy * xc.y⟩ : V2 ℝ) + e • m) r0 r1 := by
      intro e
      rw [meets_local_iff, hmove]
      exact meetsLocal_flips sx sy hsx hsy (⟨sx * xc.x + e * m.x, sy * xc.y + e * m.y⟩ : V2 ℝ) r0 r1
    refine ⟨?_, -d, by linarith, (hmeet _).mpr hm, fun e he => (hmeet e).not.mpr (hf e he), ?_⟩
    · rw [← hn]
      simp only [rotation2D, M22.mulVec, ← hc, ← hs]
      simp only [V2.normSq] at hm1
      linear_combination ((sx * m.x) ^ 2 + (sy * m.y) ^ 2) * hcs + m.x ^ 2 * hsx + m.y ^ 2 * hsy + hm1
    · rw [← hp, ← hn]
      have gx : xc.x = c * (x0.x - x1.x) + s * (x0.y - x1.y) := by rw [← hgen]; simp [rotation2D, M22.transpose, M22.mulVec, ← hc, ← hs]
      have gy : xc.y = -s * (x0.x - x1.x) + c * (x0.y - x1.y) := by rw [← hgen]; simp [rotation2D, M22.transpose, M22.mulVec, ← hc, ← hs]
      simp only [rotation2D, M22.mulVec, ← hc, ← hs]
      ext
      · simp only [V2.add_x, V2.sub_x, V2.sub_y, V2.smul_x, V2.smul_y]
        linear_combination c * xc.x * hsx - s * xc.y * hsy + c * gx - s * gy + (x0.x - x1.x) * hcs
      · simp only [V2.add_y, V2.sub_x, V2.sub_y, V2.smul_x, V2.smul_y]
        linear_combination s * xc.x * hsx + c * xc.y * hsy + s * gx + c * gy + (x0.y - x1.y) * hcs

/-- A disc that overlaps the right side of a square is reported with the normal to the right -/
example : circleBoxIsActive ⟨3, 1⟩ 2 ⟨0, 0⟩ 0 ⟨2, 2⟩ = some (⟨1, 0⟩, ⟨3 / 2, 1⟩) := by
  norm_num [circleBoxIsActive, circleBoxRegion, rotation2D, M22.transpose, M22.mulVec]
  ext <;> norm_num

/-- A disc near a corner whose box overlaps that of the square is not reported -/
example : circleBoxIsActive ⟨3, -3⟩ (4 / 5) ⟨0, 0⟩ 0 ⟨2, 2⟩ = none := by
  norm_num [circleBoxIsActive, circleBoxRegion, rotation2D, M22.transpose, M22.mulVec, V2.normSq]

end Scisim
