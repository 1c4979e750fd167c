import Verif.Lemmas.SeparatingAxis3D
import Verif.Spec.BoxBox3D
import Mathlib.Analysis.LocallyConvex.Separation
import Mathlib.LinearAlgebra.Matrix.Adjugate

/-! The fifteen tests of two boxes in space: what the chosen axis is, and how far the boxes overlap. -/

namespace Scisim

open Matrix Topology

/-! ### Boxes and how far they reach -/

theorem mulVec_columns (R : Mat3) (a : Vec3) : R *ᵥ a = a 0 • R.column 0 + a 1 • R.column 1 + a 2 • R.column 2 := by
  funext i
  simp only [mulVec, dotProduct, Fin.sum_univ_three, Mat3.column, Pi.add_apply, Pi.smul_apply, smul_eq_mul]; ring

theorem dot_mulVec (f : Vec3) (R : Mat3) (a : Vec3) : f ⬝ᵥ (R *ᵥ a) = a 0 * (f ⬝ᵥ R.column 0) + a 1 * (f ⬝ᵥ R.column 1) + a 2 * (f ⬝ᵥ R.column 2) := by
  rw [mulVec_columns, dotProduct_add, dotProduct_add, dotProduct_smul, dotProduct_smul, dotProduct_smul, smul_eq_mul, smul_eq_mul, smul_eq_mul]

theorem mul_le_mul_abs {a w x : ℝ} (h : |a| ≤ w) : a * x ≤ w * |x| := by
  calc a * x ≤ |a * x| := le_abs_self _
    _ = |a| * |x| := abs_mul _ _
    _ ≤ w * |x| := mul_le_mul_of_nonneg_right h (abs_nonneg x)

theorem dot_le_reach {cm : Vec3} {R : Mat3} {w z : Vec3} (hz : z ∈ boxSet3 cm R w) (f : Vec3) : f ⬝ᵥ z ≤ f ⬝ᵥ cm + reach R.column w f := by
  obtain ⟨a, ha, rfl⟩ := hz
  rw [dotProduct_add, dot_mulVec, reach]
  have h0 := mul_le_mul_abs (x := f ⬝ᵥ R.column 0) (ha 0)
  have h1 := mul_le_mul_abs (x := f ⬝ᵥ R.column 1) (ha 1)
  have h2 := mul_le_mul_abs (x := f ⬝ᵥ R.column 2) (ha 2)
  linarith

theorem reach_neg (u : Fin 3 → Vec3) (s f : Vec3) : reach u s (-f) = reach u s f := by
  simp only [reach, neg_dotProduct, abs_neg]

theorem dot_ge_reach {cm : Vec3} {R : Mat3} {w z : Vec3} (hz : z ∈ boxSet3 cm R w) (f : Vec3) : f ⬝ᵥ cm - reach R.column w f ≤ f ⬝ᵥ z := by
  have := dot_le_reach hz (-f)
  rw [reach_neg, neg_dotProduct, neg_dotProduct] at this
  linarith

theorem reach_attained (cm : Vec3) (R : Mat3) (w : Vec3) (hw : ∀ i, 0 ≤ w i) (f : Vec3) : ∃ z ∈ boxSet3 cm R w, f ⬝ᵥ z = f ⬝ᵥ cm + reach R.column w f := by
  refine ⟨cm + R *ᵥ fun i => if 0 ≤ f ⬝ᵥ R.column i then w i else -w i, ⟨_, fun i => ?_, rfl⟩, ?_⟩
  · by_cases h : 0 ≤ f ⬝ᵥ R.column i
    · simp only [h, if_true]; rw [abs_of_nonneg (hw i)]
    · simp only [h, if_false]; rw [abs_neg, abs_of_nonneg (hw i)]
  · have hone : ∀ i, (if 0 ≤ f ⬝ᵥ R.column i then w i else -w i) * (f ⬝ᵥ R.column i) = w i * |f ⬝ᵥ R.column i| := by
      intro i
      by_cases h : 0 ≤ f ⬝ᵥ R.column i
      · simp only [h, if_true]; rw [abs_of_nonneg h]
      · simp only [h, if_false]; rw [abs_of_neg (not_le.mp h)]; ring
    rw [dotProduct_add, dot_mulVec, reach, hone, hone, hone]

theorem boxSet3_convex (cm : Vec3) (R : Mat3) (w : Vec3) : Convex ℝ (boxSet3 cm R w) := by
  rintro x ⟨a, ha, rfl⟩ y ⟨b, hb, rfl⟩ s t hs ht hst
  refine ⟨s • a + t • b, fun i => ?_, ?_⟩
  · simp only [Pi.add_apply, Pi.smul_apply, smul_eq_mul]
    calc |s * a i + t * b i| ≤ |s * a i| + |t * b i| := abs_add_le _ _
      _ = s * |a i| + t * |b i| := by rw [abs_mul, abs_mul, abs_of_nonneg hs, abs_of_nonneg ht]
      _ ≤ s * w i + t * w i := add_le_add (mul_le_mul_of_nonneg_left (ha i) hs) (mul_le_mul_of_nonneg_left (hb i) ht)
      _ = w i := by rw [← add_mul, hst, one_mul]
  · rw [mulVec_add, mulVec_smul, mulVec_smul, smul_add, smul_add]
    have : cm = s • cm + t • cm := by rw [← add_smul, hst, one_smul]
    conv_rhs => rw [this]
    abel

theorem boxSet3_compact (cm : Vec3) (R : Mat3) (w : Vec3) : IsCompact (boxSet3 cm R w) := by
  have : boxSet3 cm R w = (fun a : Vec3 => cm + R *ᵥ a) '' (Set.pi Set.univ fun i => Set.Icc (-w i) (w i)) := by
    ext z
    constructor
    · rintro ⟨a, ha, rfl⟩
      exact ⟨a, fun i _ => abs_le.mp (ha i), rfl⟩
    · rintro ⟨a, ha, rfl⟩
      exact ⟨a, fun i => abs_le.mpr (ha i (Set.mem_univ i)), rfl⟩
  rw [this]
  refine (isCompact_univ_pi fun i => isCompact_Icc).image ?_
  have hc : Continuous fun a : Vec3 => R *ᵥ a := by
    simp only [mulVec_columns]; fun_prop
  exact continuous_const.add hc

theorem functional_dot (g : Vec3 →L[ℝ] ℝ) : ∃ f : Vec3, ∀ z, g z = f ⬝ᵥ z := by
  refine ⟨fun i => g (Pi.single i 1), fun z => ?_⟩
  have h : z = ∑ i, z i • (Pi.single i (1 : ℝ) : Vec3) := by
    funext k
    simp [Finset.sum_apply, Pi.single_apply]
  conv_lhs => rw [h]
  rw [map_sum]
  simp only [map_smul, smul_eq_mul, dotProduct]
  exact Finset.sum_congr rfl fun i _ => mul_comm _ _

/-- Two boxes that no direction separates share a point -/
theorem share_of_directions {p1 p2 : Vec3} {R1 R2 : Mat3} {s s' : Vec3} (hs : ∀ i, 0 ≤ s i) (hs' : ∀ i, 0 ≤ s' i)
    (h : ∀ f : Vec3, f ⬝ᵥ (p2 - p1) ≤ reach R1.column s f + reach R2.column s' f) : (boxSet3 p1 R1 s ∩ boxSet3 p2 R2 s').Nonempty := by
  by_contra hne
  have hdis : Disjoint (boxSet3 p1 R1 s) (boxSet3 p2 R2 s') := Set.disjoint_iff_inter_eq_empty.mpr (Set.not_nonempty_iff_eq_empty.mp hne)
  obtain ⟨g, a, b, hg1, hab, hg2⟩ := geometric_hahn_banach_compact_closed (boxSet3_convex p1 R1 s) (boxSet3_compact p1 R1 s) (boxSet3_convex p2 R2 s')
    (boxSet3_compact p2 R2 s').isClosed hdis
  obtain ⟨f, hf⟩ := functional_dot g
  obtain ⟨z, hz, hfz⟩ := reach_attained p1 R1 s hs f
  obtain ⟨z', hz', hfz'⟩ := reach_attained p2 R2 s' hs' (-f)
  have h1 := hg1 z hz
  have h2 := hg2 z' hz'
  rw [hf] at h1 h2
  rw [reach_neg, neg_dotProduct, neg_dotProduct] at hfz'
  have h3 := h f
  rw [dotProduct_sub] at h3
  linarith

theorem dot_le_len (f t : Vec3) : f ⬝ᵥ t ≤ len3 f * len3 t := by
  have := real_inner_le_norm (WithLp.toLp 2 t : EuclideanSpace ℝ (Fin 3)) (WithLp.toLp 2 f)
  rw [EuclideanSpace.inner_toLp_toLp] at this
  simp at this
  rw [mul_comm]
  exact this

theorem moved_boxSet3 (t p : Vec3) (R : Mat3) (s : Vec3) : moved3 t (boxSet3 p R s) = boxSet3 (p + t) R s := by
  ext z
  constructor
  · rintro ⟨a, ha, h⟩
    exact ⟨a, ha, by rw [sub_eq_iff_eq_add] at h; rw [h]; abel⟩
  · rintro ⟨a, ha, rfl⟩
    exact ⟨a, ha, by abel⟩

/-! ### The fifteen axes -/

/-- By how much the boxes overlap along `g`, times the length of `g` -/
noncomputable def overlap (p : Vec3) (R1 : Mat3) (s : Vec3) (R2 : Mat3) (s' g : Vec3) : ℝ := reach R1.column s g + reach R2.column s' g - |g ⬝ᵥ p|

/-- The axis with a given code; the axes of edges in the coordinates of the first box are the cross products of its axes with those of the second -/
noncomputable def axisOf (R1 R2 : Mat3) (code : Nat) : Vec3 :=
  let R := R1.transpose * R2
  match code with
  | 1 => R1.column 0
  | 2 => R1.column 1
  | 3 => R1.column 2
  | 4 => R2.column 0
  | 5 => R2.column 1
  | 6 => R2.column 2
  | 7 => R1 *ᵥ ![0, -R 2 0, R 1 0]
  | 8 => R1 *ᵥ ![0, -R 2 1, R 1 1]
  | 9 => R1 *ᵥ ![0, -R 2 2, R 1 2]
  | 10 => R1 *ᵥ ![R 2 0, 0, -R 0 0]
  | 11 => R1 *ᵥ ![R 2 1, 0, -R 0 1]
  | 12 => R1 *ᵥ ![R 2 2, 0, -R 0 2]
  | 13 => R1 *ᵥ ![-R 1 0, R 0 0, 0]
  | 14 => R1 *ᵥ ![-R 1 1, R 0 1, 0]
  | 15 => R1 *ᵥ ![-R 1 2, R 0 2, 0]
  | _ => 0

/-- What holds after the tests with the codes up to `n` -/
structure Tested (p : Vec3) (R1 : Mat3) (s : Vec3) (R2 : Mat3) (s' : Vec3) (n : Nat) (st : Sat3) (x : ℝ) : Prop where
  depth : st.depth = ((-x : ℝ) : WithBot ℝ)
  nonneg : 0 ≤ x
  touch : ∀ c, 1 ≤ c → c ≤ n → 0 ≤ overlap p R1 s R2 s' (axisOf R1 R2 c)
  faces : ∀ c, 1 ≤ c → c ≤ n → c ≤ 6 → x ≤ overlap p R1 s R2 s' (axisOf R1 R2 c)
  edges : ∀ c, 7 ≤ c → c ≤ n → x * len3 (axisOf R1 R2 c) ≤ 105 / 100 * overlap p R1 s R2 s' (axisOf R1 R2 c)
  code1 : 1 ≤ st.code
  coden : st.code ≤ n
  axis : x * len3 (axisOf R1 R2 st.code) = overlap p R1 s R2 s' (axisOf R1 R2 st.code)
  length : 0 < len3 (axisOf R1 R2 st.code)
  side : st.invert = decide (axisOf R1 R2 st.code ⬝ᵥ p < 0)
  edge : 7 ≤ st.code → R1 *ᵥ st.normalC = (1 / len3 (axisOf R1 R2 st.code)) • axisOf R1 R2 st.code
  bias : 7 ≤ st.code → ∀ c, 1 ≤ c → c ≤ 6 → 105 / 100 * x < overlap p R1 s R2 s' (axisOf R1 R2 c)

theorem faceTest3_none {dist widths : ℝ} {code : Nat} {st : Sat3} (h : faceTest3 dist widths code st = none) : widths - |dist| < 0 := by
  unfold faceTest3 at h
  dsimp only at h
  split at h
  · linarith
  · split at h <;> cases h

theorem edgeTest3_none {dist widths n1 n2 n3 : ℝ} {code : Nat} {st : Sat3} (h : edgeTest3 dist widths n1 n2 n3 code st = none) : widths - |dist| < 0 := by
  unfold edgeTest3 at h
  dsimp only at h
  split at h
  · linarith
  · split at h
    · split at h <;> cases h
    · cases h

theorem faceTest3_first {p : Vec3} {R1 : Mat3} {s : Vec3} {R2 : Mat3} {s' : Vec3} {dist widths : ℝ} {st' : Sat3}
    (hd : dist = axisOf R1 R2 1 ⬝ᵥ p) (hw : widths = reach R1.column s (axisOf R1 R2 1) + reach R2.column s' (axisOf R1 R2 1))
    (hl : len3 (axisOf R1 R2 1) = 1) (h : faceTest3 dist widths 1 ⟨⊥, 0, false, 0⟩ = some st') : ∃ x, Tested p R1 s R2 s' 1 st' x := by
  unfold faceTest3 at h
  dsimp only at h
  rw [hd, hw] at h
  split at h
  · cases h
  · rename_i hpos
    rw [if_pos (WithBot.bot_lt_coe _)] at h
    cases h
    have hov : overlap p R1 s R2 s' (axisOf R1 R2 1) = reach R1.column s (axisOf R1 R2 1) + reach R2.column s' (axisOf R1 R2 1) - |axisOf R1 R2 1 ⬝ᵥ p| := rfl
    refine ⟨overlap p R1 s R2 s' (axisOf R1 R2 1), ⟨?_, ?_, ?_, ?_, ?_, le_refl _, le_refl _, ?_, ?_, rfl, fun h => absurd h (by simp),
      fun h => absurd h (by simp)⟩⟩
    · rw [hov, neg_sub]
    · rw [hov]; linarith
    · intro c h1 h2
      rw [show c = 1 by omega, hov]; linarith
    · intro c h1 h2 _
      rw [show c = 1 by omega]
    · intro c h1 h2; omega
    · change _ * len3 (axisOf R1 R2 1) = _; rw [hl, mul_one]
    · change 0 < len3 (axisOf R1 R2 1); rw [hl]; exact one_pos

theorem faceTest3_step {p : Vec3} {R1 : Mat3} {s : Vec3} {R2 : Mat3} {s' : Vec3} {dist widths : ℝ} {n : Nat} {st st' : Sat3} {x : ℝ} (hn : n + 1 ≤ 6)
    (ht : Tested p R1 s R2 s' n st x) (hd : dist = axisOf R1 R2 (n + 1) ⬝ᵥ p)
    (hw : widths = reach R1.column s (axisOf R1 R2 (n + 1)) + reach R2.column s' (axisOf R1 R2 (n + 1)))
    (hl : len3 (axisOf R1 R2 (n + 1)) = 1) (h : faceTest3 dist widths (n + 1) st = some st') : ∃ x, Tested p R1 s R2 s' (n + 1) st' x := by
  unfold faceTest3 at h
  dsimp only at h
  rw [hd, hw] at h
  have hov : overlap p R1 s R2 s' (axisOf R1 R2 (n + 1)) =
    reach R1.column s (axisOf R1 R2 (n + 1)) + reach R2.column s' (axisOf R1 R2 (n + 1)) - |axisOf R1 R2 (n + 1) ⬝ᵥ p| := rfl
  split at h
  · cases h
  · rename_i hpos
    have hov0 : 0 ≤ overlap p R1 s R2 s' (axisOf R1 R2 (n + 1)) := by rw [hov]; linarith
    have htouch : ∀ c, 1 ≤ c → c ≤ n + 1 → 0 ≤ overlap p R1 s R2 s' (axisOf R1 R2 c) := by
      intro c h1 h2
      rcases Nat.lt_or_ge n c with h3 | h3
      · rw [show c = n + 1 by omega]; exact hov0
      · exact ht.touch c h1 h3
    split at h
    · rename_i hgt
      cases h
      rw [ht.depth] at hgt
      have hlt := WithBot.coe_lt_coe.mp hgt
      refine ⟨overlap p R1 s R2 s' (axisOf R1 R2 (n + 1)), ⟨?_, hov0, htouch, ?_, fun c h1 h2 => absurd h1 (by omega), by simp, le_refl _, ?_, ?_, rfl,
        fun h => absurd h (by simp; omega), fun h => absurd h (by simp; omega)⟩⟩
      · rw [hov, neg_sub]
      · intro c h1 h2 _
        rcases Nat.lt_or_ge n c with h3 | h3
        · rw [show c = n + 1 by omega]
        · have := ht.faces c h1 h3 (by omega)
          rw [hov]; linarith
      · change _ * len3 (axisOf R1 R2 (n + 1)) = _; rw [hl, mul_one]
      · change 0 < len3 (axisOf R1 R2 (n + 1)); rw [hl]; exact one_pos
    · rename_i hgt
      cases h
      rw [ht.depth] at hgt
      have hlt := not_lt.mp (fun h => hgt (WithBot.coe_lt_coe.mpr h))
      refine ⟨x, ⟨ht.depth, ht.nonneg, htouch, ?_, fun c h1 h2 => absurd h1 (by omega), ht.code1, Nat.le_succ_of_le ht.coden, ht.axis, ht.length, ht.side,
        ht.edge, ht.bias⟩⟩
      intro c h1 h2 h6
      rcases Nat.lt_or_ge n c with h3 | h3
      · rw [show c = n + 1 by omega, hov]; linarith
      · exact ht.faces c h1 h3 h6

theorem edgeTest3_step {p : Vec3} {R1 : Mat3} {s : Vec3} {R2 : Mat3} {s' : Vec3} {dist widths n1 n2 n3 : ℝ} {n : Nat} {st st' : Sat3} {x : ℝ} (hn : 6 ≤ n)
    (hR1 : R1.transpose * R1 = 1) (ht : Tested p R1 s R2 s' n st x) (hax : axisOf R1 R2 (n + 1) = R1 *ᵥ ![n1, n2, n3]) (hd : dist = axisOf R1 R2 (n + 1) ⬝ᵥ p)
    (hw : widths = reach R1.column s (axisOf R1 R2 (n + 1)) + reach R2.column s' (axisOf R1 R2 (n + 1)))
    (h : edgeTest3 dist widths n1 n2 n3 (n + 1) st = some st') : ∃ x, Tested p R1 s R2 s' (n + 1) st' x := by
  have hlen : Real.sqrt (n1 * n1 + n2 * n2 + n3 * n3) = len3 (axisOf R1 R2 (n + 1)) := by
    rw [len3_eq_sqrt, hax]
    congr 1
    have hfr := frame_of_orthogonal hR1
    have hself : (R1 *ᵥ ![n1, n2, n3]) ⬝ᵥ (R1 *ᵥ ![n1, n2, n3]) = ![n1, n2, n3] ⬝ᵥ ![n1, n2, n3] := by
      rw [dotProduct_mulVec, vecMul_mulVec, ← dotProduct_mulVec, hR1, one_mulVec]
    rw [hself]
    simp [dotProduct, Fin.sum_univ_three]
  unfold edgeTest3 at h
  dsimp only at h
  rw [hlen, hd, hw] at h
  set g := axisOf R1 R2 (n + 1) with hg
  have hov : overlap p R1 s R2 s' g = reach R1.column s g + reach R2.column s' g - |g ⬝ᵥ p| := rfl
  split at h
  · cases h
  · rename_i hpos
    have hov0 : 0 ≤ overlap p R1 s R2 s' g := by rw [hov]; linarith
    have htouch : ∀ c, 1 ≤ c → c ≤ n + 1 → 0 ≤ overlap p R1 s R2 s' (axisOf R1 R2 c) := by
      intro c h1 h2
      rcases Nat.lt_or_ge n c with h3 | h3
      · rw [show c = n + 1 by omega]; exact hov0
      · exact ht.touch c h1 h3
    have hstay : x * len3 g ≤ 105 / 100 * overlap p R1 s R2 s' g → ∃ x, Tested p R1 s R2 s' (n + 1) st x := by
      intro hx
      refine ⟨x, ⟨ht.depth, ht.nonneg, htouch, fun c h1 h2 h6 => ht.faces c h1 (by omega) h6, ?_, ht.code1, Nat.le_succ_of_le ht.coden, ht.axis, ht.length, ht.side,
        ht.edge, ht.bias⟩⟩
      intro c h1 h2
      rcases Nat.lt_or_ge n c with h3 | h3
      · rw [show c = n + 1 by omega]; exact hx
      · exact ht.edges c h1 h3
    split at h
    · rename_i hl
      have hl' : 0 < len3 g := hl
      have hs2 : (|g ⬝ᵥ p| - (reach R1.column s g + reach R2.column s' g)) / len3 g = -(overlap p R1 s R2 s' g / len3 g) := by
        rw [hov, ← neg_div, neg_sub]
      split at h
      · rename_i hgt
        cases h
        rw [ht.depth] at hgt
        have hlt := WithBot.coe_lt_coe.mp hgt
        rw [hs2] at hlt
        have hy0 : 0 ≤ overlap p R1 s R2 s' g / len3 g := div_nonneg hov0 hl'.le
        have hyx : 105 / 100 * (overlap p R1 s R2 s' g / len3 g) < x := by linarith
        have hyl : overlap p R1 s R2 s' g / len3 g * len3 g = overlap p R1 s R2 s' g := div_mul_cancel₀ _ hl'.ne'
        refine ⟨overlap p R1 s R2 s' g / len3 g, ⟨?_, hy0, htouch, ?_, ?_, by simp, le_refl _, hyl, hl', rfl, ?_, ?_⟩⟩
        · rw [hs2]
        · intro c h1 h2 h6
          have := ht.faces c h1 (by omega) h6
          linarith
        · intro c h1 h2
          rcases Nat.lt_or_ge n c with h3 | h3
          · rw [show c = n + 1 by omega]
            change overlap p R1 s R2 s' g / len3 g * len3 g ≤ 105 / 100 * overlap p R1 s R2 s' g
            rw [hyl]; linarith
          · have h4 := ht.edges c h1 h3
            have h5 : overlap p R1 s R2 s' g / len3 g * len3 (axisOf R1 R2 c) ≤ x * len3 (axisOf R1 R2 c) :=
              mul_le_mul_of_nonneg_right (by linarith) (len3_nonneg _)
            linarith
        · intro _
          change R1 *ᵥ ![n1 / len3 g, n2 / len3 g, n3 / len3 g] = (1 / len3 g) • g
          rw [hax, ← mulVec_smul]
          congr 1
          funext k
          fin_cases k <;> simp [div_eq_inv_mul]
        · intro _ c h1 h6
          have := ht.faces c h1 (by omega) h6
          change 105 / 100 * (overlap p R1 s R2 s' g / len3 g) < _
          linarith
      · rename_i hgt
        cases h
        rw [ht.depth] at hgt
        have hlt := not_lt.mp (fun h => hgt (WithBot.coe_lt_coe.mpr h))
        rw [hs2] at hlt
        refine hstay ?_
        have hx : x ≤ 105 / 100 * (overlap p R1 s R2 s' g / len3 g) := by linarith
        calc x * len3 g ≤ 105 / 100 * (overlap p R1 s R2 s' g / len3 g) * len3 g := mul_le_mul_of_nonneg_right hx hl'.le
          _ = 105 / 100 * overlap p R1 s R2 s' g := by rw [mul_assoc, div_mul_cancel₀ _ hl'.ne']
    · rename_i hl
      cases h
      refine hstay ?_
      have hl0 : len3 g = 0 := le_antisymm (not_lt.mp hl) (len3_nonneg _)
      rw [hl0, mul_zero]
      linarith

/-! ### The numbers the program computes -/

theorem cofactors {R : Mat3} (h : R.transpose * R = 1) : ∃ ε : ℝ, |ε| = 1 ∧
    R 1 1 * R 2 2 - R 1 2 * R 2 1 = ε * R 0 0 ∧ R 1 2 * R 2 0 - R 1 0 * R 2 2 = ε * R 0 1 ∧ R 1 0 * R 2 1 - R 1 1 * R 2 0 = ε * R 0 2 ∧
    R 2 1 * R 0 2 - R 2 2 * R 0 1 = ε * R 1 0 ∧ R 2 2 * R 0 0 - R 2 0 * R 0 2 = ε * R 1 1 ∧ R 2 0 * R 0 1 - R 2 1 * R 0 0 = ε * R 1 2 ∧
    R 0 1 * R 1 2 - R 0 2 * R 1 1 = ε * R 2 0 ∧ R 0 2 * R 1 0 - R 0 0 * R 1 2 = ε * R 2 1 ∧ R 0 0 * R 1 1 - R 0 1 * R 1 0 = ε * R 2 2 := by
  have hdet : R.det * R.det = 1 := by
    have := congrArg Matrix.det h
    rwa [det_mul, det_transpose, det_one] at this
  have hadj : R.adjugate = R.det • R.transpose := by
    calc R.adjugate = R.transpose * R * R.adjugate := by rw [h, Matrix.one_mul]
      _ = R.det • R.transpose := by rw [Matrix.mul_assoc, mul_adjugate, Matrix.mul_smul, Matrix.mul_one]
  have habs : |R.det| = 1 := by
    have : |R.det| * |R.det| = 1 := by rw [← abs_mul, hdet, abs_one]
    nlinarith [abs_nonneg R.det]
  have e := fun i j => congrFun (congrFun hadj i) j
  rw [adjugate_fin_three] at e
  refine ⟨R.det, habs, ?_⟩
  have e00 := e 0 0
  have e01 := e 0 1
  have e02 := e 0 2
  have e10 := e 1 0
  have e11 := e 1 1
  have e12 := e 1 2
  have e20 := e 2 0
  have e21 := e 2 1
  have e22 := e 2 2
  simp [Matrix.smul_apply] at e00 e01 e02 e10 e11 e12 e20 e21 e22
  refine ⟨?_, ?_, ?_, ?_, ?_, ?_, ?_, ?_, ?_⟩
  · linarith [e00]
  · linarith [e10]
  · linarith [e20]
  · linarith [e01]
  · linarith [e11]
  · linarith [e21]
  · linarith [e02]
  · linarith [e12]
  · linarith [e22]

theorem mulVec_dot_own {R : Mat3} (h : R.transpose * R = 1) (n : Vec3) (k : Fin 3) : (R *ᵥ n) ⬝ᵥ R.column k = n k := by
  have hfr := frame_of_orthogonal h
  rw [dotProduct_comm, dot_mulVec, hfr.ortho, hfr.ortho, hfr.ortho]
  fin_cases k <;> simp

theorem mulVec_dot_other (R1 R2 : Mat3) (n : Vec3) (k : Fin 3) :
    (R1 *ᵥ n) ⬝ᵥ R2.column k = n 0 * (R1.transpose * R2) 0 k + n 1 * (R1.transpose * R2) 1 k + n 2 * (R1.transpose * R2) 2 k := by
  rw [dotProduct_comm, dot_mulVec, dotProduct_comm, dotProduct_comm (R2.column k) (R1.column 1), dotProduct_comm (R2.column k) (R1.column 2)]
  rfl

theorem mulVec_dot_vec (R1 : Mat3) (n p : Vec3) : (R1 *ᵥ n) ⬝ᵥ p = n 0 * (R1.transpose *ᵥ p) 0 + n 1 * (R1.transpose *ᵥ p) 1 + n 2 * (R1.transpose *ᵥ p) 2 := by
  rw [dotProduct_comm, dot_mulVec, dotProduct_comm, dotProduct_comm p (R1.column 1), dotProduct_comm p (R1.column 2)]
  rfl

theorem orthogonal_of_frames {R1 R2 : Mat3} (h1 : R1.transpose * R1 = 1) (h2 : R2.transpose * R2 = 1) : (R1.transpose * R2).transpose * (R1.transpose * R2) = 1 := by
  have h1' : R1 * R1.transpose = 1 := mul_eq_one_comm.mp h1
  rw [transpose_mul, transpose_transpose, Matrix.mul_assoc, ← Matrix.mul_assoc R1, h1', Matrix.one_mul, h2]

theorem face_width_first {R1 R2 : Mat3} (h1 : R1.transpose * R1 = 1) (s s' : Vec3) (i : Fin 3) :
    ((R1.transpose * R2).map abs *ᵥ s' + s) i = reach R1.column s (R1.column i) + reach R2.column s' (R1.column i) := by
  have hfr := frame_of_orthogonal h1
  have hR : ∀ j, (R1.transpose * R2) i j = R1.column i ⬝ᵥ R2.column j := fun j => rfl
  simp only [Pi.add_apply, mulVec, dotProduct, Fin.sum_univ_three, Matrix.map_apply, reach, hR]
  have ho := fun k => hfr.ortho i k
  simp only [dotProduct, Fin.sum_univ_three] at ho
  rw [ho, ho, ho]
  fin_cases i <;> simp <;> ring

theorem face_width_second {R1 R2 : Mat3} (h2 : R2.transpose * R2 = 1) (s s' : Vec3) (j : Fin 3) :
    (((R1.transpose * R2).map abs).transpose *ᵥ s + s') j = reach R1.column s (R2.column j) + reach R2.column s' (R2.column j) := by
  have hfr := frame_of_orthogonal h2
  have hR : ∀ i, (R1.transpose * R2) i j = R2.column j ⬝ᵥ R1.column i := fun i => dotProduct_comm _ _
  simp only [Pi.add_apply, mulVec, dotProduct, Fin.sum_univ_three, Matrix.map_apply, transpose_apply, reach, hR]
  have ho := fun k => hfr.ortho j k
  simp only [dotProduct, Fin.sum_univ_three] at ho
  rw [ho, ho, ho]
  fin_cases j <;> simp <;> ring

theorem abs_unit_mul {ε x : ℝ} (h : |ε| = 1) : |ε * x| = |x| := by rw [abs_mul, h, one_mul]
theorem abs_neg_unit_mul {ε x : ℝ} (h : |ε| = 1) : |-(ε * x)| = |x| := by rw [abs_neg, abs_unit_mul h]

theorem edge_width_7 {R1 R2 : Mat3} (h1 : R1.transpose * R1 = 1) (h2 : R2.transpose * R2 = 1) (s s' : Vec3) {R : Mat3} (hR : R = R1.transpose * R2) :
    s 1 * |R 2 0| + s 2 * |R 1 0| + s' 1 * |R 0 2| + s' 2 * |R 0 1| =
      reach R1.column s (R1 *ᵥ ![0, -R 2 0, R 1 0]) + reach R2.column s' (R1 *ᵥ ![0, -R 2 0, R 1 0]) := by
  have ho := orthogonal_of_frames h1 h2
  rw [← hR] at ho
  obtain ⟨ε, hε, c00, c01, c02, c10, c11, c12, c20, c21, c22⟩ := cofactors ho
  simp only [reach, mulVec_dot_own h1, mulVec_dot_other, ← hR]
  have y0 : (![0, -R 2 0, R 1 0] : Vec3) 0 * R 0 0 + (![0, -R 2 0, R 1 0] : Vec3) 1 * R 1 0 + (![0, -R 2 0, R 1 0] : Vec3) 2 * R 2 0 = 0 := by
    simp
    ring
  have y1 : (![0, -R 2 0, R 1 0] : Vec3) 0 * R 0 1 + (![0, -R 2 0, R 1 0] : Vec3) 1 * R 1 1 + (![0, -R 2 0, R 1 0] : Vec3) 2 * R 2 1 = ε * R 0 2 := by
    simp
    linear_combination c02
  have y2 : (![0, -R 2 0, R 1 0] : Vec3) 0 * R 0 2 + (![0, -R 2 0, R 1 0] : Vec3) 1 * R 1 2 + (![0, -R 2 0, R 1 0] : Vec3) 2 * R 2 2 = -(ε * R 0 1) := by
    simp
    linear_combination -c01
  rw [y0, y1, y2]
  simp only [abs_unit_mul hε, abs_neg_unit_mul hε]
  simp
  ring

theorem edge_width_8 {R1 R2 : Mat3} (h1 : R1.transpose * R1 = 1) (h2 : R2.transpose * R2 = 1) (s s' : Vec3) {R : Mat3} (hR : R = R1.transpose * R2) :
    s 1 * |R 2 1| + s 2 * |R 1 1| + s' 0 * |R 0 2| + s' 2 * |R 0 0| =
      reach R1.column s (R1 *ᵥ ![0, -R 2 1, R 1 1]) + reach R2.column s' (R1 *ᵥ ![0, -R 2 1, R 1 1]) := by
  have ho := orthogonal_of_frames h1 h2
  rw [← hR] at ho
  obtain ⟨ε, hε, c00, c01, c02, c10, c11, c12, c20, c21, c22⟩ := cofactors ho
  simp only [reach, mulVec_dot_own h1, mulVec_dot_other, ← hR]
  have y0 : (![0, -R 2 1, R 1 1] : Vec3) 0 * R 0 0 + (![0, -R 2 1, R 1 1] : Vec3) 1 * R 1 0 + (![0, -R 2 1, R 1 1] : Vec3) 2 * R 2 0 = -(ε * R 0 2) := by
    simp
    linear_combination -c02
  have y1 : (![0, -R 2 1, R 1 1] : Vec3) 0 * R 0 1 + (![0, -R 2 1, R 1 1] : Vec3) 1 * R 1 1 + (![0, -R 2 1, R 1 1] : Vec3) 2 * R 2 1 = 0 := by
    simp
    ring
  have y2 : (![0, -R 2 1, R 1 1] : Vec3) 0 * R 0 2 + (![0, -R 2 1, R 1 1] : Vec3) 1 * R 1 2 + (![0, -R 2 1, R 1 1] : Vec3) 2 * R 2 2 = ε * R 0 0 := by
    simp
    linear_combination c00
  rw [y0, y1, y2]
  simp only [abs_unit_mul hε, abs_neg_unit_mul hε]
  simp
  ring

theorem edge_width_9 {R1 R2 : Mat3} (h1 : R1.transpose * R1 = 1) (h2 : R2.transpose * R2 = 1) (s s' : Vec3) {R : Mat3} (hR : R = R1.transpose * R2) :
    s 1 * |R 2 2| + s 2 * |R 1 2| + s' 0 * |R 0 1| + s' 1 * |R 0 0| =
      reach R1.column s (R1 *ᵥ ![0, -R 2 2, R 1 2]) + reach R2.column s' (R1 *ᵥ ![0, -R 2 2, R 1 2]) := by
  have ho := orthogonal_of_frames h1 h2
  rw [← hR] at ho
  obtain ⟨ε, hε, c00, c01, c02, c10, c11, c12, c20, c21, c22⟩ := cofactors ho
  simp only [reach, mulVec_dot_own h1, mulVec_dot_other, ← hR]
  have y0 : (![0, -R 2 2, R 1 2] : Vec3) 0 * R 0 0 + (![0, -R 2 2, R 1 2] : Vec3) 1 * R 1 0 + (![0, -R 2 2, R 1 2] : Vec3) 2 * R 2 0 = ε * R 0 1 := by
    simp
    linear_combination c01
  have y1 : (![0, -R 2 2, R 1 2] : Vec3) 0 * R 0 1 + (![0, -R 2 2, R 1 2] : Vec3) 1 * R 1 1 + (![0, -R 2 2, R 1 2] : Vec3) 2 * R 2 1 = -(ε * R 0 0) := by
    simp
    linear_combination -c00
  have y2 : (![0, -R 2 2, R 1 2] : Vec3) 0 * R 0 2 + (![0, -R 2 2, R 1 2] : Vec3) 1 * R 1 2 + (![0, -R 2 2, R 1 2] : Vec3) 2 * R 2 2 = 0 := by
    simp
    ring
  rw [y0, y1, y2]
  simp only [abs_unit_mul hε, abs_neg_unit_mul hε]
  simp
  ring

theorem edge_width_10 {R1 R2 : Mat3} (h1 : R1.transpose * R1 = 1) (h2 : R2.transpose * R2 = 1) (s s' : Vec3) {R : Mat3} (hR : R = R1.transpose * R2) :
    s 0 * |R 2 0| + s 2 * |R 0 0| + s' 1 * |R 1 2| + s' 2 * |R 1 1| =
      reach R1.column s (R1 *ᵥ ![R 2 0, 0, -R 0 0]) + reach R2.column s' (R1 *ᵥ ![R 2 0, 0, -R 0 0]) := by
  have ho := orthogonal_of_frames h1 h2
  rw [← hR] at ho
  obtain ⟨ε, hε, c00, c01, c02, c10, c11, c12, c20, c21, c22⟩ := cofactors ho
  simp only [reach, mulVec_dot_own h1, mulVec_dot_other, ← hR]
  have y0 : (![R 2 0, 0, -R 0 0] : Vec3) 0 * R 0 0 + (![R 2 0, 0, -R 0 0] : Vec3) 1 * R 1 0 + (![R 2 0, 0, -R 0 0] : Vec3) 2 * R 2 0 = 0 := by
    simp
    ring
  have y1 : (![R 2 0, 0, -R 0 0] : Vec3) 0 * R 0 1 + (![R 2 0, 0, -R 0 0] : Vec3) 1 * R 1 1 + (![R 2 0, 0, -R 0 0] : Vec3) 2 * R 2 1 = ε * R 1 2 := by
    simp
    linear_combination c12
  have y2 : (![R 2 0, 0, -R 0 0] : Vec3) 0 * R 0 2 + (![R 2 0, 0, -R 0 0] : Vec3) 1 * R 1 2 + (![R 2 0, 0, -R 0 0] : Vec3) 2 * R 2 2 = -(ε * R 1 1) := by
    simp
    linear_combination -c11
  rw [y0, y1, y2]
  simp only [abs_unit_mul hε, abs_neg_unit_mul hε]
  simp
  ring

theorem edge_width_11 {R1 R2 : Mat3} (h1 : R1.transpose * R1 = 1) (h2 : R2.transpose * R2 = 1) (s s' : Vec3) {R : Mat3} (hR : R = R1.transpose * R2) :
    s 0 * |R 2 1| + s 2 * |R 0 1| + s' 0 * |R 1 2| + s' 2 * |R 1 0| =
      reach R1.column s (R1 *ᵥ ![R 2 1, 0, -R 0 1]) + reach R2.column s' (R1 *ᵥ ![R 2 1, 0, -R 0 1]) := by
  have ho := orthogonal_of_frames h1 h2
  rw [← hR] at ho
  obtain ⟨ε, hε, c00, c01, c02, c10, c11, c12, c20, c21, c22⟩ := cofactors ho
  simp only [reach, mulVec_dot_own h1, mulVec_dot_other, ← hR]
  have y0 : (![R 2 1, 0, -R 0 1] : Vec3) 0 * R 0 0 + (![R 2 1, 0, -R 0 1] : Vec3) 1 * R 1 0 + (![R 2 1, 0, -R 0 1] : Vec3) 2 * R 2 0 = -(ε * R 1 2) := by
    simp
    linear_combination -c12
  have y1 : (![R 2 1, 0, -R 0 1] : Vec3) 0 * R 0 1 + (![R 2 1, 0, -R 0 1] : Vec3) 1 * R 1 1 + (![R 2 1, 0, -R 0 1] : Vec3) 2 * R 2 1 = 0 := by
    simp
    ring
  have y2 : (![R 2 1, 0, -R 0 1] : Vec3) 0 * R 0 2 + (![R 2 1, 0, -R 0 1] : Vec3) 1 * R 1 2 + (![R 2 1, 0, -R 0 1] : Vec3) 2 * R 2 2 = ε * R 1 0 := by
    simp
    linear_combination c10
  rw [y0, y1, y2]
  simp only [abs_unit_mul hε, abs_neg_unit_mul hε]
  simp
  ring

theorem edge_width_12 {R1 R2 : Mat3} (h1 : R1.transpose * R1 = 1) (h2 : R2.transpose * R2 = 1) (s s' : Vec3) {R : Mat3} (hR : R = R1.transpose * R2) :
    s 0 * |R 2 2| + s 2 * |R 0 2| + s' 0 * |R 1 1| + s' 1 * |R 1 0| =
      reach R1.column s (R1 *ᵥ ![R 2 2, 0, -R 0 2]) + reach R2.column s' (R1 *ᵥ ![R 2 2, 0, -R 0 2]) := by
  have ho := orthogonal_of_frames h1 h2
  rw [← hR] at ho
  obtain ⟨ε, hε, c00, c01, c02, c10, c11, c12, c20, c21, c22⟩ := cofactors ho
  simp only [reach, mulVec_dot_own h1, mulVec_dot_other, ← hR]
  have y0 : (![R 2 2, 0, -R 0 2] : Vec3) 0 * R 0 0 + (![R 2 2, 0, -R 0 2] : Vec3) 1 * R 1 0 + (![R 2 2, 0, -R 0 2] : Vec3) 2 * R 2 0 = ε * R 1 1 := by
    simp
    linear_combination c11
  have y1 : (![R 2 2, 0, -R 0 2] : Vec3) 0 * R 0 1 + (![R 2 2, 0, -R 0 2] : Vec3) 1 * R 1 1 + (![R 2 2, 0, -R 0 2] : Vec3) 2 * R 2 1 = -(ε * R 1 0) := by
    simp
    linear_combination -c10
  have y2 : (![R 2 2, 0, -R 0 2] : Vec3) 0 * R 0 2 + (![R 2 2, 0, -R 0 2] : Vec3) 1 * R 1 2 + (![R 2 2, 0, -R 0 2] : Vec3) 2 * R 2 2 = 0 := by
    simp
    ring
  rw [y0, y1, y2]
  simp only [abs_unit_mul hε, abs_neg_unit_mul hε]
  simp
  ring

theorem edge_width_13 {R1 R2 : Mat3} (h1 : R1.transpose * R1 = 1) (h2 : R2.transpose * R2 = 1) (s s' : Vec3) {R : Mat3} (hR : R = R1.transpose * R2) :
    s 0 * |R 1 0| + s 1 * |R 0 0| + s' 1 * |R 2 2| + s' 2 * |R 2 1| =
      reach R1.column s (R1 *ᵥ ![-R 1 0, R 0 0, 0]) + reach R2.column s' (R1 *ᵥ ![-R 1 0, R 0 0, 0]) := by
  have ho := orthogonal_of_frames h1 h2
  rw [← hR] at ho
  obtain ⟨ε, hε, c00, c01, c02, c10, c11, c12, c20, c21, c22⟩ := cofactors ho
  simp only [reach, mulVec_dot_own h1, mulVec_dot_other, ← hR]
  have y0 : (![-R 1 0, R 0 0, 0] : Vec3) 0 * R 0 0 + (![-R 1 0, R 0 0, 0] : Vec3) 1 * R 1 0 + (![-R 1 0, R 0 0, 0] : Vec3) 2 * R 2 0 = 0 := by
    simp
    ring
  have y1 : (![-R 1 0, R 0 0, 0] : Vec3) 0 * R 0 1 + (![-R 1 0, R 0 0, 0] : Vec3) 1 * R 1 1 + (![-R 1 0, R 0 0, 0] : Vec3) 2 * R 2 1 = ε * R 2 2 := by
    simp
    linear_combination c22
  have y2 : (![-R 1 0, R 0 0, 0] : Vec3) 0 * R 0 2 + (![-R 1 0, R 0 0, 0] : Vec3) 1 * R 1 2 + (![-R 1 0, R 0 0, 0] : Vec3) 2 * R 2 2 = -(ε * R 2 1) := by
    simp
    linear_combination -c21
  rw [y0, y1, y2]
  simp only [abs_unit_mul hε, abs_neg_unit_mul hε]
  simp
  ring

theorem edge_width_14 {R1 R2 : Mat3} (h1 : R1.transpose * R1 = 1) (h2 : R2.transpose * R2 = 1) (s s' : Vec3) {R : Mat3} (hR : R = R1.transpose * R2) :
    s 0 * |R 1 1| + s 1 * |R 0 1| + s' 0 * |R 2 2| + s' 2 * |R 2 0| =
      reach R1.column s (R1 *ᵥ ![-R 1 1, R 0 1, 0]) + reach R2.column s' (R1 *ᵥ ![-R 1 1, R 0 1, 0]) := by
  have ho := orthogonal_of_frames h1 h2
  rw [← hR] at ho
  obtain ⟨ε, hε, c00, c01, c02, c10, c11, c12, c20, c21, c22⟩ := cofactors ho
  simp only [reach, mulVec_dot_own h1, mulVec_dot_other, ← hR]
  have y0 : (![-R 1 1, R 0 1, 0] : Vec3) 0 * R 0 0 + (![-R 1 1, R 0 1, 0] : Vec3) 1 * R 1 0 + (![-R 1 1, R 0 1, 0] : Vec3) 2 * R 2 0 = -(ε * R 2 2) := by
    simp
    linear_combination -c22
  have y1 : (![-R 1 1, R 0 1, 0] : Vec3) 0 * R 0 1 + (![-R 1 1, R 0 1, 0] : Vec3) 1 * R 1 1 + (![-R 1 1, R 0 1, 0] : Vec3) 2 * R 2 1 = 0 := by
    simp
    ring
  have y2 : (![-R 1 1, R 0 1, 0] : Vec3) 0 * R 0 2 + (![-R 1 1, R 0 1, 0] : Vec3) 1 * R 1 2 + (![-R 1 1, R 0 1, 0] : Vec3) 2 * R 2 2 = ε * R 2 0 := by
    simp
    linear_combination c20
  rw [y0, y1, y2]
  simp only [abs_unit_mul hε, abs_neg_unit_mul hε]
  simp
  ring

theorem edge_width_15 {R1 R2 : Mat3} (h1 : R1.transpose * R1 = 1) (h2 : R2.transpose * R2 = 1) (s s' : Vec3) {R : Mat3} (hR : R = R1.transpose * R2) :
    s 0 * |R 1 2| + s 1 * |R 0 2| + s' 0 * |R 2 1| + s' 1 * |R 2 0| =
      reach R1.column s (R1 *ᵥ ![-R 1 2, R 0 2, 0]) + reach R2.column s' (R1 *ᵥ ![-R 1 2, R 0 2, 0]) := by
  have ho := orthogonal_of_frames h1 h2
  rw [← hR] at ho
  obtain ⟨ε, hε, c00, c01, c02, c10, c11, c12, c20, c21, c22⟩ := cofactors ho
  simp only [reach, mulVec_dot_own h1, mulVec_dot_other, ← hR]
  have y0 : (![-R 1 2, R 0 2, 0] : Vec3) 0 * R 0 0 + (![-R 1 2, R 0 2, 0] : Vec3) 1 * R 1 0 + (![-R 1 2, R 0 2, 0] : Vec3) 2 * R 2 0 = ε * R 2 1 := by
    simp
    linear_combination c21
  have y1 : (![-R 1 2, R 0 2, 0] : Vec3) 0 * R 0 1 + (![-R 1 2, R 0 2, 0] : Vec3) 1 * R 1 1 + (![-R 1 2, R 0 2, 0] : Vec3) 2 * R 2 1 = -(ε * R 2 0) := by
    simp
    linear_combination -c20
  have y2 : (![-R 1 2, R 0 2, 0] : Vec3) 0 * R 0 2 + (![-R 1 2, R 0 2, 0] : Vec3) 1 * R 1 2 + (![-R 1 2, R 0 2, 0] : Vec3) 2 * R 2 2 = 0 := by
    simp
    ring
  rw [y0, y1, y2]
  simp only [abs_unit_mul hε, abs_neg_unit_mul hε]
  simp
  ring

theorem axis_length {R1 R2 : Mat3} (h1 : R1.transpose * R1 = 1) (h2 : R2.transpose * R2 = 1) {c : Nat} (hc1 : 1 ≤ c) (hc : c ≤ 6) : len3 (axisOf R1 R2 c) = 1 := by
  have f1 := frame_of_orthogonal h1
  have f2 := frame_of_orthogonal h2
  rw [len3_eq_sqrt]
  interval_cases c <;> simp only [axisOf] <;> (first | rw [f1.ortho] | rw [f2.ortho]) <;> simp

theorem face_dist_first (R1 : Mat3) (p : Vec3) (i : Fin 3) : (R1.transpose *ᵥ p) i = R1.column i ⬝ᵥ p := rfl

/-- The width and the distance that are computed for each edge -/
theorem edge_dist (R1 : Mat3) (p : Vec3) {d n1 n2 n3 : ℝ} (h : d = n1 * (R1.transpose *ᵥ p) 0 + n2 * (R1.transpose *ᵥ p) 1 + n3 * (R1.transpose *ᵥ p) 2) :
    d = (R1 *ᵥ ![n1, n2, n3]) ⬝ᵥ p := by
  rw [mulVec_dot_vec, h]; simp

theorem separatingAxes3_some {p1 p2 : Vec3} {R1 R2 : Mat3} {s s' : Vec3} {st : Sat3} (h1 : R1.transpose * R1 = 1) (h2 : R2.transpose * R2 = 1)
    (h : separatingAxes3 p1 R1 s p2 R2 s' = some st) : ∃ x, Tested (p2 - p1) R1 s R2 s' 15 st x := by
  unfold separatingAxes3 at h
  simp only [Option.bind_eq_some_iff] at h
  obtain ⟨s1, t1, s2, t2, s3, t3, s4, t4, s5, t5, s6, t6, s7, t7, s8, t8, s9, t9, s10, t10, s11, t11, s12, t12, s13, t13, s14, t14, t15⟩ := h
  obtain ⟨x1, k1⟩ := faceTest3_first (p := p2 - p1) (R1 := R1) (s := s) (R2 := R2) (s' := s') rfl (face_width_first h1 s s' 0)
    (axis_length h1 h2 (by norm_num) (by norm_num)) t1
  obtain ⟨x2, k2⟩ := faceTest3_step (n := 1) (by norm_num) k1 rfl (face_width_first h1 s s' 1)
    (axis_length h1 h2 (by norm_num) (by norm_num)) t2
  obtain ⟨x3, k3⟩ := faceTest3_step (n := 2) (by norm_num) k2 rfl (face_width_first h1 s s' 2)
    (axis_length h1 h2 (by norm_num) (by norm_num)) t3
  obtain ⟨x4, k4⟩ := faceTest3_step (n := 3) (by norm_num) k3 rfl (face_width_second h2 s s' 0)
    (axis_length h1 h2 (by norm_num) (by norm_num)) t4
  obtain ⟨x5, k5⟩ := faceTest3_step (n := 4) (by norm_num) k4 rfl (face_width_second h2 s s' 1)
    (axis_length h1 h2 (by norm_num) (by norm_num)) t5
  obtain ⟨x6, k6⟩ := faceTest3_step (n := 5) (by norm_num) k5 rfl (face_width_second h2 s s' 2)
    (axis_length h1 h2 (by norm_num) (by norm_num)) t6
  obtain ⟨x7, k7⟩ := edgeTest3_step (n := 6) (by norm_num) h1 k6 rfl (edge_dist R1 (p2 - p1) (by ring)) (edge_width_7 h1 h2 s s' rfl) t7
  obtain ⟨x8, k8⟩ := edgeTest3_step (n := 7) (by norm_num) h1 k7 rfl (edge_dist R1 (p2 - p1) (by ring)) (edge_width_8 h1 h2 s s' rfl) t8
  obtain ⟨x9, k9⟩ := edgeTest3_step (n := 8) (by norm_num) h1 k8 rfl (edge_dist R1 (p2 - p1) (by ring)) (edge_width_9 h1 h2 s s' rfl) t9
  obtain ⟨x10, k10⟩ := edgeTest3_step (n := 9) (by norm_num) h1 k9 rfl (edge_dist R1 (p2 - p1) (by ring)) (edge_width_10 h1 h2 s s' rfl) t10
  obtain ⟨x11, k11⟩ := edgeTest3_step (n := 10) (by norm_num) h1 k10 rfl (edge_dist R1 (p2 - p1) (by ring)) (edge_width_11 h1 h2 s s' rfl) t11
  obtain ⟨x12, k12⟩ := edgeTest3_step (n := 11) (by norm_num) h1 k11 rfl (edge_dist R1 (p2 - p1) (by ring)) (edge_width_12 h1 h2 s s' rfl) t12
  obtain ⟨x13, k13⟩ := edgeTest3_step (n := 12) (by norm_num) h1 k12 rfl (edge_dist R1 (p2 - p1) (by ring)) (edge_width_13 h1 h2 s s' rfl) t13
  obtain ⟨x14, k14⟩ := edgeTest3_step (n := 13) (by norm_num) h1 k13 rfl (edge_dist R1 (p2 - p1) (by ring)) (edge_width_14 h1 h2 s s' rfl) t14
  obtain ⟨x15, k15⟩ := edgeTest3_step (n := 14) (by norm_num) h1 k14 rfl (edge_dist R1 (p2 - p1) (by ring)) (edge_width_15 h1 h2 s s' rfl) t15
  exact ⟨x15, k15⟩

theorem bind_none_cases {α β : Type*} {o : Option α} {f : α → Option β} (h : o.bind f = none) : o = none ∨ ∃ a, o = some a ∧ f a = none := by
  cases o with
  | none => exact Or.inl rfl
  | some a => exact Or.inr ⟨a, rfl, h⟩

theorem edge_none {p : Vec3} {R1 : Mat3} {s : Vec3} {R2 : Mat3} {s' : Vec3} {dist widths n1 n2 n3 : ℝ} {code : Nat} {st : Sat3}
    (hd : dist = (R1 *ᵥ ![n1, n2, n3]) ⬝ᵥ p) (hw : widths = reach R1.column s (R1 *ᵥ ![n1, n2, n3]) + reach R2.column s' (R1 *ᵥ ![n1, n2, n3]))
    (h : edgeTest3 dist widths n1 n2 n3 code st = none) : ∃ g, overlap p R1 s R2 s' g < 0 := by
  have hn := edgeTest3_none h
  rw [hd, hw] at hn
  exact ⟨_, hn⟩

theorem separatingAxes3_none {p1 p2 : Vec3} {R1 R2 : Mat3} {s s' : Vec3} (h1 : R1.transpose * R1 = 1) (h2 : R2.transpose * R2 = 1)
    (h : separatingAxes3 p1 R1 s p2 R2 s' = none) : ∃ g, overlap (p2 - p1) R1 s R2 s' g < 0 := by
  unfold separatingAxes3 at h
  dsimp only at h
  rcases bind_none_cases h with hn | ⟨s1, -, h⟩
  · have hn := faceTest3_none hn
    rw [face_width_first h1 s s' 0] at hn
    exact ⟨R1.column 0, hn⟩
  rcases bind_none_cases h with hn | ⟨s2, -, h⟩
  · have hn := faceTest3_none hn
    rw [face_width_first h1 s s' 1] at hn
    exact ⟨R1.column 1, hn⟩
  rcases bind_none_cases h with hn | ⟨s3, -, h⟩
  · have hn := faceTest3_none hn
    rw [face_width_first h1 s s' 2] at hn
    exact ⟨R1.column 2, hn⟩
  rcases bind_none_cases h with hn | ⟨s4, -, h⟩
  · have hn := faceTest3_none hn
    rw [face_width_second h2 s s' 0] at hn
    exact ⟨R2.column 0, hn⟩
  rcases bind_none_cases h with hn | ⟨s5, -, h⟩
  · have hn := faceTest3_none hn
    rw [face_width_second h2 s s' 1] at hn
    exact ⟨R2.column 1, hn⟩
  rcases bind_none_cases h with hn | ⟨s6, -, h⟩
  · have hn := faceTest3_none hn
    rw [face_width_second h2 s s' 2] at hn
    exact ⟨R2.column 2, hn⟩
  rcases bind_none_cases h with hn | ⟨s7, -, h⟩
  · exact edge_none (edge_dist R1 (p2 - p1) (by ring)) (edge_width_7 h1 h2 s s' rfl) hn
  rcases bind_none_cases h with hn | ⟨s8, -, h⟩
  · exact edge_none (edge_dist R1 (p2 - p1) (by ring)) (edge_width_8 h1 h2 s s' rfl) hn
  rcases bind_none_cases h with hn | ⟨s9, -, h⟩
  · exact edge_none (edge_dist R1 (p2 - p1) (by ring)) (edge_width_9 h1 h2 s s' rfl) hn
  rcases bind_none_cases h with hn | ⟨s10, -, h⟩
  · exact edge_none (edge_dist R1 (p2 - p1) (by ring)) (edge_width_10 h1 h2 s s' rfl) hn
  rcases bind_none_cases h with hn | ⟨s11, -, h⟩
  · exact edge_none (edge_dist R1 (p2 - p1) (by ring)) (edge_width_11 h1 h2 s s' rfl) hn
  rcases bind_none_cases h with hn | ⟨s12, -, h⟩
  · exact edge_none (edge_dist R1 (p2 - p1) (by ring)) (edge_width_12 h1 h2 s s' rfl) hn
  rcases bind_none_cases h with hn | ⟨s13, -, h⟩
  · exact edge_none (edge_dist R1 (p2 - p1) (by ring)) (edge_width_13 h1 h2 s s' rfl) hn
  rcases bind_none_cases h with hn | ⟨s14, -, h⟩
  · exact edge_none (edge_dist R1 (p2 - p1) (by ring)) (edge_width_14 h1 h2 s s' rfl) hn
  · exact edge_none (edge_dist R1 (p2 - p1) (by ring)) (edge_width_15 h1 h2 s s' rfl) h

/-- After the fifteen tests: the axis that was chosen, its length one, and how far the boxes overlap -/
theorem satNormal3_spec {p : Vec3} {R1 : Mat3} {s : Vec3} {R2 : Mat3} {s' : Vec3} {st : Sat3} {x : ℝ} (h1 : R1.transpose * R1 = 1) (h2 : R2.transpose * R2 = 1)
    (ht : Tested p R1 s R2 s' 15 st x) : satNormal3 R1 R2 st ⬝ᵥ satNormal3 R1 R2 st = 1 ∧ 0 ≤ satNormal3 R1 R2 st ⬝ᵥ p ∧
      x = reach R1.column s (satNormal3 R1 R2 st) + reach R2.column s' (satNormal3 R1 R2 st) - satNormal3 R1 R2 st ⬝ᵥ p ∧
      ∃ c : ℝ, c ≠ 0 ∧ satNormal3 R1 R2 st = c • axisOf R1 R2 st.code := by
  have hform : satNormal3 R1 R2 st = (if axisOf R1 R2 st.code ⬝ᵥ p < 0 then -(1 / len3 (axisOf R1 R2 st.code)) else 1 / len3 (axisOf R1 R2 st.code)) • axisOf R1 R2 st.code := by
    unfold satNormal3
    rw [ht.side]
    have hin : (if st.code ≤ 6 then if st.code ≤ 3 then R1.column (Fin.ofNat 3 (st.code - 1)) else R2.column (Fin.ofNat 3 (st.code - 4)) else R1 *ᵥ st.normalC) =
        (1 / len3 (axisOf R1 R2 st.code)) • axisOf R1 R2 st.code := by
      by_cases h6 : st.code ≤ 6
      · rw [if_pos h6, axis_length h1 h2 ht.code1 h6, div_one, one_smul]
        have hc1 := ht.code1
        generalize st.code = c at *
        interval_cases c <;> rfl
      · rw [if_neg h6]
        exact ht.edge (by omega)
    dsimp only
    rw [hin]
    by_cases hneg : axisOf R1 R2 st.code ⬝ᵥ p < 0
    · simp [hneg]
    · simp [hneg]
  have hl := ht.length
  have hsq := len3_sq (axisOf R1 R2 st.code)
  have hax := ht.axis
  rw [overlap] at hax
  set g := axisOf R1 R2 st.code with hg
  set l := len3 g with hl'
  rw [hform]
  have key : ∀ c : ℝ, |c| = 1 / l → c * (g ⬝ᵥ p) = |c| * |g ⬝ᵥ p| → (c • g) ⬝ᵥ (c • g) = 1 ∧ 0 ≤ (c • g) ⬝ᵥ p ∧
      x = reach R1.column s (c • g) + reach R2.column s' (c • g) - (c • g) ⬝ᵥ p ∧ ∃ c' : ℝ, c' ≠ 0 ∧ c • g = c' • g := by
    intro c hc hcp
    have hc0 : c ≠ 0 := by
      intro h0
      rw [h0, abs_zero] at hc
      exact absurd hc.symm (one_div_pos.mpr hl).ne'
    refine ⟨?_, ?_, ?_, c, hc0, rfl⟩
    · rw [smul_dotProduct, dotProduct_smul, smul_eq_mul, smul_eq_mul, ← hsq, ← mul_assoc, ← abs_mul_abs_self, hc]
      field_simp
    · rw [smul_dotProduct, smul_eq_mul, hcp]; positivity
    · rw [reach_smul, reach_smul, smul_dotProduct, smul_eq_mul, hcp, ← mul_add, ← mul_sub, ← hax, hc]
      field_simp
  split
  · rename_i hneg
    refine key _ ?_ ?_
    · rw [abs_neg, abs_of_pos (one_div_pos.mpr hl)]
    · rw [abs_neg, abs_of_pos (one_div_pos.mpr hl), abs_of_neg hneg]; ring
  · rename_i hneg
    refine key _ ?_ ?_
    · rw [abs_of_pos (one_div_pos.mpr hl)]
    · rw [abs_of_pos (one_div_pos.mpr hl), abs_of_nonneg (not_lt.mp hneg)]

/-- The axis of an edge is along the cross product -/
theorem axis_cross {R1 R2 : Mat3} (h1 : R1.transpose * R1 = 1) (i j : Fin 3) : axisOf R1 R2 (7 + 3 * i.val + j.val) ⬝ᵥ R1.column i = 0 ∧
    axisOf R1 R2 (7 + 3 * i.val + j.val) ⬝ᵥ R2.column j = 0 ∧ (axisOf R1 R2 (7 + 3 * i.val + j.val) = 0 → crossProduct (R1.column i) (R2.column j) = 0) := by
  have hfr := frame_of_orthogonal h1
  have hexp : R2.column j = (R1.transpose * R2) 0 j • R1.column 0 + (R1.transpose * R2) 1 j • R1.column 1 + (R1.transpose * R2) 2 j • R1.column 2 := by
    have h := hfr.expand (R2.column j)
    rw [dotProduct_comm (R2.column j), dotProduct_comm (R2.column j), dotProduct_comm (R2.column j)] at h
    exact h
  have hzero : ∀ n : Vec3, R1 *ᵥ n = 0 → ∀ k, n k = 0 := by
    intro n hn k
    rw [← mulVec_dot_own h1 n k, hn, zero_dotProduct]
  refine ⟨?_, ?_, ?_⟩
  · fin_cases i <;> fin_cases j <;> simp only [axisOf, mulVec_dot_own h1] <;> simp
  · fin_cases i <;> fin_cases j <;> simp only [axisOf, mulVec_dot_other] <;> simp <;> ring
  · intro h
    rw [hexp]
    have hc : ∃ k l : Fin 3, k ≠ i ∧ l ≠ i ∧ k ≠ l ∧ (R1.transpose * R2) k j = 0 ∧ (R1.transpose * R2) l j = 0 := by
      fin_cases i <;> fin_cases j <;> simp only [axisOf] at h <;> have hz := hzero _ h <;> have z0 := hz 0 <;> have z1 := hz 1 <;> have z2 := hz 2 <;>
        simp only [cons_val_zero, cons_val_one, cons_val_two, cons_val, neg_eq_zero, head_cons, tail_cons] at z0 z1 z2
      · exact ⟨2, 1, by decide, by decide, by decide, z1, z2⟩
      · exact ⟨2, 1, by decide, by decide, by decide, z1, z2⟩
      · exact ⟨2, 1, by decide, by decide, by decide, z1, z2⟩
      · exact ⟨2, 0, by decide, by decide, by decide, z0, z2⟩
      · exact ⟨2, 0, by decide, by decide, by decide, z0, z2⟩
      · exact ⟨2, 0, by decide, by decide, by decide, z0, z2⟩
      · exact ⟨1, 0, by decide, by decide, by decide, z0, z1⟩
      · exact ⟨1, 0, by decide, by decide, by decide, z0, z1⟩
      · exact ⟨1, 0, by decide, by decide, by decide, z0, z1⟩
    obtain ⟨k, l, hki, hli, hkl, hk, hl⟩ := hc
    have hsum : (R1.transpose * R2) 0 j • R1.column 0 + (R1.transpose * R2) 1 j • R1.column 1 + (R1.transpose * R2) 2 j • R1.column 2 =
        (R1.transpose * R2) i j • R1.column i := by
      generalize (R1.transpose * R2) = M at *
      fin_cases i <;> fin_cases k <;> fin_cases l <;> simp at hki hli hkl hk hl <;> simp [hk, hl]
    rw [hsum, map_smul, cross_self, smul_zero]

/-- What holds along the fifteen axes holds in every direction -/
theorem tested_all {p : Vec3} {R1 : Mat3} {s : Vec3} {R2 : Mat3} {s' : Vec3} {ρ : ℝ} (h1 : R1.transpose * R1 = 1) (h2 : R2.transpose * R2 = 1)
    (hρ : 0 ≤ ρ) (hall : ∀ c, 1 ≤ c → c ≤ 15 → ρ * len3 (axisOf R1 R2 c) ≤ overlap p R1 s R2 s' (axisOf R1 R2 c)) (f : Vec3) :
    ρ * len3 f ≤ reach R1.column s f + reach R2.column s' f - f ⬝ᵥ p := by
  refine sat15 (frame_of_orthogonal h1) (frame_of_orthogonal h2) s s' p ρ hρ ?_ ?_ ?_ f
  · intro i
    have h := hall (1 + i.val) (by omega) (by omega)
    rw [axis_length h1 h2 (by omega) (by omega), mul_one] at h
    fin_cases i <;> exact h
  · intro i
    have h := hall (4 + i.val) (by omega) (by omega)
    rw [axis_length h1 h2 (by omega) (by omega), mul_one] at h
    fin_cases i <;> exact h
  · intro i j
    by_cases hz : crossProduct (R1.column i) (R2.column j) = 0
    · rw [hz]
      have : len3 0 = 0 := by simp [len3]
      rw [this]; simp [reach]
    · obtain ⟨ha, hb, hc⟩ := axis_cross (R2 := R2) h1 i j
      obtain ⟨c, hgc⟩ := along_cross ha hb hz
      have h := hall (7 + 3 * i.val + j.val) (by omega) (by omega)
      have hc0 : c ≠ 0 := by
        intro h0
        rw [h0, zero_smul] at hgc
        exact hz (hc hgc)
      rw [hgc, overlap, len3_smul, reach_smul, reach_smul, smul_dotProduct, smul_eq_mul, abs_mul] at h
      have h' : |c| * (ρ * len3 (crossProduct (R1.column i) (R2.column j))) ≤ |c| * (reach R1.column s (crossProduct (R1.column i) (R2.column j)) +
          reach R2.column s' (crossProduct (R1.column i) (R2.column j)) - |crossProduct (R1.column i) (R2.column j) ⬝ᵥ p|) := by linarith
      exact le_of_mul_le_mul_left h' (abs_pos.mpr hc0)

theorem Tested.directions {p : Vec3} {R1 : Mat3} {s : Vec3} {R2 : Mat3} {s' : Vec3} {st : Sat3} {x : ℝ} (h1 : R1.transpose * R1 = 1)
    (h2 : R2.transpose * R2 = 1) (ht : Tested p R1 s R2 s' 15 st x) (f : Vec3) : x / (105 / 100) * len3 f ≤ reach R1.column s f + reach R2.column s' f - f ⬝ᵥ p := by
  have hx := ht.nonneg
  refine tested_all h1 h2 (by positivity) (fun c hc1 hc15 => ?_) f
  rcases Nat.lt_or_ge 6 c with h6 | h6
  · have := ht.edges c h6 hc15
    have h4 : x / (105 / 100) * len3 (axisOf R1 R2 c) = (x * len3 (axisOf R1 R2 c)) / (105 / 100) := by ring
    rw [h4, div_le_iff₀ (by norm_num)]
    linarith
  · have := ht.faces c hc1 hc15 h6
    rw [axis_length h1 h2 hc1 h6, mul_one, div_le_iff₀ (by norm_num)]
    linarith

end Scisim
