import Mathlib.Algebra.BigOperators.Group.Finset.Basic
import Verif.Lemmas.LensVolume
import Verif.Lemmas.RigidContactLists3D
import Verif.Lemmas.Separation
import Verif.Spec.Statistics
/-!
# Collision statistics: sums over lists, and separation of balls in coordinates
-/

namespace Scisim

open Matrix

/-! ## Totals -/

theorem totalNaN_nil : totalNaN [] = some 0 := by simp [totalNaN]

theorem totalNaN_append (l : List (Option ℝ)) (x : Option ℝ) : totalNaN (l ++ [x]) = addNaN (totalNaN l) x := by
  unfold totalNaN addNaN
  cases x with
  | none => simp
  | some y =>
    by_cases h : none ∈ l
    · simp [h]
    · simp [h]

theorem stats_of {α : Type} (name : α → String) (depth volume : α → Option ℝ) (cs : List α) :
    CollisionStats.Of (cs.foldl (fun st c => st.add (name c) (depth c) (volume c)) .empty) name depth volume cs := by
  induction cs using List.reverseRecOn with
  | nil => intro k; simp [CollisionStats.empty]
  | append_singleton cs c ih =>
    intro k
    rw [List.foldl_append, List.foldl_cons, List.foldl_nil]
    obtain ⟨i1, i2⟩ := ih k
    set st := cs.foldl (fun st c => st.add (name c) (depth c) (volume c)) CollisionStats.empty with hst
    have hent : ∀ {β : Type} (add : β → β → β) (zero : β) (m : String → Option β) (x : β), addToEntry add zero m (name c) x k =
        if k = name c then some (match m k with | none => add zero x | some y => add y x) else m k := by
      intro β add zero m x
      unfold addToEntry
      by_cases hk : k = name c
      · subst hk
        rw [if_pos rfl, if_pos rfl]
        cases m (name c) <;> rfl
      · rw [if_neg hk, if_neg hk]
    simp only [CollisionStats.add, hent]
    by_cases hk : k = name c
    · refine ⟨fun h => absurd hk.symm (h c (by simp)), fun _ => ?_⟩
      simp only [if_pos hk, List.countP_append, List.filter_append, List.map_append]
      have hs : [c].countP (fun c => decide (name c = k)) = 1 ∧ ([c].filter fun c => decide (name c = k)) = [c] := by simp [hk]
      rw [hs.1, hs.2]
      simp only [List.map_cons, List.map_nil, totalNaN_append]
      by_cases hex : ∃ c ∈ cs, name c = k
      · obtain ⟨j1, j2, j3⟩ := i2 hex
        rw [j1, j2, j3]
        exact ⟨rfl, rfl, rfl⟩
      · push Not at hex
        obtain ⟨j1, j2, j3⟩ := i1 hex
        have h0 : (cs.filter fun c => decide (name c = k)) = [] := by
          rw [List.filter_eq_nil_iff]
          intro c hc
          simpa using hex c hc
        have h1 : cs.countP (fun c => decide (name c = k)) = 0 := by
          rw [List.countP_eq_zero]
          intro c hc
          simpa using hex c hc
        rw [j1, j2, j3, h0, h1, List.map_nil, List.map_nil, totalNaN_nil]
        exact ⟨rfl, rfl, rfl⟩
    · simp only [if_neg hk, List.countP_append, List.filter_append, List.map_append]
      have hs : [c].countP (fun c => decide (name c = k)) = 0 ∧ ([c].filter fun c => decide (name c = k)) = [] := by
        constructor
        · simp [Ne.symm hk]
        · simp [Ne.symm hk]
      rw [hs.1, hs.2, List.map_nil, List.map_nil, List.append_nil, List.append_nil, add_zero]
      refine ⟨fun h => i1 fun c' hc' => h c' (by simp [hc']), ?_⟩
      rintro ⟨c', hc', rfl⟩
      refine i2 ?_
      rcases List.mem_append.mp hc' with h | h
      · exact ⟨c', h, rfl⟩
      · rw [List.mem_singleton] at h
        subst h
        exact absurd rfl hk

/-- A total over contacts that are in one to one correspondence with a finite set -/
theorem totalNaN_finset {α β : Type} [DecidableEq β] (l : List α) (f : α → β) (g : α → Option ℝ) (d : β → ℝ) (hn : (l.map f).Nodup)
    (hd : ∀ c ∈ l, g c = some (d (f c))) : totalNaN (l.map g) = some (∑ p ∈ (l.map f).toFinset, d p) := by
  have h1 : l.map g = (l.map fun c => d (f c)).map some := by
    rw [List.map_map]
    exact List.map_congr_left hd
  unfold totalNaN
  rw [h1, if_neg (by simp), List.sum_toFinset d hn, List.map_map, List.filterMap_map]
  simp [Function.comp_def]

/-! ## Coordinates -/

theorem norm_toLp3 (z : Vec3) : ‖(WithLp.toLp 2 z : EuclideanSpace ℝ (Fin 3))‖ = norm3 z := by
  rw [EuclideanSpace.norm_eq, norm3]
  simp [Fin.sum_univ_three, sq]

theorem norm3_sq (z : Vec3) : norm3 z ^ 2 = inner3 z z := by
  rw [norm3, Real.sq_sqrt (by nlinarith [sq_nonneg (z 0), sq_nonneg (z 1), sq_nonneg (z 2)])]
  rfl

theorem norm3_nonneg' (z : Vec3) : 0 ≤ norm3 z := Real.sqrt_nonneg _

theorem distSq3_norm (a b : Vec3) : distSq3 a b = norm3 (a - b) ^ 2 := by
  rw [norm3_sq]
  simp only [distSq3, inner3, Pi.sub_apply]
  ring

theorem openBall3_eq (x : Vec3) {r : ℝ} (hr : 0 < r) :
    openBall3 x r = WithLp.toLp 2 ⁻¹' Metric.ball (WithLp.toLp 2 x : EuclideanSpace ℝ (Fin 3)) r := by
  ext z
  rw [openBall3, Set.mem_ofPred_eq, Set.mem_preimage, Metric.mem_ball, dist_eq_norm, ← WithLp.toLp_sub, norm_toLp3, distSq3_norm,
    sq_lt_sq₀ (norm3_nonneg' _) hr.le]

theorem ballSet3_eq (x : Vec3) {r : ℝ} (hr : 0 < r) :
    ballSet3 x r = WithLp.toLp 2 ⁻¹' Metric.closedBall (WithLp.toLp 2 x : EuclideanSpace ℝ (Fin 3)) r := by
  ext z
  have : (z ∈ ballSet3 x r) = (distSq3 z x ≤ r ^ 2) := rfl
  rw [this, Set.mem_preimage, Metric.mem_closedBall, dist_eq_norm, ← WithLp.toLp_sub, norm_toLp3, distSq3_norm,
    sq_le_sq₀ (norm3_nonneg' _) hr.le]

theorem inner_toLp3 (a b : Vec3) : inner ℝ (WithLp.toLp 2 a : EuclideanSpace ℝ (Fin 3)) (WithLp.toLp 2 b) = inner3 a b := by
  simp only [inner3, PiLp.inner_apply, Fin.sum_univ_three]
  simp
  ring

/-- Separation in coordinates and in Euclidean space -/
theorem leastSeparation3_iff (x : Vec3) {r : ℝ} (hr : 0 < r) (S : Set Vec3) (S' : Set (EuclideanSpace ℝ (Fin 3))) (hS : S = WithLp.toLp 2 ⁻¹' S') (e : ℝ)
    (h : IsLeast {e | 0 ≤ e ∧ ∃ t, ‖t‖ = e ∧ Disjoint (Metric.ball (WithLp.toLp 2 x + t) r) S'} e) : LeastSeparation3 x r S e := by
  have hset : {e | 0 ≤ e ∧ ∃ t : Vec3, inner3 t t = e ^ 2 ∧ Disjoint (openBall3 (x + t) r) S} =
      {e | 0 ≤ e ∧ ∃ t, ‖t‖ = e ∧ Disjoint (Metric.ball (WithLp.toLp 2 x + t) r) S'} := by
    ext e
    simp only [Set.mem_ofPred_eq]
    have hsurj : Function.Surjective (WithLp.toLp 2 : Vec3 → EuclideanSpace ℝ (Fin 3)) := fun z => ⟨z.ofLp, rfl⟩
    have hdisj : ∀ t : Vec3, Disjoint (openBall3 (x + t) r) S ↔
        Disjoint (Metric.ball (WithLp.toLp 2 x + WithLp.toLp 2 t : EuclideanSpace ℝ (Fin 3)) r) S' := by
      intro t
      rw [openBall3_eq _ hr, hS, WithLp.toLp_add, Set.disjoint_preimage_iff hsurj]
    constructor
    · rintro ⟨h0, t, h1, h2⟩
      refine ⟨h0, WithLp.toLp 2 t, ?_, (hdisj t).mp h2⟩
      rw [norm_toLp3, ← sq_eq_sq₀ (norm3_nonneg' _) h0, norm3_sq, h1]
    · rintro ⟨h0, t, h1, h2⟩
      refine ⟨h0, t.ofLp, ?_, (hdisj _).mpr h2⟩
      rw [← norm3_sq, ← norm_toLp3, WithLp.toLp_ofLp, h1]
  rw [LeastSeparation3, hset]
  exact h

theorem separation3_balls (x y : Vec3) {a b : ℝ} (ha : 0 < a) (hb : 0 < b) :
    LeastSeparation3 x a (openBall3 y b) (-(min 0 (norm3 (x - y) - a - b))) := by
  refine leastSeparation3_iff x ha _ _ (openBall3_eq y hb) _ ?_
  have h := least_separation_balls (WithLp.toLp 2 x : EuclideanSpace ℝ (Fin 3)) (WithLp.toLp 2 y) ha hb
  rwa [← WithLp.toLp_sub, norm_toLp3] at h

theorem separation3_plane (x : Vec3) (p : Plane3) (hn : inner3 p.n p.n = 1) {r : ℝ} (hr : 0 < r) :
    LeastSeparation3 x r p.below (-(min 0 (p.n ⬝ᵥ (x - p.x) - r))) := by
  have hn' : ‖(WithLp.toLp 2 p.n : EuclideanSpace ℝ (Fin 3))‖ = 1 := by
    rw [norm_toLp3, ← sq_eq_sq₀ (norm3_nonneg' _) zero_le_one, norm3_sq, hn, one_pow]
  refine leastSeparation3_iff x hr _ {z | inner ℝ (WithLp.toLp 2 p.n) (z - WithLp.toLp 2 p.x) < 0} ?_ _ ?_
  · ext z
    simp only [Plane3.below, Set.mem_ofPred_eq, Set.mem_preimage]
    rw [← WithLp.toLp_sub, inner_toLp3]
    have : p.height z = inner3 p.n (z - p.x) := by simp only [Plane3.height, inner3, Pi.sub_apply]; ring
    rw [this]
  · have h := least_separation_half (WithLp.toLp 2 x : EuclideanSpace ℝ (Fin 3)) (WithLp.toLp 2 p.x) (WithLp.toLp 2 p.n) hn' hr
    rw [← WithLp.toLp_sub, inner_toLp3] at h
    rwa [dot_inner]

theorem offAxis_toLp3 (u z : Vec3) : offAxis (WithLp.toLp 2 u : EuclideanSpace ℝ (Fin 3)) (WithLp.toLp 2 z) = WithLp.toLp 2 (z - (u ⬝ᵥ z) • u) := by
  unfold offAxis
  rw [inner_toLp3, dot_inner, WithLp.toLp_sub, WithLp.toLp_smul]

theorem separation3_cylinder (x : Vec3) (c : Cylinder3) (hu : inner3 c.axis c.axis = 1) {r : ℝ} (hr : 0 < r) (hrR : r ≤ c.r) :
    LeastSeparation3 x r c.outside (-(min 0 (c.r - norm3 (c.offset x) - r))) := by
  have hu' : ‖(WithLp.toLp 2 c.axis : EuclideanSpace ℝ (Fin 3))‖ = 1 := by
    rw [norm_toLp3, ← sq_eq_sq₀ (norm3_nonneg' _) zero_le_one, norm3_sq, hu, one_pow]
  have hoff : ∀ z, ‖offAxis (WithLp.toLp 2 c.axis : EuclideanSpace ℝ (Fin 3)) (WithLp.toLp 2 z - WithLp.toLp 2 c.x)‖ = norm3 (c.offset z) := by
    intro z
    rw [← WithLp.toLp_sub, offAxis_toLp3, norm_toLp3]
    rfl
  refine leastSeparation3_iff x hr _ {z | c.r < ‖offAxis (WithLp.toLp 2 c.axis) (z - WithLp.toLp 2 c.x)‖} ?_ _ ?_
  · ext z
    simp only [Cylinder3.outside, Set.mem_ofPred_eq, Set.mem_preimage]
    rw [hoff, Step3.distSqAxis_eq hu, ← sq_lt_sq₀ (by linarith) (norm3_nonneg' _), norm3_sq]
    rfl
  · have h := least_separation_cylinder (WithLp.toLp 2 x : EuclideanSpace ℝ (Fin 3)) (WithLp.toLp 2 c.x) (WithLp.toLp 2 c.axis) hu' hr hrR
    rwa [hoff] at h

/-! ## Volumes -/

open MeasureTheory in
theorem volume_preimage3 (S : Set (EuclideanSpace ℝ (Fin 3))) (hS : MeasurableSet S) : volume (WithLp.toLp 2 ⁻¹' S : Set Vec3) = volume S :=
  (PiLp.volume_preserving_toLp (Fin 3)).measure_preimage hS.nullMeasurableSet

theorem lens_nonneg {d r R : ℝ} (hr : 0 < r) (hR : 0 < R) (hrR : r ≤ R) (hd : 0 < d) (h2 : R < d + r) :
    0 ≤ Real.pi * (R + r - d) * (R + r - d) * (d * d + 2 * d * r - 3 * r * r + 2 * d * R + 6 * r * R - 3 * R * R) / (12 * d) := by
  have h3 : 0 ≤ d * d + 2 * d * r - 3 * r * r + 2 * d * R + 6 * r * R - 3 * R * R := by nlinarith
  have h4 : 0 ≤ (R + r - d) * (R + r - d) := mul_self_nonneg _
  rw [mul_assoc Real.pi]
  have := Real.pi_pos
  positivity

open MeasureTheory in
theorem volume_overlap (i j : Nat) (n p : Vec3) {ra rb : ℝ} (ha : 0 < ra) (hb : 0 < rb) (q : Pose3) :
    (Contact3.sphereSphere i j n p ra rb).overlapVolume q = some (volume (ballSet3 (q.x i) ra ∩ ballSet3 (q.x j) rb)).toReal := by
  rw [ballSet3_eq _ ha, ballSet3_eq _ hb, ← Set.preimage_inter, volume_preimage3 _ (Metric.isClosed_closedBall.measurableSet.inter
    Metric.isClosed_closedBall.measurableSet)]
  set x : EuclideanSpace ℝ (Fin 3) := WithLp.toLp 2 (q.x i) with hx
  set y : EuclideanSpace ℝ (Fin 3) := WithLp.toLp 2 (q.x j) with hy
  have hd : norm3 (q.x i - q.x j) = ‖x - y‖ := by rw [hx, hy, ← WithLp.toLp_sub, norm_toLp3]
  simp only [Contact3.overlapVolume, hd]
  have hball : ∀ (z : EuclideanSpace ℝ (Fin 3)) (r : ℝ), 0 < r → (volume (Metric.closedBall z r)).toReal = 4 * Real.pi * r * r * r / 3 := by
    intro z r hr
    rw [EuclideanSpace.volume_closedBall_fin_three, ENNReal.toReal_mul, ENNReal.toReal_pow, ENNReal.toReal_ofReal hr.le,
      ENNReal.toReal_ofReal (by positivity)]
    ring
  split
  · rename_i hgt
    rw [Set.disjoint_iff_inter_eq_empty.mp (Metric.closedBall_disjoint_closedBall (by rw [dist_eq_norm]; exact hgt)), measure_empty, ENNReal.toReal_zero]
  · rename_i hle
    push Not at hle
    rcases le_total ra rb with hab | hab
    · rw [min_eq_left hab, max_eq_right hab]
      split
      · rename_i hin
        rw [Set.inter_eq_left.mpr (Metric.closedBall_subset_closedBall' (by rw [dist_eq_norm]; linarith)), hball _ _ ha]
      · rename_i hout
        push Not at hout
        have hpos : 0 < ‖y - x‖ := by rw [norm_sub_rev]; linarith
        rw [volume_lens x y ha hb hpos (by rw [norm_sub_rev]; linarith) (by linarith) (by rw [norm_sub_rev]; linarith), norm_sub_rev y x,
          ENNReal.toReal_ofReal]
        · rfl
        · exact lens_nonneg ha hb hab (by linarith) hout
    · rw [min_eq_right hab, max_eq_left hab]
      split
      · rename_i hin
        rw [Set.inter_eq_right.mpr (Metric.closedBall_subset_closedBall' (by rw [dist_eq_norm, norm_sub_rev]; linarith)), hball _ _ hb]
      · rename_i hout
        push Not at hout
        have hpos : 0 < ‖x - y‖ := by linarith
        rw [Set.inter_comm, volume_lens y x hb ha hpos (by linarith) (by linarith) (by linarith), ENNReal.toReal_ofReal]
        · rfl
        · exact lens_nonneg hb ha hab (by linarith) hout

/-! ## In the plane -/

/-- The Euclidean plane -/
def toE2 (z : V2 ℝ) : EuclideanSpace ℝ (Fin 2) := WithLp.toLp 2 ![z.x, z.y]

theorem toE2_add (a b : V2 ℝ) : toE2 (a + b) = toE2 a + toE2 b := by
  ext i
  fin_cases i <;> simp [toE2]

theorem toE2_sub (a b : V2 ℝ) : toE2 (a - b) = toE2 a - toE2 b := by
  ext i
  fin_cases i <;> simp [toE2]

theorem norm_toE2 (z : V2 ℝ) : ‖toE2 z‖ = √z.normSq := by
  rw [EuclideanSpace.norm_eq]
  simp [toE2, Fin.sum_univ_two, V2.normSq, sq]

theorem inner_toE2 (a b : V2 ℝ) : inner ℝ (toE2 a) (toE2 b) = a.dot b := by
  simp only [toE2, PiLp.inner_apply, Fin.sum_univ_two]
  simp [V2.dot]
  ring

theorem toE2_surjective : Function.Surjective toE2 := fun z => ⟨⟨z 0, z 1⟩, by
  ext i
  fin_cases i <;> simp [toE2]⟩

theorem normSq_nonneg2 (z : V2 ℝ) : 0 ≤ z.normSq := by
  unfold V2.normSq
  nlinarith [sq_nonneg z.x, sq_nonneg z.y]

theorem openDisc_eq (x : V2 ℝ) {r : ℝ} (hr : 0 < r) : openDisc x r = toE2 ⁻¹' Metric.ball (toE2 x) r := by
  ext z
  rw [openDisc, Set.mem_ofPred_eq, Set.mem_preimage, Metric.mem_ball, dist_eq_norm, ← toE2_sub, norm_toE2, ← sq_lt_sq₀ (Real.sqrt_nonneg _) hr.le,
    Real.sq_sqrt (normSq_nonneg2 _)]
  have : distSq z x = (z - x).normSq := by simp only [distSq, V2.normSq, V2.sub_x, V2.sub_y]; ring
  rw [this]

theorem leastSeparation2_iff (x : V2 ℝ) {r : ℝ} (hr : 0 < r) (S : Set (V2 ℝ)) (S' : Set (EuclideanSpace ℝ (Fin 2))) (hS : S = toE2 ⁻¹' S') (e : ℝ)
    (h : IsLeast {e | 0 ≤ e ∧ ∃ t, ‖t‖ = e ∧ Disjoint (Metric.ball (toE2 x + t) r) S'} e) : LeastSeparation2 x r S e := by
  have hset : {e | 0 ≤ e ∧ ∃ t : V2 ℝ, t.x ^ 2 + t.y ^ 2 = e ^ 2 ∧ Disjoint (openDisc (x + t) r) S} =
      {e | 0 ≤ e ∧ ∃ t, ‖t‖ = e ∧ Disjoint (Metric.ball (toE2 x + t) r) S'} := by
    ext e
    simp only [Set.mem_ofPred_eq]
    have hdisj : ∀ t : V2 ℝ, Disjoint (openDisc (x + t) r) S ↔ Disjoint (Metric.ball (toE2 x + toE2 t) r) S' := by
      intro t
      rw [openDisc_eq _ hr, hS, toE2_add, Set.disjoint_preimage_iff toE2_surjective]
    have hsq : ∀ t : V2 ℝ, t.x ^ 2 + t.y ^ 2 = ‖toE2 t‖ ^ 2 := by
      intro t
      rw [norm_toE2, Real.sq_sqrt (normSq_nonneg2 _), V2.normSq]
      ring
    constructor
    · rintro ⟨h0, t, h1, h2⟩
      refine ⟨h0, toE2 t, ?_, (hdisj t).mp h2⟩
      rw [← sq_eq_sq₀ (norm_nonneg _) h0, ← hsq, h1]
    · rintro ⟨h0, t, h1, h2⟩
      obtain ⟨t, rfl⟩ := toE2_surjective t
      exact ⟨h0, t, by rw [hsq, h1], (hdisj _).mpr h2⟩
  rw [LeastSeparation2, hset]
  exact h

theorem separation2_discs (x y : V2 ℝ) {a b : ℝ} (ha : 0 < a) (hb : 0 < b) :
    LeastSeparation2 x a (openDisc y b) (-(min 0 (√(x - y).normSq - a - b))) := by
  refine leastSeparation2_iff x ha _ _ (openDisc_eq y hb) _ ?_
  have h := least_separation_balls (toE2 x) (toE2 y) ha hb
  rwa [← toE2_sub, norm_toE2] at h

theorem separation2_line (x p n : V2 ℝ) (hn : n.x ^ 2 + n.y ^ 2 = 1) {r : ℝ} (hr : 0 < r) :
    LeastSeparation2 x r (belowLine p n) (-(min 0 (n.dot (x - p) - r))) := by
  have hn' : ‖toE2 n‖ = 1 := by
    rw [norm_toE2, V2.normSq, Real.sqrt_eq_one]
    linarith
  refine leastSeparation2_iff x hr _ {z | inner ℝ (toE2 n) (z - toE2 p) < 0} ?_ _ ?_
  · ext z
    simp only [belowLine, Set.mem_ofPred_eq, Set.mem_preimage]
    rw [← toE2_sub, inner_toE2]
    rfl
  · have h := least_separation_half (toE2 x) (toE2 p) (toE2 n) hn' hr
    rwa [← toE2_sub, inner_toE2] at h

end Scisim
