import Mathlib.Tactic.NormNum
import Mathlib.LinearAlgebra.Matrix.DotProduct
import Mathlib.Topology.Order.OrderClosed
import Verif.Lemmas.DistanceField
import Verif.Props.Frames
/-!
# C67: looking up the distance field of a mesh
-/

namespace Scisim

namespace DistanceGrid

/-- **C67.** Inside the box of the grid (without the three far faces) a point collides exactly if the interpolated field is not positive there, and the normal
is the gradient of the field, scaled to unit length. The gradient is taken towards increasing coordinates, where it always exists. Missing: the far faces,
where the property fails. -/
theorem C67_exact_partial (g : DistanceGrid) (h : g.WellFormed) (x : Vec3) (hx : g.Inside x) :
    ∃ G : Vec3, (∀ a, HasDerivWithinAt (fun t => g.field (Function.update x a t)) (G a) (Set.Ici (x a)) (x a)) ∧
      (0 < g.field x → g.detectCollision x = .ok none) ∧ (g.field x ≤ 0 → g.detectCollision x = .ok (some (normalized3 G))) := by
  classical
  obtain ⟨i, j, k, hc, ⟨hi, hj, hk⟩, hd⟩ := detect_cell h hx
  refine ⟨g.cellGradient i j k x, ?_, ?_, ?_⟩
  · intro a
    have haff : HasDerivWithinAt (fun t => g.cellField i j k (Function.update x a t)) (g.cellGradient i j k x a) (Set.Ici (x a)) (x a) := by
      have e : (fun t => g.cellField i j k (Function.update x a t)) = fun t => g.cellField i j k x + (t - x a) * g.cellGradient i j k x a :=
        funext fun t => cellField_update h i j k x a t
      rw [e]
      have := (((hasDerivAt_id (x a)).sub_const (x a)).mul_const (g.cellGradient i j k x a)).const_add (g.cellField i j k x)
      simpa using this.hasDerivWithinAt
    refine haff.congr_of_eventuallyEq ?_ ?_
    · have hlt : ∃ u, x a < u ∧ ∀ t, x a ≤ t → t < u → g.InCell (Function.update x a t) i j k := by
        fin_cases a
        · exact ⟨_, hi, fun t h1 h2 => ⟨by simpa using hc.x0.trans h1, by simpa using h2.le, by simpa using hc.y0, by simpa using hc.y1,
            by simpa using hc.z0, by simpa using hc.z1, hc.ix, hc.iy, hc.iz⟩⟩
        · exact ⟨_, hj, fun t h1 h2 => ⟨by simpa using hc.x0, by simpa using hc.x1, by simpa using hc.y0.trans h1, by simpa using h2.le,
            by simpa using hc.z0, by simpa using hc.z1, hc.ix, hc.iy, hc.iz⟩⟩
        · exact ⟨_, hk, fun t h1 h2 => ⟨by simpa using hc.x0, by simpa using hc.x1, by simpa using hc.y0, by simpa using hc.y1,
            by simpa using hc.z0.trans h1, by simpa using h2.le, hc.ix, hc.iy, hc.iz⟩⟩
      obtain ⟨u, hu, hcell⟩ := hlt
      filter_upwards [self_mem_nhdsWithin, mem_nhdsWithin_of_mem_nhds (Iio_mem_nhds hu)] with t h1 h2
      exact field_cell h (hcell t h1 h2)
    · simp only [Function.update_eq_self]
      exact field_cell h hc
  · intro hp
    rw [hd, if_neg (not_le.mpr hp)]
  · intro hp
    rw [hd, if_pos hp]

/-- **C67.** Off the planes of the nodes the gradient is a two-sided derivative. -/
theorem C67_gradient (g : DistanceGrid) (h : g.WellFormed) (x : Vec3) (hx : g.Inside x) (ho : g.OffPlanes x) (hf : g.field x ≤ 0) :
    ∃ G : Vec3, (∀ a, HasDerivAt (fun t => g.field (Function.update x a t)) (G a) (x a)) ∧ g.detectCollision x = .ok (some (normalized3 G)) := by
  classical
  obtain ⟨i, j, k, hc, ⟨hi, hj, hk⟩, hd⟩ := detect_cell h hx
  refine ⟨g.cellGradient i j k x, ?_, by rw [hd, if_pos hf]⟩
  intro a
  have haff : HasDerivAt (fun t => g.cellField i j k (Function.update x a t)) (g.cellGradient i j k x a) (x a) := by
    have e : (fun t => g.cellField i j k (Function.update x a t)) = fun t => g.cellField i j k x + (t - x a) * g.cellGradient i j k x a :=
      funext fun t => cellField_update h i j k x a t
    rw [e]
    have := (((hasDerivAt_id (x a)).sub_const (x a)).mul_const (g.cellGradient i j k x a)).const_add (g.cellField i j k x)
    simpa using this
  refine haff.congr_of_eventuallyEq ?_
  have hlt : ∃ l u, l < x a ∧ x a < u ∧ ∀ t, l < t → t < u → g.InCell (Function.update x a t) i j k := by
    fin_cases a
    · exact ⟨_, _, lt_of_le_of_ne hc.x0 (ho 0 i).symm, hi, fun t h1 h2 => ⟨by simpa using h1.le, by simpa using h2.le, by simpa using hc.y0,
        by simpa using hc.y1, by simpa using hc.z0, by simpa using hc.z1, hc.ix, hc.iy, hc.iz⟩⟩
    · exact ⟨_, _, lt_of_le_of_ne hc.y0 (ho 1 j).symm, hj, fun t h1 h2 => ⟨by simpa using hc.x0, by simpa using hc.x1, by simpa using h1.le,
        by simpa using h2.le, by simpa using hc.z0, by simpa using hc.z1, hc.ix, hc.iy, hc.iz⟩⟩
    · exact ⟨_, _, lt_of_le_of_ne hc.z0 (ho 2 k).symm, hk, fun t h1 h2 => ⟨by simpa using hc.x0, by simpa using hc.x1, by simpa using hc.y0,
        by simpa using hc.y1, by simpa using h1.le, by simpa using h2.le, hc.ix, hc.iy, hc.iz⟩⟩
  obtain ⟨l, u, hl, hu, hcell⟩ := hlt
  filter_upwards [Ioo_mem_nhds hl hu] with t ht
  exact field_cell h (hcell t ht.1 ht.2)

/-- **C67.** Outside the box there is no collision. -/
theorem C67_outside (g : DistanceGrid) (x : Vec3) (hx : g.Outside x) : g.detectCollision x = .ok none := by
  unfold detectCollision
  obtain ⟨a, ha⟩ := hx
  split
  · rfl
  · rename_i h0
    push Not at h0
    rw [if_pos]
    fin_cases a
    · exact Or.inl (ha.resolve_left (not_lt.mpr h0.1))
    · exact Or.inr (Or.inl (ha.resolve_left (not_lt.mpr h0.2.1)))
    · exact Or.inr (Or.inr (ha.resolve_left (not_lt.mpr h0.2.2)))

/-- **C67.** A field that is affine, such as the distance to a plane, is represented exactly. -/
theorem C67_affine (g : DistanceGrid) (h : g.WellFormed) (c : Vec3) (b : ℝ)
    (hs : ∀ i j k, i < g.dimx.toNat → j < g.dimy.toNat → k < g.dimz.toNat → g.sample i j k = c ⬝ᵥ g.node i j k + b) (x : Vec3) (hx : g.Inside x) :
    g.field x = c ⬝ᵥ x + b ∧ (0 < c ⬝ᵥ x + b → g.detectCollision x = .ok none) ∧
      (c ⬝ᵥ x + b ≤ 0 → g.detectCollision x = .ok (some (normalized3 c))) := by
  classical
  obtain ⟨i, j, k, hc, -, hd⟩ := detect_cell h hx
  have d0 := (h.delta 0).ne'
  have d1 := (h.delta 1).ne'
  have d2 := (h.delta 2).ne'
  have i0 : i < g.dimx.toNat := by have := hc.ix; omega
  have j0 : j < g.dimy.toNat := by have := hc.iy; omega
  have k0 : k < g.dimz.toNat := by have := hc.iz; omega
  have s000 := hs i j k i0 j0 k0
  have s100 := hs (i + 1) j k hc.ix j0 k0
  have s010 := hs i (j + 1) k i0 hc.iy k0
  have s110 := hs (i + 1) (j + 1) k hc.ix hc.iy k0
  have s001 := hs i j (k + 1) i0 j0 hc.iz
  have s101 := hs (i + 1) j (k + 1) hc.ix j0 hc.iz
  have s011 := hs i (j + 1) (k + 1) i0 hc.iy hc.iz
  have s111 := hs (i + 1) (j + 1) (k + 1) hc.ix hc.iy hc.iz
  have hf : g.field x = c ⬝ᵥ x + b := by
    rw [field_cell h hc]
    unfold cellField trilinear local_
    rw [s000, s100, s010, s110, s001, s101, s011, s111]
    simp only [dotProduct, Fin.sum_univ_three, node, Matrix.cons_val_zero, Matrix.cons_val_one, Matrix.cons_val]
    push_cast
    field_simp
    ring
  have hg : g.cellGradient i j k x = c := by
    unfold cellGradient trilinearGradient local_
    rw [s000, s100, s010, s110, s001, s101, s011, s111]
    funext a
    fin_cases a <;> simp only [dotProduct, Fin.sum_univ_three, node, Matrix.cons_val_zero, Matrix.cons_val_one, Matrix.cons_val] <;>
      simp <;> field_simp <;> ring
  refine ⟨hf, ?_, ?_⟩
  · intro hp; rw [hd, hf, if_neg (not_le.mpr hp)]
  · intro hp; rw [hd, hf, if_pos hp, hg]

/-- The weights at a point sum up to one and are not negative: a bound that holds for the samples around a point holds for the field -/
theorem cellField_le {g : DistanceGrid} (h : g.WellFormed) {x : Vec3} {i j k : ℕ} (hc : g.InCell x i j k) (B : ℝ)
    (hB : ∀ i' j' k', (i' = i ∨ i' = i + 1) → (j' = j ∨ j' = j + 1) → (k' = k ∨ k' = k + 1) → g.sample i' j' k' ≤ B) : g.cellField i j k x ≤ B := by
  have a0 : 0 ≤ (x 0 - (g.origin 0 + i * g.delta 0)) / g.delta 0 := div_nonneg (by linarith [hc.x0]) (h.delta 0).le
  have b0 : 0 ≤ (x 1 - (g.origin 1 + j * g.delta 1)) / g.delta 1 := div_nonneg (by linarith [hc.y0]) (h.delta 1).le
  have c0 : 0 ≤ (x 2 - (g.origin 2 + k * g.delta 2)) / g.delta 2 := div_nonneg (by linarith [hc.z0]) (h.delta 2).le
  have a1 : (x 0 - (g.origin 0 + i * g.delta 0)) / g.delta 0 ≤ 1 := by rw [div_le_one (h.delta 0)]; linarith [hc.x1]
  have b1 : (x 1 - (g.origin 1 + j * g.delta 1)) / g.delta 1 ≤ 1 := by rw [div_le_one (h.delta 1)]; linarith [hc.y1]
  have c1 : (x 2 - (g.origin 2 + k * g.delta 2)) / g.delta 2 ≤ 1 := by rw [div_le_one (h.delta 2)]; linarith [hc.z1]
  unfold cellField trilinear local_
  simp only [Matrix.cons_val_zero, Matrix.cons_val_one, Matrix.cons_val]
  generalize (x 0 - (g.origin 0 + i * g.delta 0)) / g.delta 0 = p at a0 a1 ⊢
  generalize (x 1 - (g.origin 1 + j * g.delta 1)) / g.delta 1 = q at b0 b1 ⊢
  generalize (x 2 - (g.origin 2 + k * g.delta 2)) / g.delta 2 = r at c0 c1 ⊢
  have mix : ∀ {t u v w : ℝ}, 0 ≤ t → t ≤ 1 → u ≤ w → v ≤ w → (1 - t) * u + t * v ≤ w := by
    intro t u v w h0 h1 hu hv
    nlinarith [mul_le_mul_of_nonneg_left hu (by linarith : (0 : ℝ) ≤ 1 - t), mul_le_mul_of_nonneg_left hv h0]
  exact mix c0 c1
    (mix b0 b1 (mix a0 a1 (hB _ _ _ (.inl rfl) (.inl rfl) (.inl rfl)) (hB _ _ _ (.inr rfl) (.inl rfl) (.inl rfl)))
      (mix a0 a1 (hB _ _ _ (.inl rfl) (.inr rfl) (.inl rfl)) (hB _ _ _ (.inr rfl) (.inr rfl) (.inl rfl))))
    (mix b0 b1 (mix a0 a1 (hB _ _ _ (.inl rfl) (.inl rfl) (.inr rfl)) (hB _ _ _ (.inr rfl) (.inl rfl) (.inr rfl)))
      (mix a0 a1 (hB _ _ _ (.inl rfl) (.inr rfl) (.inr rfl)) (hB _ _ _ (.inr rfl) (.inr rfl) (.inr rfl))))

/-- Within one spacing of the point along each axis -/
def Near (g : DistanceGrid) (x : Vec3) (i j k : ℕ) : Prop := ∀ a, |x a - g.node i j k a| ≤ g.delta a

theorem InCell.near {g : DistanceGrid} {x : Vec3} {i j k : ℕ} (hc : g.InCell x i j k) {i' j' k' : ℕ} (hi : i' = i ∨ i' = i + 1)
    (hj : j' = j ∨ j' = j + 1) (hk : k' = k ∨ k' = k + 1) :
    g.Near x i' j' k' ∧ i' < g.dimx.toNat ∧ j' < g.dimy.toNat ∧ k' < g.dimz.toNat := by
  have := hc.ix
  have := hc.iy
  have := hc.iz
  refine ⟨?_, by omega, by omega, by omega⟩
  intro a
  have x0 := hc.x0
  have x1 := hc.x1
  have y0 := hc.y0
  have y1 := hc.y1
  have z0 := hc.z0
  have z1 := hc.z1
  rw [abs_le]
  fin_cases a
  · change -g.delta 0 ≤ x 0 - (g.origin 0 + i' * g.delta 0) ∧ x 0 - (g.origin 0 + i' * g.delta 0) ≤ g.delta 0
    rcases hi with rfl | rfl <;> push_cast <;> constructor <;> linarith
  · change -g.delta 1 ≤ x 1 - (g.origin 1 + j' * g.delta 1) ∧ x 1 - (g.origin 1 + j' * g.delta 1) ≤ g.delta 1
    rcases hj with rfl | rfl <;> push_cast <;> constructor <;> linarith
  · change -g.delta 2 ≤ x 2 - (g.origin 2 + k' * g.delta 2) ∧ x 2 - (g.origin 2 + k' * g.delta 2) ≤ g.delta 2
    rcases hk with rfl | rfl <;> push_cast <;> constructor <;> linarith

/-- **C67.** A point surrounded by samples inside the mesh collides. -/
theorem C67_deep (g : DistanceGrid) (h : g.WellFormed) (x : Vec3) (hx : g.Inside x)
    (hs : ∀ i j k, i < g.dimx.toNat → j < g.dimy.toNat → k < g.dimz.toNat → g.Near x i j k → g.sample i j k ≤ 0) :
    ∃ n, g.detectCollision x = .ok (some n) := by
  classical
  obtain ⟨i, j, k, hc, -, hd⟩ := detect_cell h hx
  have : g.field x ≤ 0 := by
    rw [field_cell h hc]
    exact cellField_le h hc 0 fun i' j' k' h1 h2 h3 => let p := hc.near h1 h2 h3; hs _ _ _ p.2.1 p.2.2.1 p.2.2.2 p.1
  exact ⟨_, by rw [hd, if_pos this]⟩

theorem cellField_pos {g : DistanceGrid} (h : g.WellFormed) {x : Vec3} {i j k : ℕ} (hc : g.InCell x i j k)
    (hB : ∀ i' j' k', (i' = i ∨ i' = i + 1) → (j' = j ∨ j' = j + 1) → (k' = k ∨ k' = k + 1) → 0 < g.sample i' j' k') : 0 < g.cellField i j k x := by
  have a0 : 0 ≤ (x 0 - (g.origin 0 + i * g.delta 0)) / g.delta 0 := div_nonneg (by linarith [hc.x0]) (h.delta 0).le
  have b0 : 0 ≤ (x 1 - (g.origin 1 + j * g.delta 1)) / g.delta 1 := div_nonneg (by linarith [hc.y0]) (h.delta 1).le
  have c0 : 0 ≤ (x 2 - (g.origin 2 + k * g.delta 2)) / g.delta 2 := div_nonneg (by linarith [hc.z0]) (h.delta 2).le
  have a1 : (x 0 - (g.origin 0 + i * g.delta 0)) / g.delta 0 ≤ 1 := by rw [div_le_one (h.delta 0)]; linarith [hc.x1]
  have b1 : (x 1 - (g.origin 1 + j * g.delta 1)) / g.delta 1 ≤ 1 := by rw [div_le_one (h.delta 1)]; linarith [hc.y1]
  have c1 : (x 2 - (g.origin 2 + k * g.delta 2)) / g.delta 2 ≤ 1 := by rw [div_le_one (h.delta 2)]; linarith [hc.z1]
  unfold cellField trilinear local_
  simp only [Matrix.cons_val_zero, Matrix.cons_val_one, Matrix.cons_val]
  generalize (x 0 - (g.origin 0 + i * g.delta 0)) / g.delta 0 = p at a0 a1 ⊢
  generalize (x 1 - (g.origin 1 + j * g.delta 1)) / g.delta 1 = q at b0 b1 ⊢
  generalize (x 2 - (g.origin 2 + k * g.delta 2)) / g.delta 2 = r at c0 c1 ⊢
  have mix : ∀ {t u v : ℝ}, 0 ≤ t → t ≤ 1 → 0 < u → 0 < v → 0 < (1 - t) * u + t * v := by
    intro t u v h0 h1 hu hv
    rcases eq_or_lt_of_le h0 with rfl | h0
    · simpa using hu
    · have := mul_pos h0 hv
      have := mul_nonneg (by linarith : (0 : ℝ) ≤ 1 - t) hu.le
      linarith
  exact mix c0 c1
    (mix b0 b1 (mix a0 a1 (hB _ _ _ (.inl rfl) (.inl rfl) (.inl rfl)) (hB _ _ _ (.inr rfl) (.inl rfl) (.inl rfl)))
      (mix a0 a1 (hB _ _ _ (.inl rfl) (.inr rfl) (.inl rfl)) (hB _ _ _ (.inr rfl) (.inr rfl) (.inl rfl))))
    (mix b0 b1 (mix a0 a1 (hB _ _ _ (.inl rfl) (.inl rfl) (.inr rfl)) (hB _ _ _ (.inr rfl) (.inl rfl) (.inr rfl)))
      (mix a0 a1 (hB _ _ _ (.inl rfl) (.inr rfl) (.inr rfl)) (hB _ _ _ (.inr rfl) (.inr rfl) (.inr rfl))))

/-- **C67.** A point that collides has a sample inside the mesh within one spacing. -/
theorem C67_near (g : DistanceGrid) (h : g.WellFormed) (x n : Vec3) (hx : g.Inside x) (hd : g.detectCollision x = .ok (some n)) :
    ∃ i j k, i < g.dimx.toNat ∧ j < g.dimy.toNat ∧ k < g.dimz.toNat ∧ g.Near x i j k ∧ g.sample i j k ≤ 0 := by
  classical
  by_contra hne
  push Not at hne
  obtain ⟨i, j, k, hc, -, hd'⟩ := detect_cell h hx
  have : 0 < g.field x := by
    rw [field_cell h hc]
    exact cellField_pos h hc fun i' j' k' h1 h2 h3 => let p := hc.near h1 h2 h3; hne _ _ _ p.2.1 p.2.2.1 p.2.2.2 p.1
  rw [hd', if_neg (not_le.mpr this)] at hd
  cases hd

/-- **C67.** The normal has unit length (or is zero, where the field has no slope). -/
theorem C67_unit (g : DistanceGrid) (h : g.WellFormed) (x n : Vec3) (hx : g.Inside x) (hd : g.detectCollision x = .ok (some n)) (hn : n ≠ 0) : n ⬝ᵥ n = 1 := by
  classical
  obtain ⟨i, j, k, -, -, hd'⟩ := detect_cell h hx
  rw [hd'] at hd
  split at hd
  · simp only [Outcome.ok.injEq, Option.some.injEq] at hd
    rw [← hd] at hn ⊢
    have hnn : 0 ≤ g.cellGradient i j k x ⬝ᵥ g.cellGradient i j k x := Finset.sum_nonneg fun a _ => mul_self_nonneg _
    rcases hnn.lt_or_eq with hp | hp
    · exact (normalized3_dot hp).1
    · exfalso
      have hz := dotProduct_self_eq_zero.mp hp.symm
      rw [hz] at hn
      apply hn
      unfold normalized3
      rw [if_neg]
      simp [norm3]
  · cases hd

/-- **C67 fails on the far face.** A point of the box with the largest third coordinate makes the program read behind the end of the samples. -/
theorem C67_false_far_face (g : DistanceGrid) (h : g.WellFormed) (hsize : 2 * g.samples.size < 4294967296) (x : Vec3) (h0 : g.origin 0 ≤ x 0 ∧ x 0 < g.gridEnd 0)
    (h1 : g.origin 1 ≤ x 1 ∧ x 1 < g.gridEnd 1) (h2 : x 2 = g.gridEnd 2) : g.detectCollision x = .ub := by
  have c0 : g.gridEnd 0 = g.origin 0 + (g.dimx.toNat - 1 : ℕ) * g.delta 0 := by rw [h.corner]; rfl
  have c1 : g.gridEnd 1 = g.origin 1 + (g.dimy.toNat - 1 : ℕ) * g.delta 1 := by rw [h.corner]; rfl
  have c2 : g.gridEnd 2 = g.origin 2 + (g.dimz.toNat - 1 : ℕ) * g.delta 2 := by rw [h.corner]; rfl
  obtain ⟨i, hi, i1, i2, i3⟩ := floor_cell (h.delta 0) g.dimx.toNat_lt c0 h0.1 h0.2
  obtain ⟨j, hj, j1, j2, j3⟩ := floor_cell (h.delta 1) g.dimy.toNat_lt c1 h1.1 h1.2
  have hz := g.dimz.toNat_lt
  have d2 := h.delta 2
  have hk : floorUnsigned ((x 2 - g.origin 2) / g.delta 2) = .ok (UInt32.ofNat (g.dimz.toNat - 1)) := by
    rw [h2, c2, add_sub_cancel_left, mul_div_assoc, div_self d2.ne', mul_one]
    unfold floorUnsigned
    rw [Int.floor_natCast, if_pos ⟨by omega, by have := g.dimz.toNat_lt; omega⟩]
    rfl
  have hkt : (UInt32.ofNat (g.dimz.toNat - 1)).toNat = g.dimz.toNat - 1 := by
    rw [UInt32.toNat_ofNat']
    exact Nat.mod_eq_of_lt (by simp only [Nat.reducePow]; omega)
  have hk1 : UInt32.ofNat (g.dimz.toNat - 1) + 1 = g.dimz := by
    apply UInt32.toNat.inj
    rw [UInt32.toNat_add, hkt, show (1 : UInt32).toNat = 1 from rfl]
    have := h.dimz
    rw [Nat.mod_eq_of_lt (by simp only [Nat.reducePow]; omega)]
    omega
  have succ : ∀ {m : UInt32} {n : ℕ}, m.toNat + 1 < n → n < 4294967296 → (m + 1).toNat = m.toNat + 1 := by
    intro m n h1 h2
    rw [UInt32.toNat_add, show (1 : UInt32).toNat = 1 from rfl]
    exact Nat.mod_eq_of_lt (by simp only [Nat.reducePow]; omega)
  have si := succ i1 g.dimx.toNat_lt
  have sj := succ j1 g.dimy.toNat_lt
  have k0 : (UInt32.ofNat (g.dimz.toNat - 1)).toNat < g.dimz.toNat := by rw [hkt]; have := h.dimz; omega
  have hvub : g.v i j g.dimz = .ub := by
    unfold v
    rw [if_neg]
    rw [h.size] at hsize ⊢
    have hflat := flat_lt (by omega : i.toNat < g.dimx.toNat) (by omega : j.toNat < g.dimy.toNat) (by have := h.dimz; omega : 0 < g.dimz.toNat)
    rw [Nat.mul_zero, Nat.add_zero] at hflat
    have e0 : g.dimx.toNat * (g.dimy.toNat * g.dimz.toNat) = g.dimx.toNat * g.dimy.toNat * g.dimz.toNat := (Nat.mul_assoc _ _ _).symm
    have e1 : (g.dimz * g.dimy + j).toNat = j.toNat + g.dimy.toNat * g.dimz.toNat := by
      rw [UInt32.toNat_add, UInt32.toNat_mul]
      have hx : 1 * (j.toNat + g.dimy.toNat * g.dimz.toNat) ≤ g.dimx.toNat * (j.toNat + g.dimy.toNat * g.dimz.toNat) := Nat.mul_le_mul_right _ h.dimx
      rw [Nat.mul_add g.dimx.toNat] at hx
      have c : g.dimz.toNat * g.dimy.toNat = g.dimy.toNat * g.dimz.toNat := Nat.mul_comm _ _
      simp only [Nat.reducePow]
      rw [c, Nat.mod_eq_of_lt (a := g.dimy.toNat * g.dimz.toNat) (by omega), Nat.mod_eq_of_lt (by omega)]
      omega
    have e2 : ((g.dimz * g.dimy + j) * g.dimx + i).toNat = i.toNat + g.dimx.toNat * j.toNat + g.dimx.toNat * g.dimy.toNat * g.dimz.toNat := by
      rw [UInt32.toNat_add, UInt32.toNat_mul, e1]
      have c : (j.toNat + g.dimy.toNat * g.dimz.toNat) * g.dimx.toNat = g.dimx.toNat * j.toNat + g.dimx.toNat * (g.dimy.toNat * g.dimz.toNat) := by
        rw [Nat.mul_comm, Nat.mul_add]
      simp only [Nat.reducePow]
      rw [c, e0, Nat.mod_eq_of_lt (a := g.dimx.toNat * j.toNat + _) (by omega), Nat.mod_eq_of_lt (by omega)]
      omega
    rw [e2]
    omega
  unfold detectCollision
  have x2 : g.origin 2 ≤ x 2 := by
    rw [h2, c2]
    have : (0 : ℝ) ≤ (g.dimz.toNat - 1 : ℕ) * g.delta 2 := by positivity
    linarith
  rw [if_neg (by push Not; exact ⟨h0.1, h1.1, x2⟩), if_neg (by push Not; exact ⟨h0.2.le, h1.2.le, h2.le⟩), hi]
  simp only [Outcome.bind]
  rw [hj]
  simp only [Outcome.bind]
  rw [hk]
  simp only [Outcome.bind]
  rw [v_ok h (by omega : i.toNat < _) (by omega : j.toNat < _) k0, v_ok h (by omega : (i + 1).toNat < _) (by omega : j.toNat < _) k0,
    v_ok h (by omega : i.toNat < _) (by omega : (j + 1).toNat < _) k0, v_ok h (by omega : (i + 1).toNat < _) (by omega : (j + 1).toNat < _) k0, hk1, hvub]

/-! ## Examples -/

/-- Two cells per axis of side one from (-1, -1, -1) to (1, 1, 1), with the distance to the plane through the origin with normal (0, 1, 0) -/
noncomputable def planeGrid : DistanceGrid :=
  make ![1, 1, 1] 3 3 3 ![-1, -1, -1] ⟨27, fun m => ((m / 3 % 3 : ℕ) : ℝ) - 1⟩

theorem planeGrid_wellFormed : planeGrid.WellFormed where
  delta a := by fin_cases a <;> norm_num [planeGrid, make]
  dimx := by decide
  dimy := by decide
  dimz := by decide
  size := by decide
  small := by decide
  corner := by
    funext a
    fin_cases a <;> simp [planeGrid, make] <;> rfl

theorem planeGrid_samples (i j k : ℕ) (hi : i < planeGrid.dimx.toNat) (hj : j < planeGrid.dimy.toNat) :
    planeGrid.sample i j k = ![0, 1, 0] ⬝ᵥ planeGrid.node i j k + 0 := by
  have hi : i < 3 := hi
  have hj : j < 3 := hj
  have e : (i + 3 * (j + 3 * k)) / 3 % 3 = j := by omega
  have : planeGrid.sample i j k = (((i + 3 * (j + 3 * k)) / 3 % 3 : ℕ) : ℝ) - 1 := rfl
  rw [this, e]
  simp [dotProduct, Fin.sum_univ_three, node, planeGrid, make]
  ring

/-- A point below the plane is found, with the right normal; one above is not. -/
example : planeGrid.detectCollision ![1 / 3, -1 / 2, 1 / 5] = .ok (some (normalized3 ![0, 1, 0])) ∧
    planeGrid.detectCollision ![1 / 3, 1 / 2, 1 / 5] = .ok none := by
  constructor
  · refine (C67_affine planeGrid planeGrid_wellFormed ![0, 1, 0] 0 (fun i j k hi hj _ => planeGrid_samples i j k hi hj) _ ?_).2.2 ?_
    · intro a
      fin_cases a <;> simp [planeGrid, make] <;> norm_num
    · simp [dotProduct, Fin.sum_univ_three]; norm_num
  · refine (C67_affine planeGrid planeGrid_wellFormed ![0, 1, 0] 0 (fun i j k hi hj _ => planeGrid_samples i j k hi hj) _ ?_).2.1 ?_
    · intro a
      fin_cases a <;> simp [planeGrid, make] <;> norm_num
    · simp [dotProduct, Fin.sum_univ_three]

/-- On the top face the lookup is undefined. -/
example : planeGrid.detectCollision ![0, 0, 1] = .ub := by
  refine C67_false_far_face planeGrid planeGrid_wellFormed (by decide) _ ?_ ?_ ?_ <;> simp [planeGrid, make] <;> norm_num

theorem floorUnsigned_eq (y : ℝ) (m : ℕ) (h0 : (m : ℝ) ≤ y) (h1 : y < m + 1) (hm : m < 4294967296) : floorUnsigned y = .ok (UInt32.ofNat m) := by
  have : ⌊y⌋ = m := by rw [Int.floor_eq_iff]; exact ⟨by exact_mod_cast h0, by exact_mod_cast h1⟩
  unfold floorUnsigned
  rw [this, if_pos ⟨by omega, by omega⟩]
  rfl

/-- **C67 fails on the far sides.** On the other two far faces the program reads samples of the next row instead: the field is the distance to a plane
whose normal is (0, 1, 0) everywhere, yet the normal found at (1, -1/2, -1/2) is (1, 1, 0) scaled. -/
theorem C67_false_far_side : planeGrid.field ![1, -1 / 2, -1 / 2] = -1 / 2 ∧
    planeGrid.detectCollision ![1, -1 / 2, -1 / 2] = .ok (some (normalized3 ![1, 1, 0])) := by
  constructor
  · have hc : planeGrid.InCell ![1, -1 / 2, -1 / 2] 1 0 0 := by
      constructor <;> first | decide | (simp [planeGrid, make]; try norm_num)
    rw [field_cell planeGrid_wellFormed hc]
    simp [cellField, trilinear, local_, planeGrid, make, sample]
    norm_num
  · have f0 : floorUnsigned (((![1, -1 / 2, -1 / 2] : Vec3) 0 - planeGrid.origin 0) / planeGrid.delta 0) = .ok 2 :=
      floorUnsigned_eq _ 2 (by simp [planeGrid, make] <;> norm_num) (by simp [planeGrid, make] <;> norm_num) (by norm_num)
    have f1 : floorUnsigned (((![1, -1 / 2, -1 / 2] : Vec3) 1 - planeGrid.origin 1) / planeGrid.delta 1) = .ok 0 :=
      floorUnsigned_eq _ 0 (by simp [planeGrid, make] <;> norm_num) (by simp [planeGrid, make] <;> norm_num) (by norm_num)
    have f2 : floorUnsigned (((![1, -1 / 2, -1 / 2] : Vec3) 2 - planeGrid.origin 2) / planeGrid.delta 2) = .ok 0 :=
      floorUnsigned_eq _ 0 (by simp [planeGrid, make] <;> norm_num) (by simp [planeGrid, make] <;> norm_num) (by norm_num)
    have hv : ∀ (i j k : UInt32) (m r : ℕ), ((k * 3 + j) * 3 + i).toNat = m → m < 27 → m / 3 % 3 = r → planeGrid.v i j k = .ok ((r : ℝ) - 1) := by
      intro i j k m r h1 h2 h3
      change (if ((k * 3 + j) * 3 + i).toNat < 27 then Outcome.ok ((((k * 3 + j) * 3 + i).toNat / 3 % 3 : ℕ) - 1 : ℝ) else .ub) = _
      rw [h1, if_pos h2, h3]
    unfold detectCollision
    rw [if_neg (by push Not; simp [planeGrid, make]; norm_num), if_neg (by push Not; simp [planeGrid, make]; norm_num), f0]
    simp only [Outcome.bind]
    rw [f1]
    simp only [Outcome.bind]
    rw [f2]
    simp only [Outcome.bind]
    rw [hv 2 0 0 2 0 (by decide) (by decide) (by decide), hv (2 + 1) 0 0 3 1 (by decide) (by decide) (by decide),
      hv 2 (0 + 1) 0 5 1 (by decide) (by decide) (by decide), hv (2 + 1) (0 + 1) 0 6 2 (by decide) (by decide) (by decide),
      hv 2 0 (0 + 1) 11 0 (by decide) (by decide) (by decide), hv (2 + 1) 0 (0 + 1) 12 1 (by decide) (by decide) (by decide),
      hv 2 (0 + 1) (0 + 1) 14 1 (by decide) (by decide) (by decide), hv (2 + 1) (0 + 1) (0 + 1) 15 2 (by decide) (by decide) (by decide)]
    simp only [Outcome.bind]
    rw [if_neg]
    · congr 3
      funext a
      fin_cases a <;> simp [trilinearGradient, planeGrid, make] <;> norm_num
    · simp [trilinear, planeGrid, make]
      norm_num

/-- **C67 fails for flat fields.** Where the field has no slope the normal is the zero vector, in spite of the assertion that it is a unit vector. -/
theorem C67_false_flat (g : DistanceGrid) (h : g.WellFormed) (c : ℝ) (hc : c ≤ 0)
    (hs : ∀ i j k, i < g.dimx.toNat → j < g.dimy.toNat → k < g.dimz.toNat → g.sample i j k = c) (x : Vec3) (hx : g.Inside x) :
    g.detectCollision x = .ok (some 0) := by
  have := (C67_affine g h 0 c (fun i j k h1 h2 h3 => by rw [hs i j k h1 h2 h3]; simp) x hx).2.2 (by simpa using hc)
  rw [this]
  unfold normalized3
  rw [if_neg]
  simp [norm3]

end DistanceGrid

end Scisim
