import Verif.Spec.Camera3D
import Verif.Lemmas.Camera
import Mathlib.Analysis.Convex.SpecificFunctions.Deriv
import Mathlib.Tactic.LinearCombination
/-!
# Lemmas about the cameras in space
-/

namespace Scisim.Camera3

open Matrix Camera

theorem dot3 (a b : Vec3) : a ⬝ᵥ b = a 0 * b 0 + a 1 * b 1 + a 2 * b 2 := by
  simp [dotProduct, Fin.sum_univ_three]

theorem dot_mulVec {U : Mat3} (hU : Uᵀ * U = 1) (a b : Vec3) : (U *ᵥ a) ⬝ᵥ (U *ᵥ b) = a ⬝ᵥ b := by
  rw [Matrix.dotProduct_mulVec, Matrix.vecMul_mulVec, hU, Matrix.vecMul_one]

theorem frame_orthonormal {U : Mat3} (hU : Uᵀ * U = 1) (theta phi rho : ℝ) :
    Orthonormal3 (frameOf U theta phi rho) ∧ (frameOf U theta phi rho).psn = -rho • (frameOf U theta phi rho).z := by
  have h1 := Real.sin_sq_add_cos_sq theta
  have h2 := Real.sin_sq_add_cos_sq phi
  set dir : Vec3 := U *ᵥ ![Real.sin theta * Real.sin phi, Real.cos theta, Real.sin theta * Real.cos phi] with hd
  set y : Vec3 := U *ᵥ ![Real.cos phi, 0, -Real.sin phi] with hy
  have hdd : dir ⬝ᵥ dir = 1 := by
    rw [hd, dot_mulVec hU, dot3]
    simp only [Matrix.cons_val_zero, Matrix.cons_val_one, Matrix.cons_val]
    linear_combination (Real.sin theta) ^ 2 * h2 + h1
  have hyy : y ⬝ᵥ y = 1 := by
    rw [hy, dot_mulVec hU, dot3]
    simp only [Matrix.cons_val_zero, Matrix.cons_val_one, Matrix.cons_val]
    linear_combination h2
  have hyd : y ⬝ᵥ dir = 0 := by
    rw [hd, hy, dot_mulVec hU, dot3]
    simp only [Matrix.cons_val_zero, Matrix.cons_val_one, Matrix.cons_val]
    ring
  have hf : frameOf U theta phi rho = ⟨crossProduct y (-dir), y, -dir, rho • dir⟩ := rfl
  rw [hf]
  rw [dot3] at hdd hyy hyd
  refine ⟨⟨?_, ?_, ?_, ?_, ?_, ?_⟩, ?_⟩
  · simp only [dot3, cross_apply, Matrix.cons_val_zero, Matrix.cons_val_one, Matrix.cons_val, Pi.neg_apply]
    linear_combination (dir 0 * dir 0 + dir 1 * dir 1 + dir 2 * dir 2) * hyy + hdd - (y 0 * dir 0 + y 1 * dir 1 + y 2 * dir 2) * hyd
  · rw [dot3]; exact hyy
  · simp only [dot3, Pi.neg_apply]; linear_combination hdd
  · simp only [dot3, cross_apply, Matrix.cons_val_zero, Matrix.cons_val_one, Matrix.cons_val, Pi.neg_apply]; ring
  · simp only [dot3, Pi.neg_apply]; linear_combination -hyd
  · simp only [dot3, cross_apply, Matrix.cons_val_zero, Matrix.cons_val_one, Matrix.cons_val, Pi.neg_apply]; ring
  · simp

/-- The frame is not mirrored. -/
theorem frame_right {U : Mat3} (hU : Uᵀ * U = 1) (theta phi rho : ℝ) :
    crossProduct (frameOf U theta phi rho).x (frameOf U theta phi rho).y = (frameOf U theta phi rho).z := by
  obtain ⟨⟨-, hy, -, -, hyz, -⟩, -⟩ := frame_orthonormal hU theta phi rho
  have hx : (frameOf U theta phi rho).x = crossProduct (frameOf U theta phi rho).y (frameOf U theta phi rho).z := rfl
  rw [hx, cross_cross_eq_smul_sub_smul, hy, dotProduct_comm, hyz]
  simp

/-- A vector is as long as its three coordinates in the frame say. -/
theorem parseval (U : Mat3) (hU : Uᵀ * U = 1) (theta phi rho : ℝ) (d : Vec3) :
    let f := frameOf U theta phi rho
    (f.x ⬝ᵥ d) ^ 2 + (f.y ⬝ᵥ d) ^ 2 + (f.z ⬝ᵥ d) ^ 2 = d ⬝ᵥ d := by
  intro f
  obtain ⟨⟨-, hy, hz, -, hyz, -⟩, -⟩ := frame_orthonormal hU theta phi rho
  have hx : f.x = crossProduct f.y f.z := rfl
  change f.y ⬝ᵥ f.y = 1 at hy
  change f.z ⬝ᵥ f.z = 1 at hz
  change f.y ⬝ᵥ f.z = 0 at hyz
  rw [hx]
  generalize f.y = y at hy hyz ⊢
  generalize f.z = z at hz hyz ⊢
  simp only [dot3, cross_apply, Matrix.cons_val_zero, Matrix.cons_val_one, Matrix.cons_val] at *
  have gram : (((y 1 * z 2 - y 2 * z 1) * d 0 + (y 2 * z 0 - y 0 * z 2) * d 1 + (y 0 * z 1 - y 1 * z 0) * d 2) ^ 2 : ℝ) =
      (d 0 * d 0 + d 1 * d 1 + d 2 * d 2) * ((y 0 * y 0 + y 1 * y 1 + y 2 * y 2) * (z 0 * z 0 + z 1 * z 1 + z 2 * z 2) - (y 0 * z 0 + y 1 * z 1 + y 2 * z 2) ^ 2)
      - (y 0 * d 0 + y 1 * d 1 + y 2 * d 2) * ((y 0 * d 0 + y 1 * d 1 + y 2 * d 2) * (z 0 * z 0 + z 1 * z 1 + z 2 * z 2) -
        (y 0 * z 0 + y 1 * z 1 + y 2 * z 2) * (z 0 * d 0 + z 1 * d 1 + z 2 * d 2))
      + (z 0 * d 0 + z 1 * d 1 + z 2 * d 2) * ((y 0 * d 0 + y 1 * d 1 + y 2 * d 2) * (y 0 * z 0 + y 1 * z 1 + y 2 * z 2) -
        (y 0 * y 0 + y 1 * y 1 + y 2 * y 2) * (z 0 * d 0 + z 1 * d 1 + z 2 * d 2)) := by ring
  rw [gram, hy, hz, hyz]
  ring

/-- Eigen's turn takes the vertical to the vector, and is a rotation. -/
theorem turnY_orth {u : Vec3} (hu : u ⬝ᵥ u = 1) (h1 : u 1 ≠ -1) : (turnY u)ᵀ * turnY u = 1 ∧ turnY u *ᵥ ![0, 1, 0] = u := by
  rw [dot3] at hu
  have hk : (1 + u 1) ≠ 0 := fun h => h1 (by linarith)
  constructor
  · ext i j
    fin_cases i <;> fin_cases j <;>
      simp only [turnY, Matrix.mul_apply, Fin.sum_univ_three, Matrix.transpose_apply, Matrix.of_apply, Matrix.cons_val', Matrix.cons_val_zero, Matrix.cons_val_one,
        Matrix.cons_val, Matrix.one_apply, Fin.zero_eta, Fin.mk_one, Fin.reduceFinMk, Fin.isValue, reduceIte, Fin.reduceEq, zero_ne_one, one_ne_zero] <;>
      field_simp
    · linear_combination (u 2 ^ 2 + (1 + u 1) ^ 2) * hu
    · ring
    · linear_combination -(u 2 * u 0) * hu
    · ring
    · linear_combination hu
    · ring
    · linear_combination -(u 2 * u 0) * hu
    · ring
    · linear_combination (u 0 ^ 2 + (1 + u 1) ^ 2) * hu
  · ext i
    fin_cases i <;> simp [turnY, Matrix.mulVec, dotProduct, Fin.sum_univ_three]

theorem halfAngle_eq : halfAngle = 5443 / 100 / 2 * (Real.pi / 180) := by unfold halfAngle; ring

theorem halfAngle_pos : 0 < halfAngle := by unfold halfAngle; positivity

theorem halfAngle_lt : halfAngle < Real.pi / 6 := by unfold halfAngle; nlinarith [Real.pi_pos]

theorem tan_halfAngle_pos : 0 < Real.tan halfAngle :=
  Real.tan_pos_of_pos_of_lt_pi_div_two halfAngle_pos (by linarith [halfAngle_lt, Real.pi_pos])

/-- The orientation is one of those that Eigen makes from an upward vector. -/
def UpGood (U : Mat3) : Prop := ∃ u : Vec3, u ⬝ᵥ u = 1 ∧ u 1 ≠ -1 ∧ U = turnY u

theorem UpGood.orth {U : Mat3} (h : UpGood U) : Uᵀ * U = 1 := by
  obtain ⟨u, h1, h2, rfl⟩ := h
  exact (turnY_orth h1 h2).1

theorem upGood_one : UpGood 1 := by
  refine ⟨![0, 1, 0], by simp [dot3], by simp; norm_num, ?_⟩
  ext i j
  fin_cases i <;> fin_cases j <;> simp [turnY]

/-- The perspective controller is consistent. -/
def GoodP (c : Persp) : Prop := UpGood c.U ∧ c.frame = frameOf c.U c.theta c.phi c.rho

/-- The orthographic controller is consistent. -/
def GoodO (c : Ortho) : Prop := c = c.useView c.plane ∧ leastScale ≤ c.scale

theorem GoodO.frame {c : Ortho} (h : GoodO c) : c.frame = frameOf 1 c.theta c.phi 50 := by
  rw [h.1]; rfl

theorem goodP_new : GoodP Persp.new := ⟨upGood_one, rfl⟩

theorem goodO_new : GoodO Ortho.new := ⟨rfl, by unfold leastScale Ortho.new Ortho.useView; norm_num⟩

theorem goodP_update {c : Persp} (h : UpGood c.U) : GoodP (Persp.update c) := ⟨h, rfl⟩

/-- Only the point looked at and the scale change. -/
theorem goodO_set {c : Ortho} (h : GoodO c) (l : Vec3) {sc : ℝ} (hs : leastScale ≤ sc) : GoodO { c with lookat := l, scale := sc } := by
  refine ⟨?_, hs⟩
  have h1 := h.1
  obtain ⟨t, p, lo, s, pl, f⟩ := c
  simp only [Ortho.useView, Ortho.mk.injEq] at h1 ⊢
  tauto

theorem goodO_useView {c : Ortho} (h : GoodO c) (p : Plane) : GoodO (c.useView p) := ⟨rfl, h.2⟩

/-- The projection belongs to the selected camera and to the window. -/
def Fits (v : View) : Prop :=
  ∀ s, v.viewport = some s → ∃ pr, v.projection = some pr ∧ Faithful (pr.rect, s) ∧ pr.rect.left = -pr.rect.right ∧ pr.rect.bottom = -pr.rect.top ∧
    (match pr with | .ortho _ n f => v.perspective = false ∧ n = -100 ∧ f = 100 | .frustum _ n f => v.perspective = true ∧ n = 1 / 10 ∧ f = 1000)

theorem fits_setPerspective (s : Size) {v : View} (hp : v.perspective = true) : Fits (setPerspective s v) := by
  intro s' hs'
  cases hs'
  have hw := s.cast_w (S := ℝ)
  have hh := s.cast_h (S := ℝ)
  have ht := tan_halfAngle_pos
  have hr : 0 < Real.tan halfAngle * (1 / 10) * ((s.w : ℝ) / s.h) := by positivity
  refine ⟨_, rfl, ⟨?_, ?_, ?_⟩, rfl, rfl, hp, rfl, rfl⟩
  · simp only [Projection.rect]; linarith
  · simp only [Projection.rect]; linarith
  · simp only [Projection.rect]; field_simp

theorem fits_setOrthographic (s : Size) {v : View} (hp : v.perspective = false) (hg : GoodO v.ortho) : Fits (setOrthographic s v) := by
  intro s' hs'
  cases hs'
  have hw := s.cast_w (S := ℝ)
  have hh := s.cast_h (S := ℝ)
  have hsc : 0 < v.ortho.scale := lt_of_lt_of_le (by unfold leastScale; norm_num) hg.2
  have hr : 0 < v.ortho.scale / ((s.h : ℝ) / s.w) := by positivity
  refine ⟨_, rfl, ⟨?_, ?_, ?_⟩, ?_, rfl, hp, rfl, rfl⟩
  · simp only [Projection.rect]; rw [neg_div]; linarith
  · simp only [Projection.rect]; linarith
  · simp only [Projection.rect]; field_simp
  · simp only [Projection.rect]; rw [neg_div]

theorem fits_resize (s : Size) {v : View} (hg : GoodO v.ortho) : Fits (resizeGL s v) := by
  unfold resizeGL
  cases hp : v.perspective
  · exact fits_setOrthographic s hp hg
  · exact fits_setPerspective s hp

/-- What every reachable state satisfies -/
structure Sound3 (v : View) : Prop where
  persp : GoodP v.persp
  ortho : GoodO v.ortho
  fits : Fits v
  shown : ∀ pic, v.shown = some pic → True3 pic

theorem sound_paint {v : View} (hp : GoodP v.persp) (ho : GoodO v.ortho) (hf : Fits v) : Sound3 (paint v) := by
  refine ⟨hp, ho, hf, ?_⟩
  intro pic h
  unfold paint at h
  simp only at h
  cases hpr : v.projection with
  | none => rw [hpr] at h; simp at h
  | some pr =>
    cases hs : v.viewport with
    | none => rw [hpr, hs] at h; simp at h
    | some s =>
      rw [hpr, hs] at h
      obtain ⟨pr', h1, h2, h3, h4, -⟩ := hf s hs
      rw [hpr] at h1
      cases h1
      cases hpv : v.perspective
      · rw [hpv] at h
        simp only [Bool.false_eq_true, reduceIte, Option.some.injEq] at h
        subst h
        refine ⟨?_, ?_, h2, h3, h4⟩
        · simp only; rw [ho.frame]; exact (frame_orthonormal (by simp) _ _ _).1
        · simp only; rw [ho.frame]; exact frame_right (by simp) _ _ _
      · rw [hpv] at h
        simp only [reduceIte, Option.some.injEq] at h
        subst h
        refine ⟨?_, ?_, h2, h3, h4⟩
        · simp only; rw [hp.2]; exact (frame_orthonormal hp.1.orth _ _ _).1
        · simp only; rw [hp.2]; exact frame_right hp.1.orth _ _ _

theorem sound_start : Sound3 start :=
  ⟨goodP_new, goodO_new, (by intro s h; cases h), (by intro pic h; cases h)⟩

theorem unit3_unit {u : Vec3} (h : u ≠ 0) : unit3 u ⬝ᵥ unit3 u = 1 := by
  have hpos : 0 < u ⬝ᵥ u := by
    rw [dot3]
    have : u 0 ≠ 0 ∨ u 1 ≠ 0 ∨ u 2 ≠ 0 := by
      by_contra hc
      push Not at hc
      exact h (by ext i; fin_cases i <;> simp [hc.1, hc.2.1, hc.2.2])
    rcases this with h | h | h
    · nlinarith [mul_self_pos.mpr h, mul_self_nonneg (u 1), mul_self_nonneg (u 2)]
    · nlinarith [mul_self_pos.mpr h, mul_self_nonneg (u 0), mul_self_nonneg (u 2)]
    · nlinarith [mul_self_pos.mpr h, mul_self_nonneg (u 1), mul_self_nonneg (u 0)]
  unfold unit3
  rw [smul_dotProduct, dotProduct_smul, smul_eq_mul, smul_eq_mul]
  have := Real.mul_self_sqrt hpos.le
  have hs : Real.sqrt (u ⬝ᵥ u) ≠ 0 := (Real.sqrt_pos.mpr hpos).ne'
  field_simp
  rw [sq]; exact this.symm

theorem goodP_setCamera {up lookat : Vec3} {theta phi rho : ℝ} {v v' : View} (h : setCameraPersp up theta phi rho lookat v = .ok v') :
    ∃ c, v' = { v with persp := c } ∧ GoodP c ∧ c.fovy = v.persp.fovy ∧ c.aspect = v.persp.aspect := by
  unfold setCameraPersp at h
  by_cases hc : up = 0 ∨ unit3 up 1 = -1
  · rw [if_pos hc] at h; cases h
  · rw [if_neg hc] at h
    push Not at hc
    cases h
    exact ⟨_, rfl, goodP_update ⟨_, unit3_unit hc.1, hc.2, rfl⟩, rfl, rfl⟩

theorem goodP_center {center : Vec3} {radius : ℝ} {v v' : View} (hp : GoodP v.persp) (h : centerAtSphere center radius v = .ok v') :
    ∃ c, v' = { v with persp := c } ∧ GoodP c ∧ c.fovy = v.persp.fovy ∧ c.aspect = v.persp.aspect := by
  unfold centerAtSphere at h
  simp only at h
  split at h
  · cases h
  · cases h; exact ⟨_, rfl, goodP_update hp.1, rfl, rfl⟩

theorem sound_centerCamera {bodies : List PosedBody3D} {v v' : View} (h : Sound3 v) (hc : centerCamera bodies v = .ok v') : Sound3 v' := by
  unfold centerCamera at hc
  by_cases hl : v.lock = true
  · rw [if_pos hl] at hc; cases hc; exact h
  rw [if_neg hl] at hc
  by_cases he : bodies.isEmpty = true
  · rw [if_pos he] at hc
    obtain ⟨pv, pe, o, pr, vp, lk, la, sh⟩ := v
    cases pv
    · cases hc; exact ⟨h.persp, goodO_new, h.fits, h.shown⟩
    · cases hc; exact ⟨goodP_new, h.ortho, h.fits, h.shown⟩
  rw [if_neg he] at hc
  cases hb : sceneBoundingSphere bodies with
  | none => rw [hb] at hc; cases hc
  | some rc =>
    obtain ⟨radius, center⟩ := rc
    rw [hb] at hc
    simp only at hc
    obtain ⟨v1, h1, h2⟩ := Outcome.bind_ok_iff.mp hc
    cases h2
    obtain ⟨pv, pe, o, pr, vp, lk, la, sh⟩ := v
    cases pv
    · simp only [Bool.false_eq_true, reduceIte] at h1
      cases vp with
      | none => cases h1
      | some s =>
        simp only [setCenterAndScale] at h1
        cases h1
        exact sound_paint h.persp (goodO_set h.ortho _ (le_max_left _ _)) (fits_setOrthographic s rfl (goodO_set h.ortho _ (le_max_left _ _)))
    · simp only [reduceIte] at h1
      obtain ⟨c, rfl, hg, -, -⟩ := goodP_center h.persp h1
      exact sound_paint hg h.ortho h.fits

theorem sound_handle {e : Event} {v v' : View} (h : Sound3 v) (he : handle e v = .ok v') : Sound3 v' := by
  cases e with
  | press left pos =>
    cases he
    by_cases hl : v.lock = true
    · rw [if_pos hl]; exact h
    · rw [if_neg hl]
      cases left
      · exact ⟨h.persp, h.ortho, h.fits, h.shown⟩
      · have := sound_paint h.persp h.ortho h.fits
        exact ⟨this.persp, this.ortho, this.fits, this.shown⟩
  | move b pos =>
    unfold handle move at he
    simp only at he
    by_cases hl : v.lock = true
    · rw [if_pos hl] at he; cases he; exact h
    rw [if_neg hl] at he
    obtain ⟨pv, pe, o, pr, vp, lk, la, sh⟩ := v
    cases pv
    · simp only [Bool.false_eq_true, reduceIte] at he
      cases vp with
      | none => cases he
      | some s =>
        simp only at he
        match b, he with
        | some .left, he => cases he; exact sound_paint h.persp (goodO_set h.ortho _ h.ortho.2) h.fits
        | some .right, he =>
          cases he
          exact sound_paint h.persp (goodO_set h.ortho _ (le_max_left _ _)) (fits_setOrthographic s rfl (goodO_set h.ortho _ (le_max_left _ _)))
        | some .middle, he => cases he; exact ⟨h.persp, h.ortho, h.fits, h.shown⟩
        | none, he => cases he; exact ⟨h.persp, h.ortho, h.fits, h.shown⟩
    · simp only [reduceIte] at he
      match b, he with
      | some .left, he => cases he; exact sound_paint (goodP_update h.persp.1) h.ortho h.fits
      | some .middle, he => cases he; exact sound_paint h.persp h.ortho h.fits
      | some .right, he => cases he; exact sound_paint (goodP_update h.persp.1) h.ortho h.fits
      | none, he => cases he; exact ⟨h.persp, h.ortho, h.fits, h.shown⟩
  | wheel d =>
    unfold handle wheel at he
    simp only at he
    by_cases hl : v.lock = true
    · rw [if_pos hl] at he; cases he; exact h
    rw [if_neg hl] at he
    obtain ⟨pv, pe, o, pr, vp, lk, la, sh⟩ := v
    cases pv
    · simp only [Bool.false_eq_true, reduceIte] at he
      cases vp with
      | none => cases he
      | some s =>
        cases he
        exact sound_paint h.persp (goodO_set h.ortho _ (le_max_left _ _)) (fits_setOrthographic s rfl (goodO_set h.ortho _ (le_max_left _ _)))
    · simp only [reduceIte] at he
      cases he
      exact sound_paint (goodP_update h.persp.1) h.ortho h.fits
  | resize s =>
    cases he
    refine sound_paint ?_ ?_ (fits_resize s h.ortho)
    · unfold resizeGL; split <;> exact h.persp
    · unfold resizeGL; split <;> exact h.ortho
  | center bodies => exact sound_centerCamera h he
  | perspective bodies =>
    unfold handle enablePerspective at he
    simp only at he
    cases hv : v.viewport with
    | none => rw [hv] at he; cases he
    | some s =>
      rw [hv] at he
      refine sound_centerCamera ⟨?_, ?_, ?_, ?_⟩ he
      · exact h.persp
      · exact h.ortho
      · exact fits_setPerspective s rfl
      · exact h.shown
  | orthographic p bodies =>
    unfold handle enableOrthographic at he
    simp only at he
    cases hv : v.viewport with
    | none => rw [hv] at he; cases he
    | some s =>
      rw [hv] at he
      refine sound_centerCamera ⟨?_, ?_, ?_, ?_⟩ he
      · exact h.persp
      · exact goodO_useView h.ortho p
      · exact fits_setOrthographic s rfl (goodO_useView h.ortho p)
      · exact h.shown
  | setLock b => cases he; exact ⟨h.persp, h.ortho, h.fits, h.shown⟩
  | repaint => cases he; exact sound_paint h.persp h.ortho h.fits
  | openScene settings lock bodies render =>
    unfold handle openScene at he
    simp only at he
    obtain ⟨v1, h1, h2⟩ := Outcome.bind_ok_iff.mp he
    have hrep : ∀ w : View, GoodP w.persp → GoodO w.ortho → (∀ pic, w.shown = some pic → True3 pic) →
        Sound3 (match w.viewport with | none => w | some s => resizeGL s w) := by
      intro w hp ho hsh
      obtain ⟨pv, pe, o, pr, vp, lk, la, sh⟩ := w
      cases vp with
      | none => exact ⟨hp, ho, (by intro s hs; cases hs), hsh⟩
      | some s =>
        refine ⟨?_, ?_, fits_resize s ho, ?_⟩
        · cases pv <;> exact hp
        · cases pv <;> exact ho
        · cases pv <;> exact hsh
    have h3 : Sound3 v1 := by
      match settings, h1 with
      | some (.persp up theta phi rho lookat), h1 =>
        simp only at h1
        obtain ⟨w, h4, h5⟩ := Outcome.bind_ok_iff.mp h1
        cases h5
        obtain ⟨c, rfl, hg, -, -⟩ := goodP_setCamera h4
        exact hrep _ hg h.ortho h.shown
      | some (.ortho plane x scale), h1 =>
        simp only at h1
        cases h1
        exact hrep { v with perspective := false, ortho := { v.ortho.useView plane with scale := max leastScale scale, lookat := x }, lock := lock } h.persp ⟨rfl, le_max_left _ _⟩ h.shown
      | none, h1 =>
        simp only at h1
        cases hb : sceneBoundingSphere bodies with
        | none => rw [hb] at h1; cases h1
        | some rc =>
          rw [hb] at h1
          simp only at h1
          obtain ⟨w, h4, h5⟩ := Outcome.bind_ok_iff.mp h1
          cases h5
          obtain ⟨c, rfl, hg, -, -⟩ := goodP_center (v := { v with perspective := true, lock := lock }) h.persp h4
          exact hrep _ hg h.ortho h.shown
    cases render
    · cases h2; exact h3
    · cases h2; exact sound_paint h3.persp h3.ortho h3.fits

theorem sound_run : ∀ {es : List Event} {v v' : View}, Sound3 v → run es v = .ok v' → Sound3 v'
  | [], v, v', h, he => by cases he; exact h
  | e :: es, v, v', h, he => by
    obtain ⟨v1, h1, h2⟩ := Outcome.bind_ok_iff.mp he
    exact sound_run (sound_handle h h1) h2

end Scisim.Camera3
