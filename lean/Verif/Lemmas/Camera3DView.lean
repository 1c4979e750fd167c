import Verif.Lemmas.Camera3D
import Verif.Spec.Geometry3D
/-!
# Where the cameras in space draw a point; when the projection is the one asked for (helper lemmas for C80)
-/

namespace Scisim.Camera3

open Matrix Camera

theorem current_setPerspective (s : Size) {v : View} (hp : v.perspective = true) : Current3 (setPerspective s v) := by
  have hw := s.cast_w (S := ℝ)
  have hh := s.cast_h (S := ℝ)
  refine ⟨s, _, rfl, rfl, ⟨hp, rfl, ?_, rfl, ?_, rfl, rfl⟩, fun _ => ⟨rfl, rfl⟩⟩
  · simp only; rw [halfAngle_eq]; ring
  · simp only; field_simp

theorem current_setOrthographic (s : Size) {v : View} (hp : v.perspective = false) : Current3 (setOrthographic s v) := by
  have hw := s.cast_w (S := ℝ)
  have hh := s.cast_h (S := ℝ)
  refine ⟨s, _, rfl, rfl, ⟨hp, rfl, rfl, ?_, ?_, rfl, rfl⟩, fun h => ?_⟩
  · simp only; rw [neg_div]
  · simp only; field_simp
  · exact absurd (show v.perspective = true from h) (by rw [hp]; decide)

theorem current_resize (s : Size) (v : View) : Current3 (resizeGL s v) := by
  unfold resizeGL
  cases hp : v.perspective
  · exact current_setOrthographic s hp
  · exact current_setPerspective s hp

/-- Changes that leave the projection alone -/
theorem current_persp {v : View} (h : Current3 v) {c : Persp} (h1 : c.fovy = v.persp.fovy) (h2 : c.aspect = v.persp.aspect) : Current3 { v with persp := c } := by
  obtain ⟨s, pr, a, b, d, e⟩ := h
  refine ⟨s, pr, a, b, ?_, fun hp => ?_⟩
  · cases pr <;> exact d
  · simp only; rw [h1, h2]; exact e hp

theorem current_centerCamera {bodies : List PosedBody3D} (hne : bodies ≠ []) {v v' : View} (h : Current3 v) (hc : centerCamera bodies v = .ok v') : Current3 v' := by
  unfold centerCamera at hc
  by_cases hl : v.lock = true
  · rw [if_pos hl] at hc; cases hc; exact h
  rw [if_neg hl] at hc
  rw [if_neg (by cases bodies <;> simp at hne ⊢)] at hc
  cases hb : sceneBoundingSphere bodies with
  | none => rw [hb] at hc; cases hc
  | some rc =>
    obtain ⟨radius, center⟩ := rc
    rw [hb] at hc
    simp only at hc
    obtain ⟨v1, h1, h2⟩ := Outcome.bind_ok_iff.mp hc
    cases h2
    obtain ⟨pv, pe, o, pr, vp, lk, la, sh⟩ := v
    cases pv
    · simp only [Bool.false_eq_true, reduceIte] at h1
      cases vp with
      | none => cases h1
      | some s =>
        simp only [setCenterAndScale] at h1
        cases h1
        exact current_setOrthographic s rfl
    · simp only [reduceIte] at h1
      unfold centerAtSphere at h1
      simp only at h1
      split at h1
      · cases h1
      · cases h1; exact current_persp (v := ⟨true, pe, o, pr, vp, lk, la, sh⟩) h rfl rfl

theorem current_handle3 {e : Event} {v v' : View} (hk : Keeps3 e) (h : Current3 v) (he : handle e v = .ok v') : Current3 v' := by
  cases e with
  | press left pos =>
    cases he
    by_cases hl : v.lock = true
    · rw [if_pos hl]; exact h
    · rw [if_neg hl]; cases left <;> exact h
  | move b pos =>
    unfold handle move at he
    simp only at he
    by_cases hl : v.lock = true
    · rw [if_pos hl] at he; cases he; exact h
    rw [if_neg hl] at he
    obtain ⟨pv, pe, o, pr, vp, lk, la, sh⟩ := v
    cases pv
    · simp only [Bool.false_eq_true, reduceIte] at he
      cases vp with
      | none => cases he
      | some s =>
        simp only at he
        match b, he with
        | some .left, he => cases he; exact h
        | some .right, he => cases he; exact current_setOrthographic s rfl
        | some .middle, he => cases he; exact h
        | none, he => cases he; exact h
    · simp only [reduceIte] at he
      match b, he with
      | some .left, he => cases he; exact current_persp (v := ⟨true, pe, o, pr, vp, lk, la, sh⟩) h rfl rfl
      | some .middle, he => cases he; exact current_persp (v := ⟨true, pe, o, pr, vp, lk, la, sh⟩) h rfl rfl
      | some .right, he => cases he; exact current_persp (v := ⟨true, pe, o, pr, vp, lk, la, sh⟩) h rfl rfl
      | none, he => cases he; exact h
  | wheel d =>
    unfold handle wheel at he
    simp only at he
    by_cases hl : v.lock = true
    · rw [if_pos hl] at he; cases he; exact h
    rw [if_neg hl] at he
    obtain ⟨pv, pe, o, pr, vp, lk, la, sh⟩ := v
    cases pv
    · simp only [Bool.false_eq_true, reduceIte] at he
      cases vp with
      | none => cases he
      | some s => cases he; exact current_setOrthographic s rfl
    · simp only [reduceIte] at he
      cases he
      exact current_persp (v := ⟨true, pe, o, pr, vp, lk, la, sh⟩) h rfl rfl
  | resize s => cases he; exact current_resize s v
  | center bodies => exact current_centerCamera hk h he
  | perspective bodies =>
    unfold handle enablePerspective at he
    simp only at he
    cases hv : v.viewport with
    | none => rw [hv] at he; cases he
    | some s => rw [hv] at he; exact current_centerCamera hk (current_setPerspective s rfl) he
  | orthographic p bodies =>
    unfold handle enableOrthographic at he
    simp only at he
    cases hv : v.viewport with
    | none => rw [hv] at he; cases he
    | some s => rw [hv] at he; exact current_centerCamera hk (current_setOrthographic s rfl) he
  | setLock b => cases he; exact h
  | repaint => cases he; exact h
  | openScene settings lock bodies render =>
    unfold handle openScene at he
    simp only at he
    obtain ⟨v1, h1, h2⟩ := Outcome.bind_ok_iff.mp he
    obtain ⟨s, pr, a, -, -, -⟩ := h
    have h3 : Current3 v1 := by
      match settings, h1 with
      | some (.persp up theta phi rho lookat), h1 =>
        simp only at h1
        obtain ⟨w, h4, h5⟩ := Outcome.bind_ok_iff.mp h1
        cases h5
        obtain ⟨c, rfl, -⟩ := goodP_setCamera h4
        simp only [a]
        exact current_resize s _
      | some (.ortho plane x scale), h1 =>
        simp only [a] at h1
        cases h1
        exact current_resize s _
      | none, h1 =>
        simp only at h1
        cases hb : sceneBoundingSphere bodies with
        | none => rw [hb] at h1; cases h1
        | some rc =>
          rw [hb] at h1
          simp only at h1
          obtain ⟨w, h4, h5⟩ := Outcome.bind_ok_iff.mp h1
          cases h5
          unfold centerAtSphere at h4
          simp only at h4
          split at h4
          · cases h4
          · cases h4; simp only [a]; exact current_resize s _
    cases render
    · cases h2; exact h3
    · cases h2; exact h3

theorem current_run3 : ∀ {es : List Event} {v v' : View}, (∀ e ∈ es, Keeps3 e) → Current3 v → run es v = .ok v' → Current3 v'
  | [], v, v', _, h, he => by cases he; exact h
  | e :: es, v, v', hk, h, he => by
    obtain ⟨v1, h1, h2⟩ := Outcome.bind_ok_iff.mp he
    exact current_run3 (fun e' he' => hk e' (by simp [he'])) (current_handle3 (hk e (by simp)) h h1) h2

/-- The coordinates of a point in front of a camera that looks at `l` from the distance `rho` -/
theorem coords {U : Mat3} (hU : Uᵀ * U = 1) (theta phi rho : ℝ) (l p : Vec3) :
    let f := frameOf U theta phi rho
    f.y ⬝ᵥ (p - (l + f.psn)) = f.y ⬝ᵥ (p - l) ∧ f.x ⬝ᵥ (p - (l + f.psn)) = f.x ⬝ᵥ (p - l) ∧ f.z ⬝ᵥ (p - (l + f.psn)) = f.z ⬝ᵥ (p - l) + rho := by
  intro f
  obtain ⟨⟨-, -, hz, -, hyz, hxz⟩, hpsn⟩ := frame_orthonormal hU theta phi rho
  change f.psn = -rho • f.z at hpsn
  change f.z ⬝ᵥ f.z = 1 at hz
  change f.y ⬝ᵥ f.z = 0 at hyz
  change f.x ⬝ᵥ f.z = 0 at hxz
  have e : p - (l + f.psn) = (p - l) + rho • f.z := by rw [hpsn]; ext i; simp; ring
  refine ⟨?_, ?_, ?_⟩
  · rw [e, dotProduct_add, dotProduct_smul, hyz]; simp
  · rw [e, dotProduct_add, dotProduct_smul, hxz]; simp
  · rw [e, dotProduct_add, dotProduct_smul, hz]; simp

/-- A point that the projection brings inside the rectangle is visible. -/
theorem visible_of {v : View} {pic : Picture} (h : v.shown = some pic) (hl : pic.projection.rect.left = -pic.projection.rect.right)
    (hb : pic.projection.rect.bottom = -pic.projection.rect.top) (hr : 0 < pic.projection.rect.right) (ht : 0 < pic.projection.rect.top) {p : Vec3}
    (hn : pic.projection.near ≤ pic.depth p) (hf : pic.depth p ≤ pic.projection.far) (hx : |pic.shrink p * (pic.frame.y ⬝ᵥ (p - pic.eye))| ≤ pic.projection.rect.right)
    (hy : |pic.shrink p * (pic.frame.x ⬝ᵥ (p - pic.eye))| ≤ pic.projection.rect.top) : Visible3 v p := by
  have hw := pic.size.cast_w (S := ℝ)
  have hh := pic.size.cast_h (S := ℝ)
  rw [abs_le] at hx hy
  set X := pic.shrink p * (pic.frame.y ⬝ᵥ (p - pic.eye)) with hX
  set Y := pic.shrink p * (pic.frame.x ⬝ᵥ (p - pic.eye)) with hY
  set R := pic.projection.rect.right
  set T := pic.projection.rect.top
  have hx1 : 0 ≤ (X + R) / (2 * R) := div_nonneg (by linarith) (by linarith)
  have hx2 : (X + R) / (2 * R) ≤ 1 := by rw [div_le_one (by linarith)]; linarith
  have hy1 : 0 ≤ (T - Y) / (2 * T) := div_nonneg (by linarith) (by linarith)
  have hy2 : (T - Y) / (2 * T) ≤ 1 := by rw [div_le_one (by linarith)]; linarith
  refine ⟨pic, h, hn, hf, (X + R) / (2 * R) * pic.size.w, (T - Y) / (2 * T) * pic.size.h, by positivity, ?_, by positivity, ?_, ?_, ?_⟩
  · nlinarith
  · nlinarith
  · rw [hl, ← hX]; field_simp; ring
  · rw [hb, ← hY]; field_simp; ring

/-- The three coordinates of a point of a ball -/
theorem ball_coords {U : Mat3} (hU : Uᵀ * U = 1) (theta phi rho : ℝ) {c p : Vec3} {r : ℝ} (hp : p ∈ ballSet3 c r) :
    let f := frameOf U theta phi rho
    (f.x ⬝ᵥ (p - c)) ^ 2 + (f.y ⬝ᵥ (p - c)) ^ 2 + (f.z ⬝ᵥ (p - c)) ^ 2 ≤ r ^ 2 := by
  intro f
  rw [parseval U hU theta phi rho (p - c), dot3]
  simp only [ballSet3, Set.mem_ofPred_eq] at hp
  simp only [Pi.sub_apply]
  nlinarith

theorem sin_concave {x y p q : ℝ} (hx : x ∈ Set.Icc 0 Real.pi) (hy : y ∈ Set.Icc 0 Real.pi) (hp : 0 ≤ p) (hq : 0 ≤ q) (hpq : p + q = 1) :
    p * Real.sin x + q * Real.sin y ≤ Real.sin (p * x + q * y) := strictConcaveOn_sin_Icc.concaveOn.2 hx hy hp hq hpq

/-- `sin u / u` decreases. -/
theorem tan_le {a h : ℝ} (ha0 : 0 < a) (ha1 : a ≤ 1) (h0 : 0 < h) (h1 : h < Real.pi / 2) :
    Real.sin (a * h) * Real.cos h ≤ a * (Real.sin h * Real.cos (a * h)) := by
  have hu : (1 + a) * h ∈ Set.Icc 0 Real.pi := ⟨by positivity, by nlinarith [Real.pi_pos]⟩
  have hz : (0 : ℝ) ∈ Set.Icc 0 Real.pi := ⟨le_rfl, Real.pi_pos.le⟩
  have key := sin_concave hu hz (div_nonneg (by linarith) (by linarith))
    (by rw [sub_nonneg, div_le_one (by linarith)]; linarith) (add_sub_cancel ((1 - a) / (1 + a)) 1)
  simp only [Real.sin_zero, mul_zero, add_zero] at key
  rw [show (1 - a) / (1 + a) * ((1 + a) * h) = (1 - a) * h by field_simp] at key
  rw [div_mul_eq_mul_div, div_le_iff₀ (by linarith)] at key
  rw [show (1 + a) * h = h + a * h by ring, show (1 - a) * h = h - a * h by ring, Real.sin_add, Real.sin_sub] at key
  nlinarith

/-- Inside a cone: a ball of radius `r` at a distance `rho` at which the cone of half angle `b` is wide enough -/
theorem cone {Y Z r rho b : ℝ} (h : Y ^ 2 + Z ^ 2 ≤ r ^ 2) (hr : 0 ≤ r) (hs : r ≤ rho * Real.sin b) (hc : 0 ≤ Real.cos b) :
    |Y| * Real.cos b ≤ (Z + rho) * Real.sin b := by
  have h1 := Real.sin_sq_add_cos_sq b
  have : |Y| * Real.cos b - Z * Real.sin b ≤ r := by
    refine abs_le_of_sq_le_sq' ?_ hr |>.2
    nlinarith [sq_nonneg (|Y| * Real.sin b + Z * Real.cos b), sq_abs Y]
  nlinarith

/-- A ball that the camera is far enough away from, in both directions, is inside the pyramid of the projection. -/
theorem pyramid {X Y Z r rho h a : ℝ} (hsq : Y ^ 2 + X ^ 2 + Z ^ 2 ≤ r ^ 2) (hr : 0 ≤ r) (hrho : r < rho) (h0 : 0 < h) (h1 : h < Real.pi / 2) (ha : 0 < a)
    (hr1 : r ≤ rho * Real.sin h) (hr2 : a < 1 → r ≤ rho * Real.sin (a * h)) :
    0 < Z + rho ∧ |Y| * Real.cos h ≤ (Z + rho) * Real.sin h ∧ |X| * Real.cos h ≤ (Z + rho) * (a * Real.sin h) := by
  have hs0 : 0 < Real.sin h := Real.sin_pos_of_pos_of_lt_pi h0 (by linarith [Real.pi_pos])
  have hc0 : 0 < Real.cos h := Real.cos_pos_of_mem_Ioo ⟨by linarith [Real.pi_pos], h1⟩
  have hz := abs_le_of_sq_le_sq (a := Z) (b := r) (by nlinarith [sq_nonneg X, sq_nonneg Y]) hr
  rw [abs_le] at hz
  have hdep : 0 < Z + rho := by linarith
  refine ⟨hdep, cone (by nlinarith [sq_nonneg X]) hr hr1 hc0.le, ?_⟩
  by_cases hge : 1 ≤ a
  · refine le_trans (cone (Y := X) (Z := Z) (by nlinarith [sq_nonneg Y]) hr hr1 hc0.le) ?_
    exact mul_le_mul_of_nonneg_left (by nlinarith) hdep.le
  · push Not at hge
    have hah : 0 < a * h := by positivity
    have hah1 : a * h < Real.pi / 2 := by nlinarith
    have hca : 0 < Real.cos (a * h) := Real.cos_pos_of_mem_Ioo ⟨by linarith [Real.pi_pos], hah1⟩
    have h5 := cone (Y := X) (Z := Z) (by nlinarith [sq_nonneg Y]) hr (hr2 hge) hca.le
    have h6 := tan_le ha hge.le h0 h1
    have h7 : |X| * Real.cos h * Real.cos (a * h) ≤ (Z + rho) * (a * Real.sin h) * Real.cos (a * h) := by
      have h8 := mul_le_mul_of_nonneg_right h5 hc0.le
      have h9 := mul_le_mul_of_nonneg_left h6 hdep.le
      calc _ = |X| * Real.cos (a * h) * Real.cos h := by ring
        _ ≤ (Z + rho) * Real.sin (a * h) * Real.cos h := h8
        _ = (Z + rho) * (Real.sin (a * h) * Real.cos h) := by ring
        _ ≤ _ := h9
        _ = _ := by ring
    exact le_of_mul_le_mul_right h7 hca

/-! ## Dragging with the orthographic camera -/

/-- One movement: every point drawn moves with the mouse. -/
theorem drag_step {v : View} (hs : GoodO v.ortho) {s : Size} {r : Rect ℝ} {n f : ℝ} (hw : Wanted v s (.ortho r n f)) (dx dy px py : ℝ) (p : Vec3) :
    DrawnAt ⟨.ortho r n f, v.ortho.frame, v.ortho.lookat + v.ortho.frame.psn, s⟩ p px py →
      DrawnAt ⟨.ortho r n f, v.ortho.frame, (translateView s dx dy v.ortho).lookat + v.ortho.frame.psn, s⟩ p (px + dx) (py + dy) := by
  obtain ⟨-, hb, ht, hl, ha, -, -⟩ := hw
  have hsw := s.cast_w (S := ℝ)
  have hsh := s.cast_h (S := ℝ)
  obtain ⟨⟨hx, hy, -, hxy, -, -⟩, -⟩ := frame_orthonormal (U := 1) (by simp) v.ortho.theta v.ortho.phi 50
  rw [← hs.frame] at hx hy hxy
  have hyx : v.ortho.frame.y ⬝ᵥ v.ortho.frame.x = 0 := by rw [dotProduct_comm]; exact hxy
  rintro ⟨h1, h2⟩
  simp only [Projection.rect, Picture.shrink, one_mul] at h1 h2
  set tx := dx / (s.w : ℝ) * 2 * v.ortho.scale * s.w / s.h with htx
  set ty := dy / (s.h : ℝ) * 2 * v.ortho.scale with hty
  have e : p - (v.ortho.lookat + ty • v.ortho.frame.x - tx • v.ortho.frame.y + v.ortho.frame.psn) =
      (p - (v.ortho.lookat + v.ortho.frame.psn)) - ty • v.ortho.frame.x + tx • v.ortho.frame.y := by
    ext i; simp; ring
  constructor
  · show r.left + (px + dx) / s.w * (r.right - r.left) = 1 * (v.ortho.frame.y ⬝ᵥ (p - (v.ortho.lookat + ty • v.ortho.frame.x - tx • v.ortho.frame.y + v.ortho.frame.psn)))
    rw [one_mul, e, dotProduct_add, dotProduct_sub, dotProduct_smul, dotProduct_smul, hy, hyx, ← h1, htx]
    rw [hb, ht] at ha
    simp only [smul_eq_mul, mul_zero, sub_zero, mul_one]
    have : r.right - r.left = (v.ortho.scale - -v.ortho.scale) / s.h * s.w := by rw [← ha]; field_simp
    rw [this]
    field_simp
    ring
  · show r.top - (py + dy) / s.h * (r.top - r.bottom) = 1 * (v.ortho.frame.x ⬝ᵥ (p - (v.ortho.lookat + ty • v.ortho.frame.x - tx • v.ortho.frame.y + v.ortho.frame.psn)))
    rw [one_mul, e, dotProduct_add, dotProduct_sub, dotProduct_smul, dotProduct_smul, hx, hxy, ← h2, hty, ht, hb]
    simp only [smul_eq_mul, mul_zero, add_zero, mul_one]
    field_simp
    ring

theorem drag_run3 {s : Size} {r : Rect ℝ} {n f : ℝ} : ∀ (es : List (Option (ℤ × ℤ))) {v : View}, v.lock = false → GoodO v.ortho → v.viewport = some s →
    v.projection = some (.ortho r n f) → Wanted v s (.ortho r n f) →
    v.shown = some ⟨.ortho r n f, v.ortho.frame, v.ortho.lookat + v.ortho.frame.psn, s⟩ → 
    ∃ v' pic, run (es.map dragEvent3) v = .ok v' ∧ v'.shown = some pic ∧
      ∀ p, DrawnAt ⟨.ortho r n f, v.ortho.frame, v.ortho.lookat + v.ortho.frame.psn, s⟩ p v.last.1 v.last.2 →
        DrawnAt pic p ((mouseAfter v.last es).1 : ℝ) ((mouseAfter v.last es).2 : ℝ)
  | [], v, _, _, _, _, _, hs => ⟨v, _, rfl, hs, fun _ h => h⟩
  | none :: es, v, hl, hg, hv, hpr, hw, hs => by
    have hp : paint v = v := by
      have := hw.1
      obtain ⟨pv, pe, o, pr, vp, lk, la, sh⟩ := v
      subst this
      simp only at hv hpr hs
      subst hv hpr hs
      rfl
    obtain ⟨v', pic, h1, h2, h3⟩ := drag_run3 es hl hg hv hpr hw hs
    exact ⟨v', pic, (by show run _ (paint v) = _; rw [hp]; exact h1), h2, h3⟩
  | some pos :: es, v, hl, hg, hv, hpr, hw, hs => by
    have hpv := hw.1
    have hsound : GoodO (translateView s ((pos.1 - v.last.1 : ℤ) : ℝ) ((pos.2 - v.last.2 : ℤ) : ℝ) v.ortho) := goodO_set hg _ hg.2
    have hstep := drag_step hg hw ((pos.1 - v.last.1 : ℤ) : ℝ) ((pos.2 - v.last.2 : ℤ) : ℝ) v.last.1 v.last.2
    obtain ⟨pv, pe, o, pr, vp, lk, la, sh⟩ := v
    simp only at hl hg hv hpr hs hpv hsound hstep
    subst hl hv hpr hs hpv
    obtain ⟨v', pic, h1, h2, h3⟩ := drag_run3 (s := s) (r := r) (n := n) (f := f) es
      (v := paint ⟨false, pe, translateView s ((pos.1 - la.1 : ℤ) : ℝ) ((pos.2 - la.2 : ℤ) : ℝ) o, some (.ortho r n f), some s, false, pos, none⟩)
      rfl hsound rfl rfl hw rfl
    refine ⟨v', pic, h1, h2, fun p hp => h3 p ?_⟩
    have := hstep p hp
    simp only [Int.cast_sub, add_sub_cancel] at this
    simp only [paint, Int.cast_sub]
    exact this

/-! ## Turning about the point looked at -/

theorem det_turnY {u : Vec3} (hu : u ⬝ᵥ u = 1) (h1 : u 1 ≠ -1) : (turnY u).det = 1 := by
  rw [dot3] at hu
  have hk : (1 + u 1) ≠ 0 := fun h => h1 (by linarith)
  rw [Matrix.det_fin_three]
  simp only [turnY, Matrix.of_apply, Matrix.cons_val', Matrix.cons_val_zero, Matrix.cons_val_one, Matrix.cons_val, Matrix.cons_val_fin_one]
  have h2 : u 2 * u 2 = 1 - u 0 * u 0 - u 1 * u 1 := by linarith
  field_simp
  ring_nf
  have h3 : u 2 ^ 2 = 1 - u 0 ^ 2 - u 1 ^ 2 := by linarith
  have h4 : u 2 ^ 4 = (1 - u 0 ^ 2 - u 1 ^ 2) ^ 2 := by rw [← h3]; ring
  simp only [h3, h4]
  ring

/-- How far the upward direction of the scene is upward in the picture -/
theorem up_x {U : Mat3} (hU : UpGood U) (theta phi rho : ℝ) : (frameOf U theta phi rho).x ⬝ᵥ (U *ᵥ ![0, 1, 0]) = Real.sin theta := by
  obtain ⟨u, h1, h2, rfl⟩ := hU
  have hd := det_turnY h1 h2
  have hs := Real.sin_sq_add_cos_sq phi
  rw [Matrix.det_fin_three] at hd
  set U := turnY u
  simp only [frameOf, dot3, cross_apply, Matrix.mulVec, Fin.sum_univ_three, dotProduct, Pi.neg_apply, Matrix.cons_val_zero, Matrix.cons_val_one, Matrix.cons_val,
    mul_zero, add_zero, mul_one, zero_add]
  have e : Real.sin theta = (U 0 0 * U 1 1 * U 2 2 - U 0 0 * U 1 2 * U 2 1 - U 0 1 * U 1 0 * U 2 2 + U 0 1 * U 1 2 * U 2 0 + U 0 2 * U 1 0 * U 2 1 -
      U 0 2 * U 1 1 * U 2 0) * ((Real.sin phi ^ 2 + Real.cos phi ^ 2) * Real.sin theta) := by rw [hd, hs]; ring
  refine Eq.trans ?_ e.symm
  ring

/-- What moving about the point leaves alone -/
structure SameTarget (v v' : View) : Prop where
  lookat : v'.persp.lookat = v.persp.lookat
  up : v'.persp.U = v.persp.U
  persp : v'.perspective = v.perspective
  proj : v'.projection = v.projection
  view : v'.viewport = v.viewport
  lock : v'.lock = v.lock

theorem orbit_handle {e : Event} {v v' : View} (hpv : v.perspective = true) (ho : Orbits e) (hp : Painted3 v) (he : handle e v = .ok v') :
    SameTarget v v' ∧ Painted3 v' ∧ (Turns e → v'.persp.rho = v.persp.rho) := by
  obtain ⟨pv, pe, o, pr, vp, lk, la, sh⟩ := v
  simp only at hpv
  subst hpv
  cases lk
  · match e, ho, he with
    | .press l pos, _, he =>
      cases he
      cases l
      · exact ⟨⟨rfl, rfl, rfl, rfl, rfl, rfl⟩, hp, fun _ => rfl⟩
      · exact ⟨⟨rfl, rfl, rfl, rfl, rfl, rfl⟩, rfl, fun _ => rfl⟩
    | .move (some .left) pos, _, he => cases he; exact ⟨⟨rfl, rfl, rfl, rfl, rfl, rfl⟩, rfl, fun _ => rfl⟩
    | .move (some .right) pos, _, he => cases he; exact ⟨⟨rfl, rfl, rfl, rfl, rfl, rfl⟩, rfl, fun h => h.elim⟩
    | .move none pos, _, he => cases he; exact ⟨⟨rfl, rfl, rfl, rfl, rfl, rfl⟩, hp, fun _ => rfl⟩
    | .wheel d, _, he => cases he; exact ⟨⟨rfl, rfl, rfl, rfl, rfl, rfl⟩, rfl, fun h => h.elim⟩
    | .repaint, _, he => cases he; exact ⟨⟨rfl, rfl, rfl, rfl, rfl, rfl⟩, rfl, fun _ => rfl⟩
  · match e, ho, he with
    | .press l pos, _, he => cases he; exact ⟨⟨rfl, rfl, rfl, rfl, rfl, rfl⟩, hp, fun _ => rfl⟩
    | .move (some .left) pos, _, he => cases he; exact ⟨⟨rfl, rfl, rfl, rfl, rfl, rfl⟩, hp, fun _ => rfl⟩
    | .move (some .right) pos, _, he => cases he; exact ⟨⟨rfl, rfl, rfl, rfl, rfl, rfl⟩, hp, fun _ => rfl⟩
    | .move none pos, _, he => cases he; exact ⟨⟨rfl, rfl, rfl, rfl, rfl, rfl⟩, hp, fun _ => rfl⟩
    | .wheel d, _, he => cases he; exact ⟨⟨rfl, rfl, rfl, rfl, rfl, rfl⟩, hp, fun _ => rfl⟩
    | .repaint, _, he => cases he; exact ⟨⟨rfl, rfl, rfl, rfl, rfl, rfl⟩, rfl, fun _ => rfl⟩

theorem orbit_run : ∀ {es : List Event} {v v' : View}, v.perspective = true → (∀ e ∈ es, Orbits e) → Painted3 v → run es v = .ok v' →
    SameTarget v v' ∧ Painted3 v' ∧ ((∀ e ∈ es, Turns e) → v'.persp.rho = v.persp.rho)
  | [], v, v', _, _, hp, he => by cases he; exact ⟨⟨rfl, rfl, rfl, rfl, rfl, rfl⟩, hp, fun _ => rfl⟩
  | e :: es, v, v', hv, ho, hp, he => by
    obtain ⟨v1, h1, h2⟩ := Outcome.bind_ok_iff.mp he
    obtain ⟨a, b, c⟩ := orbit_handle hv (ho e (by simp)) hp h1
    obtain ⟨a', b', c'⟩ := orbit_run (a.persp.trans hv) (fun e' he' => ho e' (by simp [he'])) b h2
    exact ⟨⟨a'.lookat.trans a.lookat, a'.up.trans a.up, a'.persp.trans a.persp, a'.proj.trans a.proj, a'.view.trans a.view, a'.lock.trans a.lock⟩, b',
      fun h => (c' fun e' he' => h e' (by simp [he'])).trans (c (h e (by simp)))⟩

/-! ## Locked cameras -/

theorem locked_handle3 {e : Event} {v v' : View} (hl : v.lock = true) (hp : Painted3 v) (hi : Ignored3 e) (he : handle e v = .ok v') :
    v'.lock = true ∧ Painted3 v' ∧ v'.shown = v.shown := by
  obtain ⟨pv, pe, o, pr, vp, lk, la, sh⟩ := v
  simp only at hl
  subst hl
  match e, hi, he with
  | .press l pos, _, he => cases he; exact ⟨rfl, hp, rfl⟩
  | .move b pos, _, he => cases he; exact ⟨rfl, hp, rfl⟩
  | .wheel d, _, he => cases he; exact ⟨rfl, hp, rfl⟩
  | .center bs, _, he => cases he; exact ⟨rfl, hp, rfl⟩
  | .repaint, _, he => cases he; exact ⟨rfl, rfl, hp.symm⟩

/-! ## Settings written and read again -/

theorem unit3_of_unit {u : Vec3} (h : u ⬝ᵥ u = 1) : unit3 u = u := by
  unfold unit3; rw [h]; simp

/-- The settings asked for determine the projection. -/
theorem wanted_unique {v w : View} {s : Size} {a b : Projection} (ha : Wanted v s a) (hb : Wanted w s b) (hp : v.perspective = w.perspective)
    (ho : v.perspective = false → v.ortho.scale = w.ortho.scale) : a = b := by
  have hsw := s.cast_w (S := ℝ)
  have hsh := s.cast_h (S := ℝ)
  cases a with
  | ortho r n f =>
    cases b with
    | frustum r' n' f' => exact absurd (hp.symm.trans ha.1) (by rw [hb.1]; decide)
    | ortho r' n' f' =>
      obtain ⟨l, r, b, t⟩ := r
      obtain ⟨l', r', b', t'⟩ := r'
      obtain ⟨h0, h1, h2, h3, h4, rfl, rfl⟩ := ha
      obtain ⟨-, k1, k2, k3, k4, rfl, rfl⟩ := hb
      simp only at h1 h2 h3 h4 k1 k2 k3 k4
      rw [← ho h0] at k1 k2
      subst h1 h2 h3 k1 k2 k3
      rw [← k4] at h4
      have : r = r' := by field_simp at h4; linarith
      rw [this]
  | frustum r n f =>
    cases b with
    | ortho r' n' f' => exact absurd (hp.symm.trans ha.1) (by rw [hb.1]; decide)
    | frustum r' n' f' =>
      obtain ⟨l, r, b, t⟩ := r
      obtain ⟨l', r', b', t'⟩ := r'
      obtain ⟨h0, h1, h2, h3, h4, rfl, rfl⟩ := ha
      obtain ⟨-, k1, k2, k3, k4, rfl, rfl⟩ := hb
      simp only at h1 h2 h3 h4 k1 k2 k3 k4
      subst h1 h3 k1 k3
      rw [h2, ← k2, ← k4] at h4
      have : r = r' := by field_simp at h4; linarith
      rw [this, h2, k2]

end Scisim.Camera3
