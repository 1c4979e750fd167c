import Verif.Lemmas.Camera3DView
import Verif.Props.Geometry3D
/-!
# C80: the cameras of the interactive program in space
-/

namespace Scisim.Camera3

open Matrix Camera

/-- **C80, true pictures.** Whatever the user does, every picture that is painted is a true one: the camera's axes stay at right angles, circles across the line of sight look like
circles, nothing is mirrored, and the line of sight goes through the middle of the window. -/
theorem C80_true (es : List Event) (v : View) (h : run es start = .ok v) (pic : Picture) (hp : v.shown = some pic) : True3 pic :=
  (sound_run sound_start h).shown pic hp

/-! ## The projection is the one asked for -/

/-- **C80 (partial), the picture.** Once the window has its size, whatever the user does, the picture that is painted is the one the settings of the selected camera ask for.
Missing: not after an empty scene was centred (`C80_center_empty_false`). -/
theorem C80_current_partial (before after : List Event) (s : Size) (ha : ∀ e ∈ after, Keeps3 e) (v0 v : View) (h0 : run before start = .ok v0)
    (h : run (.resize s :: after) v0 = .ok v) : Current3 v := by
  have _ := h0
  obtain ⟨v2, h2, h⟩ := Outcome.bind_ok_iff.mp h
  cases h2
  exact current_run3 ha (show Current3 (paint (resizeGL s v0)) from current_resize s v0) h

/-! ## Where points are drawn -/

/-- **C80 (partial), centring with the orthographic camera.** Every point of every body is visible afterwards. Missing: scenes whose bounding sphere has a radius of more than 50,
which are cut off (`C80_center_big_false`), and staples. -/
theorem C80_center_ortho_partial (es : List Event) (v : View) (h : run es start = .ok v) (hc : Current3 v) (hl : v.lock = false) (ho : v.perspective = false)
    (bodies : List PosedBody3D) (hb : ∀ b ∈ bodies, b.Solid) (hne : bodies ≠ []) (radius : ℝ) (center : Vec3)
    (hs : sceneBoundingSphere bodies = some (radius, center)) (hr : radius ≤ 50) :
    ∃ v', run [.center bodies] v = .ok v' ∧ ∀ b ∈ bodies, ∀ p ∈ b.points, Visible3 v' p := by
  obtain ⟨-, rc, -, -, -, hs', hin⟩ := C44_scene3 bodies hb hne
  rw [hs] at hs'
  cases hs'
  have hrad : 0 ≤ radius := by
    unfold sceneBoundingSphere at hs
    cases hbb : sceneBoundingBox3 bodies with
    | none => rw [hbb] at hs; cases hs
    | some bb => rw [hbb] at hs; cases hs; exact Real.sqrt_nonneg _
  obtain ⟨s, pr, hv, -, -, -⟩ := hc
  have hsound := sound_run sound_start h
  set w : View := { v with ortho := { v.ortho with lookat := center, scale := max leastScale (max ((s.h : ℝ) / s.w * radius) radius) } } with hw
  have hrun : run [.center bodies] v = .ok (paint (setOrthographic s w)) := by
    show (centerCamera bodies v).bind _ = _
    unfold centerCamera
    rw [if_neg (by rw [hl]; decide), if_neg (by cases bodies <;> simp at hne ⊢)]
    simp only [hs, ho, Bool.false_eq_true, reduceIte, hv, setCenterAndScale, Outcome.bind, hw]
    rfl
  refine ⟨_, hrun, ?_⟩
  intro b hbm p hp
  have hball := hin b hbm hp
  have hsw := s.cast_w (S := ℝ)
  have hsh := s.cast_h (S := ℝ)
  have hfr : v.ortho.frame = frameOf 1 v.ortho.theta v.ortho.phi 50 := hsound.ortho.frame
  have hsc : 0 < w.ortho.scale := lt_of_lt_of_le (by unfold leastScale; norm_num) (le_max_left _ _)
  have hsr : radius ≤ w.ortho.scale := le_trans (le_max_right _ _) (le_max_right _ _)
  have hsx : (s.h : ℝ) / s.w * radius ≤ w.ortho.scale := le_trans (le_max_left _ _) (le_max_right _ _)
  have hshown : (paint (setOrthographic s w)).shown = some ⟨.ortho ⟨-w.ortho.scale / ((s.h : ℝ) / s.w), w.ortho.scale / ((s.h : ℝ) / s.w), -w.ortho.scale, w.ortho.scale⟩ (-100) 100,
      v.ortho.frame, center + v.ortho.frame.psn, s⟩ := by
    show (if v.perspective then _ else _) = _
    rw [ho]; rfl
  obtain ⟨c1, c2, c3⟩ := coords (U := 1) (by simp) v.ortho.theta v.ortho.phi 50 center p
  have hsq := ball_coords (U := 1) (by simp) v.ortho.theta v.ortho.phi 50 hball
  rw [← hfr] at c1 c2 c3 hsq
  have hz := abs_le_of_sq_le_sq (a := v.ortho.frame.z ⬝ᵥ (p - center)) (by nlinarith [sq_nonneg (v.ortho.frame.x ⬝ᵥ (p - center)), sq_nonneg (v.ortho.frame.y ⬝ᵥ (p - center))]) hrad
  have hx := abs_le_of_sq_le_sq (a := v.ortho.frame.x ⬝ᵥ (p - center)) (by nlinarith [sq_nonneg (v.ortho.frame.z ⬝ᵥ (p - center)), sq_nonneg (v.ortho.frame.y ⬝ᵥ (p - center))]) hrad
  have hy := abs_le_of_sq_le_sq (a := v.ortho.frame.y ⬝ᵥ (p - center)) (by nlinarith [sq_nonneg (v.ortho.frame.z ⬝ᵥ (p - center)), sq_nonneg (v.ortho.frame.x ⬝ᵥ (p - center))]) hrad
  refine visible_of hshown ?_ rfl ?_ hsc ?_ ?_ ?_ ?_
  · show -w.ortho.scale / ((s.h : ℝ) / s.w) = -(w.ortho.scale / ((s.h : ℝ) / s.w)); rw [neg_div]
  · show 0 < w.ortho.scale / ((s.h : ℝ) / s.w); positivity
  · show (-100 : ℝ) ≤ v.ortho.frame.z ⬝ᵥ (p - (center + v.ortho.frame.psn)); rw [c3]; rw [abs_le] at hz; linarith
  · show v.ortho.frame.z ⬝ᵥ (p - (center + v.ortho.frame.psn)) ≤ (100 : ℝ); rw [c3]; rw [abs_le] at hz; linarith
  · show |1 * (v.ortho.frame.y ⬝ᵥ (p - (center + v.ortho.frame.psn)))| ≤ w.ortho.scale / ((s.h : ℝ) / s.w)
    rw [one_mul, c1]
    refine le_trans hy ?_
    rw [le_div_iff₀ (by positivity)]
    linarith [mul_comm radius ((s.h : ℝ) / s.w)]
  · show |1 * (v.ortho.frame.x ⬝ᵥ (p - (center + v.ortho.frame.psn)))| ≤ w.ortho.scale
    rw [one_mul, c2]
    exact le_trans hx hsr

/-- **C80 (partial), centring with the perspective camera.** Every point of every body is visible afterwards. Missing: scenes that are then nearer than a tenth or farther than a
thousand (`C80_center_small_false`), and staples. `rho` is the distance the camera then has from the centre of the scene. -/
theorem C80_center_persp_partial (es : List Event) (v : View) (h : run es start = .ok v) (hc : Current3 v) (hl : v.lock = false) (ho : v.perspective = true)
    (bodies : List PosedBody3D) (hb : ∀ b ∈ bodies, b.Solid) (hne : bodies ≠ []) (radius : ℝ) (center : Vec3)
    (hs : sceneBoundingSphere bodies = some (radius, center)) (v' : View) (hv' : run [.center bodies] v = .ok v')
    (hnear : radius + 1 / 10 ≤ v'.persp.rho) (hfar : v'.persp.rho + radius ≤ 1000) :
    ∀ b ∈ bodies, ∀ p ∈ b.points, Visible3 v' p := by
  obtain ⟨-, rc, -, -, -, hs', hin⟩ := C44_scene3 bodies hb hne
  rw [hs] at hs'
  cases hs'
  have hrad : 0 ≤ radius := by
    unfold sceneBoundingSphere at hs
    cases hbb : sceneBoundingBox3 bodies with
    | none => rw [hbb] at hs; cases hs
    | some bb => rw [hbb] at hs; cases hs; exact Real.sqrt_nonneg _
  obtain ⟨s, pr, hv, hpr, hwant, hfov⟩ := hc
  obtain ⟨hfovy, hasp⟩ := hfov ho
  have hsound := sound_run sound_start h
  have hU := hsound.persp.1.orth
  have hsw := s.cast_w (S := ℝ)
  have hsh := s.cast_h (S := ℝ)
  have hap : 0 < (s.w : ℝ) / s.h := by positivity
  -- the new state
  rw [show run [.center bodies] v = (centerCamera bodies v).bind (run []) from rfl] at hv'
  obtain ⟨v1, h1, h2⟩ := Outcome.bind_ok_iff.mp hv'
  cases h2
  unfold centerCamera at h1
  rw [if_neg (by rw [hl]; decide), if_neg (by cases bodies <;> simp at hne ⊢)] at h1
  simp only [hs, ho, reduceIte] at h1
  obtain ⟨v2, h3, h4⟩ := Outcome.bind_ok_iff.mp h1
  cases h4
  unfold centerAtSphere at h3
  simp only [hfovy, hasp] at h3
  split at h3
  · cases h3
  rename_i hsin
  push Not at hsin
  cases h3
  have ea : 1 / 2 * (5443 / 100) * (Real.pi / 180) = halfAngle := by rw [halfAngle_eq]; ring
  have eb : 1 / 2 * ((s.w : ℝ) / s.h) * (5443 / 100) * (Real.pi / 180) = (s.w : ℝ) / s.h * halfAngle := by rw [halfAngle_eq]; ring
  rw [ea, eb] at hsin
  have hh0 := halfAngle_pos
  have hh1 : halfAngle < Real.pi / 2 := by linarith [halfAngle_lt, Real.pi_pos]
  have hs0 : 0 < Real.sin halfAngle := Real.sin_pos_of_pos_of_lt_pi hh0 (by linarith [Real.pi_pos])
  have hc0 : 0 < Real.cos halfAngle := Real.cos_pos_of_mem_Ioo ⟨by linarith [Real.pi_pos], hh1⟩
  set rho := max (radius / Real.sin (1 / 2 * (5443 / 100) * (Real.pi / 180))) (radius / Real.sin (1 / 2 * ((s.w : ℝ) / s.h) * (5443 / 100) * (Real.pi / 180))) with hrho
  change radius + 1 / 10 ≤ rho at hnear
  change rho + radius ≤ 1000 at hfar
  rw [ea, eb] at hrho
  have hr1 : radius ≤ rho * Real.sin halfAngle := by
    have := le_max_left (radius / Real.sin halfAngle) (radius / Real.sin ((s.w : ℝ) / s.h * halfAngle))
    rw [← hrho, div_le_iff₀ hs0] at this
    exact this
  have hr2 : (s.w : ℝ) / s.h < 1 → radius ≤ rho * Real.sin ((s.w : ℝ) / s.h * halfAngle) := by
    intro hlt
    have hsa : 0 < Real.sin ((s.w : ℝ) / s.h * halfAngle) := Real.sin_pos_of_pos_of_lt_pi (by positivity) (by nlinarith [Real.pi_pos])
    have := le_max_right (radius / Real.sin halfAngle) (radius / Real.sin ((s.w : ℝ) / s.h * halfAngle))
    rw [← hrho, div_le_iff₀ hsa] at this
    exact this
  -- the picture
  cases pr with
  | ortho r n f => exact absurd hwant.1 (by rw [ho]; decide)
  | frustum r n f =>
    obtain ⟨-, wb, wt, wl, wa, wn, wf⟩ := hwant
    rw [← halfAngle_eq] at wt
    have hn0 : 0 < n := by rw [wn]; norm_num
    have htan := Real.tan_eq_sin_div_cos halfAngle
    have htp : 0 < r.top := by rw [wt]; exact mul_pos hn0 tan_halfAngle_pos
    have hright : r.right = r.top * ((s.w : ℝ) / s.h) := by
      rw [wl, wb] at wa
      field_simp at wa ⊢
      linarith
    have hrp : 0 < r.right := by rw [hright]; positivity
    intro b hbm p hp
    have hball := hin b hbm hp
    set f' := frameOf v.persp.U v.persp.theta v.persp.phi rho with hf'
    have hshown : (paint { v with persp := Persp.update { v.persp with lookat := center, rho := rho } }).shown =
        some ⟨.frustum r n f, f', center + f'.psn, s⟩ := by
      simp only [paint, hpr, hv, ho, reduceIte, Persp.update]
      rfl
    obtain ⟨c1, c2, c3⟩ := coords hU v.persp.theta v.persp.phi rho center p
    have hsq := ball_coords hU v.persp.theta v.persp.phi rho hball
    rw [← hf'] at c1 c2 c3 hsq
    set X := f'.y ⬝ᵥ (p - center)
    set Y := f'.x ⬝ᵥ (p - center)
    set Z := f'.z ⬝ᵥ (p - center)
    have hz := abs_le_of_sq_le_sq (a := Z) (b := radius) (by nlinarith [sq_nonneg X, sq_nonneg Y]) hrad
    rw [abs_le] at hz
    obtain ⟨hdep, hY, hX⟩ := pyramid hsq hrad (by linarith) hh0 hh1 hap hr1 hr2
    refine visible_of hshown wl wb hrp htp ?_ ?_ ?_ ?_
    · show n ≤ f'.z ⬝ᵥ (p - (center + f'.psn)); rw [c3, wn]; linarith
    · show f'.z ⬝ᵥ (p - (center + f'.psn)) ≤ f; rw [c3, wf]; linarith
    · show |n / (f'.z ⬝ᵥ (p - (center + f'.psn))) * (f'.y ⬝ᵥ (p - (center + f'.psn)))| ≤ r.right
      rw [c1, c3, abs_mul, abs_div, abs_of_pos hn0, abs_of_pos hdep, hright, wt, htan, div_mul_eq_mul_div, div_le_iff₀ hdep]
      rw [show n * (Real.sin halfAngle / Real.cos halfAngle) * ((s.w : ℝ) / s.h) * (Z + rho) =
        n * ((Z + rho) * ((s.w : ℝ) / s.h * Real.sin halfAngle) / Real.cos halfAngle) by ring]
      refine mul_le_mul_of_nonneg_left ?_ hn0.le
      rw [le_div_iff₀ hc0]
      exact hX
    · show |n / (f'.z ⬝ᵥ (p - (center + f'.psn))) * (f'.x ⬝ᵥ (p - (center + f'.psn)))| ≤ r.top
      rw [c2, c3, abs_mul, abs_div, abs_of_pos hn0, abs_of_pos hdep, wt, htan, div_mul_eq_mul_div, div_le_iff₀ hdep]
      rw [show n * (Real.sin halfAngle / Real.cos halfAngle) * (Z + rho) = n * ((Z + rho) * Real.sin halfAngle / Real.cos halfAngle) by ring]
      refine mul_le_mul_of_nonneg_left ?_ hn0.le
      rw [le_div_iff₀ hc0]
      exact hY

/-- **C80, dragging.** With the orthographic camera, if the picture is current and the camera not locked, then from the moment the left button is pressed every point drawn under
the mouse stays under the mouse, however the mouse is moved and whatever is painted in between. -/
theorem C80_drag (before : List Event) (v : View) (h : run before start = .ok v) (hc : Current3 v) (hl : v.lock = false) (ho : v.perspective = false) (pos : ℤ × ℤ)
    (es : List (Option (ℤ × ℤ))) :
    ∃ v0 pic0, run [.press true pos] v = .ok v0 ∧ v0.shown = some pic0 ∧
      ∃ v' pic', run (.press true pos :: es.map dragEvent3) v = .ok v' ∧ v'.shown = some pic' ∧
        ∀ p : Vec3, DrawnAt pic0 p (pos.1 : ℝ) (pos.2 : ℝ) → DrawnAt pic' p ((mouseAfter pos es).1 : ℝ) ((mouseAfter pos es).2 : ℝ) := by
  obtain ⟨s, pr, hv, hpr, hw, -⟩ := hc
  have hg := (sound_run sound_start h).ortho
  cases pr with
  | frustum r n f => exact absurd hw.1 (by rw [ho]; decide)
  | ortho r n f =>
    have hshown : ({ paint v with last := pos } : View).shown = some ⟨.ortho r n f, v.ortho.frame, v.ortho.lookat + v.ortho.frame.psn, s⟩ := by
      simp only [paint, hpr, hv, ho, Bool.false_eq_true, reduceIte]
    have hpress : handle (.press true pos) v = .ok { paint v with last := pos } := by
      simp only [handle, hl, Bool.false_eq_true, reduceIte]
    obtain ⟨v', pic', h1, h2, h3⟩ := drag_run3 es (v := { paint v with last := pos }) hl hg hv hpr hw hshown
    refine ⟨_, _, ?_, hshown, v', pic', ?_, h2, h3⟩
    · show (handle (.press true pos) v).bind (run []) = _
      rw [hpress]; rfl
    · show (handle (.press true pos) v).bind _ = _
      rw [hpress]; exact h1

/-- **C80, turning and zooming.** With the perspective camera, dragging with the left or the right button and turning the wheel keep the point the camera looks at in the middle of
the window, at the distance the settings give; dragging with the left button does not change that distance. -/
theorem C80_orbit (before es : List Event) (v v' : View) (h : run before start = .ok v) (hc : Current3 v) (hp : Painted3 v) (hv : v.perspective = true)
    (he : ∀ e ∈ es, Orbits e) (h' : run es v = .ok v') :
    ∃ old new, v.shown = some old ∧ v'.shown = some new ∧ DrawnAt new v.persp.lookat (new.size.w / 2) (new.size.h / 2) ∧ new.depth v.persp.lookat = v'.persp.rho ∧
      new.projection = old.projection ∧ new.size = old.size ∧ ((∀ e ∈ es, Turns e) → new.depth v.persp.lookat = old.depth v.persp.lookat) := by
  obtain ⟨s, pr, hvp, hpr, hw, -⟩ := hc
  have hs := sound_run sound_start h
  have hs' := sound_run hs h'
  obtain ⟨hsame, hpaint, hrho⟩ := orbit_run hv he hp h'
  have hold : v.shown = some ⟨pr, v.persp.frame, v.persp.lookat + v.persp.frame.psn, s⟩ := by
    rw [hp]; simp only [paint, hpr, hvp, hv, reduceIte]
  have hnew : v'.shown = some ⟨pr, v'.persp.frame, v.persp.lookat + v'.persp.frame.psn, s⟩ := by
    rw [hpaint]; simp only [paint, hsame.proj, hpr, hsame.view, hvp, hsame.persp, hv, hsame.lookat, reduceIte]
  have hsw := s.cast_w (S := ℝ)
  have hsh := s.cast_h (S := ℝ)
  have hd : ∀ {c : Persp}, GoodP c → c.frame.y ⬝ᵥ (v.persp.lookat - (v.persp.lookat + c.frame.psn)) = 0 ∧
      c.frame.x ⬝ᵥ (v.persp.lookat - (v.persp.lookat + c.frame.psn)) = 0 ∧ c.frame.z ⬝ᵥ (v.persp.lookat - (v.persp.lookat + c.frame.psn)) = c.rho := by
    intro c hg
    obtain ⟨c1, c2, c3⟩ := coords hg.1.orth c.theta c.phi c.rho v.persp.lookat v.persp.lookat
    rw [← hg.2] at c1 c2 c3
    exact ⟨by rw [c1]; simp, by rw [c2]; simp, by rw [c3]; simp⟩
  obtain ⟨d1, d2, d3⟩ := hd hs'.persp
  obtain ⟨-, -, e3⟩ := hd hs.persp
  cases pr with
  | ortho r n f => exact absurd hw.1 (by rw [hv]; decide)
  | frustum r n f =>
    obtain ⟨-, wb, -, wl, -, -, -⟩ := hw
    refine ⟨_, _, hold, hnew, ⟨?_, ?_⟩, d3, rfl, rfl, fun ht => ?_⟩
    · show r.left + (s.w : ℝ) / 2 / s.w * (r.right - r.left) = _ * (v'.persp.frame.y ⬝ᵥ (v.persp.lookat - (v.persp.lookat + v'.persp.frame.psn)))
      rw [d1, wl]; field_simp; ring
    · show r.top - (s.h : ℝ) / 2 / s.h * (r.top - r.bottom) = _ * (v'.persp.frame.x ⬝ᵥ (v.persp.lookat - (v.persp.lookat + v'.persp.frame.psn)))
      rw [d2, wb]; field_simp; ring
    · show v'.persp.frame.z ⬝ᵥ (v.persp.lookat - (v.persp.lookat + v'.persp.frame.psn)) = v.persp.frame.z ⬝ᵥ (v.persp.lookat - (v.persp.lookat + v.persp.frame.psn))
      rw [d3, e3, hrho ht]

/-- **C80, upright.** After a movement of the mouse with the left button held, the perspective camera is not upside down: the upward direction of the scene, which is
`up()` of the controller, does not point down in the window. -/
theorem C80_upright (before : List Event) (v v' : View) (h : run before start = .ok v) (hc : Current3 v) (hl : v.lock = false) (hv : v.perspective = true) (pos : ℤ × ℤ)
    (h' : run [.move (some .left) pos] v = .ok v') : ∃ pic, v'.shown = some pic ∧ 0 ≤ pic.frame.x ⬝ᵥ (v.persp.U *ᵥ ![0, 1, 0]) := by
  obtain ⟨s, pr, hvp, hpr, -, -⟩ := hc
  have hU := (sound_run sound_start h).persp.1
  obtain ⟨pv, pe, o, pj, vp, lk, la, sh⟩ := v
  simp only at hl hv hvp hpr hU
  subst hl hv hvp hpr
  cases h'
  refine ⟨_, rfl, ?_⟩
  set pe' := addAzimuth (-(1 / 100 * ((pos.1 - la.1 : ℤ) : ℝ))) (addZenith (-(1 / 100 * ((pos.2 - la.2 : ℤ) : ℝ))) pe) with hpe
  show 0 ≤ pe'.frame.x ⬝ᵥ (pe.U *ᵥ ![0, 1, 0])
  have e : pe'.frame = frameOf pe.U pe'.theta pe'.phi pe'.rho := rfl
  rw [e, up_x hU]
  have ht : pe'.theta = (addZenith (-(1 / 100 * ((pos.2 - la.2 : ℤ) : ℝ))) pe).theta := rfl
  have hrange : 0 ≤ pe'.theta ∧ pe'.theta ≤ Real.pi := by
    rw [ht]
    simp only [addZenith, Persp.update]
    have := Real.pi_pos
    split_ifs <;> constructor <;> linarith
  exact Real.sin_nonneg_of_nonneg_of_le_pi hrange.1 hrange.2

/-- **C80 (partial), locking.** While the camera is locked and the window shows the current picture, neither the mouse, nor the wheel, nor the menu item for centring changes the
picture. Missing: the menu items that select a camera, which ignore the lock (`C80_lock_menu_false`). -/
theorem C80_lock_partial (es : List Event) (v v' : View) (hl : v.lock = true) (hp : Painted3 v) (he : ∀ e ∈ es, Ignored3 e) (h : run es v = .ok v') :
    v'.shown = v.shown := by
  induction es generalizing v with
  | nil => cases h; rfl
  | cons e es ih =>
    obtain ⟨v1, h1, h2⟩ := Outcome.bind_ok_iff.mp h
    obtain ⟨a, b, c⟩ := locked_handle3 hl hp (he e (by simp)) h1
    exact (ih v1 a b (fun e' he' => he e' (by simp [he'])) h2).trans c

/-- **C80, exporting.** If writing and reading loses nothing of the settings, a scene with the exported settings, opened in a window of the same size or before the window is shown
in that size, shows the same picture. -/
theorem C80_export (before : List Event) (write : ℝ → ℝ) (v : View) (h : run before start = .ok v) (hc : Current3 v) (hp : Painted3 v)
    (hw : exported write v = exported id v) (w : View) (lock : Bool) (bodies : List PosedBody3D) (s : Size)
    (hs : v.viewport = some s) :
    (w.viewport = some s → ∃ w', run [.openScene (some (exported write v)) lock bodies true] w = .ok w' ∧ w'.shown = v.shown) ∧
    ∃ w', run [.openScene (some (exported write v)) lock bodies false, .resize s] w = .ok w' ∧ w'.shown = v.shown := by
  rw [hw]
  obtain ⟨s', pr, hvp, hpr, hwant, -⟩ := hc
  rw [hs] at hvp
  cases hvp
  have hsound := sound_run sound_start h
  -- the settings after opening
  suffices hopen : ∀ render, ∃ w1 : View, openScene (some (exported id v)) lock bodies render w = .ok (if render then paint w1 else w1) ∧ w1.perspective = v.perspective ∧
      (v.perspective = true → w1.persp.frame = v.persp.frame ∧ w1.persp.lookat = v.persp.lookat) ∧
      (v.perspective = false → w1.ortho.frame = v.ortho.frame ∧ w1.ortho.lookat = v.ortho.lookat ∧ w1.ortho.scale = v.ortho.scale) ∧
      (w.viewport = some s → ∃ w2 : View, w1 = resizeGL s w2) by
    have hres : ∀ w2 : View, (resizeGL s w2).perspective = w2.perspective ∧ (resizeGL s w2).ortho = w2.ortho ∧ (resizeGL s w2).persp.frame = w2.persp.frame ∧
        (resizeGL s w2).persp.lookat = w2.persp.lookat ∧ (resizeGL s w2).viewport = some s := by
      intro w2
      obtain ⟨pv, pe, o, pj, vp, lk, la, sh⟩ := w2
      cases pv <;> exact ⟨rfl, rfl, rfl, rfl, rfl⟩
    have hfin : ∀ w2 : View, (resizeGL s w2).perspective = v.perspective →
        (v.perspective = true → (resizeGL s w2).persp.frame = v.persp.frame ∧ (resizeGL s w2).persp.lookat = v.persp.lookat) →
        (v.perspective = false → (resizeGL s w2).ortho.frame = v.ortho.frame ∧ (resizeGL s w2).ortho.lookat = v.ortho.lookat ∧
          (resizeGL s w2).ortho.scale = v.ortho.scale) → (paint (resizeGL s w2)).shown = v.shown := by
      intro w2 hpv h1 h2
      obtain ⟨s2, pr2, k1, k2, k3, -⟩ := current_resize s w2
      rw [(hres w2).2.2.2.2] at k1
      cases k1
      have : pr2 = pr := wanted_unique k3 hwant hpv (fun hf => (h2 (hpv ▸ hf)).2.2)
      subst this
      rw [hp]
      simp only [paint, k2, (hres w2).2.2.2.2, hpr, hs, hpv]
      cases hb : v.perspective
      · obtain ⟨a1, a2, -⟩ := h2 hb
        simp only [a1, a2, Bool.false_eq_true, reduceIte]
      · obtain ⟨a1, a2⟩ := h1 hb
        simp only [a1, a2, reduceIte]
    constructor
    · intro hwv
      obtain ⟨w1, o1, o2, o3, o4, o5⟩ := hopen true
      obtain ⟨w2, rfl⟩ := o5 hwv
      refine ⟨paint (resizeGL s w2), ?_, hfin w2 o2 o3 o4⟩
      show (openScene _ _ _ _ w).bind (run []) = _
      rw [o1]; rfl
    · obtain ⟨w1, o1, o2, o3, o4, -⟩ := hopen false
      refine ⟨paint (resizeGL s w1), ?_, hfin w1 ((hres w1).1.trans o2) (fun hb => ?_) (fun hb => ?_)⟩
      · show (openScene _ _ _ _ w).bind (run [.resize s]) = _
        rw [o1]; rfl
      · exact ⟨(hres w1).2.2.1.trans (o3 hb).1, (hres w1).2.2.2.1.trans (o3 hb).2⟩
      · rw [(hres w1).2.1]; exact o4 hb
  intro render
  obtain ⟨wp, we, wo, wj, wv, wl, wa, wsh⟩ := w
  cases hb : v.perspective
  · -- orthographic
    have hexp : exported id v = .ortho v.ortho.plane v.ortho.lookat v.ortho.scale := by simp [exported, hb]
    rw [hexp]
    have hfr : (wo.useView v.ortho.plane).frame = v.ortho.frame := by rw [hsound.ortho.1]; rfl
    have hmax : max leastScale v.ortho.scale = v.ortho.scale := max_eq_right hsound.ortho.2
    have hopen : ∀ sz : Option Size, wv = sz → openScene (some (.ortho v.ortho.plane v.ortho.lookat v.ortho.scale)) lock bodies render ⟨wp, we, wo, wj, wv, wl, wa, wsh⟩ =
        .ok (if render then paint (match sz with | none => ⟨false, we, { wo.useView v.ortho.plane with scale := max leastScale v.ortho.scale, lookat := v.ortho.lookat }, wj, sz, lock, wa, wsh⟩ | some s => resizeGL s ⟨false, we, { wo.useView v.ortho.plane with scale := max leastScale v.ortho.scale, lookat := v.ortho.lookat }, wj, sz, lock, wa, wsh⟩)
          else (match sz with | none => ⟨false, we, { wo.useView v.ortho.plane with scale := max leastScale v.ortho.scale, lookat := v.ortho.lookat }, wj, sz, lock, wa, wsh⟩ | some s => resizeGL s ⟨false, we, { wo.useView v.ortho.plane with scale := max leastScale v.ortho.scale, lookat := v.ortho.lookat }, wj, sz, lock, wa, wsh⟩)) := by
      rintro sz rfl; cases wv <;> rfl
    cases wv with
    | none => exact ⟨_, hopen none rfl, rfl, by simp, fun _ => ⟨hfr, rfl, hmax⟩, by simp⟩
    | some s1 =>
      refine ⟨_, hopen (some s1) rfl, rfl, by simp, fun _ => ⟨hfr, rfl, hmax⟩, fun he => ?_⟩
      cases he; exact ⟨_, rfl⟩
  · -- perspective
    obtain ⟨u, hu1, hu2, hU⟩ := hsound.persp.1
    have hup : v.persp.U *ᵥ ![0, 1, 0] = u := by rw [hU]; exact (turnY_orth hu1 hu2).2
    have hexp : exported id v = .persp u v.persp.theta v.persp.phi v.persp.rho v.persp.lookat := by simp [exported, hb, hup]
    rw [hexp]
    have hne : ¬ (u = 0 ∨ u 1 = -1) := by
      rintro (rfl | h2)
      · simp at hu1
      · exact hu2 h2
    have hfr : frameOf (turnY u) v.persp.theta v.persp.phi v.persp.rho = v.persp.frame := by rw [hsound.persp.2, hU]
    cases wv with
    | none =>
      refine ⟨⟨true, Persp.update { we with U := turnY u, theta := v.persp.theta, phi := v.persp.phi, rho := v.persp.rho, lookat := v.persp.lookat }, wo, wj, none, lock, wa, wsh⟩,
        ?_, rfl, fun _ => ⟨hfr, rfl⟩, by simp, by simp⟩
      simp only [openScene, setCameraPersp, unit3_of_unit hu1, if_neg hne, Outcome.bind]
    | some s1 =>
      refine ⟨resizeGL s1 ⟨true, Persp.update { we with U := turnY u, theta := v.persp.theta, phi := v.persp.phi, rho := v.persp.rho, lookat := v.persp.lookat }, wo, wj, some s1, lock, wa, wsh⟩,
        ?_, rfl, fun _ => ⟨hfr, rfl⟩, by simp, fun he => ?_⟩
      · simp only [openScene, setCameraPersp, unit3_of_unit hu1, if_neg hne, Outcome.bind]
      · cases he; exact ⟨_, rfl⟩

/-! ## Concrete scenes -/

/-- A ball at the origin -/
noncomputable def ballAt0 (r : ℝ) : PosedBody3D := ⟨.sphere r, ![0, 0, 0], 1⟩

/-- A cube with corners at `±1` -/
noncomputable def cube : PosedBody3D := ⟨.box ![1, 1, 1], ![0, 0, 0], 1⟩

/-- A window of 512 by 512 pixels -/
def window : Size := ⟨512, 512, by norm_num, by norm_num⟩

theorem ball_sphere {r : ℝ} (hr : 0 ≤ r) : sceneBoundingSphere [ballAt0 r] = some (Real.sqrt 3 * r, ![0, 0, 0]) := by
  simp only [sceneBoundingSphere, sceneBoundingBox3, List.foldl, ballAt0, Geometry3D.aabb, growBox, Option.map_some, Option.some.injEq, Prod.mk.injEq]
  constructor
  · rw [← Real.sqrt_sq hr, ← Real.sqrt_mul (by norm_num)]
    rw [Real.sqrt_sq hr]
    congr 1
    simp
    ring
  · ext i; fin_cases i <;> simp

theorem cube_sphere : sceneBoundingSphere [cube] = some (Real.sqrt 3, ![0, 0, 0]) := by
  simp only [sceneBoundingSphere, sceneBoundingBox3, List.foldl, cube, Geometry3D.aabb, growBox, Option.map_some, Option.some.injEq, Prod.mk.injEq]
  constructor
  · congr 1
    simp [Matrix.mulVec, dotProduct, Fin.sum_univ_three]
    norm_num
  · ext i; fin_cases i <;> simp

theorem ball_solid {r : ℝ} (hr : 0 ≤ r) : ∀ b ∈ [ballAt0 r], b.Solid := by
  intro b hb
  simp only [List.mem_singleton] at hb
  subst hb
  exact hr

/-- The state after a window of this size was shown and the orthographic camera selected for a ball -/
noncomputable def orthoView (p : Plane) (r : ℝ) : View :=
  paint (setOrthographic window { setOrthographic window { paint (resizeGL window start) with perspective := false, ortho := Ortho.new.useView p } with
    ortho := { Ortho.new.useView p with lookat := ![0, 0, 0], scale := max leastScale (max (((window.h : ℕ) : ℝ) / (window.w : ℕ) * (Real.sqrt 3 * r)) (Real.sqrt 3 * r)) } })

theorem ortho_run (p : Plane) {r : ℝ} (hr : 0 ≤ r) : run [.resize window, .orthographic p [ballAt0 r]] start = .ok (orthoView p r) := by
  show (enableOrthographic p [ballAt0 r] (paint (resizeGL window start))).bind _ = _
  have h1 : enableOrthographic p [ballAt0 r] (paint (resizeGL window start)) =
    centerCamera [ballAt0 r] (setOrthographic window { paint (resizeGL window start) with perspective := false, ortho := Ortho.new.useView p }) := rfl
  rw [h1]
  unfold centerCamera
  rw [if_neg (by simp [setOrthographic, paint, resizeGL, start, setPerspective]), if_neg (by simp), ball_sphere hr]
  rfl

theorem ortho_current (p : Plane) (r : ℝ) : Current3 (orthoView p r) := current_setOrthographic window rfl

/-- Nothing is missing for the theorems about the orthographic camera: a ball of radius 1 is centred, -/
example : ∃ v', run [.center [ballAt0 1]] (orthoView .xy 1) = .ok v' ∧ ∀ b ∈ [ballAt0 1], ∀ p ∈ b.points, Visible3 v' p :=
  C80_center_ortho_partial _ _ (ortho_run .xy zero_le_one) (ortho_current _ _) rfl rfl [ballAt0 1] (ball_solid zero_le_one) (by simp) _ _ (ball_sphere zero_le_one)
    (by nlinarith [Real.sq_sqrt (show (0 : ℝ) ≤ 3 by norm_num), Real.sqrt_nonneg 3])

/-- and dragged. -/
example : ∃ v0 pic0, run [.press true (3, 4)] (orthoView .xy 1) = .ok v0 ∧ v0.shown = some pic0 ∧
    ∃ v' pic', run [.press true (3, 4), .move (some .left) (7, 9), .repaint, .move (some .left) (-5, 2)] (orthoView .xy 1) = .ok v' ∧ v'.shown = some pic' ∧
      ∀ p : Vec3, DrawnAt pic0 p ((3 : ℤ) : ℝ) ((4 : ℤ) : ℝ) → DrawnAt pic' p ((-5 : ℤ) : ℝ) ((2 : ℤ) : ℝ) :=
  C80_drag _ _ (ortho_run .xy zero_le_one) (ortho_current _ _) rfl rfl (3, 4) [some (7, 9), none, some (-5, 2)]

theorem sin_half_bounds : 3 / 10 < Real.sin halfAngle ∧ Real.sin halfAngle < 1 / 2 := by
  constructor
  · have h := Real.mul_le_sin (x := halfAngle) halfAngle_pos.le (by linarith [halfAngle_lt, Real.pi_pos])
    refine lt_of_lt_of_le ?_ h
    unfold halfAngle
    field_simp
    norm_num
  · have h := Real.sin_lt_sin_of_lt_of_le_pi_div_two (x := halfAngle) (y := Real.pi / 6) (by linarith [halfAngle_pos, Real.pi_pos]) (by linarith [Real.pi_pos]) halfAngle_lt
    rwa [Real.sin_pi_div_six] at h

/-- **C80 (partial), centring with the perspective camera in a usual window.** If the window is not higher than wide and at most three times as wide as high, and the radius of the
bounding sphere is between 1/10 and 200, then every point of every body is visible after centring. -/
theorem C80_center_persp_usual_partial (es : List Event) (v : View) (h : run es start = .ok v) (hc : Current3 v) (hl : v.lock = false) (ho : v.perspective = true)
    (s : Size) (hs : v.viewport = some s) (h1 : s.h ≤ s.w) (h3 : s.w ≤ 3 * s.h) (bodies : List PosedBody3D) (hb : ∀ b ∈ bodies, b.Solid) (hne : bodies ≠ []) (radius : ℝ)
    (center : Vec3) (hsp : sceneBoundingSphere bodies = some (radius, center)) (hr1 : 1 / 10 ≤ radius) (hr2 : radius ≤ 200) :
    ∃ v', run [.center bodies] v = .ok v' ∧ ∀ b ∈ bodies, ∀ p ∈ b.points, Visible3 v' p := by
  obtain ⟨s', pr, hv, -, -, hfov⟩ := id hc
  rw [hs] at hv
  cases hv
  obtain ⟨hfovy, hasp⟩ := hfov ho
  have hsw := s.cast_w (S := ℝ)
  have hsh := s.cast_h (S := ℝ)
  have ha1 : 1 ≤ (s.w : ℝ) / s.h := by rw [le_div_iff₀ hsh]; rw [one_mul]; exact_mod_cast h1
  have ha3 : (s.w : ℝ) / s.h ≤ 3 := by rw [div_le_iff₀ hsh]; exact_mod_cast h3
  have ea : 1 / 2 * v.persp.fovy * (Real.pi / 180) = halfAngle := by rw [halfAngle_eq, hfovy]; ring
  have eb : 1 / 2 * v.persp.aspect * v.persp.fovy * (Real.pi / 180) = (s.w : ℝ) / s.h * halfAngle := by rw [halfAngle_eq, hfovy, hasp]; ring
  obtain ⟨hlow, hhigh⟩ := sin_half_bounds
  have hh := halfAngle_pos
  have hmono : Real.sin halfAngle ≤ Real.sin ((s.w : ℝ) / s.h * halfAngle) := by
    refine Real.sin_le_sin_of_le_of_le_pi_div_two (by linarith [Real.pi_pos]) ?_ (by nlinarith)
    have : (s.w : ℝ) / s.h * halfAngle ≤ 3 * halfAngle := mul_le_mul_of_nonneg_right ha3 hh.le
    linarith [halfAngle_lt]
  have hrun : run [.center bodies] v = .ok (paint { v with persp := Persp.update { v.persp with lookat := center, rho := max (radius / Real.sin halfAngle) (radius / Real.sin ((s.w : ℝ) / s.h * halfAngle)) } }) := by
    show (centerCamera bodies v).bind _ = _
    unfold centerCamera
    rw [if_neg (by rw [hl]; decide), if_neg (by cases bodies <;> simp at hne ⊢)]
    simp only [hsp, ho, reduceIte, centerAtSphere, ea, eb]
    rw [if_neg (by push Not; constructor <;> linarith)]
    simp only [Outcome.bind, run]
  refine ⟨_, hrun, C80_center_persp_partial es v h hc hl ho bodies hb hne radius center hsp _ hrun ?_ ?_⟩
  · show radius + 1 / 10 ≤ max (radius / Real.sin halfAngle) (radius / Real.sin ((s.w : ℝ) / s.h * halfAngle))
    refine le_trans ?_ (le_max_left _ _)
    rw [le_div_iff₀ (by linarith)]
    nlinarith
  · show max (radius / Real.sin halfAngle) (radius / Real.sin ((s.w : ℝ) / s.h * halfAngle)) + radius ≤ 1000
    have : max (radius / Real.sin halfAngle) (radius / Real.sin ((s.w : ℝ) / s.h * halfAngle)) ≤ radius * (10 / 3) := by
      refine max_le ?_ ?_
      · rw [div_le_iff₀ (by linarith)]; nlinarith
      · rw [div_le_iff₀ (by linarith)]; nlinarith
    linarith

/-- The state after a window of this size was shown -/
noncomputable def perspView : View := paint (resizeGL window start)

theorem persp_run : run [.resize window] start = .ok perspView := rfl

theorem persp_current : Current3 perspView := current_resize window start

/-- The hypotheses are met by a ball of radius 1; turning, locking and exporting, too. -/
example : ∃ v', run [.center [ballAt0 1]] perspView = .ok v' ∧ ∀ b ∈ [ballAt0 1], ∀ p ∈ b.points, Visible3 v' p :=
  C80_center_persp_usual_partial _ _ persp_run persp_current rfl rfl window rfl (by decide) (by decide) [ballAt0 1] (ball_solid zero_le_one) (by simp) _ _
    (ball_sphere zero_le_one) (by nlinarith [Real.sq_sqrt (show (0 : ℝ) ≤ 3 by norm_num), Real.sqrt_nonneg 3])
    (by nlinarith [Real.sq_sqrt (show (0 : ℝ) ≤ 3 by norm_num), Real.sqrt_nonneg 3])

example (v' : View) (h' : run [.press true (0, 0), .move (some .left) (7, 9), .wheel 120, .move (some .right) (4, 4)] perspView = .ok v') :
    ∃ new, v'.shown = some new ∧ DrawnAt new ![0, 0, 0] (new.size.w / 2) (new.size.h / 2) := by
  obtain ⟨-, new, -, h1, h2, -⟩ := C80_orbit _ _ _ _ persp_run persp_current rfl rfl
    (by intro e he; simp only [List.mem_cons, List.not_mem_nil, or_false] at he; rcases he with rfl | rfl | rfl | rfl <;> trivial) h'
  refine ⟨new, h1, ?_⟩
  have e : perspView.persp.lookat = ![0, 0, 0] := by
    show (0 : Vec3) = _
    ext i; fin_cases i <;> rfl
  rwa [e] at h2

example : ∃ v', run [.openScene (some (exported id perspView)) true [] true] (orthoView .xy 1) = .ok v' ∧ v'.shown = perspView.shown :=
  (C80_export _ id _ persp_run persp_current rfl rfl _ true [] window rfl).1 rfl

/-! ## What is wrong -/

/-- **C80 is false for large scenes**: with the orthographic camera, whose distance is always 50, a part of a ball of radius 60 is behind the far end of what is drawn. -/
theorem C80_center_big_false : ∃ v, run [.resize window, .orthographic .zx [ballAt0 60]] start = .ok v ∧ ∃ p ∈ (ballAt0 60).points, ¬ Visible3 v p := by
  refine ⟨_, ortho_run .zx (by norm_num), ![0, -60, 0], ?_, ?_⟩
  · simp [PosedBody3D.points, ballAt0, ballSet3]
  · rintro ⟨pic, hs, -, hf, -⟩
    cases hs
    revert hf
    simp only [Picture.depth, Projection.far, frameOf, Ortho.useView, dot3, orthoView, paint, setOrthographic, Ortho.new]
    simp
    norm_num

/-- **C80 is false for small scenes**: with the perspective camera, every point of a ball of radius 1/100 is nearer than what is drawn after it was centred. -/
theorem C80_center_small_false : ∃ v, run [.resize window, .center [ballAt0 (1 / 100)]] start = .ok v ∧ ∀ p ∈ (ballAt0 (1 / 100)).points, ¬ Visible3 v p := by
  obtain ⟨hlow, hhigh⟩ := sin_half_bounds
  have e1 : 1 / 2 * (5443 / 100) * (Real.pi / 180) = halfAngle := by rw [halfAngle_eq]; ring
  have e2 : 1 / 2 * (((window.w : ℕ) : ℝ) / (window.h : ℕ)) * (5443 / 100) * (Real.pi / 180) = halfAngle := by rw [halfAngle_eq]; simp [window]; ring
  have hrun : run [.resize window, .center [ballAt0 (1 / 100)]] start =
      .ok (paint { perspView with persp := Persp.update { perspView.persp with lookat := ![0, 0, 0], rho := Real.sqrt 3 * (1 / 100) / Real.sin halfAngle } }) := by
    show (centerCamera [ballAt0 (1 / 100)] perspView).bind _ = _
    unfold centerCamera
    rw [if_neg (by simp [perspView, paint, resizeGL, start, setPerspective]), if_neg (by simp), ball_sphere (by norm_num)]
    simp only [show perspView.perspective = true from rfl, reduceIte, centerAtSphere, show perspView.persp.fovy = 5443 / 100 from rfl,
      show perspView.persp.aspect = ((window.w : ℕ) : ℝ) / (window.h : ℕ) from rfl, e1, e2, max_self]
    rw [if_neg (by push Not; constructor <;> linarith)]
    rfl
  refine ⟨_, hrun, ?_⟩
  intro p hp
  rintro ⟨pic, hs, hn, -⟩
  cases hs
  revert hn
  rw [imp_false, not_le]
  set rho := Real.sqrt 3 * (1 / 100) / Real.sin halfAngle with hrho
  show (frameOf 1 (Real.pi / 3) (Real.pi / 4) rho).z ⬝ᵥ (p - (![0, 0, 0] + (frameOf 1 (Real.pi / 3) (Real.pi / 4) rho).psn)) < 1 / 10
  have hsq := ball_coords (U := 1) (by simp) (Real.pi / 3) (Real.pi / 4) rho (show p ∈ ballSet3 ![0, 0, 0] (1 / 100) from hp)
  rw [(coords (U := 1) (by simp) (Real.pi / 3) (Real.pi / 4) rho ![0, 0, 0] p).2.2]
  simp only at hsq
  have hz := abs_le_of_sq_le_sq (a := (frameOf 1 (Real.pi / 3) (Real.pi / 4) rho).z ⬝ᵥ (p - ![0, 0, 0])) (b := 1 / 100)
    (by nlinarith [sq_nonneg ((frameOf 1 (Real.pi / 3) (Real.pi / 4) rho).x ⬝ᵥ (p - ![0, 0, 0])), sq_nonneg ((frameOf 1 (Real.pi / 3) (Real.pi / 4) rho).y ⬝ᵥ (p - ![0, 0, 0]))])
    (by norm_num)
  rw [abs_le] at hz
  have h3 : Real.sqrt 3 < 2 := by rw [Real.sqrt_lt' (by norm_num)]; norm_num
  have : rho < 8 / 100 := by rw [hrho, div_lt_iff₀ (by linarith)]; linarith
  linarith [hz.2]

/-- **C80 is false for the scene named on the command line**: when it is read, the camera believes in an angle of 60 degrees, while the window is then painted with 54.43, so that a
corner of a cube is outside of the window. -/
theorem C80_first_false : ∃ v, run [.openScene none false [cube] false, .resize window] start = .ok v ∧ ∃ p ∈ cube.points, ¬ Visible3 v p := by
  set rho := 2 * Real.sqrt 3 with hrho
  set pe := Persp.update { Persp.new with lookat := ![0, 0, 0], rho := rho } with hpe
  have hs : Real.sin (1 / 2 * 60 * (Real.pi / 180)) = 1 / 2 := by rw [show 1 / 2 * 60 * (Real.pi / 180) = Real.pi / 6 by ring]; exact Real.sin_pi_div_six
  have hs' : Real.sin (1 / 2 * 1 * 60 * (Real.pi / 180)) = 1 / 2 := by rw [show 1 / 2 * 1 * 60 * (Real.pi / 180) = Real.pi / 6 by ring]; exact Real.sin_pi_div_six
  have hrun : run [.openScene none false [cube] false, .resize window] start = .ok (paint (resizeGL window { start with persp := pe })) := by
    show (openScene none false [cube] false start).bind _ = _
    simp only [openScene, cube_sphere, centerAtSphere, show start.persp.fovy = 60 from rfl, show start.persp.aspect = 1 from rfl, hs, hs', max_self]
    rw [if_neg (by norm_num)]
    simp only [show Real.sqrt 3 / (1 / 2) = rho by rw [hrho]; ring]
    rfl
  refine ⟨_, hrun, ![1, -1, 1], ⟨![1, -1, 1], ?_, by ext i; fin_cases i <;> simp [cube]⟩, ?_⟩
  · intro i; fin_cases i <;> simp
  rintro ⟨pic, hsh, -, -, px, py, -, -, hy0, hy1, -, hd⟩
  cases hsh
  obtain ⟨c1, c2, c3⟩ := coords (U := 1) (by simp) (Real.pi / 3) (Real.pi / 4) rho ![0, 0, 0] ![1, -1, 1]
  set f := frameOf 1 (Real.pi / 3) (Real.pi / 4) rho with hf
  have hd' : Real.tan halfAngle * (1 / 10) - py / ((window.h : ℕ) : ℝ) * (Real.tan halfAngle * (1 / 10) - -(Real.tan halfAngle * (1 / 10))) =
      1 / 10 / (f.z ⬝ᵥ (![1, -1, 1] - (![0, 0, 0] + f.psn))) * (f.x ⬝ᵥ (![1, -1, 1] - (![0, 0, 0] + f.psn))) := hd
  rw [c2, c3] at hd'
  have e2 := Real.sq_sqrt (show (0 : ℝ) ≤ 2 by norm_num)
  have e3 := Real.sq_sqrt (show (0 : ℝ) ≤ 3 by norm_num)
  have hx : f.x ⬝ᵥ (![1, -1, 1] - ![0, 0, 0]) = -(Real.sqrt 2 / 2) - Real.sqrt 3 / 2 := by
    simp only [hf, frameOf, dot3, cross_apply, one_mulVec, Real.sin_pi_div_three, Real.cos_pi_div_three, Real.sin_pi_div_four, Real.cos_pi_div_four]
    simp
    first
      | linear_combination (-(Real.sqrt 3) / 4) * e2
      | linear_combination (Real.sqrt 3 / 4) * e2
      | linear_combination (-(Real.sqrt 3) / 2) * e2
  have hz : f.z ⬝ᵥ (![1, -1, 1] - ![0, 0, 0]) = 1 / 2 - Real.sqrt 3 * Real.sqrt 2 / 2 := by
    simp only [hf, frameOf, dot3, one_mulVec, Real.sin_pi_div_three, Real.cos_pi_div_three, Real.sin_pi_div_four, Real.cos_pi_div_four]
    simp
    ring
  rw [hx, hz] at hd'
  -- the tangent
  have hpi := Real.pi_lt_d4
  have hh : halfAngle < 19 / 40 := by unfold halfAngle; linarith
  have hh0 := halfAngle_pos
  have hcos : 88 / 100 < Real.cos halfAngle := by nlinarith [Real.one_sub_sq_div_two_le_cos (x := halfAngle)]
  have hsin : Real.sin halfAngle < 19 / 40 := lt_of_le_of_lt (Real.sin_le hh0.le) hh
  have htan : Real.tan halfAngle < 54 / 100 := by
    rw [Real.tan_eq_sin_div_cos, div_lt_iff₀ (by linarith)]; linarith
  have ht0 := tan_halfAngle_pos
  have hwh : ((window.h : ℕ) : ℝ) = 512 := by simp [window]
  have hy1' : py ≤ 512 := by have h : py ≤ ((window.h : ℕ) : ℝ) := hy1; rw [hwh] at h; exact h
  rw [hwh] at hd'
  have h2a : 141 / 100 < Real.sqrt 2 := by rw [Real.lt_sqrt (by norm_num)]; norm_num
  have h3a : 173 / 100 < Real.sqrt 3 := by rw [Real.lt_sqrt (by norm_num)]; norm_num
  have h3b : Real.sqrt 3 < 1733 / 1000 := by rw [Real.sqrt_lt' (by norm_num)]; norm_num
  have hdep : 1 / 2 - Real.sqrt 3 * Real.sqrt 2 / 2 + rho < 275 / 100 := by rw [hrho]; nlinarith
  have hdep0 : 0 < 1 / 2 - Real.sqrt 3 * Real.sqrt 2 / 2 + rho := by
    have : Real.sqrt 2 < 3 / 2 := by rw [Real.sqrt_lt' (by norm_num)]; norm_num
    rw [hrho]; nlinarith
  have hlow : -(Real.tan halfAngle * (1 / 10)) ≤ 1 / 10 / (1 / 2 - Real.sqrt 3 * Real.sqrt 2 / 2 + rho) * (-(Real.sqrt 2 / 2) - Real.sqrt 3 / 2) := by
    rw [← hd']
    have : py / 512 ≤ 1 := by rw [div_le_one (by norm_num)]; exact hy1'
    nlinarith
  rw [div_mul_eq_mul_div, le_div_iff₀ hdep0] at hlow
  nlinarith

/-- **C80 is false for an empty scene**: opened without a camera, it leaves the camera with numbers that are not numbers. -/
theorem C80_open_empty_false (lock render : Bool) : run [.openScene none lock [] render] start = .fail := rfl

/-- **C80 is false when an empty scene is centred**: the settings go back to their first values, the projection does not. -/
theorem C80_center_empty_false : ∃ v, run [.resize window, .orthographic .xy [ballAt0 1], .center [], .repaint] start = .ok v ∧ ¬ Current3 v := by
  have hrun : run [.resize window, .orthographic .xy [ballAt0 1], .center [], .repaint] start = .ok (paint { orthoView .xy 1 with ortho := Ortho.new }) := by
    have h := ortho_run .xy zero_le_one
    show (handle (.resize window) start).bind (fun v => (handle (.orthographic .xy [ballAt0 1]) v).bind (run [.center [], .repaint])) = _
    have h2 : (handle (.resize window) start).bind (fun v => (handle (.orthographic .xy [ballAt0 1]) v).bind (run [])) = .ok (orthoView .xy 1) := h
    obtain ⟨v1, k1, k2⟩ := Outcome.bind_ok_iff.mp h2
    obtain ⟨v2, k3, k4⟩ := Outcome.bind_ok_iff.mp k2
    cases k4
    rw [k1]
    show (handle (.orthographic .xy [ballAt0 1]) v1).bind _ = _
    rw [k3]
    rfl
  refine ⟨_, hrun, ?_⟩
  rintro ⟨s, pr, hv, hpr, hw, -⟩
  cases hpr
  have := hw.2.2.1
  change max leastScale (max (((window.h : ℕ) : ℝ) / (window.w : ℕ) * (Real.sqrt 3 * 1)) (Real.sqrt 3 * 1)) = 15 at this
  have h3 : Real.sqrt 3 < 2 := by rw [Real.sqrt_lt' (by norm_num)]; norm_num
  have : max leastScale (max (((window.h : ℕ) : ℝ) / (window.w : ℕ) * (Real.sqrt 3 * 1)) (Real.sqrt 3 * 1)) < 15 := by
    refine max_lt (by unfold leastScale; norm_num) (max_lt ?_ (by linarith))
    simp [window]; linarith
  linarith

/-- **C80 is false for the menu items that select a camera**: they change the picture although the camera is locked. -/
theorem C80_lock_menu_false : ∃ v v', run [.resize window, .setLock true] start = .ok v ∧ v.lock = true ∧ Painted3 v ∧
    run [.orthographic .xy [ballAt0 1], .repaint] v = .ok v' ∧ v'.shown ≠ v.shown := by
  refine ⟨{ perspView with lock := true }, _, rfl, rfl, rfl, rfl, ?_⟩
  intro h
  cases h

/-- The lock does protect the picture from the other events. -/
example (v' : View) (h : run [.press true (0, 0), .move (some .left) (7, 9), .wheel 120, .center [ballAt0 1]] { perspView with lock := true } = .ok v') :
    v'.shown = perspView.shown := by
  refine C80_lock_partial _ { perspView with lock := true } _ rfl rfl ?_ h
  intro e he
  simp only [List.mem_cons, List.not_mem_nil, or_false] at he
  rcases he with rfl | rfl | rfl | rfl <;> trivial

end Scisim.Camera3
