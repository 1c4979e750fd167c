import Verif.Lemmas.Camera
import Verif.Props.Geometry2D
/-!
# C79: the camera of the interactive programs in the plane
-/

namespace Scisim.Camera

section
variable {S : Type} [Field S] [LinearOrder S] [IsStrictOrderedRing S]

/-- **C79 (partial), the picture.** Once the window has its size, whatever happened before and whatever the user then does, the picture that is painted is the one the settings of the camera ask for:
centred, with the chosen height, and with square pixels. Missing: in the balls' program not after a scene was opened or an empty scene was centred, until the window is
resized or the mouse is used (`C79_open_balls_false`, `C79_center_empty_false`). -/
theorem C79_current_partial (p : Which) (before after : List (Event S)) (s : Size) (ha : ∀ e ∈ after, Keeps p e) (v : View S)
    (h : run p (before ++ .resize s :: after) start = .ok v) : Current v := by
  rw [run_append] at h
  obtain ⟨v1, -, h⟩ := Outcome.bind_ok_iff.mp h
  obtain ⟨v2, h2, h⟩ := Outcome.bind_ok_iff.mp h
  cases h2
  exact current_run (v := paint (reshape s v1)) (current_reshape s v1) ha h

/-- **C79, dragging.** If the picture is current, then from the moment the left button is pressed the point of the plane under the mouse stays under the mouse, however the
mouse is moved and whatever is painted in between. -/
theorem C79_drag (p : Which) (v : View S) (hc : Current v) (hl : v.lock = false) (pos : ℤ × ℤ) (es : List (Option (ℤ × ℤ))) :
    ∃ z, (∃ v0, run p [.press ⟨true, false⟩ pos] v = .ok v0 ∧ ShowsAt v0 (pos.1 : S) (pos.2 : S) z) ∧
      ∃ v', run p (.press ⟨true, false⟩ pos :: es.map dragEvent) v = .ok v' ∧
        ShowsAt v' ((mouseAfter pos es).1 : S) ((mouseAfter pos es).2 : S) z := by
  have hp : press ⟨true, false⟩ pos v = { paint v with last := pos } := by unfold press; simp [hl]
  have hcur : Current { paint v with last := pos } := hc
  obtain ⟨v', h1, h2, h3, h4, h5, h6, h7⟩ := drag_run (p := p) es (v := { paint v with last := pos }) hl hcur rfl
  refine ⟨pointAt (v.ctl.rect v.ctl.size, v.ctl.size) (pos.1 : S) (pos.2 : S), ⟨_, rfl, _, ?_, rfl⟩, v', ?_, _, h5.shown_eq h4, ?_⟩
  · rw [hp]; exact Painted.shown_eq (v := { paint v with last := pos }) rfl hcur
  · show run p (es.map dragEvent) (press ⟨true, false⟩ pos v) = _
    rw [hp]; exact h1
  · simp only at h3
    rw [← h3, h7]
    rfl

/-- The picture of a camera with the same centre and a new scale -/
theorem zoom_shown {v : View S} (hc : Current v) (d : S) :
    (paint (zoomView d v)).shown = some (({ v.ctl with scale := max (1 / 100000) (v.ctl.scale + d) } : Controller S).rect v.ctl.size, v.ctl.size) := rfl

/-- What zooming by `factor` does to a picture: the middle of the window stays, the picture is faithful, and what the window shows is `factor` times as high, but not lower than
the least height. -/
def Zoomed (factor : S) (old new : Rect S × Size) : Prop :=
  new.2 = old.2 ∧ pointAt new (new.2.w / 2) (new.2.h / 2) = pointAt old (old.2.w / 2) (old.2.h / 2) ∧ Faithful new ∧
    new.1.top - new.1.bottom = max (2 / 100000) (factor * (old.1.top - old.1.bottom))

theorem zoomed_rect (c : Controller S) (s : Size) (d : S) :
    Zoomed (1 + d) (c.rect s, s) (({ c with scale := max (1 / 100000) (c.scale + d * c.scale) } : Controller S).rect s, s) := by
  have hw := s.cast_w (S := S)
  have hh := s.cast_h (S := S)
  have hpos : (0 : S) < max (1 / 100000) (c.scale + d * c.scale) := lt_max_of_lt_left (by positivity)
  refine ⟨rfl, ?_, faithful_rect (c := { c with scale := max (1 / 100000) (c.scale + d * c.scale) }) hpos s, ?_⟩
  · rw [pointAt_rect, pointAt_rect]
    simp only [V2.mk.injEq]
    constructor <;> field_simp <;> ring
  · simp only [Controller.rect]
    rw [show (c.center.y + max (1 / 100000) (c.scale + d * c.scale) - (c.center.y - max (1 / 100000) (c.scale + d * c.scale)) : S) =
      2 * max (1 / 100000) (c.scale + d * c.scale) by ring, mul_max_of_nonneg _ _ (by norm_num)]
    congr 1
    · norm_num
    · ring

/-- **C79, zooming.** If the picture is current, turning the wheel or moving the mouse with the right button down keeps the middle of the window where it is, keeps circles
round, and changes the height of what is seen by the factor `1 - delta / 500` or `1 + dy / 50`, but not below the least height; the picture can never be turned inside out. -/
theorem C79_zoom (p : Which) (v : View S) (hc : Current v) (hp : Painted v) (hl : v.lock = false) :
    (∀ delta : ℤ, ∃ v' old new, run p [.wheel delta] v = .ok v' ∧ v.shown = some old ∧ v'.shown = some new ∧ Zoomed (1 - (delta : S) / 500) old new) ∧
    ∀ pos : ℤ × ℤ, ∃ v' old new, run p [.move ⟨false, true⟩ pos] v = .ok v' ∧ v.shown = some old ∧ v'.shown = some new ∧
      Zoomed (1 + ((pos.2 - v.last.2 : ℤ) : S) / 50) old new := by
  constructor
  · intro delta
    refine ⟨_, _, (({ v.ctl with scale := max (1 / 100000) (v.ctl.scale + -((delta : S) / 500) * v.ctl.scale) } : Controller S).rect v.ctl.size, v.ctl.size), rfl,
      hp.shown_eq hc, ?_, ?_⟩
    · unfold wheel
      rw [if_neg (by rw [hl]; decide), zoom_shown hc]
      rw [show -(2 / 1000) * v.ctl.scale * (delta : S) = -((delta : S) / 500) * v.ctl.scale by ring]
    · have := zoomed_rect v.ctl v.ctl.size (-((delta : S) / 500))
      rwa [← sub_eq_add_neg] at this
  · intro pos
    refine ⟨_, _, (({ v.ctl with scale := max (1 / 100000) (v.ctl.scale + ((pos.2 - v.last.2 : ℤ) : S) / 50 * v.ctl.scale) } : Controller S).rect v.ctl.size, v.ctl.size),
      rfl, hp.shown_eq hc, ?_, ?_⟩
    · unfold move
      rw [if_neg (by rw [hl]; decide)]
      simp only [Bool.false_eq_true, reduceIte, Bool.or_true]
      rw [show (2 / 100 * v.ctl.scale * ((pos.2 - v.last.2 : ℤ) : S)) = ((pos.2 - v.last.2 : ℤ) : S) / 50 * v.ctl.scale by ring]
      rfl
    · exact zoomed_rect v.ctl v.ctl.size _

/-- The menu item on a scene with a bounding box -/
theorem center_ok (p : Which) (v : View S) (hc : Current v) (hl : v.lock = false) {c : Contents S} {lo hi : V2 S} (he : c.empty = false) (hb : c.box = some (lo, hi)) :
    run p [.center c] v = .ok (paint (reshape v.ctl.size (fit lo hi v.ctl.size v))) := by
  have hv := hc.1
  show (centerCamera p c true v).bind _ = _
  unfold centerCamera
  rw [if_neg (by rw [hl]; decide)]
  cases p with
  | balls => simp only [he, Bool.false_eq_true, reduceIte]; rw [hv, hb]; rfl
  | bodies => simp only [he, Bool.false_eq_true, reduceIte]; rw [hb]; rfl

/-- **C79 (partial), centring balls.** If the picture is current and the camera is not locked, the menu item for centring makes every point of every ball and every drum
visible, and the picture faithful. Missing: a scene with drums but without balls (`C79_center_drums_false`); planes and portals have no size and are not looked at. -/
theorem C79_center_balls_partial (v : View S) (hc : Current v) (hl : v.lock = false) (balls drums : List (V2 S × S)) (hne : balls ≠ [])
    (hr : ∀ d ∈ balls ++ drums, 0 < d.2) :
    ∃ v' pic, run .balls [.center (ballContents balls drums)] v = .ok v' ∧ v'.shown = some pic ∧ Faithful pic ∧
      ∀ d ∈ balls ++ drums, ∀ z : V2 S, (z.x - d.1.x) ^ 2 + (z.y - d.1.y) ^ 2 ≤ d.2 ^ 2 → Visible v' z := by
  obtain ⟨lo, hi, hb, hcov⟩ := discsBox_covers (ds := balls ++ drums) (by simp [hne])
  have he : (ballContents balls drums).empty = false := by cases balls <;> simp [ballContents] at hne ⊢
  have hlt : lo.x < hi.x ∧ lo.y < hi.y := by
    obtain ⟨d, hd⟩ := List.exists_mem_of_ne_nil (balls ++ drums) (by simp [hne])
    obtain ⟨h1, h2, h3, h4⟩ := hcov d hd
    have := hr d hd
    exact ⟨by linarith, by linarith⟩
  obtain ⟨hs, hvis⟩ := visible_fit hlt.1.le hlt.2.le (Or.inl hlt.1) v.ctl.size v
  refine ⟨_, _, center_ok .balls v hc hl he hb, rfl, faithful_rect hs v.ctl.size, ?_⟩
  intro d hd z hz
  obtain ⟨h1, h2, h3, h4⟩ := hcov d hd
  have hr' := (hr d hd).le
  have hx : |z.x - d.1.x| ≤ d.2 := abs_le_of_sq_le_sq (by nlinarith [sq_nonneg (z.y - d.1.y)]) hr'
  have hy : |z.y - d.1.y| ≤ d.2 := abs_le_of_sq_le_sq (by nlinarith [sq_nonneg (z.x - d.1.x)]) hr'
  rw [abs_le] at hx hy
  exact hvis z (by linarith) (by linarith) (by linarith) (by linarith)

/-- What an event does to a locked camera -/
theorem locked_handle {p : Which} {e : Event S} {v v' : View S} (hl : v.lock = true) (hh : Harmless e) (h : handle p e v = .ok v') :
    v'.lock = true ∧ v'.ctl.center = v.ctl.center ∧ v'.ctl.scale = v.ctl.scale := by
  cases e with
  | press b pos => cases h; unfold press; rw [if_pos hl]; exact ⟨hl, rfl, rfl⟩
  | release b was => cases h; unfold release; rw [if_pos hl]; exact ⟨hl, rfl, rfl⟩
  | move b pos => cases h; unfold move; rw [if_pos hl]; exact ⟨hl, rfl, rfl⟩
  | wheel d => cases h; unfold wheel; rw [if_pos hl]; exact ⟨hl, rfl, rfl⟩
  | resize s => cases h; exact ⟨hl, rfl, rfl⟩
  | center c => unfold handle centerCamera at h; simp only [hl, reduceIte] at h; cases h; exact ⟨hl, rfl, rfl⟩
  | setLock b => exact hh.elim
  | repaint => cases h; exact ⟨hl, rfl, rfl⟩
  | openScene camera lock c render => exact hh.elim

/-- Every painting of a locked camera is current and painted. -/
theorem locked_painted {p : Which} {e : Event S} {v v' : View S} (hl : v.lock = true) (hc : Current v) (hp : Painted v) (hh : Harmless e) (h : handle p e v = .ok v') :
    Current v' ∧ Painted v' := by
  cases e with
  | press b pos => cases h; unfold press; rw [if_pos hl]; exact ⟨hc, hp⟩
  | release b was => cases h; unfold release; rw [if_pos hl]; exact ⟨hc, hp⟩
  | move b pos => cases h; unfold move; rw [if_pos hl]; exact ⟨hc, hp⟩
  | wheel d => cases h; unfold wheel; rw [if_pos hl]; exact ⟨hc, hp⟩
  | resize s => cases h; exact ⟨current_reshape _ _, rfl⟩
  | center c => unfold handle centerCamera at h; simp only [hl, reduceIte] at h; cases h; exact ⟨hc, hp⟩
  | setLock b => exact hh.elim
  | repaint => cases h; exact ⟨hc, rfl⟩
  | openScene camera lock c render => exact hh.elim

/-- **C79, the lock.** While the camera is locked, neither the mouse, nor the wheel, nor the menu item for centring, nor anything that repaints changes what is seen; if the
window is resized, its middle and the height of what is seen stay. -/
theorem C79_lock (p : Which) (v : View S) (hl : v.lock = true) (hc : Current v) (hp : Painted v) (es : List (Event S)) (he : ∀ e ∈ es, Harmless e) (v' : View S)
    (h : run p es v = .ok v') :
    ∃ old new, v.shown = some old ∧ v'.shown = some new ∧ new.1.bottom = old.1.bottom ∧ new.1.top = old.1.top ∧
      new.1.left + new.1.right = old.1.left + old.1.right ∧ ((∀ s, Event.resize s ∉ es) → new = old) := by
  suffices hg : v'.lock = true ∧ v'.ctl.center = v.ctl.center ∧ v'.ctl.scale = v.ctl.scale ∧ Current v' ∧ Painted v' ∧
      ((∀ s, Event.resize s ∉ es) → v'.ctl.size = v.ctl.size) by
    obtain ⟨-, h1, h2, h3, h4, h5⟩ := hg
    refine ⟨_, _, hp.shown_eq hc, h4.shown_eq h3, ?_, ?_, ?_, ?_⟩
    · simp only [Controller.rect]; rw [h1, h2]
    · simp only [Controller.rect]; rw [h1, h2]
    · simp only [Controller.rect]; rw [h1, h2]; ring
    · intro hr
      have := h5 hr
      simp only [Controller.rect]; rw [h1, h2, this]
  induction es generalizing v with
  | nil => cases h; exact ⟨hl, rfl, rfl, hc, hp, fun _ => rfl⟩
  | cons e es ih =>
    obtain ⟨v1, h1, h2⟩ := Outcome.bind_ok_iff.mp h
    obtain ⟨a1, a2, a3⟩ := locked_handle hl (he e (by simp)) h1
    obtain ⟨b1, b2⟩ := locked_painted hl hc hp (he e (by simp)) h1
    obtain ⟨c1, c2, c3, c4, c5, c6⟩ := ih v1 a1 b1 b2 (fun e' he' => he e' (by simp [he'])) h2
    refine ⟨c1, c2.trans a2, c3.trans a3, c4, c5, fun hr => ?_⟩
    rw [c6 (fun s hs => hr s (by simp [hs]))]
    have hee : ∀ s, e ≠ .resize s := fun s hs => hr s (by simp [hs])
    have := he e (by simp)
    cases e with
    | press b pos => cases h1; unfold press; rw [if_pos hl]
    | release b was => cases h1; unfold release; rw [if_pos hl]
    | move b pos => cases h1; unfold move; rw [if_pos hl]
    | wheel d => cases h1; unfold wheel; rw [if_pos hl]
    | resize s => exact absurd rfl (hee s)
    | center c => unfold handle centerCamera at h1; simp only [hl, reduceIte] at h1; cases h1; rfl
    | setLock b => exact this.elim
    | repaint => cases h1; rfl
    | openScene camera lock c render => exact this.elim

/-- **C79, exported settings.** If the three numbers survive being written, a scene that gives the exported settings shows, in a window of the same size, exactly the picture
the settings were exported from: in the rigid bodies' program at once, in both programs as soon as the window was resized to that size. (In the balls' program not at once:
`C79_open_balls_false`.) -/
theorem C79_export (p : Which) (write : S → S) (v : View S) (hc : Current v) (hp : Painted v) (hx : write v.ctl.center.x = v.ctl.center.x)
    (hy : write v.ctl.center.y = v.ctl.center.y) (hs : write v.ctl.scale = v.ctl.scale) (w : View S) (lock : Option Bool) (c : Contents S) :
    (w.viewport = some v.ctl.size → ∃ w', run .bodies [.openScene (some (exported write v)) lock c true] w = .ok w' ∧ w'.shown = v.shown) ∧
    ∃ w', run p [.openScene (some (exported write v)) lock c false, .resize v.ctl.size] w = .ok w' ∧ w'.shown = v.shown := by
  rw [hp.shown_eq hc]
  have hexp : exported write v = (v.ctl.center, v.ctl.scale) := by
    simp only [exported, hx, hy, hs]
  rw [hexp]
  constructor
  · intro hw
    refine ⟨paint (reshape v.ctl.size { setCenterScale v.ctl.center v.ctl.scale w with lock := lock.getD w.lock }), ?_, rfl⟩
    simp only [run, handle, openScene, Outcome.bind, setCenterScale, reduceIte, hw]
  · exact ⟨_, rfl, rfl⟩

end

/-- **C79, centring bodies.** If the picture is current and the camera is not locked, the menu item for centring makes every point of every body visible, and the picture
faithful. -/
theorem C79_center_bodies (v : View ℝ) (hc : Current v) (hl : v.lock = false) (bodies : List PosedBody2D) (hne : bodies ≠ []) (hs : ∀ b ∈ bodies, b.Solid) :
    ∃ v' pic, run .bodies [.center ⟨bodies.isEmpty, sceneBoundingBox bodies⟩] v = .ok v' ∧ v'.shown = some pic ∧ Faithful pic ∧
      ∀ b ∈ bodies, ∀ z ∈ b.points, Visible v' z := by
  obtain ⟨⟨lo, hi⟩, hb, hcov, ht⟩ := C44_scene bodies hne hs
  have he : (⟨bodies.isEmpty, sceneBoundingBox bodies⟩ : Contents ℝ).empty = false := by cases bodies <;> simp at hne ⊢
  have hlt : lo.x < hi.x ∧ lo.y ≤ hi.y := by
    obtain ⟨b, hbm⟩ := List.exists_mem_of_ne_nil bodies hne
    obtain ⟨z, w, hz, hw, hzw⟩ : ∃ z w : V2 ℝ, z ∈ b.points ∧ w ∈ b.points ∧ z.x < w.x := by
      have hsb := hs b hbm
      obtain ⟨g, x, th⟩ := b
      cases g with
      | circle r =>
        have hr : 0 < r := hsb
        refine ⟨x, ⟨x.x + r, x.y⟩, ?_, ?_, ?_⟩
        · simp only [PosedBody2D.points, discSet, Set.mem_ofPred_eq, V2.normSq, V2.dot, V2.sub_x, V2.sub_y]
          nlinarith [sq_nonneg r]
        · simp only [PosedBody2D.points, discSet, Set.mem_ofPred_eq, V2.normSq, V2.dot, V2.sub_x, V2.sub_y]
          nlinarith [sq_nonneg r]
        · simp only; linarith
      | box r =>
        obtain ⟨bb, h1, -, h3⟩ := C44_scene [⟨.box r, x, th⟩] (by simp) (by simpa using hsb)
        obtain ⟨⟨z, ⟨b, hb, hz⟩, hz'⟩, ⟨w, ⟨b', hb', hw⟩, hw'⟩, -, -⟩ := h3
        rw [List.mem_singleton] at hb hb'
        subst hb hb'
        refine ⟨z, w, hz, hw, ?_⟩
        rw [hz', hw']
        have h1' : bb = Geometry2D.aabb (.box r) x th := by
          have : sceneBoundingBox [⟨.box r, x, th⟩] = some (Geometry2D.aabb (.box r) x th) := rfl
          rw [this] at h1; exact (Option.some.inj h1).symm
        rw [h1']
        obtain ⟨hrx, hry⟩ : 0 < r.x ∧ 0 < r.y := hsb
        have hcs := Real.sin_sq_add_cos_sq th
        have hpos : 0 < |Real.cos th| * r.x + |Real.sin th| * r.y := by
          by_cases hc0 : Real.cos th = 0
          · have hs0 : Real.sin th ≠ 0 := fun h => by rw [h, hc0] at hcs; norm_num at hcs
            have := mul_pos (abs_pos.mpr hs0) hry
            rw [hc0]; simpa using this
          · have := mul_pos (abs_pos.mpr hc0) hrx
            have h2 := mul_nonneg (abs_nonneg (Real.sin th)) hry.le
            linarith
        simp only [Geometry2D.aabb, boxAABB, V2.sub_x, V2.add_x]
        have hex : ((rotation2D th).cwiseAbs.mulVec r).x = |Real.cos th| * r.x + |Real.sin th| * r.y := by
          simp [M22.mulVec, M22.cwiseAbs, rotation2D]
        rw [hex]; linarith
    obtain ⟨h1, h2, h3, h4⟩ := hcov z ⟨b, hbm, hz⟩
    obtain ⟨h5, h6, h7, h8⟩ := hcov w ⟨b, hbm, hw⟩
    exact ⟨by simp only at h1 h6; linarith, by simp only at h3 h4; linarith⟩
  obtain ⟨hsc, hvis⟩ := visible_fit hlt.1.le hlt.2 (Or.inl hlt.1) v.ctl.size v
  refine ⟨_, _, center_ok .bodies v hc hl he hb, rfl, faithful_rect hsc v.ctl.size, ?_⟩
  intro b hbm z hz
  obtain ⟨h1, h2, h3, h4⟩ := hcov z ⟨b, hbm, hz⟩
  exact hvis z h1 h2 h3 h4

/-! ## Non-vacuity -/

/-- a window of 640 by 480 pixels in which the camera looks at the origin -/
def window : Size := ⟨640, 480, by decide, by decide⟩

/-- The user opens the program, drags from (320, 240) over (420, 240) to (420, 140), turns the wheel and drags with the right button. -/
def session : List (Event ℚ) :=
  [.resize window, .press ⟨true, false⟩ (320, 240), .move ⟨true, false⟩ (420, 240), .move ⟨true, false⟩ (420, 140), .release ⟨false, false⟩ true,
    .wheel 120, .press ⟨false, true⟩ (100, 100), .move ⟨false, true⟩ (100, 110), .release ⟨false, false⟩ false]

example (p : Which) : ∀ e ∈ session.tail, Keeps p e := by cases p <;> simp [session, Keeps]

/-- A ball and a drum, centred: the window shows 1.2 times their width -/
example : ∃ v : View ℚ, run .balls (session ++ [.center (ballContents [(⟨3, 1⟩, 1)] [(⟨0, 0⟩, 2)])]) start = .ok v ∧ v.ctl.center = ⟨1, 0⟩ ∧ v.ctl.scale = 27 / 10 ∧
    v.lock = false := by
  refine ⟨_, rfl, ?_, ?_, ?_⟩ <;> decide +kernel

/-- the point under the mouse when it was pressed is the origin -/
example : ∃ v : View ℚ, run .balls (session.take 4) start = .ok v ∧ ShowsAt v 420 140 ⟨0, 0⟩ := by
  refine ⟨_, rfl, _, rfl, ?_⟩
  decide +kernel

/-- A locked camera in front of an open window -/
example : ∃ v : View ℚ, run .bodies (session ++ [.setLock true]) start = .ok v ∧ v.lock = true ∧ Current v ∧ Painted v := by
  refine ⟨_, rfl, rfl, ?_, ?_⟩
  · exact C79_current_partial .bodies [] (session.tail ++ [.setLock true]) window (by simp [session, Keeps]) _ rfl
  · rfl

/-! ## What does not hold -/

/-- **C79 is false of the balls' program: a scene is opened without setting the projection.** After a scene with one ball is opened, the window still shows the part of the
plane it showed before, and the ball is not in it; only when the window is resized does it appear. -/
theorem C79_open_balls_false :
    ∃ v : View ℚ, run .balls [.resize window, .openScene none none (ballContents [(⟨100, 0⟩, 1)] []) true] start = .ok v ∧ ¬ Visible v ⟨100, 0⟩ ∧ ¬ Current v ∧
      ∃ v', run .balls [.resize window] v = .ok v' ∧ Visible v' ⟨100, 0⟩ := by
  refine ⟨_, rfl, ?_, ?_, _, rfl, ?_⟩
  · rintro ⟨pic, h, px, py, h1, h2, h3, h4, h5⟩
    have : pic = ((⟨-(4/3), 4/3, -1, 1⟩ : Rect ℚ), window) := by
      have := Option.some.inj h
      rw [← this]; decide +kernel
    subst this
    have hx := congrArg V2.x h5
    simp only [pointAt, window] at hx h2
    norm_num at hx h2
    linarith
  · intro h
    have h1 := h.2.1
    revert h1
    decide +kernel
  · refine ⟨_, rfl, 320, 240, by norm_num, by decide +kernel, by norm_num, by decide +kernel, by decide +kernel⟩

/-- In the rigid bodies' program the same scene is visible at once. -/
theorem C79_open_bodies_example :
    ∃ v : View ℚ, run .bodies [.resize window, .openScene none none (ballContents [(⟨100, 0⟩, 1)] []) true] start = .ok v ∧ Visible v ⟨100, 0⟩ := by
  refine ⟨_, rfl, _, rfl, 320, 240, by norm_num, by decide +kernel, by norm_num, by decide +kernel, by decide +kernel⟩

/-- **C79: the first dragging after opening a scene in the balls' program jumps.** The mouse moves by one pixel, but the picture moves to another part of the plane. -/
theorem C79_jump_false :
    ∃ v v' : View ℚ, run .balls [.resize window, .openScene none none (ballContents [(⟨100, 0⟩, 1)] []) true, .press ⟨true, false⟩ (320, 240)] start = .ok v ∧
      run .balls [.move ⟨true, false⟩ (321, 240)] v = .ok v' ∧ ShowsAt v 320 240 ⟨0, 0⟩ ∧ ¬ ShowsAt v' 321 240 ⟨0, 0⟩ ∧ ShowsAt v' 321 240 ⟨100, 0⟩ := by
  refine ⟨_, _, rfl, rfl, ⟨_, rfl, by decide +kernel⟩, ?_, ⟨_, rfl, by decide +kernel⟩⟩
  rintro ⟨pic, h, h5⟩
  have h' := Option.some.inj h
  rw [← h'] at h5
  revert h5
  decide +kernel

/-- **C79: centring an empty scene does not repaint** in the balls' program: the settings are those of a new camera, the window shows what it showed before. -/
theorem C79_center_empty_false :
    ∃ v v' : View ℚ, run .balls session start = .ok v ∧ run .balls [.center (ballContents [] [])] v = .ok v' ∧ v'.shown = v.shown ∧
      v'.ctl.center = ⟨0, 0⟩ ∧ ¬ ShowsAt v' 320 240 ⟨0, 0⟩ := by
  refine ⟨_, _, rfl, rfl, rfl, rfl, ?_⟩
  rintro ⟨pic, h, h5⟩
  have h' := Option.some.inj h
  rw [← h'] at h5
  revert h5
  decide +kernel

/-- **C79: a scene of drums only is taken for an empty one.** -/
theorem C79_center_drums_false :
    ∃ v : View ℚ, run .balls [.resize window, .center (ballContents [] [(⟨100, 0⟩, 1)]), .resize window] start = .ok v ∧ ¬ Visible v ⟨100, 0⟩ := by
  refine ⟨_, rfl, ?_⟩
  rintro ⟨pic, h, px, py, h1, h2, h3, h4, h5⟩
  have : pic = ((⟨-(4/3), 4/3, -1, 1⟩ : Rect ℚ), window) := by
    have := Option.some.inj h
    rw [← this]; decide +kernel
  subst this
  have hx := congrArg V2.x h5
  simp only [pointAt, window] at hx h2
  norm_num at hx h2
  linarith

/-- **C79: a scene of balls without a camera, given on the command line, is centred with the size of a window that does not exist yet**: undefined. The rigid bodies' program
uses the size it will ask for. -/
theorem C79_start_ub :
    run .balls [.openScene none none (ballContents [((⟨3, 1⟩ : V2 ℚ), 1)] []) false, .resize window] start = .ub ∧
    ∃ v : View ℚ, run .bodies [.openScene none none (ballContents [((⟨3, 1⟩ : V2 ℚ), 1)] []) false, .resize window] start = .ok v ∧ Visible v ⟨3, 1⟩ :=
  ⟨rfl, _, rfl, _, rfl, 320, 240, by norm_num, by decide +kernel, by norm_num, by decide +kernel, by decide +kernel⟩

/-- **C79: the number chosen at start-up fits the square window the program asks for, not the window it gets.** If the window comes up narrow, a scene given on the command line
is cut off. -/
theorem C79_start_narrow_false :
    ∃ v : View ℚ, run .bodies [.openScene none none (ballContents [((⟨0, 0⟩ : V2 ℚ), 1)] []) false, .resize ⟨100, 400, by decide, by decide⟩] start = .ok v ∧
      ¬ Visible v ⟨1, 0⟩ := by
  refine ⟨_, rfl, ?_⟩
  rintro ⟨pic, h, px, py, h1, h2, h3, h4, h5⟩
  have : pic = ((⟨-(3/10), 3/10, -(6/5), 6/5⟩ : Rect ℚ), (⟨100, 400, by decide, by decide⟩ : Size)) := by
    have := Option.some.inj h
    rw [← this]; decide +kernel
  subst this
  have hx := congrArg V2.x h5
  simp only [pointAt] at hx h2
  norm_num at hx h2
  linarith

end Scisim.Camera
