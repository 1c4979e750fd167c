import Verif.Spec.Camera
import Mathlib.Tactic.FieldSimp
import Mathlib.Tactic.Ring
import Mathlib.Tactic.Linarith
import Mathlib.Tactic.Positivity
/-!
# Lemmas about the camera in the plane
-/

namespace Scisim.Camera

variable {S : Type} [Field S] [LinearOrder S] [IsStrictOrderedRing S]

theorem Size.cast_w (s : Size) : (0 : S) < s.w := by exact_mod_cast s.w_pos

theorem Size.cast_h (s : Size) : (0 : S) < s.h := by exact_mod_cast s.h_pos

/-- The projection set by `reshape` is the one asked for. -/
theorem current_reshape (s : Size) (v : View S) : Current (reshape s v) := by
  have hw := s.cast_w (S := S)
  have hh := s.cast_h (S := S)
  refine ⟨rfl, rfl, rfl, ?_, ?_⟩
  · simp only [reshape, Controller.rect]; ring
  · simp only [reshape, Controller.rect]; field_simp; ring

/-- … and there is only one such projection. -/
theorem Current.projection_eq {v : View S} (h : Current v) : v.projection = v.ctl.rect v.ctl.size := by
  obtain ⟨-, h1, h2, h3, h4⟩ := h
  have hw := v.ctl.size.cast_w (S := S)
  have hh := v.ctl.size.cast_h (S := S)
  have h5 : v.projection.right - v.projection.left = 2 * (v.ctl.scale / ((v.ctl.size.h : S) / v.ctl.size.w)) := by
    rw [h1, h2] at h4
    field_simp at h4 ⊢
    linarith
  cases hp : v.projection with
  | mk l r b t =>
    rw [hp] at h1 h2 h3 h5
    simp only at h1 h2 h3 h5
    simp only [Controller.rect, Rect.mk.injEq]
    exact ⟨by linarith, by linarith, h1, h2⟩

theorem current_paint {v : View S} : Current (paint v) ↔ Current v := Iff.rfl

theorem painted_paint (v : View S) : Painted (paint v) := rfl

theorem current_translate (dx dy : S) (v : View S) : Current (translateView dx dy v) := current_reshape _ _

theorem current_zoom (d : S) (v : View S) : Current (zoomView d v) := current_reshape _ _

/-- A change of members that do not concern the projection -/
theorem current_last {v : View S} (h : Current v) (pos : ℤ × ℤ) : Current { v with last := pos } := h

theorem current_move {v : View S} (h : Current v) (b : Buttons) (pos : ℤ × ℤ) : Current (move b pos v) := by
  unfold move
  by_cases hl : v.lock = true
  · rw [if_pos hl]; exact h
  rw [if_neg hl]
  obtain ⟨l, r⟩ := b
  cases l <;> cases r <;>
    simp only [Bool.or_true, Bool.or_false, Bool.false_or, Bool.true_or, if_true, if_false, Bool.false_eq_true, reduceIte]
  · exact h
  · exact current_zoom _ _
  · exact current_translate _ _ _
  · exact current_zoom _ _

theorem current_center {p : Which} {v v' : View S} (hv : Current v) {c : Contents S} (hk : p = .balls → c.empty = false)
    (h : centerCamera p c true v = .ok v') : Current v' := by
  unfold centerCamera at h
  by_cases hl : v.lock = true
  · rw [if_pos hl] at h; cases h; exact hv
  rw [if_neg hl] at h
  cases p with
  | balls =>
    simp only [hk rfl, Bool.false_eq_true, reduceIte] at h
    cases hvp : v.viewport with
    | none => rw [hvp] at h; simp only at h; cases h
    | some s =>
      cases hb : c.box with
      | none => rw [hvp, hb] at h; simp only at h; cases h
      | some bb => rw [hvp, hb] at h; simp only at h; cases h; exact current_reshape _ _
  | bodies =>
    simp only [reduceIte] at h
    by_cases he : c.empty = true
    · rw [if_pos he] at h; cases h; exact current_reshape _ _
    · rw [if_neg he] at h
      cases hb : c.box with
      | none => rw [hb] at h; simp only at h; cases h
      | some bb => rw [hb] at h; simp only at h; cases h; exact current_reshape _ _

theorem current_open_bodies {v v' : View S} {camera : Option (V2 S × S)} {lock : Option Bool} {c : Contents S}
    (h : openScene .bodies camera lock c true v = .ok v') : Current v' := by
  unfold openScene at h
  simp only [reduceIte] at h
  obtain ⟨v1, -, h⟩ := Outcome.bind_ok_iff.mp h
  cases hvp : v1.viewport with
  | none => rw [hvp] at h; simp only at h; cases h
  | some s => rw [hvp] at h; simp only at h; cases h; exact current_reshape _ _

/-- Every event of the kind `Keeps` keeps the projection current. -/
theorem current_handle {p : Which} {e : Event S} {v v' : View S} (hv : Current v) (hk : Keeps p e) (h : handle p e v = .ok v') : Current v' := by
  cases e with
  | press b pos =>
    cases h
    unfold press
    by_cases hl : v.lock = true
    · rw [if_pos hl]; exact hv
    · rw [if_neg hl]; cases b.left <;> exact hv
  | release b was =>
    cases h
    unfold release
    by_cases hl : v.lock = true
    · rw [if_pos hl]; exact hv
    · rw [if_neg hl]; split <;> exact hv
  | move b pos => cases h; exact current_move hv b pos
  | wheel d =>
    cases h
    unfold wheel
    by_cases hl : v.lock = true
    · rw [if_pos hl]; exact hv
    · rw [if_neg hl]; exact current_zoom _ _
  | resize s => cases h; exact current_reshape _ _
  | center c => exact current_center hv (fun hp => by subst hp; exact hk) h
  | setLock b => cases h; exact hv
  | repaint => cases h; exact hv
  | openScene camera lock c render =>
    cases p with
    | balls => exact absurd hk id
    | bodies => have : render = true := hk; subst this; exact current_open_bodies h

theorem current_run {p : Which} : ∀ {es : List (Event S)} {v v' : View S}, Current v → (∀ e ∈ es, Keeps p e) → run p es v = .ok v' → Current v'
  | [], v, v', hv, _, h => by cases h; exact hv
  | e :: es, v, v', hv, hk, h => by
    obtain ⟨v1, h1, h2⟩ := Outcome.bind_ok_iff.mp h
    exact current_run (current_handle hv (hk e (by simp)) h1) (fun e' he' => hk e' (by simp [he'])) h2

theorem run_append {p : Which} : ∀ {es fs : List (Event S)} {v : View S}, run p (es ++ fs) v = (run p es v).bind (run p fs)
  | [], fs, v => rfl
  | e :: es, fs, v => by
    show (handle p e v).bind (run p (es ++ fs)) = ((handle p e v).bind (run p es)).bind (run p fs)
    cases handle p e v with
    | ok v1 => exact run_append
    | fail => rfl
    | exit => rfl
    | ub => rfl

/-- Where the picture painted from the settings has a point of the plane -/
theorem pointAt_rect (c : Controller S) (s : Size) (px py : S) :
    pointAt (c.rect s, s) px py =
      ⟨c.center.x + c.scale / s.h * (2 * px - s.w), c.center.y - c.scale / s.h * (2 * py - s.h)⟩ := by
  have hw := s.cast_w (S := S)
  have hh := s.cast_h (S := S)
  simp only [pointAt, Controller.rect, V2.mk.injEq]
  constructor <;> field_simp <;> ring

/-- Moving the mouse with the left button down keeps the point under it. -/
theorem move_left {v : View S} (hl : v.lock = false) (pos : ℤ × ℤ) :
    let v' := move ⟨true, false⟩ pos v
    v'.lock = false ∧ v'.last = pos ∧ Current v' ∧ Painted v' ∧ v'.ctl.size = v.ctl.size ∧
      pointAt (v'.ctl.rect v'.ctl.size, v'.ctl.size) (pos.1 : S) (pos.2 : S) = pointAt (v.ctl.rect v.ctl.size, v.ctl.size) (v.last.1 : S) (v.last.2 : S) := by
  have hh := v.ctl.size.cast_h (S := S)
  have hm : move ⟨true, false⟩ pos v =
      paint (translateView ((pos.1 - v.last.1 : ℤ) : S) ((pos.2 - v.last.2 : ℤ) : S) { v with last := pos }) := by
    unfold move; simp [hl]
  simp only [hm]
  refine ⟨hl, rfl, current_translate _ _ _, rfl, rfl, ?_⟩
  simp only [pointAt_rect]
  simp only [paint, translateView, reshape, V2.mk.injEq]
  push_cast
  constructor <;> field_simp <;> ring

theorem drag_run {p : Which} : ∀ (es : List (Option (ℤ × ℤ))) {v : View S}, v.lock = false → Current v → Painted v →
    ∃ v', run p (es.map dragEvent) v = .ok v' ∧ v'.lock = false ∧ v'.last = mouseAfter v.last es ∧ Current v' ∧ Painted v' ∧ v'.ctl.size = v.ctl.size ∧
      pointAt (v'.ctl.rect v'.ctl.size, v'.ctl.size) (v'.last.1 : S) (v'.last.2 : S) =
        pointAt (v.ctl.rect v.ctl.size, v.ctl.size) (v.last.1 : S) (v.last.2 : S)
  | [], v, hl, hc, hp => ⟨v, rfl, hl, rfl, hc, hp, rfl, rfl⟩
  | none :: es, v, hl, hc, hp => by
    obtain ⟨v', h1, h2, h3, h4, h5, h6, h7⟩ := drag_run (p := p) es (v := paint v) hl hc rfl
    exact ⟨v', h1, h2, h3, h4, h5, h6, h7⟩
  | some pos :: es, v, hl, hc, hp => by
    obtain ⟨a1, a2, a3, a4, a5, a6⟩ := move_left (S := S) hl pos
    obtain ⟨v', h1, h2, h3, h4, h5, h6, h7⟩ := drag_run (p := p) es (v := move ⟨true, false⟩ pos v) a1 a3 a4
    refine ⟨v', h1, h2, ?_, h4, h5, h6.trans a5, ?_⟩
    · rw [h3, a2]; rfl
    · rw [h7, a2]; exact a6

theorem Painted.shown_eq {v : View S} (hp : Painted v) (hc : Current v) : v.shown = some (v.ctl.rect v.ctl.size, v.ctl.size) := by
  rw [hp, hc.1, hc.projection_eq]; rfl

/-- A picture painted with a positive scale is faithful. -/
theorem faithful_rect {c : Controller S} (hs : 0 < c.scale) (s : Size) : Faithful (c.rect s, s) := by
  have hw := s.cast_w (S := S)
  have hh := s.cast_h (S := S)
  have h1 : 0 < c.scale / ((s.h : S) / s.w) := by positivity
  refine ⟨?_, ?_, ?_⟩
  · simp only [Controller.rect]; linarith
  · simp only [Controller.rect]; linarith
  · simp only [Controller.rect]; field_simp; ring

/-- Points near the centre are visible. -/
theorem visible_rect {v : View S} {c : Controller S} {s : Size} (hs : 0 < c.scale) (hv : v.shown = some (c.rect s, s)) {z : V2 S}
    (hx : |z.x - c.center.x| * s.h ≤ c.scale * s.w) (hy : |z.y - c.center.y| ≤ c.scale) : Visible v z := by
  have hw := s.cast_w (S := S)
  have hh := s.cast_h (S := S)
  refine ⟨_, hv, ((z.x - c.center.x) * s.h / c.scale + s.w) / 2, (s.h - (z.y - c.center.y) * s.h / c.scale) / 2, ?_, ?_, ?_, ?_, ?_⟩
  · have : -(s.w : S) ≤ (z.x - c.center.x) * s.h / c.scale := by
      rw [le_div_iff₀ hs]
      nlinarith [neg_abs_le (z.x - c.center.x)]
    linarith
  · have : (z.x - c.center.x) * s.h / c.scale ≤ s.w := by
      rw [div_le_iff₀ hs]
      nlinarith [le_abs_self (z.x - c.center.x)]
    show _ ≤ (s.w : S)
    linarith
  · have : (z.y - c.center.y) * s.h / c.scale ≤ s.h := by
      rw [div_le_iff₀ hs]
      nlinarith [le_abs_self (z.y - c.center.y)]
    linarith
  · have : -(s.h : S) ≤ (z.y - c.center.y) * s.h / c.scale := by
      rw [le_div_iff₀ hs]
      nlinarith [neg_abs_le (z.y - c.center.y)]
    show _ ≤ (s.h : S)
    linarith
  · rw [pointAt_rect]
    ext
    · simp only; field_simp; ring
    · simp only; field_simp; ring

/-- The camera that `fit` sets has the whole box in the picture. -/
theorem visible_fit {lo hi : V2 S} (hx : lo.x ≤ hi.x) (hy : lo.y ≤ hi.y) (hne : lo.x < hi.x ∨ lo.y < hi.y) (s : Size) (v : View S) :
    0 < (fit lo hi s v).ctl.scale ∧ ∀ z : V2 S, lo.x ≤ z.x → z.x ≤ hi.x → lo.y ≤ z.y → z.y ≤ hi.y →
      Visible (paint (reshape s (fit lo hi s v))) z := by
  have hw := s.cast_w (S := S)
  have hh := s.cast_h (S := S)
  set a : S := (s.h : S) / s.w with ha
  have hap : 0 < a := by positivity
  have hsc : (fit lo hi s v).ctl.scale = 12 / 10 * max (a * (hi.x - (lo.x + 1 / 2 * (hi.x - lo.x)))) (hi.y - (lo.y + 1 / 2 * (hi.y - lo.y))) := rfl
  set rx := hi.x - (lo.x + 1 / 2 * (hi.x - lo.x)) with hrx
  set ry := hi.y - (lo.y + 1 / 2 * (hi.y - lo.y)) with hry
  have hrx0 : 0 ≤ rx := by rw [hrx]; linarith
  have hry0 : 0 ≤ ry := by rw [hry]; linarith
  have hpos : 0 < max (a * rx) ry := by
    rcases hne with h | h
    · exact lt_max_of_lt_left (mul_pos hap (by rw [hrx]; linarith))
    · exact lt_max_of_lt_right (by rw [hry]; linarith)
  have hs : 0 < (fit lo hi s v).ctl.scale := by rw [hsc]; positivity
  refine ⟨hs, fun z h1 h2 h3 h4 => ?_⟩
  have hm1 : a * rx ≤ (fit lo hi s v).ctl.scale := by rw [hsc]; linarith [le_max_left (a * rx) ry]
  have hm2 : ry ≤ (fit lo hi s v).ctl.scale := by rw [hsc]; linarith [le_max_right (a * rx) ry]
  refine visible_rect (c := (fit lo hi s v).ctl) (s := s) hs rfl ?_ ?_
  · have hax : |z.x - (fit lo hi s v).ctl.center.x| ≤ rx := by
      show |z.x - (lo.x + 1 / 2 * (hi.x - lo.x))| ≤ rx
      rw [abs_le]; constructor <;> rw [hrx] <;> linarith
    have : |z.x - (fit lo hi s v).ctl.center.x| * a ≤ (fit lo hi s v).ctl.scale := by nlinarith
    rw [ha, ← mul_div_assoc, div_le_iff₀ hw] at this
    exact this
  · show |z.y - (lo.y + 1 / 2 * (hi.y - lo.y))| ≤ _
    refine le_trans ?_ hm2
    rw [abs_le]; constructor <;> rw [hry] <;> linarith

/-! ## The box of a scene of balls -/

theorem discsBox_go (ds : List (V2 S × S)) : ∀ (lo hi : V2 S),
    ∃ lo' hi' : V2 S, ds.foldl (fun bounds d =>
      match bounds with
      | none => some (⟨d.1.x - d.2, d.1.y - d.2⟩, ⟨d.1.x + d.2, d.1.y + d.2⟩)
      | some (lo, hi) =>
        some (⟨min lo.x (d.1.x - d.2), min lo.y (d.1.y - d.2)⟩, ⟨max hi.x (d.1.x + d.2), max hi.y (d.1.y + d.2)⟩)) (some (lo, hi)) = some (lo', hi') ∧
      lo'.x ≤ lo.x ∧ lo'.y ≤ lo.y ∧ hi.x ≤ hi'.x ∧ hi.y ≤ hi'.y ∧
      ∀ d ∈ ds, lo'.x ≤ d.1.x - d.2 ∧ lo'.y ≤ d.1.y - d.2 ∧ d.1.x + d.2 ≤ hi'.x ∧ d.1.y + d.2 ≤ hi'.y := by
  induction ds with
  | nil => intro lo hi; exact ⟨lo, hi, rfl, le_rfl, le_rfl, le_rfl, le_rfl, by simp⟩
  | cons d ds ih =>
    intro lo hi
    obtain ⟨lo', hi', h1, h2, h3, h4, h5, h6⟩ := ih ⟨min lo.x (d.1.x - d.2), min lo.y (d.1.y - d.2)⟩ ⟨max hi.x (d.1.x + d.2), max hi.y (d.1.y + d.2)⟩
    simp only at h2 h3 h4 h5
    refine ⟨lo', hi', h1, h2.trans (min_le_left _ _), h3.trans (min_le_left _ _), (le_max_left _ _).trans h4, (le_max_left _ _).trans h5, ?_⟩
    intro d' hd'
    rcases List.mem_cons.mp hd' with rfl | hd'
    · exact ⟨h2.trans (min_le_right _ _), h3.trans (min_le_right _ _), (le_max_right _ _).trans h4, (le_max_right _ _).trans h5⟩
    · exact h6 d' hd'

theorem discsBox_covers {ds : List (V2 S × S)} (hne : ds ≠ []) :
    ∃ lo hi : V2 S, discsBox ds = some (lo, hi) ∧
      ∀ d ∈ ds, lo.x ≤ d.1.x - d.2 ∧ lo.y ≤ d.1.y - d.2 ∧ d.1.x + d.2 ≤ hi.x ∧ d.1.y + d.2 ≤ hi.y := by
  cases ds with
  | nil => exact absurd rfl hne
  | cons d ds =>
    obtain ⟨lo, hi, h1, h2, h3, h4, h5, h6⟩ := discsBox_go ds ⟨d.1.x - d.2, d.1.y - d.2⟩ ⟨d.1.x + d.2, d.1.y + d.2⟩
    refine ⟨lo, hi, h1, ?_⟩
    intro d' hd'
    rcases List.mem_cons.mp hd' with rfl | hd'
    · exact ⟨h2, h3, h4, h5⟩
    · exact h6 d' hd'

end Scisim.Camera
