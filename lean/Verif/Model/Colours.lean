import Mathlib.Algebra.Order.Ring.Rat
import Verif.Model.Outcome
/-!
# Colours of balls and 2D rigid bodies in the viewers

Numbers are rationals; the random number generator is any function from its state to a number and the next state. Loops that need not end take a bound on their passes; running into the bound is the outcome `fail`.
-/

namespace Scisim.Colours

/-- `std::mt19937_64( 1337 )` and `std::uniform_real_distribution<scalar>( 0.0, 1.0 )`, ball2dqt4/GLWidget.cpp:242-243, rigidbody2dqt4/GLWidget.cpp:202 and 206: the state after seeding, and a draw -/
structure Gen (G : Type) where
  seed : G
  draw : G → ℚ × G

/-- Red, green, blue -/
abbrev Colour := ℚ × ℚ × ℚ

/-- `0.2126 * r + 0.7152 * g + 0.0722 * b`, ball2dqt4/GLWidget.cpp:250 -/
def luminance (c : Colour) : ℚ := 2126 / 10000 * c.1 + 7152 / 10000 * c.2.1 + 722 / 10000 * c.2.2

/-- The three assignments in the loop, ball2dqt4/GLWidget.cpp:252-254 -/
def three {G : Type} (D : Gen G) (g : G) : Colour × G :=
  let r := D.draw g
  let gr := D.draw r.2
  let b := D.draw gr.2
  ((r.1, gr.1, b.1), b.2)

/-- The `while` loop, ball2dqt4/GLWidget.cpp:250-255, 356-361 and 417-422, rigidbody2dqt4/GLWidget.cpp:213-218 -/
def pick {G : Type} (D : Gen G) : ℕ → Colour → G → Outcome (Colour × G)
  | 0, c, g => if luminance c > 9 / 10 ∨ luminance c < 1 / 10 then .fail else .ok (c, g)
  | k + 1, c, g => if luminance c > 9 / 10 ∨ luminance c < 1 / 10 then pick D k (three D g).1 (three D g).2 else .ok (c, g)

/-- The loop over bodies, ball2dqt4/GLWidget.cpp:244-257, 348-363 and 413-424, rigidbody2dqt4/GLWidget.cpp:207-220, for `n` of them -/
def fill {G : Type} (D : Gen G) (bound : ℕ) : ℕ → G → Outcome (List Colour × G)
  | 0, g => .ok ([], g)
  | n + 1, g => (pick D bound (1, 1, 1) g).bind fun c => (fill D bound n c.2).bind fun cs => .ok (c.1 :: cs.1, cs.2)

/-- `m_ball_colors` and `m_ball_color_gen`, `m_body_colors` and `m_body_color_gen` -/
structure State (G : Type) where
  colours : List Colour
  gen : G

/-- In `openScene` and `resetSystem`: ball2dqt4/GLWidget.cpp:238-258 and 407-425; `generateBodyColors`, rigidbody2dqt4/GLWidget.cpp:200-222 -/
def restart {G : Type} (D : Gen G) (bound n : ℕ) : Outcome (State G) :=
  (fill D bound n D.seed).bind fun r => .ok ⟨r.1, r.2⟩

/-- In `stepSystem` of the viewer for balls, with `n` balls after the step: ball2dqt4/GLWidget.cpp:339-366 -/
def stepBalls {G : Type} (D : Gen G) (bound n : ℕ) (s : State G) : Outcome (State G) :=
  if s.colours.length ≠ n then
    let kept := s.colours.take n
    if n > s.colours.length then (fill D bound (n - s.colours.length) s.gen).bind fun r => .ok ⟨kept ++ r.1, r.2⟩
    else .ok ⟨kept, s.gen⟩
  else .ok s

/-- In `stepSystem` of the viewer for rigid bodies: rigidbody2dqt4/GLWidget.cpp:413-418 -/
def stepBodies {G : Type} (D : Gen G) (bound n : ℕ) (s : State G) : Outcome (State G) :=
  if s.colours.length ≠ n then restart D bound n else .ok s

/-- What happens to the viewer, with the number of bodies afterwards -/
inductive Event where
  /-- A scene is opened or the simulation reset; `n` bodies before the callback at the start of the simulation, which comes after the colours (ball2dqt4/GLWidget.cpp:280-282 and 428-430) and whose bodies are
  counted in the next step only -/
  | restart (n : ℕ)
  /-- A step, in which a script may add and remove bodies -/
  | step (n : ℕ)
deriving DecidableEq

/-- One event; `step`: the function for steps of the viewer -/
def event {G : Type} (D : Gen G) (bound : ℕ) (step : Gen G → ℕ → ℕ → State G → Outcome (State G)) (s : State G) : Event → Outcome (State G)
  | .restart n => restart D bound n
  | .step n => step D bound n s

/-- Any events in a row -/
def history {G : Type} (D : Gen G) (bound : ℕ) (step : Gen G → ℕ → ℕ → State G → Outcome (State G)) : List Event → State G → Outcome (State G)
  | [], s => .ok s
  | e :: es, s => (event D bound step s e).bind fun s' => history D bound step es s'

end Scisim.Colours
