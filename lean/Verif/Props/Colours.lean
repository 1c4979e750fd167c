import Verif.Lemmas.Colours
/-!
# C94: colours in the viewers

Each history begins with the opening of a scene, `.restart n0`; `s0` is what the viewer holds before that.
-/

namespace Scisim.Colours
variable {G : Type}

/-- At every moment there is exactly one colour for each ball, and every colour can be seen: its luminance is between 0.1 and 0.9. -/
theorem C94_balls_visible (D : Gen G) (bound n0 : ℕ) (es : List Event) (s0 s : State G) (h : history D bound stepBalls (.restart n0 :: es) s0 = .ok s) :
    s.colours.length = count es n0 ∧ ∀ c ∈ s.colours, Visible c := by
  obtain ⟨s1, e1, h⟩ := Outcome.bind_ok_iff.mp h
  obtain ⟨k, _, h2, h3⟩ := restart_spec e1
  have := history_induct (fun s => ∀ c ∈ s.colours, Visible c)
    (fun n s hr => by obtain ⟨k, _, h2, h3⟩ := restart_spec hr; exact ⟨h3, by rw [h2]; exact seen_visible D _ _⟩)
    (fun n s s' hi hs => ⟨(stepBalls_keeps hs).1, (stepBalls_keeps hs).2.2.2 hi⟩) es s1 s (by rw [h2]; exact seen_visible D _ _) h
  rwa [h3] at this

/-- The same for rigid bodies; moreover their colours are always the first visible ones the freshly seeded generator draws. -/
theorem C94_bodies_visible (D : Gen G) (bound n0 : ℕ) (es : List Event) (s0 s : State G) (h : history D bound stepBodies (.restart n0 :: es) s0 = .ok s) :
    s.colours.length = count es n0 ∧ (∀ c ∈ s.colours, Visible c) ∧ FirstVisible D s.colours := by
  obtain ⟨s1, e1, h⟩ := Outcome.bind_ok_iff.mp h
  obtain ⟨k, h1, h2, h3⟩ := restart_spec e1
  have := history_induct (Fresh D) (fun n s hr => by obtain ⟨k, h1, h2, h3⟩ := restart_spec hr; exact ⟨h3, k, h1, h2⟩)
    (fun n s s' hi hs => ⟨(stepBodies_keeps hs).1, (stepBodies_keeps hs).2 hi⟩) es s1 s ⟨k, h1, h2⟩ h
  rw [h3] at this
  refine ⟨this.1, ?_, this.2.first⟩
  obtain ⟨k, _, e⟩ := this.2
  rw [e]; exact seen_visible D _ _

/-- The rigid body with a certain number has the same colour at all times, in all scenes: of any two histories, the colours in the one with fewer bodies are the first ones of the other. -/
theorem C94_bodies_keep (D : Gen G) (bound bound' n n' : ℕ) (es es' : List Event) (s0 s0' s s' : State G) (h : history D bound stepBodies (.restart n :: es) s0 = .ok s)
    (h' : history D bound' stepBodies (.restart n' :: es') s0' = .ok s') (hn : count es n ≤ count es' n') : s.colours <+: s'.colours := by
  obtain ⟨h1, _, h2⟩ := C94_bodies_visible D bound n es s0 s h
  obtain ⟨h1', _, h2'⟩ := C94_bodies_visible D bound' n' es' s0' s' h'
  exact firstVisible_prefix h2 h2' (by omega)

/-- The ball with a certain number keeps its colour in a step, whether balls are added or removed. -/
theorem C94_balls_keep (D : Gen G) (bound n : ℕ) (s s' : State G) (h : stepBalls D bound n s = .ok s') :
    (s.colours.length ≤ n → s.colours <+: s'.colours) ∧ (n ≤ s.colours.length → s'.colours <+: s.colours) :=
  ⟨fun hn => ((stepBalls_keeps h).2.1 hn).1, (stepBalls_keeps h).2.2.1⟩

/-- As long as no step ends with fewer balls than it began with, the colours are those a reset gives. -/
theorem C94_balls_reset (D : Gen G) (bound n0 : ℕ) (es : List Event) (s0 s : State G) (hes : NeverFewer es n0) (h : history D bound stepBalls (.restart n0 :: es) s0 = .ok s) :
    FirstVisible D s.colours ∧ ∀ bound' s', restart D bound' s.colours.length = .ok s' → s'.colours = s.colours := by
  obtain ⟨s1, e1, h⟩ := Outcome.bind_ok_iff.mp h
  obtain ⟨k, h1, h2, h3⟩ := restart_spec e1
  have hf := (grow_fresh es s1 s ⟨k, h1, h2⟩ (by rwa [h3]) h).first
  refine ⟨hf, fun bound' s' hr => ?_⟩
  obtain ⟨j, _, j2, j3⟩ := restart_spec hr
  exact (firstVisible_prefix ⟨j, j2⟩ hf (le_of_eq j3)).eq_of_length j3

/-- The loops end whenever visible colours keep coming from the generator. -/
theorem C94_ends (D : Gen G) (hD : D.Lively) (es : List Event) (s : State G) :
    (∃ bound s', history D bound stepBalls es s = .ok s') ∧ (∃ bound s', history D bound stepBodies es s = .ok s') :=
  ⟨history_ends hD (fun _ _ _ _ _ hb => stepBalls_mono D hb) (stepBalls_ends hD) es s, history_ends hD (fun _ _ _ _ _ hb => stepBodies_mono D hb) (stepBodies_ends hD) es s⟩

/-! ## Instances -/

/-- A generator that counts up to 9 and starts again -/
def counting : Gen ℕ := ⟨0, fun g => ((g % 10 : ℕ) / 10, g + 1)⟩

/-- The colours, if there is no failure -/
def coloursOf (r : Outcome (State G)) : Option (List Colour) := match r with | .ok s => some s.colours | _ => none

/-- A history in which balls are added: three colours come out, for balls and for rigid bodies. -/
example : coloursOf (history counting 5 stepBalls [.restart 1, .step 3] ⟨[], 0⟩) = some [(3 / 10, 4 / 10, 5 / 10), (6 / 10, 7 / 10, 8 / 10), (9 / 10, 0, 1 / 10)] ∧
    coloursOf (history counting 5 stepBodies [.restart 1, .step 3] ⟨[], 0⟩) = some [(3 / 10, 4 / 10, 5 / 10), (6 / 10, 7 / 10, 8 / 10), (9 / 10, 0, 1 / 10)] := by decide +kernel

example : NeverFewer [.step 3, .restart 2, .step 2] 1 := by simp [NeverFewer]

/-- Colours that are too dark are left out. -/
example : ¬ Visible (0, 1 / 10, 2 / 10) ∧ Visible (3 / 10, 4 / 10, 5 / 10) := by decide +kernel

/-- When a ball is removed and another one added later, it gets another colour than the ball with its number had; after a reset the old colour is back. So `NeverFewer` cannot be left out of `C94_balls_reset`. -/
theorem C94_balls_reset_false : ∃ (es : List Event) (bound n0 : ℕ) (cs cs' : List Colour), coloursOf (history counting bound stepBalls (.restart n0 :: es) ⟨[], 0⟩) = some cs ∧
    coloursOf (restart counting bound cs.length) = some cs' ∧ cs' ≠ cs :=
  ⟨[.step 1, .step 2], 9, 2, [(3 / 10, 4 / 10, 5 / 10), (9 / 10, 0, 1 / 10)], [(3 / 10, 4 / 10, 5 / 10), (6 / 10, 7 / 10, 8 / 10)], by decide +kernel⟩

/-- A generator from which visible colours keep coming -/
example : (⟨(), fun g => (1 / 2, g)⟩ : Gen Unit).Lively := by
  intro g
  exact ⟨1, (1 / 2, 1 / 2, 1 / 2), by simp [Gen.triples, Gen.triple], by unfold Visible; norm_num⟩

end Scisim.Colours
