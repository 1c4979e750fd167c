import Mathlib.Tactic.FinCases
import Mathlib.Tactic.Linarith
import Mathlib.Tactic.NormNum
import Mathlib.Tactic.Push
import Mathlib.Tactic.ByContra
import Verif.Spec.Boundary3D
import Verif.Props.Geometry3D
import Verif.Props.Portal3D
/-!
# C63: the simulation boundary
-/

namespace Scisim

open Matrix

variable {axis : Vec3 → Vec3 → Vec3}

theorem boundaryTests_cases (lo hi : Vec3) (box : Vec3 × Vec3) :
    (boundaryTests lo hi box = .ok () ∧ ∀ i, lo i ≤ box.1 i ∧ box.2 i ≤ hi i) ∨ (boundaryTests lo hi box = .exit ∧ ∃ i, box.1 i < lo i ∨ hi i < box.2 i) := by
  unfold boundaryTests
  by_cases h1 : ∃ i, box.1 i < lo i
  · rw [if_pos h1]
    obtain ⟨i, hi⟩ := h1
    exact Or.inr ⟨rfl, i, Or.inl hi⟩
  · rw [if_neg h1]
    by_cases h2 : ∃ i, box.2 i > hi i
    · rw [if_pos h2]
      obtain ⟨i, hi⟩ := h2
      exact Or.inr ⟨rfl, i, Or.inr hi⟩
    · rw [if_neg h2]
      push Not at h1 h2
      exact Or.inl ⟨rfl, fun i => ⟨h1 i, h2 i⟩⟩

/-- The exit treatment lets a list of solid bodies pass exactly if all their points are inside; otherwise the program exits. -/
theorem runBoundary_exact (lo hi : Vec3) : ∀ (bs : List PosedBody3D), (∀ b ∈ bs, b.Solid) →
    (runBoundaryExitTreatment lo hi bs = .ok () ∧ ∀ b ∈ bs, ∀ z ∈ b.points, ∀ i, lo i ≤ z i ∧ z i ≤ hi i) ∨
    (runBoundaryExitTreatment lo hi bs = .exit ∧ ∃ b ∈ bs, ∃ z ∈ b.points, ∃ i, z i < lo i ∨ hi i < z i)
  | [], _ => Or.inl ⟨rfl, by simp⟩
  | b :: bs, hs => by
    obtain ⟨bb, e, hc, ht⟩ := C44_body3 b (hs b (by simp))
    unfold runBoundaryExitTreatment
    rw [e]
    dsimp only
    rcases boundaryTests_cases lo hi bb with ⟨h, hin⟩ | ⟨h, i, hout⟩
    · rw [h]
      rcases runBoundary_exact lo hi bs (fun c hc => hs c (by simp [hc])) with ⟨h', hin'⟩ | ⟨h', c, hc', hout'⟩
      · refine Or.inl ⟨h', fun c hc' => ?_⟩
        rcases List.mem_cons.mp hc' with rfl | hc'
        · intro z hz i
          exact ⟨(hin i).1.trans (hc z hz i).1, (hc z hz i).2.trans (hin i).2⟩
        · exact hin' c hc'
      · exact Or.inr ⟨h', c, List.mem_cons_of_mem _ hc', hout'⟩
    · rw [h]
      refine Or.inr ⟨rfl, b, by simp, ?_⟩
      rcases hout with hout | hout
      · obtain ⟨z, hz, e⟩ := (ht i).1
        exact ⟨z, hz, i, Or.inl (e ▸ hout)⟩
      · obtain ⟨z, hz, e⟩ := (ht i).2
        exact ⟨z, hz, i, Or.inr (e ▸ hout)⟩

/-- **C63** With the behaviour "exit", the boundary treatment lets the simulation go on exactly if every point of every body is inside the boundary, and in
every other case it ends the program. With the behaviour "none" it always goes on. -/
theorem C63_exact (s : World3) (hs : s.AllSolid) :
    (s.behavior = .exit → (treatSimulationBoundary s = .ok () ↔ s.Inside) ∧ (treatSimulationBoundary s = .exit ↔ ¬ s.Inside)) ∧
    (s.behavior = .none → treatSimulationBoundary s = .ok ()) := by
  constructor
  · intro hb
    unfold treatSimulationBoundary
    rw [hb]
    dsimp only
    rcases runBoundary_exact s.boundaryMin s.boundaryMax s.posed hs with ⟨h, hin⟩ | ⟨h, b, hb', z, hz, i, hout⟩
    · rw [h]
      exact ⟨by simp [World3.Inside]; exact hin, by simp [World3.Inside]; exact hin⟩
    · have hn : ¬ s.Inside := by
        intro hin
        rcases hout with hout | hout
        · exact absurd (hin b hb' z hz i).1 (not_le.mpr hout)
        · exact absurd (hin b hb' z hz i).2 (not_le.mpr hout)
      rw [h]
      exact ⟨by simp [hn], by simp [hn]⟩
  · intro hb
    unfold treatSimulationBoundary
    rw [hb]

theorem enforcePeriodic_bodies (s : World3) :
    (s.enforcePeriodic axis).bodies = s.bodies.map fun b => (b.1, s.portals.foldl (fun b p => enforceOne3 axis p b) b.2) := by
  unfold World3.enforcePeriodic
  dsimp only
  rw [(C58_bodies_independent (axis := axis) s.portals _).1, List.map_map]
  induction s.bodies with
  | nil => rfl
  | cons b bs ih => simp only [List.map_cons, List.zip_cons_cons, ih]; rfl

theorem enforcePeriodic_solid {s : World3} (hs : s.AllSolid) : (s.enforcePeriodic axis).AllSolid := by
  intro b hb
  unfold World3.posed at hb
  rw [enforcePeriodic_bodies] at hb
  simp only [List.map_map, List.mem_map] at hb
  obtain ⟨c, hc, rfl⟩ := hb
  have := hs ⟨c.1, c.2.x, c.2.R⟩ (List.mem_map.mpr ⟨c, hc, rfl⟩)
  unfold PosedBody3D.Solid at this ⊢
  exact this

variable {startOfStep advance endOfStep : Nat → World3 → Outcome World3}

/-- **C63** A step: whatever the callbacks, the forces and the contacts do, the callback at the end of a step is only ever called on a state in which every
point of every body is inside the boundary. -/
theorem C63_step (h1 : KeepsBoundary startOfStep) (h2 : KeepsBoundary advance) (it : Nat) (s s' : World3) (hs : s.AllSolid) (hb : s.behavior = .exit)
    (h : flow3 axis startOfStep advance endOfStep it s = .ok s') :
    ∃ t, t.Inside ∧ t.AllSolid ∧ s.SameBoundary t ∧ endOfStep it t = .ok s' := by
  unfold flow3 at h
  obtain ⟨a, ha, h⟩ := Outcome.bind_ok_iff.mp h
  obtain ⟨b, hb', h⟩ := Outcome.bind_ok_iff.mp h
  dsimp only at h
  obtain ⟨_, ht, h⟩ := Outcome.bind_ok_iff.mp h
  obtain ⟨⟨a1, a2, a3⟩, as⟩ := h1 it s a ha
  obtain ⟨⟨b1, b2, b3⟩, bs⟩ := h2 it a b hb'
  have hsol : (b.enforcePeriodic axis).AllSolid := enforcePeriodic_solid (bs (as hs))
  have hbe : (b.enforcePeriodic axis).behavior = .exit := b1.trans (a1.trans hb)
  exact ⟨b.enforcePeriodic axis, ((C63_exact _ hsol).1 hbe).1.mp ht, hsol, ⟨b1.trans a1, b2.trans a2, b3.trans a3⟩, h⟩

/-- **C63** Any number of steps: if the callback at the end of a step does not move bodies out, every state that a run reaches has every point of every body
inside the boundary. -/
theorem C63_run (h1 : KeepsBoundary startOfStep) (h2 : KeepsBoundary advance) (h3 : KeepsBoundary endOfStep)
    (hend : ∀ it t t', t.Inside → endOfStep it t = .ok t' → t'.Inside) :
    ∀ (n it : Nat) (s s' : World3), s.AllSolid → s.behavior = .exit → run3 axis startOfStep advance endOfStep it (n + 1) s = .ok s' →
      s'.Inside ∧ s.SameBoundary s' := by
  intro n
  induction n with
  | zero =>
    intro it s s' hs hb h
    unfold run3 at h
    obtain ⟨a, ha, h⟩ := Outcome.bind_ok_iff.mp h
    unfold run3 at h
    injection h with h
    subst h
    obtain ⟨t, ht, hsol, hsb, he⟩ := C63_step h1 h2 it s a hs hb ha
    obtain ⟨⟨e1, e2, e3⟩, _⟩ := h3 it t a he
    exact ⟨hend it t a ht he, e1.trans hsb.1, e2.trans hsb.2.1, e3.trans hsb.2.2⟩
  | succ n ih =>
    intro it s s' hs hb h
    unfold run3 at h
    obtain ⟨a, ha, h⟩ := Outcome.bind_ok_iff.mp h
    obtain ⟨t, ht, hsol, hsb, he⟩ := C63_step h1 h2 it s a hs hb ha
    obtain ⟨⟨e1, e2, e3⟩, es⟩ := h3 it t a he
    obtain ⟨hin, k1, k2, k3⟩ := ih (it + 1) a s' (es hsol) (e1.trans (hsb.1.trans hb)) h
    exact ⟨hin, k1.trans (e1.trans hsb.1), k2.trans (e2.trans hsb.2.1), k3.trans (e3.trans hsb.2.2)⟩

/-- **C63** Periodic directions are no boundary: portals are applied before the boundary is tested. If the boundary has room for every body at the
place in the periodic box that its position is equivalent to, then the step does not end the program, as long as no body moves by the width of the box in one
step. -/
theorem C63_periodic (ps : List (Portal3 × ℝ)) (hbox : PeriodicBox axis ps) (moved : World3) (hs : moved.AllSolid) (hp : moved.portals = ps.map Prod.fst)
    (hroom : ∀ b ∈ moved.bodies, ∀ x, (∀ p ∈ ps, p.1.Between x) →
      (∃ k : List ℤ, k.length = ps.length ∧ ∀ i, x i = b.2.x i + ((k.zip ps).map fun kp => (kp.1 : ℝ) * (kp.2.2 * kp.2.1.planeA.n i)).sum) →
      ∀ z ∈ PosedBody3D.points ⟨b.1, x, b.2.R⟩, ∀ i, moved.boundaryMin i ≤ z i ∧ z i ≤ moved.boundaryMax i)
    (hmove : ∀ b ∈ moved.bodies, ∃ x0, ∀ p ∈ ps, p.1.Between x0 ∧
      -p.2 < p.1.planeA.height b.2.x - p.1.planeA.height x0 ∧ p.1.planeA.height b.2.x - p.1.planeA.height x0 < p.2) :
    treatSimulationBoundary (moved.enforcePeriodic axis) = .ok () := by
  cases hb : moved.behavior with
  | none => exact (C63_exact _ (enforcePeriodic_solid hs)).2 hb
  | exit =>
    refine ((C63_exact _ (enforcePeriodic_solid hs)).1 hb).1.mpr ?_
    intro c hc
    unfold World3.posed at hc
    rw [enforcePeriodic_bodies] at hc
    simp only [List.map_map, List.mem_map] at hc
    obtain ⟨b, hbm, rfl⟩ := hc
    obtain ⟨x0, hx0⟩ := hmove b hbm
    obtain ⟨b', e, hin, hR, -, -, k, hk, -, hx⟩ := C58_box_step ps hbox x0 (fun p hp => (hx0 p hp).1) b.2 fun p hp => (hx0 p hp).2
    have hi := (C58_bodies_independent (axis := axis) (ps.map Prod.fst) [b.2]).1
    rw [e, List.map_cons, List.map_nil] at hi
    injection hi with hi _
    have := hroom b hbm b'.x hin ⟨k, hk, hx⟩
    rw [hi] at this
    dsimp only [Function.comp]
    rw [hp, (C58_bodies_independent (axis := axis) (ps.map Prod.fst) [b.2]).2 b.2 |>.1]
    exact this

/-- **C63** A boundary that a scene may ask for is a proper box, and is the one in the file. -/
theorem C63_loaded (name : Option String) (lo hi : Option (Option Vec3)) (s s' : World3) (h : loadSimulationBoundary name lo hi s = some s') :
    (∀ i, s'.boundaryMin i < s'.boundaryMax i) ∧ lo = some (some s'.boundaryMin) ∧ hi = some (some s'.boundaryMax) ∧
    (name = some "none" ∧ s'.behavior = .none ∨ name = some "exit" ∧ s'.behavior = .exit) ∧ s'.bodies = s.bodies ∧ s'.portals = s.portals := by
  unfold loadSimulationBoundary at h
  cases name with
  | none => simp at h
  | some name =>
    dsimp only at h
    by_cases hn : name = "none"
    · rw [if_pos hn] at h
      rcases lo with _ | _ | lo <;> try (simp at h; done)
      rcases hi with _ | _ | hi <;> try (simp at h; done)
      dsimp only at h
      split at h
      · simp at h
      · rename_i hlt
        push Not at hlt
        injection h with h
        subst h
        exact ⟨hlt, rfl, rfl, Or.inl ⟨by rw [hn], rfl⟩, rfl, rfl⟩
    · rw [if_neg hn] at h
      by_cases he : name = "exit"
      · rw [if_pos he] at h
        rcases lo with _ | _ | lo <;> try (simp at h; done)
        rcases hi with _ | _ | hi <;> try (simp at h; done)
        dsimp only at h
        split at h
        · simp at h
        · rename_i hlt
          push Not at hlt
          injection h with h
          subst h
          exact ⟨hlt, rfl, rfl, Or.inr ⟨by rw [he], rfl⟩, rfl, rfl⟩
      · rw [if_neg he] at h
        simp at h

/-! ## Witnesses and limits -/

/-- A ball of radius one at height `y` and a brick, in the box from `-4` to `4` -/
noncomputable def ballAndBrick (y : ℝ) : World3 where
  bodies := [(.sphere 1, ⟨![0, y, 0], 1, ![0, 0, 0], ![0, 0, 0]⟩), (.box ![1, 1, 2], ⟨![3, 0, 0], 1, ![0, 0, 0], ![0, 0, 0]⟩)]
  portals := []
  behavior := .exit
  boundaryMin := fun _ => -4
  boundaryMax := fun _ => 4

theorem ballAndBrick_solid (y : ℝ) : (ballAndBrick y).AllSolid := by
  intro b hb
  simp only [ballAndBrick, World3.posed, List.map_cons, List.map_nil, List.mem_cons, List.not_mem_nil, or_false] at hb
  rcases hb with rfl | rfl
  · show (0 : ℝ) ≤ 1
    norm_num
  · intro i
    fin_cases i <;> norm_num

/-- A map that lowers the ball by one, and leaves everything else alone -/
noncomputable def fall (_ : Nat) (s : World3) : Outcome World3 :=
  .ok { s with bodies := s.bodies.map fun b => match b.1 with
    | .sphere _ => (b.1, { b.2 with x := b.2.x - ![0, 1, 0] })
    | _ => b }

theorem fall_keeps : KeepsBoundary fall := by
  intro it s s' h
  unfold fall at h
  injection h with h
  subst h
  refine ⟨⟨rfl, rfl, rfl⟩, fun hs b hb => ?_⟩
  simp only [World3.posed, List.map_map, List.mem_map] at hb
  obtain ⟨c, hc, rfl⟩ := hb
  have := hs ⟨c.1, c.2.x, c.2.R⟩ (List.mem_map.mpr ⟨c, hc, rfl⟩)
  unfold PosedBody3D.Solid at this ⊢
  dsimp only [Function.comp] at this ⊢
  rcases c with ⟨g, c⟩
  cases g <;> exact this

theorem fall_step (y : ℝ) (it : Nat) (hy : -4 ≤ y - 2) (hy' : y - 1 ≤ 3) :
    flow3 axis (fun _ s => .ok s) fall (fun _ s => .ok s) it (ballAndBrick y) = .ok (ballAndBrick (y - 1)) := by
  have e : (ballAndBrick (y - 1)).enforcePeriodic axis = ballAndBrick (y - 1) := by
    simp [World3.enforcePeriodic, ballAndBrick, enforcePeriodicBoundaryConditions3]
  have hf : fall it (ballAndBrick y) = .ok (ballAndBrick (y - 1)) := by
    simp [fall, ballAndBrick]
  have hin : (ballAndBrick (y - 1)).Inside := by
    intro b hb z hz
    simp only [ballAndBrick, World3.posed, List.map_cons, List.map_nil, List.mem_cons, List.not_mem_nil, or_false] at hb
    rcases hb with rfl | rfl
    · simp [PosedBody3D.points, ballSet3] at hz
      have h0 : z 0 ^ 2 ≤ 1 := by nlinarith [sq_nonneg (z 1 - (y - 1)), sq_nonneg (z 2)]
      have h1 : (z 1 - (y - 1)) ^ 2 ≤ 1 := by nlinarith [sq_nonneg (z 0), sq_nonneg (z 2)]
      have h2 : z 2 ^ 2 ≤ 1 := by nlinarith [sq_nonneg (z 0), sq_nonneg (z 1 - (y - 1))]
      have h0 := abs_le.mp (abs_le_one_iff_mul_self_le_one.mpr (by nlinarith : z 0 * z 0 ≤ 1))
      have h1 := abs_le.mp (abs_le_one_iff_mul_self_le_one.mpr (by nlinarith : (z 1 - (y - 1)) * (z 1 - (y - 1)) ≤ 1))
      have h2 := abs_le.mp (abs_le_one_iff_mul_self_le_one.mpr (by nlinarith : z 2 * z 2 ≤ 1))
      intro i
      fin_cases i <;> simp [ballAndBrick] <;> constructor <;> linarith
    · obtain ⟨a, ha, rfl⟩ := hz
      have h0 := abs_le.mp (ha 0)
      have h1 := abs_le.mp (ha 1)
      have h2 := abs_le.mp (ha 2)
      simp at h0 h1 h2
      intro i
      fin_cases i <;> simp [ballAndBrick] <;> constructor <;> linarith
  unfold flow3
  simp only [Outcome.bind]
  rw [hf]
  simp only [Outcome.bind]
  rw [e, ((C63_exact _ (ballAndBrick_solid _)).1 rfl).1.mpr hin]

/-- Non-vacuity of `C63_step` and `C63_run`: the ball falls for five steps, and the bodies are inside the boundary then. -/
example : ∃ s', run3 axis (fun _ s => .ok s) fall (fun _ s => .ok s) 1 5 (ballAndBrick 3) = .ok s' ∧ s'.Inside := by
  have h : run3 axis (fun _ s => .ok s) fall (fun _ s => .ok s) 1 5 (ballAndBrick 3) = .ok (ballAndBrick (-2)) := by
    simp only [run3]
    rw [fall_step _ _ (by norm_num) (by norm_num)]
    simp only [Outcome.bind]
    rw [fall_step _ _ (by norm_num) (by norm_num)]
    simp only [Outcome.bind]
    rw [fall_step _ _ (by norm_num) (by norm_num)]
    simp only [Outcome.bind]
    rw [fall_step _ _ (by norm_num) (by norm_num)]
    simp only [Outcome.bind]
    rw [fall_step _ _ (by norm_num) (by norm_num)]
    simp only [Outcome.bind]
    norm_num
  have hid : KeepsBoundary fun _ s => .ok s := by
    intro it s s' h
    injection h with h
    subst h
    exact ⟨⟨rfl, rfl, rfl⟩, id⟩
  refine ⟨_, h, (C63_run hid fall_keeps hid ?_ 4 1 (ballAndBrick 3) _ (ballAndBrick_solid 3) rfl h).1⟩
  intro it t t' ht h
  injection h with h
  exact h ▸ ht

/-- Non-vacuity of the other case of `C63_exact`: a ball that reaches below the boundary ends the program. -/
example : treatSimulationBoundary (ballAndBrick (-4)) = .exit := by
  refine ((C63_exact _ (ballAndBrick_solid _)).1 rfl).2.mpr fun h => ?_
  have := (h ⟨.sphere 1, ![0, -4, 0], 1⟩ (by simp [ballAndBrick, World3.posed]) ![0, -5, 0]
    (by simp [PosedBody3D.points, ballSet3]; norm_num) 1).1
  simp [ballAndBrick] at this
  norm_num at this

/-- A ball that has just left the periodic box of `boxXZ` on the right -/
noncomputable def leavingBall : World3 where
  bodies := [(.sphere 1, ⟨![21 / 2, 0, 2], 1, ![3, 0, 0], ![0, 0, 0]⟩)]
  portals := [boxX, boxZ]
  behavior := .exit
  boundaryMin := ![-1, -1000, -1]
  boundaryMax := ![11, 1000, 5]

/-- Non-vacuity of `C63_periodic`: the boundary leaves room for the radius around the periodic box. The ball, which would be outside, comes back at the left side. -/
example : ¬ leavingBall.Inside ∧ treatSimulationBoundary (leavingBall.enforcePeriodic axis) = .ok () := by
  constructor
  · intro h
    have := (h ⟨.sphere 1, ![21 / 2, 0, 2], 1⟩ (by simp [leavingBall, World3.posed]) ![23 / 2, 0, 2]
      (by simp [PosedBody3D.points, ballSet3]; norm_num) 0).2
    simp [leavingBall] at this
    norm_num at this
  · have hu : dot3 ![1, 0, 0] ![1, 0, 0] = 1 := by simp [dot3]
    have hu' : dot3 ![-1, 0, 0] ![-1, 0, 0] = 1 := by simp [dot3]
    have hz : dot3 ![0, 0, 1] ![0, 0, 1] = 1 := by simp [dot3]
    have hz' : dot3 ![0, 0, -1] ![0, 0, -1] = 1 := by simp [dot3]
    have e1 : boxX.planeA.n = ![1, 0, 0] := normalized3_unit hu
    have e2 : boxZ.planeA.n = ![0, 0, 1] := normalized3_unit hz
    refine C63_periodic [(boxX, 10), (boxZ, 4)] boxXZ leavingBall ?_ rfl ?_ ?_
    · intro b hb
      simp only [leavingBall, World3.posed, List.map_cons, List.map_nil, List.mem_cons, List.not_mem_nil, or_false] at hb
      subst hb
      show (0 : ℝ) ≤ 1
      norm_num
    · intro b hb x hx hk z hzz
      simp only [leavingBall, List.mem_cons, List.not_mem_nil, or_false] at hb
      subst hb
      obtain ⟨k, hk, hx'⟩ := hk
      have hy : x 1 = 0 := by
        rw [hx' 1]
        match k, hk with
        | [k1, k2], _ => simp [e1, e2]
      have hx1 := hx (boxX, 10) (by simp)
      have hx2 := hx (boxZ, 4) (by simp)
      unfold Portal3.Between boxX Plane3.make at hx1
      unfold Portal3.Between boxZ Plane3.make at hx2
      rw [normalized3_unit hu, normalized3_unit hu'] at hx1
      rw [normalized3_unit hz, normalized3_unit hz'] at hx2
      simp [Plane3.height, inner3] at hx1 hx2
      simp [PosedBody3D.points, ballSet3] at hzz
      have h0 := abs_le.mp (abs_le_one_iff_mul_self_le_one.mpr (by nlinarith [sq_nonneg (z 1 - x 1), sq_nonneg (z 2 - x 2)] : (z 0 - x 0) * (z 0 - x 0) ≤ 1))
      have h1 := abs_le.mp (abs_le_one_iff_mul_self_le_one.mpr (by nlinarith [sq_nonneg (z 0 - x 0), sq_nonneg (z 2 - x 2)] : (z 1 - x 1) * (z 1 - x 1) ≤ 1))
      have h2 := abs_le.mp (abs_le_one_iff_mul_self_le_one.mpr (by nlinarith [sq_nonneg (z 0 - x 0), sq_nonneg (z 1 - x 1)] : (z 2 - x 2) * (z 2 - x 2) ≤ 1))
      intro i
      fin_cases i <;> simp [leavingBall] <;> constructor <;> linarith
    · intro b hb
      simp only [leavingBall, List.mem_cons, List.not_mem_nil, or_false] at hb
      subst hb
      refine ⟨![9, 0, 2], fun p hp => ?_⟩
      simp only [List.mem_cons, List.not_mem_nil, or_false] at hp
      rcases hp with rfl | rfl
      · unfold Portal3.Between boxX Plane3.make
        rw [normalized3_unit hu, normalized3_unit hu']
        simp [Plane3.height, inner3] <;> norm_num
      · unfold Portal3.Between boxZ Plane3.make
        rw [normalized3_unit hz, normalized3_unit hz']
        simp [Plane3.height, inner3] <;> norm_num

/-- **C63 is false for staples**: their box ignores the radius, and the program goes on although a part of the body is outside. -/
theorem C63_false_staple : ∃ s : World3, s.behavior = .exit ∧ (∀ i, s.boundaryMin i < s.boundaryMax i) ∧ treatSimulationBoundary s = .ok () ∧ ¬ s.Inside := by
  refine ⟨⟨[(.staple (.make 4 4 1), ⟨![0, 0, 0], 1, ![0, 0, 0], ![0, 0, 0]⟩)], [], .exit, ![-3 / 2, -5, -5], ![3 / 2, 5, 5]⟩, rfl, ?_, ?_, ?_⟩
  · intro i
    fin_cases i <;> norm_num
  · simp [treatSimulationBoundary, World3.posed, runBoundaryExitTreatment, Geometry3D.aabb, pointsAABB, Staple.corners, Staple.make, Staple.centerOfMassY, growBox]
    rw [(boundaryTests_cases _ _ _).resolve_right ?_ |>.1]
    · rfl
    · rintro ⟨-, i, h⟩
      fin_cases i <;> norm_num at h
  · intro h
    have := (h ⟨.staple (.make 4 4 1), ![0, 0, 0], 1⟩ (by simp [World3.posed]) ![-2, -1, 0] ?_ 0).1
    · norm_num at this
    · refine ⟨_, _, ⟨[], [_, _], rfl⟩, 1, by norm_num, by norm_num, ?_⟩
      simp [ballSet3, Staple.make, Staple.centerOfMassY]
      norm_num

/-- **C63, limit.** A box whose corners are not numbers passes both tests, whatever the boundary is: a body whose position has become NaN is not noticed. -/
theorem C63_false_nan (lo hi : Fin 3 → XR) : boundaryTests lo hi (fun _ => .nan, fun _ => .nan) = .ok () := by
  unfold boundaryTests
  have h1 : ∀ x : XR, ¬ XR.nan < x := fun x h => by cases x <;> exact h
  have h2 : ∀ x : XR, ¬ XR.nan > x := fun x h => by cases x <;> exact h
  rw [if_neg (by rintro ⟨i, h⟩; exact h1 _ h), if_neg (by rintro ⟨i, h⟩; exact h2 _ h)]

end Scisim
