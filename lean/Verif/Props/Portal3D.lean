import Verif.Lemmas.Portal3D
import Mathlib.Tactic.NormNum
import Mathlib.Tactic.FinCases
import Mathlib.Tactic.Linarith
/-!
# C58: portals in three dimensions
-/

namespace Scisim

open Matrix

variable {axis : Vec3 → Vec3 → Vec3}

/-! ## C58: the frame of a plane -/

/-- **C58** The normal and the two tangents of a plane are unit vectors at right angles, for every non-zero normal, except directions that are within
about a millionth of straight down but not exactly straight down. -/
theorem C58_frame_partial (haxis : GoodAxis axis) (x n : Vec3) (hn : n ≠ 0)
    (hd : -1 + 1 / 1000000000000 ≤ normalized3 n 1 ∨ normalized3 n 1 = -1) :
    Orthonormal3 (Plane3.make x n).n ((Plane3.make x n).t0 axis) ((Plane3.make x n).t1 axis) := by
  have hpos : 0 < n 0 * n 0 + n 1 * n 1 + n 2 * n 2 := by
    by_contra hcon
    apply hn
    have h0 : n 0 * n 0 = 0 := by nlinarith [mul_self_nonneg (n 0), mul_self_nonneg (n 1), mul_self_nonneg (n 2)]
    have h1 : n 1 * n 1 = 0 := by nlinarith [mul_self_nonneg (n 0), mul_self_nonneg (n 1), mul_self_nonneg (n 2)]
    have h2 : n 2 * n 2 = 0 := by nlinarith [mul_self_nonneg (n 0), mul_self_nonneg (n 1), mul_self_nonneg (n 2)]
    exact funext (fin3_cases (by simpa using h0) (by simpa using h1) (by simpa using h2))
  have hnpos : 0 < norm3 n := Real.sqrt_pos.mpr hpos
  have hunit : dot3 (normalized3 n) (normalized3 n) = 1 := by
    unfold normalized3 dot3
    rw [if_pos hnpos]
    have hs : norm3 n * norm3 n = n 0 * n 0 + n 1 * n 1 + n 2 * n 2 := Real.mul_self_sqrt hpos.le
    field_simp
    linarith
  set u := normalized3 n with hu
  have hY : dot3 ![0, 1, 0] ![0, 1, 0] = 1 := by simp [dot3]
  have hdot : dot3 u ![0, 1, 0] = u 1 := by simp [dot3]
  have key : ∃ q : Quat, Quat.fromTwoVectors axis ![0, 1, 0] u = q ∧ (q.w ^ 2 + q.x ^ 2 + q.y ^ 2 + q.z ^ 2 = 1) ∧ q.rotate ![0, 1, 0] = u := by
    rcases hd with hd | hd
    · exact ⟨_, rfl, fromTwoVectors_spec axis hY hunit (by rw [hdot]; exact hd)⟩
    · have hu' : u = -![0, 1, 0] := by
        have hsq : u 0 * u 0 + u 2 * u 2 = 0 := by
          have := hunit
          simp only [dot3, hd] at this
          linarith
        have h0 : u 0 = 0 := by nlinarith [mul_self_nonneg (u 0), mul_self_nonneg (u 2)]
        have h2 : u 2 = 0 := by nlinarith [mul_self_nonneg (u 0), mul_self_nonneg (u 2)]
        exact funext (fin3_cases (by simp [h0]) (by simp [hd]) (by simp [h2]))
      refine ⟨_, rfl, ?_⟩
      unfold Quat.fromTwoVectors
      simp only [normalized3_unit hY, normalized3_unit hunit, dot3_eq, hdot, hd]
      rw [if_pos (by norm_num)]
      obtain ⟨h1, h2⟩ := haxis
      rw [← hu'] at h1 h2
      generalize axis ![0, 1, 0] u = ax at h1 h2
      have hay : ax 1 = 0 := by simpa [inner3] using h2
      have hs : Real.sqrt (1 - (1 + max (-1 : ℝ) (-1)) * (1 / 2)) = 1 := by norm_num
      have hw : Real.sqrt ((1 + max (-1 : ℝ) (-1)) * (1 / 2)) = 0 := by norm_num
      simp only [inner3, hay] at h1
      rw [hs, hw]
      constructor
      · simp only [hay]; linarith
      · rw [hu']
        refine funext (fin3_cases ?_ ?_ ?_)
        · rw [rotate_0]; simp [hay]
        · rw [rotate_1]; simp [hay]; linarith
        · rw [rotate_2]; simp [hay]
  obtain ⟨q, hq, hqu, hqy⟩ := key
  have e : ∀ a b, inner3 a b = dot3 a b := fun _ _ => rfl
  show Orthonormal3 u (Plane3.t0 axis ⟨x, u, 0, 0⟩) (Plane3.t1 axis ⟨x, u, 0, 0⟩)
  unfold Plane3.t0 Plane3.t1
  dsimp only
  rw [hq]
  have r := rotate_dot q hqu
  unfold Orthonormal3
  simp only [e]
  refine ⟨hunit, by rw [r]; simp [dot3], by rw [r]; simp [dot3], ?_, by rw [r]; simp [dot3], ?_⟩
  · conv_lhs => rw [← hqy]
    rw [r]; simp [dot3]
  · conv_lhs => rw [← hqy]
    rw [r]; simp [dot3]

/-! ## C58: teleporting -/

/-- **C58** Passing through either plane of a portal preserves all distances. -/
theorem C58_isometric (p : Portal3) (hw : p.WellFormed axis) :
    Isometric3 (p.teleportPointThroughPlaneA axis) ∧ Isometric3 (p.teleportPointThroughPlaneB axis) :=
  ⟨through_isometric hw.1 hw.2.1 hw.2.2, through_isometric hw.2.1 hw.1 hw.2.2⟩

/-- **C58** Passing through one plane and then through the other leads back to the same point. -/
theorem C58_round_trip (p : Portal3) (hw : p.WellFormed axis) (x : Vec3) :
    p.teleportPointThroughPlaneB axis (p.teleportPointThroughPlaneA axis x) = x ∧ p.teleportPointThroughPlaneA axis (p.teleportPointThroughPlaneB axis x) = x :=
  ⟨through_inverse hw.1 hw.2.1 hw.2.2 x, through_inverse hw.2.1 hw.1 hw.2.2 x⟩

/-- **C58** What was below one plane by some amount comes out above the other plane by that amount, if the first entry of the multiplier is one. -/
theorem C58_height (p : Portal3) (hw : p.WellFormed axis) (x : Vec3) :
    p.planeB.height (p.teleportPointThroughPlaneA axis x) = -(p.m 0 : ℝ) * p.planeA.height x ∧
    p.planeA.height (p.teleportPointThroughPlaneB axis x) = -(p.m 0 : ℝ) * p.planeB.height x := by
  have h1 := (through_coords (m := p.m) (a := p.planeA) hw.2.1 x).1
  have h2 := (through_coords (m := p.m) (a := p.planeB) hw.1 x).1
  rw [inner_sub, inner_sub] at h1 h2
  unfold Plane3.height Portal3.teleportPointThroughPlaneA Portal3.teleportPointThroughPlaneB
  constructor
  · rw [h1]; ring
  · rw [h2]; ring

theorem facing3_heights {p : Portal3} {L : ℝ} (hf : p.Facing axis L) (x : Vec3) : p.planeB.height x = L - p.planeA.height x := by
  obtain ⟨_, _, _, hn, hL⟩ := hf
  rw [← hL]
  unfold Plane3.height inner3
  simp only [hn]
  ring

theorem enforceOne3_spec {p : Portal3} {L : ℝ} (hf : p.Facing axis L) (b : Body3) (h1 : -L < p.planeA.height b.x) (h2 : p.planeA.height b.x < 2 * L) :
    p.Between (enforceOne3 axis p b).x ∧
    ((p.Between b.x ∧ enforceOne3 axis p b = b) ∨
     (p.planeA.height b.x < 0 ∧ enforceOne3 axis p b = { b with x := p.teleportPointThroughPlaneA axis b.x }) ∨
     (p.planeB.height b.x < 0 ∧ enforceOne3 axis p b = { b with x := p.teleportPointThroughPlaneB axis b.x })) := by
  have hfh := facing3_heights hf
  have hm : (p.m 0 : ℝ) = 1 := by rw [hf.2.1]; norm_num
  unfold enforceOne3 Portal3.pointInsidePortal Portal3.teleportPointInsidePortal
  simp only [distance_height]
  by_cases hA : p.planeA.height b.x < 0
  · rw [if_pos (Or.inl hA), if_pos hA]
    refine ⟨?_, Or.inr (Or.inl ⟨hA, rfl⟩)⟩
    have e := (C58_height p hf.1 b.x).1
    have e' := hfh (p.teleportPointThroughPlaneA axis b.x)
    rw [hm] at e
    exact ⟨by show 0 ≤ p.planeA.height (p.teleportPointThroughPlaneA axis b.x); linarith, by
      show 0 ≤ p.planeB.height (p.teleportPointThroughPlaneA axis b.x); linarith⟩
  · by_cases hB : p.planeB.height b.x < 0
    · rw [if_pos (Or.inr hB), if_neg hA]
      refine ⟨?_, Or.inr (Or.inr ⟨hB, rfl⟩)⟩
      have e := (C58_height p hf.1 b.x).2
      have e' := hfh (p.teleportPointThroughPlaneB axis b.x)
      have e'' := hfh b.x
      rw [hm] at e
      exact ⟨by show 0 ≤ p.planeA.height (p.teleportPointThroughPlaneB axis b.x); linarith, by
        show 0 ≤ p.planeB.height (p.teleportPointThroughPlaneB axis b.x); linarith⟩
    · rw [if_neg (by tauto)]
      exact ⟨⟨not_lt.mp hA, not_lt.mp hB⟩, Or.inl ⟨⟨not_lt.mp hA, not_lt.mp hB⟩, rfl⟩⟩

/-- **C58** Enforcing the boundary conditions treats each body on its own and changes nothing but positions. -/
theorem C58_bodies_independent (ps : List Portal3) (bs : List Body3) :
    enforcePeriodicBoundaryConditions3 axis ps bs = bs.map (fun b => ps.foldl (fun b p => enforceOne3 axis p b) b) ∧
    ∀ b, (ps.foldl (fun b p => enforceOne3 axis p b) b).R = b.R ∧ (ps.foldl (fun b p => enforceOne3 axis p b) b).v = b.v ∧
      (ps.foldl (fun b p => enforceOne3 axis p b) b).omega = b.omega := by
  have hone : ∀ (p : Portal3) (b : Body3), (enforceOne3 axis p b).R = b.R ∧ (enforceOne3 axis p b).v = b.v ∧ (enforceOne3 axis p b).omega = b.omega := by
    intro p b
    unfold enforceOne3
    split <;> simp
  constructor
  · induction ps generalizing bs with
    | nil => simp [enforcePeriodicBoundaryConditions3]
    | cons p ps ih =>
      have := ih (bs.map (enforceOne3 axis p))
      simp only [enforcePeriodicBoundaryConditions3, List.foldl_cons] at this ⊢
      rw [this, List.map_map]
      rfl
  · induction ps with
    | nil => simp
    | cons p ps ih =>
      intro b
      obtain ⟨h1, h2, h3⟩ := ih (enforceOne3 axis p b)
      obtain ⟨k1, k2, k3⟩ := hone p b
      rw [List.foldl_cons]
      exact ⟨h1.trans k1, h2.trans k2, h3.trans k3⟩

/-- **C58** A body between the facing planes of a portal, moved by less than their distance across them, is between the planes again after the boundary
conditions are enforced; if it stayed between them it is untouched. -/
theorem C58_step (p : Portal3) (L : ℝ) (hf : p.Facing axis L) (x0 : Vec3) (h0 : p.Between x0) (b : Body3)
    (h1 : -L < p.planeA.height b.x - p.planeA.height x0) (h2 : p.planeA.height b.x - p.planeA.height x0 < L) :
    ∃ b', enforcePeriodicBoundaryConditions3 axis [p] [b] = [b'] ∧ p.Between b'.x ∧ (p.Between b.x → b' = b) := by
  have hh := facing3_heights hf x0
  obtain ⟨hb, hc⟩ := enforceOne3_spec hf b (by linarith [h0.1]) (by linarith [h0.2])
  refine ⟨enforceOne3 axis p b, rfl, hb, fun hbet => ?_⟩
  rcases hc with ⟨_, h⟩ | ⟨h, _⟩ | ⟨h, _⟩
  · exact h
  · exact absurd hbet.1 (not_le.mpr h)
  · exact absurd hbet.2 (not_le.mpr h)

/-! ## C58: periodic boxes -/

theorem foldl_periodicBox : ∀ (ps : List (Portal3 × ℝ)), PeriodicBox axis ps → ∀ (b : Body3),
    (∀ p ∈ ps, -p.2 < p.1.planeA.height b.x ∧ p.1.planeA.height b.x < 2 * p.2) →
    ∀ b', (ps.map Prod.fst).foldl (fun b p => enforceOne3 axis p b) b = b' →
    (∀ p ∈ ps, p.1.Between b'.x) ∧
    (∃ k : List ℤ, k.length = ps.length ∧ (∀ z ∈ k, z = -1 ∨ z = 0 ∨ z = 1) ∧
      ∀ i, b'.x i = b.x i + ((k.zip ps).map fun kp => (kp.1 : ℝ) * (kp.2.2 * kp.2.1.planeA.n i)).sum) ∧
    ∀ u : Vec3, (∀ p ∈ ps, inner3 u p.1.planeA.n = 0) → inner3 u b'.x = inner3 u b.x
  | [], _, b, _, b', h => by
    simp only [List.map_nil, List.foldl_nil] at h
    subst h
    exact ⟨by simp, ⟨[], rfl, by simp, by simp⟩, fun _ _ => rfl⟩
  | p :: ps, hbox, b, hr, b', h => by
    obtain ⟨hall, hpw⟩ := hbox
    obtain ⟨hpp, hpw⟩ := List.pairwise_cons.mp hpw
    obtain ⟨hf, ht⟩ := hall p (by simp)
    rw [List.map_cons, List.foldl_cons] at h
    obtain ⟨h1, h2⟩ := hr p (by simp)
    obtain ⟨hbet, hcase⟩ := enforceOne3_spec hf b h1 h2
    have hmove : ∃ k : ℤ, (k = -1 ∨ k = 0 ∨ k = 1) ∧ ∀ i, (enforceOne3 axis p.1 b).x i = b.x i + (k : ℝ) * (p.2 * p.1.planeA.n i) := by
      rcases hcase with ⟨_, h⟩ | ⟨_, h⟩ | ⟨_, h⟩
      · exact ⟨0, by simp, by rw [h]; simp⟩
      · refine ⟨1, by simp, fun i => ?_⟩
        rw [h]
        show p.1.teleportPointThroughPlaneA axis b.x i = _
        rw [(ht b.x).1 i]
        norm_num
      · refine ⟨-1, by simp, fun i => ?_⟩
        rw [h]
        show p.1.teleportPointThroughPlaneB axis b.x i = _
        rw [(ht b.x).2 i]
        push_cast
        ring
    obtain ⟨k, hk, hmv⟩ := hmove
    have hinner : ∀ u : Vec3, inner3 u p.1.planeA.n = 0 → inner3 u (enforceOne3 axis p.1 b).x = inner3 u b.x := by
      intro u hu
      simp only [inner3, hmv] at *
      linear_combination (k : ℝ) * p.2 * hu
    have hcomm : ∀ u w : Vec3, inner3 u w = inner3 w u := by
      intro u w
      simp only [inner3]; ring
    have hrest : ∀ q ∈ ps, -q.2 < q.1.planeA.height (enforceOne3 axis p.1 b).x ∧ q.1.planeA.height (enforceOne3 axis p.1 b).x < 2 * q.2 := by
      intro q hq
      have := hr q (by simp [hq])
      unfold Plane3.height at this ⊢
      rw [hinner _ (by rw [hcomm]; exact hpp q hq)]
      exact this
    obtain ⟨ih1, ⟨ks, ihl, ihk, ihx⟩, ih3⟩ := foldl_periodicBox ps ⟨fun q hq => hall q (by simp [hq]), hpw⟩ _ hrest b' h
    have hsame : inner3 p.1.planeA.n b'.x = inner3 p.1.planeA.n (enforceOne3 axis p.1 b).x := ih3 _ fun q hq => hpp q hq
    refine ⟨fun q hq => ?_, ⟨k :: ks, by simp [ihl], ?_, fun i => ?_⟩, fun u hu => ?_⟩
    · rcases List.mem_cons.mp hq with rfl | hq
      · have e := facing3_heights hf
        have e' : q.1.planeA.height b'.x = q.1.planeA.height (enforceOne3 axis q.1 b).x := by
          unfold Plane3.height; rw [hsame]
        unfold Portal3.Between at hbet ⊢
        rw [e, e'] 
        rw [e] at hbet
        exact hbet
      · exact ih1 q hq
    · intro z hz
      rcases List.mem_cons.mp hz with rfl | hz
      · exact hk
      · exact ihk z hz
    · rw [ihx i, hmv i]
      simp only [List.zip_cons_cons, List.map_cons, List.sum_cons]
      ring
    · rw [ih3 u fun q hq => hu q (by simp [hq]), hinner u (hu p (by simp))]

/-- **C58** In a periodic box, a body that starts inside and moves by less than the width of the box in each direction is inside the box again after the
boundary conditions are enforced, and has been moved by the width of the box, or not at all, in each direction. -/
theorem C58_box_step (ps : List (Portal3 × ℝ)) (hbox : PeriodicBox axis ps) (x0 : Vec3) (h0 : ∀ p ∈ ps, p.1.Between x0) (b : Body3)
    (h : ∀ p ∈ ps, -p.2 < p.1.planeA.height b.x - p.1.planeA.height x0 ∧ p.1.planeA.height b.x - p.1.planeA.height x0 < p.2) :
    ∃ b', enforcePeriodicBoundaryConditions3 axis (ps.map Prod.fst) [b] = [b'] ∧ (∀ p ∈ ps, p.1.Between b'.x) ∧
      b'.R = b.R ∧ b'.v = b.v ∧ b'.omega = b.omega ∧
      ∃ k : List ℤ, k.length = ps.length ∧ (∀ z ∈ k, z = -1 ∨ z = 0 ∨ z = 1) ∧
        ∀ i, b'.x i = b.x i + ((k.zip ps).map fun kp => (kp.1 : ℝ) * (kp.2.2 * kp.2.1.planeA.n i)).sum := by
  obtain ⟨hi, hs⟩ := C58_bodies_independent (axis := axis) (ps.map Prod.fst) [b]
  obtain ⟨h1, h2, _⟩ := foldl_periodicBox ps hbox b (fun p hp => by
    have e := facing3_heights (hbox.1 p hp).1 x0
    obtain ⟨e1, e2⟩ := h0 p hp
    obtain ⟨h1, h2⟩ := h p hp
    constructor <;> linarith) _ rfl
  exact ⟨_, by rw [hi]; rfl, h1, (hs b).1, (hs b).2.1, (hs b).2.2, h2⟩

/-- A run of steps in a periodic box: every step moves the body, then the boundary conditions are enforced. -/
inductive BoxRun (axis : Vec3 → Vec3 → Vec3) (ps : List (Portal3 × ℝ)) : Body3 → Body3 → Prop
  | start (b : Body3) : BoxRun axis ps b b
  | step (a b moved b' : Body3) : BoxRun axis ps a b →
      (∀ p ∈ ps, -p.2 < p.1.planeA.height moved.x - p.1.planeA.height b.x ∧ p.1.planeA.height moved.x - p.1.planeA.height b.x < p.2) →
      enforcePeriodicBoundaryConditions3 axis (ps.map Prod.fst) [moved] = [b'] → BoxRun axis ps a b'

/-- **C58** Any number of steps: a body that starts in the periodic box is in it after every step, however forces and contacts move it, as long as it
moves by less than the width of the box in each step. -/
theorem C58_run (ps : List (Portal3 × ℝ)) (hbox : PeriodicBox axis ps) (a b : Body3) (ha : ∀ p ∈ ps, p.1.Between a.x) (hr : BoxRun axis ps a b) :
    ∀ p ∈ ps, p.1.Between b.x := by
  induction hr with
  | start => exact ha
  | step b moved b' _ hm he ih =>
    obtain ⟨b'', e, hb, _⟩ := C58_box_step ps hbox b.x ih moved hm
    rw [e] at he
    cases he
    exact hb

/-! ## C58: which portals are periodic -/

/-- The planes at `-d` and `d` along a direction `u`, facing each other -/
noncomputable def facingPlanes (u : Vec3) (d : ℝ) (m : Fin 3 → ℤ) : Portal3 := ⟨⟨-d • u, u, 0, 0⟩, ⟨d • u, -u, 0, 0⟩, m⟩

/-- **C58** Facing planes across the first coordinate, with multiplier `1 1 -1`, are a periodic boundary: they move points straight across. -/
theorem C58_periodic_x (a b c d e f : ℝ) : Portal3.Translates axis ⟨.make ![a, b, c] ![1, 0, 0], .make ![d, e, f] ![-1, 0, 0], ![1, 1, -1]⟩ ![d - a, e - b, f - c] := by
  have hu : dot3 ![1, 0, 0] ![1, 0, 0] = 1 := by simp [dot3]
  have hu' : dot3 ![-1, 0, 0] ![-1, 0, 0] = 1 := by simp [dot3]
  obtain ⟨h1, h2⟩ := t_of_rotation (axis := axis) ![a, b, c] ![1, 0, 0] hu (by norm_num)
  obtain ⟨h3, h4⟩ := t_of_rotation (axis := axis) ![d, e, f] ![-1, 0, 0] hu' (by norm_num)
  intro x
  unfold Portal3.teleportPointThroughPlaneA Portal3.teleportPointThroughPlaneB Portal3.through Plane3.make
  rw [normalized3_unit hu, normalized3_unit hu']
  simp only [h1, h2, h3, h4, dot3_eq]
  constructor <;> refine fin3_cases ?_ ?_ ?_ <;> simp [dot3] <;> ring

/-- **C58** Facing planes across the third coordinate are a periodic boundary with multiplier `1 -1 1`. -/
theorem C58_periodic_z (a b c d e f : ℝ) : Portal3.Translates axis ⟨.make ![a, b, c] ![0, 0, 1], .make ![d, e, f] ![0, 0, -1], ![1, -1, 1]⟩ ![d - a, e - b, f - c] := by
  have hu : dot3 ![0, 0, 1] ![0, 0, 1] = 1 := by simp [dot3]
  have hu' : dot3 ![0, 0, -1] ![0, 0, -1] = 1 := by simp [dot3]
  obtain ⟨h1, h2⟩ := t_of_rotation (axis := axis) ![a, b, c] ![0, 0, 1] hu (by norm_num)
  obtain ⟨h3, h4⟩ := t_of_rotation (axis := axis) ![d, e, f] ![0, 0, -1] hu' (by norm_num)
  intro x
  unfold Portal3.teleportPointThroughPlaneA Portal3.teleportPointThroughPlaneB Portal3.through Plane3.make
  rw [normalized3_unit hu, normalized3_unit hu']
  simp only [h1, h2, h3, h4, dot3_eq]
  constructor <;> refine fin3_cases ?_ ?_ ?_ <;> simp [dot3] <;> ring

/-- **C58** Facing planes across the second coordinate are a periodic boundary with multiplier `1 -1 1` or `1 1 -1`, if Eigen turns `(0, 1, 0)` into `(0, -1, 0)`
about the first or about the third coordinate axis, respectively. -/
theorem C58_periodic_y (a b c d e f : ℝ) :
    ((∀ u w, axis u w = ![1, 0, 0] ∨ axis u w = ![-1, 0, 0]) →
      Portal3.Translates axis ⟨.make ![a, b, c] ![0, 1, 0], .make ![d, e, f] ![0, -1, 0], ![1, -1, 1]⟩ ![d - a, e - b, f - c]) ∧
    ((∀ u w, axis u w = ![0, 0, 1] ∨ axis u w = ![0, 0, -1]) →
      Portal3.Translates axis ⟨.make ![a, b, c] ![0, 1, 0], .make ![d, e, f] ![0, -1, 0], ![1, 1, -1]⟩ ![d - a, e - b, f - c]) := by
  have hu : dot3 ![0, 1, 0] ![0, 1, 0] = 1 := by simp [dot3]
  have hu' : dot3 ![0, -1, 0] ![0, -1, 0] = 1 := by simp [dot3]
  obtain ⟨h1, h2⟩ := t_of_rotation (axis := axis) ![a, b, c] ![0, 1, 0] hu (by norm_num)
  have hq : ∀ v, (Quat.fromTwoVectors axis ![0, 1, 0] ![0, -1, 0]).rotate v =
      Quat.rotate ⟨0, axis ![0, 1, 0] ![0, -1, 0] 0, axis ![0, 1, 0] ![0, -1, 0] 1, axis ![0, 1, 0] ![0, -1, 0] 2⟩ v := by
    intro v
    unfold Quat.fromTwoVectors
    rw [normalized3_unit hu, normalized3_unit hu']
    have hd : dot3 ![0, -1, 0] ![0, 1, 0] = -1 := by simp [dot3]
    simp only [dot3_eq, hd]
    rw [if_pos (by norm_num)]
    norm_num
  have hB : ∀ sx sz : ℝ, (axis ![0, 1, 0] ![0, -1, 0] = ![sx, 0, sz]) → sx * sx + sz * sz = 1 → sx * sz = 0 →
      Plane3.t0 axis ⟨![d, e, f], ![0, -1, 0], 0, 0⟩ = ![2 * (sx * sx) - 1, 0, 0] ∧ Plane3.t1 axis ⟨![d, e, f], ![0, -1, 0], 0, 0⟩ = ![0, 0, 2 * (sz * sz) - 1] := by
    intro sx sz hax hs hz
    unfold Plane3.t0 Plane3.t1
    simp only [hq, hax]
    constructor <;> refine funext (fin3_cases ?_ ?_ ?_)
    · rw [rotate_0]; simp; linear_combination (-2) * hs
    · rw [rotate_1]; simp
    · rw [rotate_2]; simpa using mul_eq_zero.mp hz
    · rw [rotate_0]; simpa [or_comm] using mul_eq_zero.mp hz
    · rw [rotate_1]; simp
    · rw [rotate_2]; simp; linear_combination (-2) * hs
  constructor
  · intro hax x
    obtain ⟨sx, hsx, hss⟩ : ∃ sx : ℝ, axis ![0, 1, 0] ![0, -1, 0] = ![sx, 0, 0] ∧ sx * sx = 1 := by
      rcases hax ![0, 1, 0] ![0, -1, 0] with h | h
      · exact ⟨1, h, by norm_num⟩
      · exact ⟨-1, h, by norm_num⟩
    obtain ⟨h3, h4⟩ := hB sx 0 hsx (by linarith) (by simp)
    unfold Portal3.teleportPointThroughPlaneA Portal3.teleportPointThroughPlaneB Portal3.through Plane3.make
    rw [normalized3_unit hu, normalized3_unit hu']
    simp only [h1, h2, h3, h4, dot3_eq, hss]
    constructor <;> refine fin3_cases ?_ ?_ ?_ <;> simp [dot3] <;> ring
  · intro hax x
    obtain ⟨sx, hsx, hss⟩ : ∃ sx : ℝ, axis ![0, 1, 0] ![0, -1, 0] = ![0, 0, sx] ∧ sx * sx = 1 := by
      rcases hax ![0, 1, 0] ![0, -1, 0] with h | h
      · exact ⟨1, h, by norm_num⟩
      · exact ⟨-1, h, by norm_num⟩
    obtain ⟨h3, h4⟩ := hB 0 sx hsx (by linarith) (by simp)
    unfold Portal3.teleportPointThroughPlaneA Portal3.teleportPointThroughPlaneB Portal3.through Plane3.make
    rw [normalized3_unit hu, normalized3_unit hu']
    simp only [h1, h2, h3, h4, dot3_eq, hss]
    constructor <;> refine fin3_cases ?_ ?_ ?_ <;> simp [dot3] <;> ring

/-- C58, finding: two planes that face each other along the diagonal between the first and the third coordinate are not a periodic boundary, whatever the
multiplier: points are not moved straight across but also turned or mirrored within the plane. -/
theorem C58_false_diagonal (d : ℝ) (m : Fin 3 → ℤ) (t : Vec3) : ¬(facingPlanes ![1 / Real.sqrt 2, 0, 1 / Real.sqrt 2] d m).Translates axis t := by
  intro h
  have hsq : Real.sqrt 2 * Real.sqrt 2 = 2 := Real.mul_self_sqrt (by norm_num)
  have hpos : 0 < Real.sqrt 2 := Real.sqrt_pos.mpr (by norm_num)
  obtain ⟨s, hs⟩ : ∃ s, s = 1 / Real.sqrt 2 := ⟨_, rfl⟩
  have hss : s * s = 1 / 2 := by
    rw [hs]
    field_simp
    rw [sq, hsq]
  have hs0 : s ≠ 0 := by rw [hs]; positivity
  rw [← hs] at h
  have hu : dot3 ![s, 0, s] ![s, 0, s] = 1 := by simp [dot3]; linarith
  have hu' : dot3 (-![s, 0, s]) (-![s, 0, s]) = 1 := by simp [dot3]; linarith
  obtain ⟨h1, h2⟩ := t_of_rotation (axis := axis) (-d • ![s, 0, s]) ![s, 0, s] hu (by norm_num)
  obtain ⟨h3, h4⟩ := t_of_rotation (axis := axis) (d • ![s, 0, s]) (-![s, 0, s]) hu' (by norm_num)
  have k0 := (h 0).1
  have k1 := (h ![1 / 2, -s, -1 / 2]).1
  unfold Portal3.teleportPointThroughPlaneA Portal3.through facingPlanes at k0 k1
  simp only [h1, h2, h3, h4, dot3_eq] at k0 k1
  have a0 := k0 0
  have a1 := k0 1
  have b0 := k1 0
  have b1 := k1 1
  simp [dot3, hss] at a0 a1 b0 b1
  have e1 : s * ((m 1 : ℝ) - 1) = 0 := by linear_combination a1 - b1
  have e2 : (m 1 : ℝ) = -1 := by linear_combination 2 * a0 - 2 * b0
  rw [e2] at e1
  exact hs0 (by linarith)

/-- C58, finding: the scene loader accepts multipliers whose first entry is `-1`. A body that has passed one of two facing planes is then put behind the other plane. -/
theorem C58_false_multiplier : ∃ m, multiplierRejected m = false ∧ ∀ (axis : Vec3 → Vec3 → Vec3) (p : Portal3) (L : ℝ),
    p.WellFormed axis → p.m = m → 0 < L → (∀ i, p.planeB.n i = -p.planeA.n i) → p.planeA.height p.planeB.x = L →
    ∀ b : Body3, p.planeA.height b.x < 0 → ¬p.Between (enforceOne3 axis p b).x := by
  refine ⟨![-1, 1, 1], by decide, fun axis p L hw hm hL hn hAB b hb hbet => ?_⟩
  have hx : (enforceOne3 axis p b).x = p.teleportPointThroughPlaneA axis b.x := by
    unfold enforceOne3 Portal3.pointInsidePortal Portal3.teleportPointInsidePortal
    simp only [distance_height]
    rw [if_pos (Or.inl hb), if_pos hb]
  rw [hx] at hbet
  have e := (C58_height p hw b.x).1
  rw [hm] at e
  norm_num at e
  linarith [hbet.2]

/-- **C58** The multipliers that the scene loader accepts consist of signs. -/
theorem C58_multiplier (m : Fin 3 → ℤ) : multiplierRejected m = false ↔ ∀ i, m i = 1 ∨ m i = -1 := by
  unfold multiplierRejected
  simp only [Bool.or_eq_false_iff, decide_eq_false_iff_not, not_exists, not_lt]
  constructor
  · rintro ⟨⟨h1, h2⟩, h3⟩ i
    have := h1 i
    have := h2 i
    have := h3 i
    omega
  · intro h
    refine ⟨⟨fun i => ?_, fun i => ?_⟩, fun i => ?_⟩ <;> rcases h i with h | h <;> omega

/-! ## A concrete periodic box -/

/-- A choice of axes that satisfies what is assumed about Eigen -/
example : GoodAxis fun _ _ => ![1, 0, 0] := by simp [GoodAxis, inner3]

/-- Planes at `x = 0` and `x = 10` -/
noncomputable def boxX : Portal3 := ⟨.make ![0, 0, 0] ![1, 0, 0], .make ![10, 0, 0] ![-1, 0, 0], ![1, 1, -1]⟩

/-- Planes at `z = 0` and `z = 4` -/
noncomputable def boxZ : Portal3 := ⟨.make ![0, 0, 0] ![0, 0, 1], .make ![0, 0, 4] ![0, 0, -1], ![1, -1, 1]⟩

theorem boxX_facing : boxX.Facing axis 10 := by
  have hu : dot3 ![1, 0, 0] ![1, 0, 0] = 1 := by simp [dot3]
  have hu' : dot3 ![-1, 0, 0] ![-1, 0, 0] = 1 := by simp [dot3]
  obtain ⟨h1, h2⟩ := t_of_rotation (axis := axis) ![0, 0, 0] ![1, 0, 0] hu (by norm_num)
  obtain ⟨h3, h4⟩ := t_of_rotation (axis := axis) ![10, 0, 0] ![-1, 0, 0] hu' (by norm_num)
  unfold boxX Plane3.make
  rw [normalized3_unit hu, normalized3_unit hu']
  refine ⟨⟨?_, ?_, ?_⟩, rfl, by norm_num, ?_, ?_⟩
  · simp only [h1, h2]; simp [Orthonormal3, inner3]
  · simp only [h3, h4]; simp [Orthonormal3, inner3]
  · intro i; fin_cases i <;> simp
  · intro i; fin_cases i <;> simp
  · simp [Plane3.height, inner3]

theorem boxZ_facing : boxZ.Facing axis 4 := by
  have hu : dot3 ![0, 0, 1] ![0, 0, 1] = 1 := by simp [dot3]
  have hu' : dot3 ![0, 0, -1] ![0, 0, -1] = 1 := by simp [dot3]
  obtain ⟨h1, h2⟩ := t_of_rotation (axis := axis) ![0, 0, 0] ![0, 0, 1] hu (by norm_num)
  obtain ⟨h3, h4⟩ := t_of_rotation (axis := axis) ![0, 0, 4] ![0, 0, -1] hu' (by norm_num)
  unfold boxZ Plane3.make
  rw [normalized3_unit hu, normalized3_unit hu']
  refine ⟨⟨?_, ?_, ?_⟩, rfl, by norm_num, ?_, ?_⟩
  · simp only [h1, h2]; simp [Orthonormal3, inner3]
  · simp only [h3, h4]; simp [Orthonormal3, inner3]
  · intro i; fin_cases i <;> simp
  · intro i; fin_cases i <;> simp
  · simp [Plane3.height, inner3]

theorem boxXZ : PeriodicBox axis [(boxX, 10), (boxZ, 4)] := by
  have hu : dot3 ![1, 0, 0] ![1, 0, 0] = 1 := by simp [dot3]
  have hz : dot3 ![0, 0, 1] ![0, 0, 1] = 1 := by simp [dot3]
  have e1 : boxX.planeA.n = ![1, 0, 0] := normalized3_unit hu
  have e2 : boxZ.planeA.n = ![0, 0, 1] := normalized3_unit hz
  refine ⟨fun p hp => ?_, ?_⟩
  · simp only [List.mem_cons, List.not_mem_nil, or_false] at hp
    rcases hp with rfl | rfl
    · refine ⟨boxX_facing, ?_⟩
      have h := C58_periodic_x (axis := axis) 0 0 0 10 0 0
      intro x
      obtain ⟨ha, hb⟩ := h x
      constructor <;> intro i
      · rw [e1]; refine (ha i).trans ?_; fin_cases i <;> simp
      · rw [e1]; refine (hb i).trans ?_; fin_cases i <;> simp
    · refine ⟨boxZ_facing, ?_⟩
      have h := C58_periodic_z (axis := axis) 0 0 0 0 0 4
      intro x
      obtain ⟨ha, hb⟩ := h x
      constructor <;> intro i
      · rw [e2]; refine (ha i).trans ?_; fin_cases i <;> simp
      · rw [e2]; refine (hb i).trans ?_; fin_cases i <;> simp
  · simp [e1, e2, inner3]

/-- a body that leaves the box through an edge re-enters it at the opposite edge -/
example : ∃ b', enforcePeriodicBoundaryConditions3 axis [boxX, boxZ] [⟨![-1, 7, 5], 1, ![-2, 0, 3], 0⟩] = [b'] ∧ boxX.Between b'.x ∧ boxZ.Between b'.x := by
  have hu : dot3 ![1, 0, 0] ![1, 0, 0] = 1 := by simp [dot3]
  have hu' : dot3 ![-1, 0, 0] ![-1, 0, 0] = 1 := by simp [dot3]
  have hz : dot3 ![0, 0, 1] ![0, 0, 1] = 1 := by simp [dot3]
  have hz' : dot3 ![0, 0, -1] ![0, 0, -1] = 1 := by simp [dot3]
  obtain ⟨b', h1, h2, _⟩ := C58_box_step (axis := axis) [(boxX, 10), (boxZ, 4)] boxXZ ![1, 7, 2]
    (by
      intro p hp
      simp only [List.mem_cons, List.not_mem_nil, or_false] at hp
      rcases hp with rfl | rfl
      · unfold Portal3.Between boxX Plane3.make
        rw [normalized3_unit hu, normalized3_unit hu']
        simp [Plane3.height, inner3] <;> norm_num
      · unfold Portal3.Between boxZ Plane3.make
        rw [normalized3_unit hz, normalized3_unit hz']
        simp [Plane3.height, inner3] <;> norm_num)
    ⟨![-1, 7, 5], 1, ![-2, 0, 3], 0⟩
    (by
      intro p hp
      simp only [List.mem_cons, List.not_mem_nil, or_false] at hp
      rcases hp with rfl | rfl
      · unfold boxX Plane3.make
        rw [normalized3_unit hu]
        simp [Plane3.height, inner3] <;> norm_num
      · unfold boxZ Plane3.make
        rw [normalized3_unit hz]
        simp [Plane3.height, inner3] <;> norm_num)
  exact ⟨b', h1, h2 (boxX, 10) (by simp), h2 (boxZ, 4) (by simp)⟩

/-- planes in general position have frames -/
example (h : GoodAxis axis) : Orthonormal3 (Plane3.make ![1, 2, 3] ![3, 4, 0]).n ((Plane3.make ![1, 2, 3] ![3, 4, 0]).t0 axis)
    ((Plane3.make ![1, 2, 3] ![3, 4, 0]).t1 axis) := by
  refine C58_frame_partial h _ _ (fun hn => ?_) (Or.inl ?_)
  · have := congrFun hn 0
    simp at this
  · unfold normalized3
    split
    · rename_i hp
      have : (0 : ℝ) ≤ (![3, 4, 0] : Vec3) 1 / norm3 ![3, 4, 0] := div_nonneg (by simp) hp.le
      linarith
    · simp; norm_num

end Scisim
