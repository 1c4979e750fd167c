import Verif.Lemmas.PostProcessing
import Verif.Props.HDF5
/-!
# C84: the post-processing tools print what the spatial program simulated
-/

namespace Scisim

open HDF5 PostProcessing

/-- **C84, bodies.** Of a configuration saved by the spatial program, the tool prints exactly the bodies that have a mesh, in order, with their positions, rotations, velocities, angular
velocities, masses, moments of inertia, whether they are scripted, and the names of their meshes. The tool insists on times that are not negative and on bodies with a rotation, a positive
mass and positive moments of inertia. -/
theorem C84_meshes (A : Arith) (R : Tri F64 → F64 → RB3D.Quad) (times : F64 → UInt32 → F64) (h : Header) (s : RB3D.State) (n : ℕ) (hs : PostProcessing.Sized s n)
    (hst : ∀ g ∈ s.geometry, g ≠ .staple) (h1 : A.nonneg (times h.timestep h.iteration) = true) (h2 : A.nonneg h.timestep = true)
    (hsane : ∀ b < n, ∀ m, shape s b = some (.mesh m) → Sane A s n b) :
    ∃ f, saveState times h (RB3D.writeBinaryState R s) = .ok f ∧ printMeshes A f = .ok (meshesOf A s n) := by
  obtain ⟨f, e, hd, hf⟩ := C68_rb3d_partial R times h s hs.state hst
  refine ⟨f, e, ?_⟩
  obtain ⟨d, hi, hq, hn, hv, hM, hk, ha, hm, _⟩ := init_ok A R times h s n f hs hd hf h1 h2
  unfold printMeshes
  refine Outcome.bind_ok_iff.mpr ⟨d, hi, ?_⟩
  unfold meshBodies meshesOf
  rw [hn, meshLoop_ok A R s n f d hs hst hf hq hn hv hM hk ha hm hsane n 0 (by omega), List.range_eq_range']
  rfl

/-- **C84, the run.** The version, the number of the step, the time and the length of a step are read as they were saved. -/
theorem C84_header (A : Arith) (R : Tri F64 → F64 → RB3D.Quad) (times : F64 → UInt32 → F64) (h : Header) (s : RB3D.State) (n : ℕ) (hs : PostProcessing.Sized s n)
    (hst : ∀ g ∈ s.geometry, g ≠ .staple) (h1 : A.nonneg (times h.timestep h.iteration) = true) (h2 : A.nonneg h.timestep = true) :
    ∃ f d, saveState times h (RB3D.writeBinaryState R s) = .ok f ∧ DiscreteState.init A f = .ok d ∧ d.nbodies = n ∧ d.gitHash = cStr h.git ∧ d.iteration = h.iteration ∧
      d.time = times h.timestep h.iteration ∧ d.timestep = h.timestep := by
  obtain ⟨f, e, hd, hf⟩ := C68_rb3d_partial R times h s hs.state hst
  obtain ⟨d, hi, _, hn, _, _, _, _, _, hg⟩ := init_ok A R times h s n f hs hd hf h1 h2
  exact ⟨f, d, e, hi, hn, hg⟩

/-- **C84, contacts.** Of a step with contacts the tool prints each of them, in order, with its force, the bodies it is between, its normal and its point. -/
theorem C84_contacts_partial (A : Arith) (times : F64 → UInt32 → F64) (h : Header) (c : Contacts) (hc : c.indices ≠ []) (hs : c.Sized) (hu : ∀ t ∈ c.normals, A.isUnit t = true)
    (h1 : A.nonneg (times h.timestep h.iteration) = true) (h2 : A.nonneg h.timestep = true) :
    ∃ f, saveForces times h (some c) = .ok f ∧ printCollisions A f = .ok c.list := by
  obtain ⟨f, e, hn, hsets⟩ := forces_file times h c hc
  obtain ⟨lp, ln, lf, lt⟩ := hs
  refine ⟨f, e, ?_⟩
  have hd : Describes times h f := describes_of hn fun x hx => by rw [hsets]; exact List.mem_append_left _ hx
  have mc : ("collision_count".toList, columnSet [UInt32.ofNat c.indices.length]) ∈ f.sets := by rw [hsets]; exact List.mem_append_right _ (by simp)
  have mi : ("collision_indices".toList, denseSet (rows2 c.indices)) ∈ f.sets := by rw [hsets]; exact List.mem_append_right _ (by simp)
  have mp : ("collision_points".toList, denseSet (rows3 c.points)) ∈ f.sets := by rw [hsets]; exact List.mem_append_right _ (by simp)
  have mn : ("collision_normals".toList, denseSet (rows3 c.normals)) ∈ f.sets := by rw [hsets]; exact List.mem_append_right _ (by simp)
  have mf : ("collision_forces".toList, denseSet (rows3 c.forces)) ∈ f.sets := by rw [hsets]; exact List.mem_append_right _ (by simp)
  obtain ⟨ti, ri, ai, bi, ci⟩ := readTable_ok faithful_int (f := f) (n := "collision_indices".toList) (r := 2) (c := c.indices.length) ⟨_, File.find_of_mem hn mi⟩
  obtain ⟨tp, rp, ap, bp, cp⟩ := readTable_ok faithful_f64 (f := f) (n := "collision_points".toList) (r := 3) (c := c.points.length) ⟨_, File.find_of_mem hn mp⟩
  obtain ⟨tn, rn, an, bn, cn⟩ := readTable_ok faithful_f64 (f := f) (n := "collision_normals".toList) (r := 3) (c := c.normals.length) ⟨_, File.find_of_mem hn mn⟩
  obtain ⟨tf, rf, af, bf, cf⟩ := readTable_ok faithful_f64 (f := f) (n := "collision_forces".toList) (r := 3) (c := c.forces.length) ⟨_, File.find_of_mem hn mf⟩
  have hcnt : (UInt32.ofNat c.indices.length).toNat = c.indices.length := by
    rw [UInt32.toNat_ofNat']
    exact Nat.mod_eq_of_lt lt
  unfold printCollisions
  refine Outcome.bind_ok_iff.mpr ⟨⟨c.indices.length, tf, ti, tn, tp, cStr h.git, h.iteration, times h.timestep h.iteration, h.timestep⟩, ?_, ?_⟩
  · unfold CollisionState.init
    refine Outcome.bind_ok_iff.mpr ⟨_, readScalar_ok faithful_uint (isColumn_of_mem hn mc), ?_⟩
    rw [hcnt]
    refine Outcome.bind_ok_iff.mpr ⟨_, rf, ?_⟩
    refine Outcome.bind_ok_iff.mpr ⟨_, check_ok (by rw [af, bf, lf]; simp), ?_⟩
    refine Outcome.bind_ok_iff.mpr ⟨_, ri, ?_⟩
    refine Outcome.bind_ok_iff.mpr ⟨_, check_ok (by rw [ai, bi]; simp), ?_⟩
    refine Outcome.bind_ok_iff.mpr ⟨_, rn, ?_⟩
    refine Outcome.bind_ok_iff.mpr ⟨_, check_ok (by rw [an, bn, ln]; simp), ?_⟩
    refine Outcome.bind_ok_iff.mpr ⟨_, rp, ?_⟩
    refine Outcome.bind_ok_iff.mpr ⟨_, check_ok (by rw [ap, bp, lp]; simp), ?_⟩
    refine Outcome.bind_ok_iff.mpr ⟨_, readString_ok hd.git, ?_⟩
    refine Outcome.bind_ok_iff.mpr ⟨_, readScalar_ok faithful_uint hd.iteration, ?_⟩
    refine Outcome.bind_ok_iff.mpr ⟨_, readScalar_ok faithful_f64 hd.time, ?_⟩
    refine Outcome.bind_ok_iff.mpr ⟨_, check_ok h1, ?_⟩
    refine Outcome.bind_ok_iff.mpr ⟨_, readScalar_ok faithful_f64 hd.timestep, ?_⟩
    exact Outcome.bind_ok_iff.mpr ⟨_, check_ok h2, rfl⟩
  · unfold collisions Contacts.list
    rw [List.range_eq_range']
    refine collisionLoop_ok A _ _ _ _ fun i _ hi => ?_
    simp only [Nat.zero_add] at hi
    have kn := col3_ok hn mn cn (j := i) (by omega)
    have kp := col3_ok hn mp cp (j := i) (by omega)
    have kf := col3_ok hn mf cf (j := i) (by omega)
    obtain ⟨i0, i1⟩ := entry2 hn c.indices mi i hi
    refine ⟨?_, ?_⟩
    · simp only [kn]
      rw [List.getD_eq_getElem?_getD, List.getElem?_eq_getElem (by omega)]
      exact hu _ (List.getElem_mem _)
    · simp only [kn, kp, kf, ci 0 i _ i0, ci 1 i _ i1]
      rw [List.getD_eq_getElem?_getD (l := c.indices), List.getElem?_eq_getElem hi]
      rfl

/-- **The full statement is false**: of a step without contacts the tool does not print an empty list. It ends with an error, as the file has only their number. -/
theorem C84_no_contacts_false (A : Arith) (times : F64 → UInt32 → F64) (h : Header) (c : Contacts) (hc : c.indices = []) :
    ∃ f, saveForces times h (some c) = .ok f ∧ printCollisions A f = .exit := by
  obtain ⟨f0, I0, s0, W⟩ := header_step times h
  obtain ⟨f1, e1, I1, s1⟩ := column_step I0 "collision_count".toList (by decide) (by decide) [UInt32.ofNat c.indices.length]
  refine ⟨f1, ?_, ?_⟩
  · unfold saveForces
    rw [W]
    have : writeContacts c f0 = .ok f1 := by
      unfold writeContacts
      refine Outcome.bind_ok_iff.mpr ⟨f1, e1, ?_⟩
      rw [if_pos (by simp [hc])]
    simp only [this]
  · unfold printCollisions CollisionState.init
    rw [readScalar_ok faithful_uint (isColumn_of_mem I1.nodup (sets_new s1 (.head _)))]
    have hnone : f1.find "collision_forces".toList = none := (f1.find_none_iff _).mpr fun hx => absurd (I1.names _ hx) (by decide)
    simp only [Outcome.bind, readTable, lookup, hnone]

/-- **The full statement is false**: of a run that does not handle contacts the tool ends with an error as well, as the file has not even their number. -/
theorem C84_no_solver_false (A : Arith) (times : F64 → UInt32 → F64) (h : Header) : ∃ f, saveForces times h none = .ok f ∧ printCollisions A f = .exit := by
  obtain ⟨f0, I0, s0, W⟩ := header_step times h
  refine ⟨f0, ?_, ?_⟩
  · unfold saveForces
    rw [W]
  · unfold printCollisions CollisionState.init
    have hnone : f0.find "collision_count".toList = none := (f0.find_none_iff _).mpr fun hx => absurd (I0.names _ hx) (by decide)
    simp only [Outcome.bind, readScalar, readTable, lookup, hnone]

/-- Arithmetic of bit patterns that accepts everything -/
def exampleArith : Arith := ⟨fun _ => true, fun _ => true, fun x y => x == y, fun _ => true, fun R _ => R, fun _ => true⟩

/-- A mesh from a file -/
def exampleMesh (name : Bytes) : RB3D.Mesh :=
  ⟨name, ⟨0, 0, []⟩, ⟨0, 0, []⟩, ⟨1⟩, ⟨⟨1⟩, ⟨1⟩, ⟨1⟩⟩, ⟨⟨0⟩, ⟨0⟩, ⟨0⟩⟩, ⟨0, 0, []⟩, ⟨0, 0, []⟩, ⟨0, 0, []⟩, ⟨⟨0⟩, ⟨0⟩, ⟨0⟩⟩, ⟨0, 0, 0⟩, ⟨⟨0⟩, ⟨0⟩, ⟨0⟩⟩, [], ⟨⟨0⟩, ⟨0⟩, ⟨0⟩⟩⟩

/-- A sphere and two bodies with meshes, the last of which is scripted -/
def exampleMeshes : RB3D.State where
  nbodies := 3
  q := (List.range 36).map fun i => ⟨UInt64.ofNat i⟩
  v := (List.range 18).map fun i => ⟨UInt64.ofNat (100 + i)⟩
  M0 := ⟨18, 18, (List.range 18).map Int32.ofNat, (List.range 19).map Int32.ofNat, [⟨1⟩, ⟨1⟩, ⟨1⟩, ⟨2⟩, ⟨2⟩, ⟨2⟩, ⟨3⟩, ⟨3⟩, ⟨3⟩, ⟨4⟩, ⟨5⟩, ⟨6⟩, ⟨7⟩, ⟨8⟩, ⟨9⟩, ⟨10⟩, ⟨11⟩, ⟨12⟩]⟩
  Minv0 := ⟨0, 0, [], [], []⟩
  M := ⟨0, 0, [], [], []⟩
  Minv := ⟨0, 0, [], [], []⟩
  fixed := [false, false, true]
  geometry := [.mesh (exampleMesh [98, 46, 104]), .sphere ⟨8⟩, .mesh (exampleMesh [97, 46, 104])]
  geoIdx := [1, 2, 0]
  forces := []
  planes := []
  cylinders := []
  portals := []
  boundary := 0
  boundaryMin := ⟨⟨0⟩, ⟨0⟩, ⟨0⟩⟩
  boundaryMax := ⟨⟨0⟩, ⟨0⟩, ⟨0⟩⟩

theorem exampleMeshes_sized : PostProcessing.Sized exampleMeshes 3 := ⟨⟨rfl, rfl, by decide, by decide⟩, rfl, rfl, rfl, rfl⟩

example : (∀ g ∈ exampleMeshes.geometry, g ≠ .staple) ∧ (∀ b < 3, ∀ m, shape exampleMeshes b = some (.mesh m) → Sane exampleArith exampleMeshes 3 b) ∧
    (meshesOf exampleArith exampleMeshes 3).map (fun m => (m.meshName, m.kinematic, m.M, m.x.x)) = [([97, 46, 104], 0, ⟨2⟩, ⟨3⟩), ([98, 46, 104], 1, ⟨3⟩, ⟨6⟩)] := by
  refine ⟨by decide, fun b hb m _ => ?_, by decide +kernel⟩
  have : ∀ b < 3, Sane exampleArith exampleMeshes 3 b := by unfold Sane; decide +kernel
  exact this b hb

example : ∃ f, saveState (fun dt _ => dt) ⟨⟨1⟩, 2, [97]⟩ (RB3D.writeBinaryState (fun _ a => ⟨a, a, a, a⟩) exampleMeshes) = .ok f ∧
    printMeshes exampleArith f = .ok (meshesOf exampleArith exampleMeshes 3) :=
  C84_meshes exampleArith _ _ _ exampleMeshes 3 exampleMeshes_sized (by decide) rfl rfl fun b hb m _ => by
    have : ∀ b < 3, Sane exampleArith exampleMeshes 3 b := by unfold Sane; decide +kernel
    exact this b hb

/-- **The full statement is false**: the numbers that the tool gives to bodies are not those by which contacts refer to them. In this state the body that is printed as number 0 is body 1. -/
theorem C84_numbers_false (times : F64 → UInt32 → F64) (h : Header) (R : Tri F64 → F64 → RB3D.Quad) :
    ∃ f l m, saveState times h (RB3D.writeBinaryState R exampleMeshes) = .ok f ∧ printNumberedMeshes exampleArith f = .ok l ∧ (m, 0) ∈ l ∧
      m = described exampleArith exampleMeshes 3 1 [97, 46, 104] ∧ m.x ≠ triAt exampleMeshes.q 0 := by
  obtain ⟨f, e, hp⟩ := C84_meshes exampleArith R times h exampleMeshes 3 exampleMeshes_sized (by decide) rfl rfl fun b hb m _ => by
    have : ∀ b < 3, Sane exampleArith exampleMeshes 3 b := by unfold Sane; decide +kernel
    exact this b hb
  refine ⟨f, _, _, e, Outcome.bind_ok_iff.mpr ⟨_, hp, rfl⟩, ?_, rfl, by decide +kernel⟩
  have : meshesOf exampleArith exampleMeshes 3 = [described exampleArith exampleMeshes 3 1 [97, 46, 104], described exampleArith exampleMeshes 3 2 [98, 46, 104]] := rfl
  rw [this]
  exact .head _

/-- Two contacts, one with a body that is not simulated -/
def exampleContacts : Contacts where
  indices := [(0, 1), (2, -1)]
  points := [⟨⟨1⟩, ⟨2⟩, ⟨3⟩⟩, ⟨⟨4⟩, ⟨5⟩, ⟨6⟩⟩]
  normals := [⟨⟨7⟩, ⟨8⟩, ⟨9⟩⟩, ⟨⟨10⟩, ⟨11⟩, ⟨12⟩⟩]
  forces := [⟨⟨13⟩, ⟨14⟩, ⟨15⟩⟩, ⟨⟨16⟩, ⟨17⟩, ⟨18⟩⟩]

example : ∃ f, saveForces (fun dt _ => dt) ⟨⟨1⟩, 2, [97]⟩ (some exampleContacts) = .ok f ∧ printCollisions exampleArith f = .ok exampleContacts.list :=
  C84_contacts_partial exampleArith _ _ exampleContacts (by decide) ⟨rfl, rfl, rfl, by decide⟩ (fun _ _ => rfl) rfl rfl

example : exampleContacts.list.map (fun c => (c.indices, c.impulse.x, c.point.z)) = [((0, 1), ⟨13⟩, ⟨3⟩), ((2, -1), ⟨16⟩, ⟨6⟩)] := by decide

end Scisim
