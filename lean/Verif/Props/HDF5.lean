import Verif.Lemmas.HDF5Files
/-!
# C68: the configuration files say where everything is
-/

namespace Scisim

namespace HDF5

/-! ## Reading back what was written -/

/-- **C68, reading back.** A matrix of `double`, `int` or `unsigned` that was written under some name, with fewer than 2³¹ rows and columns, is read back exactly: same extents, same
coefficients, bit for bit. -/
theorem C68_read_back {α : Type} [Scalar α] (hty : getNativeType (Scalar.ty α) = some (Scalar.ty α)) (hget : ∀ x : α, Scalar.get (Scalar.elem x) = some x) (f f' : File) (full : Name)
    (m : Dense α) (hm : m.data.length = m.rows * m.cols) (hr : m.rows < 2147483648) (hc : m.cols < 2147483648) (h : write f full m = .ok f') :
    read α none none f' full = .ok m := by
  obtain ⟨f1, h1, h⟩ := Outcome.bind_ok_iff.mp h
  obtain ⟨f2, h2, h⟩ := Outcome.bind_ok_iff.mp h
  have hg : (splitFullName full).1 = [] ∨ (splitFullName full).1 ∈ f1.groups := by
    unfold findOrCreateGroup at h1
    by_cases c1 : (splitFullName full).1 = []
    · exact Or.inl c1
    · right
      rw [if_neg c1] at h1
      by_cases c2 : (splitFullName full).1 ∈ f.groups
      · rw [if_pos c2] at h1
        cases h1
        exact c2
      · rw [if_neg c2] at h1
        split_ifs at h1
        cases h1
        simp
  unfold createDataSet at h2
  split_ifs at h2 with c
  push Not at c
  cases h2
  cases h
  have hnone : f1.find (join (splitFullName full).1 (splitFullName full).2) = none := by
    cases hh : f1.find (join (splitFullName full).1 (splitFullName full).2) with
    | none => rfl
    | some d => rw [hh] at c; simp at c
  have hfind : (File.setCells { f1 with sets := f1.sets ++ [(join (splitFullName full).1 (splitFullName full).2,
      (⟨Scalar.ty α, [m.rows, m.cols], List.replicate (m.rows * m.cols) none⟩ : DataSet))] } (join (splitFullName full).1 (splitFullName full).2)
      ((rowMajor m).map (·.map Scalar.elem))).find (join (splitFullName full).1 (splitFullName full).2)
      = some ⟨Scalar.ty α, [m.rows, m.cols], (rowMajor m).map (·.map Scalar.elem)⟩ := by
    generalize join (splitFullName full).1 (splitFullName full).2 = nm at hnone
    unfold File.find File.setCells
    unfold File.find at hnone
    simp only
    generalize f1.sets = l at hnone
    induction l with
    | nil => simp [List.lookup]
    | cons e l ih =>
      obtain ⟨k, d⟩ := e
      rw [List.lookup_cons] at hnone
      by_cases hk : nm = k
      · subst hk; simp at hnone
      · rw [beq_false_of_ne hk] at hnone
        simp only [List.cons_append, List.map_cons, Ne.symm hk, if_false]
        rw [List.lookup_cons, beq_false_of_ne hk]
        exact ih hnone
  generalize hF : File.setCells _ _ _ = F at hfind ⊢
  have hg' : findGroup F (splitFullName full).1 = .ok () := by
    rw [← hF]; exact if_pos hg
  unfold read
  rw [hg']
  simp only [Outcome.bind]
  rw [hfind]
  simp only
  have tr : (toInt m.rows).toInt = m.rows := by
    unfold toInt
    rw [Int32.toInt_ofNat_of_lt (by simpa using hr)]
  have tc : (toInt m.cols).toInt = m.cols := by
    unfold toInt
    rw [Int32.toInt_ofNat_of_lt (by simpa using hc)]
  have nr : ¬ toInt m.rows < 0 := by
    rw [Int32.lt_iff_toInt_lt, tr]; simp
  have nc : ¬ toInt m.cols < 0 := by
    rw [Int32.lt_iff_toInt_lt, tc]; simp
  rw [if_neg (by simp [hty]), if_neg (by simp [nr, nc]), if_neg (by simp), if_neg (by simp), if_neg (by simp [tr, tc])]
  congr 1
  obtain ⟨r, c, data⟩ := m
  simp only at hm hr hc ⊢
  congr 1
  apply List.ext_getElem
  · simp [hm]
  · intro k hk1 hk2
    simp only [List.getElem_map, List.getElem_range]
    have hk : k < r * c := by simpa using hk1
    have hr0 : 0 < r := Nat.pos_of_ne_zero fun h0 => by simp [h0] at hk
    have hi : k % r < r := Nat.mod_lt _ hr0
    have hj : k / r < c := Nat.div_lt_of_lt_mul hk
    have := rowMajor_get ⟨r, c, data⟩ (k % r) (k / r) hi hj
    simp only at this
    rw [List.getElem?_map, this, show k / r * r + k % r = k by rw [Nat.mul_comm]; exact Nat.div_add_mod k r]
    rw [List.getElem?_eq_getElem hk2]
    simp [hget]

/-- The three types of numbers that can be read -/
theorem C68_read_back_doubles (f f' : File) (full : Name) (m : Dense F64) (hm : m.data.length = m.rows * m.cols) (hr : m.rows < 2147483648) (hc : m.cols < 2147483648)
    (h : write f full m = .ok f') : read F64 none none f' full = .ok m := C68_read_back rfl (fun _ => rfl) f f' full m hm hr hc h

theorem C68_read_back_ints (f f' : File) (full : Name) (m : Dense Int32) (hm : m.data.length = m.rows * m.cols) (hr : m.rows < 2147483648) (hc : m.cols < 2147483648)
    (h : write f full m = .ok f') : read Int32 none none f' full = .ok m := C68_read_back rfl (fun _ => rfl) f f' full m hm hr hc h

theorem C68_read_back_unsigneds (f f' : File) (full : Name) (m : Dense UInt32) (hm : m.data.length = m.rows * m.cols) (hr : m.rows < 2147483648) (hc : m.cols < 2147483648)
    (h : write f full m = .ok f') : read UInt32 none none f' full = .ok m := C68_read_back rfl (fun _ => rfl) f f' full m hm hr hc h

/-- **The full read-back is false**: `write` accepts a matrix of `long`, `read` never gives one back. -/
theorem C68_false_long (a b : Option Nat) (f : File) (full : Name) (m : Dense Int64) : read Int64 a b f full ≠ .ok m := by
  intro h
  unfold read at h
  obtain ⟨_, _, h⟩ := Outcome.bind_ok_iff.mp h
  split at h
  · cases h
  · rename_i d _
    rw [if_pos (by cases d.ty <;> simp [getNativeType, Scalar.ty])] at h
    cases h

example : ∃ f', write File.empty "a/x".toList (⟨1, 2, [5, 6]⟩ : Dense Int64) = .ok f' := ⟨_, rfl⟩

/-- **C68, writing adds and does not change.** A successful write uses a new name and leaves every other data set as it was. -/
theorem C68_write_frame {α : Type} [Scalar α] (f f' : File) (full : Name) (m : Dense α) (h : write f full m = .ok f') :
    f.find (join (splitFullName full).1 (splitFullName full).2) = none ∧
    ∀ n, n ≠ join (splitFullName full).1 (splitFullName full).2 → f'.find n = f.find n := by
  obtain ⟨f1, h1, h⟩ := Outcome.bind_ok_iff.mp h
  obtain ⟨f2, h2, h⟩ := Outcome.bind_ok_iff.mp h
  have hs : f1.sets = f.sets := by
    unfold findOrCreateGroup at h1
    split_ifs at h1 <;> cases h1 <;> rfl
  unfold createDataSet at h2
  split_ifs at h2 with c
  push Not at c
  cases h2
  cases h
  have hf : ∀ n, f1.find n = f.find n := fun n => by unfold File.find; rw [hs]
  refine ⟨?_, ?_⟩
  · rw [← hf]
    cases hh : f1.find (join (splitFullName full).1 (splitFullName full).2) with
    | none => rfl
    | some d => rw [hh] at c; simp at c
  · intro n hn
    rw [← hf]
    generalize join (splitFullName full).1 (splitFullName full).2 = nm at hn
    unfold File.find File.setCells
    simp only
    generalize f1.sets = l
    induction l with
    | nil => simp [List.lookup, beq_false_of_ne hn]
    | cons e l ih =>
      obtain ⟨k, d⟩ := e
      simp only [List.cons_append, List.map_cons]
      by_cases hk : n = k
      · subst hk
        rw [if_neg hn]; simp [List.lookup]
      · rw [show (if k = nm then (k, { d with cells := _ }) else (k, d)) = (k, if k = nm then { d with cells := (rowMajor m).map (·.map Scalar.elem) } else d) by split_ifs <;> rfl]
        rw [List.lookup_cons, List.lookup_cons, beq_false_of_ne hk]
        exact ih

/-- A two by three matrix in a group, read back -/
example : ∃ f', write File.empty "forces/f".toList (⟨2, 3, [1, 2, 3, 4, 5, 6]⟩ : Dense UInt32) = .ok f' ∧
    f'.entry "forces/f".toList 1 0 = some (.uint 2) ∧ read UInt32 none none f' "forces/f".toList = .ok ⟨2, 3, [1, 2, 3, 4, 5, 6]⟩ := by
  refine ⟨_, rfl, by decide +kernel, C68_read_back_unsigneds File.empty _ _ _ (by decide) (by decide) (by decide) rfl⟩

/-- A column is determined by the file -/
theorem column_unique {f : File} {n : Name} {l l' : List F64} (h : f.IsColumn n l) (h' : f.IsColumn n l') : l = l' := by
  obtain ⟨⟨c, e⟩, a⟩ := h
  obtain ⟨⟨c', e'⟩, a'⟩ := h'
  have hlen : l.length = l'.length := by
    rw [e] at e'
    simp at e'
    exact e'.1
  apply List.ext_getElem hlen
  intro i h1 h2
  have := (a i h1).symm.trans (a' i h2)
  simpa [Scalar.elem] using this

end HDF5

open HDF5

/-! ## Balls in the plane -/

/-- **C68, balls.** Saving the configuration of any simulation succeeds and the file contains the step, its number, the time and the version, the positions, velocities, radii and
masses of all balls in order, and the point and normal of every plane. -/
theorem C68_ball2d_partial (times : F64 → UInt32 → F64) (h : Header) (s : Ball2D.State) (n : Nat) (hs : s.Sized n) :
    ∃ f, saveState times h (Ball2D.writeBinaryState s) = .ok f ∧ Describes times h f ∧ Ball2D.FileDescribes s n f :=
  Ball2D.file_ok times h s n hs

/-- **The file does not determine the scene**: drums, portals, the velocities and tangents of planes and which balls are fixed are not in it. -/
theorem C68_false_ball2d (times : F64 → UInt32 → F64) (h : Header) (s : Ball2D.State) (drums : List Ball2D.Drum) (portals : List Ball2D.Portal) (fixed : List Bool) :
    saveState times h (Ball2D.writeBinaryState { s with drums := drums, portals := portals, fixed := fixed }) = saveState times h (Ball2D.writeBinaryState s) := rfl

/-- Two balls over a plane in a drum -/
def exampleBalls : Ball2D.State where
  q := [⟨1⟩, ⟨2⟩, ⟨3⟩, ⟨4⟩]
  v := [⟨5⟩, ⟨6⟩, ⟨7⟩, ⟨8⟩]
  r := [⟨9⟩, ⟨10⟩]
  fixed := [false, true]
  M := ⟨4, 4, [0, 1, 2, 3], [0, 1, 2, 3, 4], [⟨11⟩, ⟨11⟩, ⟨12⟩, ⟨12⟩]⟩
  Minv := ⟨4, 4, [0, 1, 2, 3], [0, 1, 2, 3, 4], [⟨11⟩, ⟨11⟩, ⟨12⟩, ⟨12⟩]⟩
  drums := [⟨⟨⟨0⟩, ⟨0⟩⟩, ⟨100⟩⟩]
  planes := [⟨⟨⟨0⟩, ⟨1⟩⟩, ⟨⟨0⟩, ⟨0⟩⟩, ⟨⟨2⟩, ⟨3⟩⟩, ⟨⟨4⟩, ⟨5⟩⟩⟩]
  portals := []
  forces := []

example : exampleBalls.Sized 2 := ⟨rfl, rfl, rfl, rfl⟩

example : ∃ f, saveState (fun dt _ => dt) ⟨⟨1⟩, 2, [97]⟩ (Ball2D.writeBinaryState exampleBalls) = .ok f ∧ f.entry "q".toList 2 0 = some (.double ⟨3⟩) ∧
    f.entry "static_plane_normals".toList 1 0 = some (.double ⟨3⟩) := by
  obtain ⟨f, e, _, d⟩ := C68_ball2d_partial (fun dt _ => dt) ⟨⟨1⟩, 2, [97]⟩ exampleBalls 2 ⟨rfl, rfl, rfl, rfl⟩
  exact ⟨f, e, (d.q (by decide)).2 2 (by decide), ((d.planes (by decide)).2.2 0 (by decide)).2.2.2⟩

/-! ## Rigid bodies in the plane -/

/-- **C68, rigid bodies in the plane.** Saving the configuration of any simulation succeeds and the file contains the step, its number, the time and the version, positions, velocities,
masses and fixed flags of all bodies; following the table of types and numbers from a body leads to its own shape; planes and portals are listed in order. -/
theorem C68_rb2d_partial (times : F64 → UInt32 → F64) (h : Header) (s : RB2D.State) (n : Nat) (hs : s.Sized n) :
    ∃ f, saveState times h (RB2D.writeBinaryState s) = .ok f ∧ Describes times h f ∧ RB2D.FileDescribes s n f :=
  RB2D.file_ok times h s n hs

/-- **The file does not determine the scene**: how a plane moves is not in it. -/
theorem C68_false_rb2d (times : F64 → UInt32 → F64) (h : Header) (s : RB2D.State) (move : RB2D.Plane → V2 F64 × V2 F64 × F64) :
    saveState times h (RB2D.writeBinaryState { s with planes := s.planes.map fun p => { p with t := (move p).1, v := (move p).2.1, omega := (move p).2.2 } }) =
      saveState times h (RB2D.writeBinaryState s) := by
  refine congrArg (saveState times h) (funext fun f => ?_)
  unfold RB2D.writeBinaryState
  simp only [List.length_map]
  have : ∀ f, writeRecords (some ∘ RB2D.planeRecord) (s.planes.map fun p => ({ p with t := (move p).1, v := (move p).2.1, omega := (move p).2.2 } : RB2D.Plane)) s.planes.length
      "static_geometry".toList "static_planes".toList f = writeRecords (some ∘ RB2D.planeRecord) s.planes s.planes.length "static_geometry".toList "static_planes".toList f := by
    intro f
    unfold writeRecords
    have hin : ∀ (l : List RB2D.Plane) k cells, insertRecords (some ∘ RB2D.planeRecord) (l.map fun p => ({ p with t := (move p).1, v := (move p).2.1, omega := (move p).2.2 } : RB2D.Plane)) k cells
        = insertRecords (some ∘ RB2D.planeRecord) l k cells := by
      intro l
      induction l with
      | nil => intros; rfl
      | cons p l ih =>
        intro k cells
        simp only [List.map_cons, insertRecords, Function.comp, RB2D.planeRecord]
        split_ifs
        · exact ih _ _
        · rfl
    simp only [hin]
  simp only [this]

/-- Three bodies: a box, a circle and the same box again; the circle is the second geometry. A plane and a portal. -/
def exampleBodies : RB2D.State where
  q := [⟨1⟩, ⟨2⟩, ⟨3⟩, ⟨4⟩, ⟨5⟩, ⟨6⟩, ⟨7⟩, ⟨8⟩, ⟨9⟩]
  v := [⟨1⟩, ⟨2⟩, ⟨3⟩, ⟨4⟩, ⟨5⟩, ⟨6⟩, ⟨7⟩, ⟨8⟩, ⟨9⟩]
  M := ⟨9, 9, [0, 1, 2, 3, 4, 5, 6, 7, 8], [0, 1, 2, 3, 4, 5, 6, 7, 8, 9], [⟨1⟩, ⟨1⟩, ⟨2⟩, ⟨1⟩, ⟨1⟩, ⟨2⟩, ⟨1⟩, ⟨1⟩, ⟨2⟩]⟩
  Minv := ⟨9, 9, [0, 1, 2, 3, 4, 5, 6, 7, 8], [0, 1, 2, 3, 4, 5, 6, 7, 8, 9], [⟨1⟩, ⟨1⟩, ⟨2⟩, ⟨1⟩, ⟨1⟩, ⟨2⟩, ⟨1⟩, ⟨1⟩, ⟨2⟩]⟩
  fixed := [false, true, false]
  geoIdx := [2, 1, 2]
  geometry := [.box ⟨⟨20⟩, ⟨21⟩⟩, .circle ⟨22⟩, .box ⟨⟨23⟩, ⟨24⟩⟩]
  forces := []
  planes := [⟨⟨⟨0⟩, ⟨1⟩⟩, ⟨⟨2⟩, ⟨3⟩⟩, ⟨⟨4⟩, ⟨5⟩⟩, ⟨⟨6⟩, ⟨7⟩⟩, ⟨8⟩⟩]
  portals := [⟨⟨⟨⟨0⟩, ⟨1⟩⟩, ⟨⟨2⟩, ⟨3⟩⟩, ⟨⟨4⟩, ⟨5⟩⟩, ⟨⟨6⟩, ⟨7⟩⟩, ⟨8⟩⟩, ⟨⟨⟨0⟩, ⟨1⟩⟩, ⟨⟨2⟩, ⟨3⟩⟩, ⟨⟨4⟩, ⟨5⟩⟩, ⟨⟨6⟩, ⟨7⟩⟩, ⟨8⟩⟩, ⟨9⟩, ⟨10⟩, ⟨11⟩⟩]

theorem exampleBodies_sized : exampleBodies.Sized 3 := ⟨rfl, rfl, rfl, rfl, rfl, by decide, by decide⟩

/-- The third body is the second box. -/
example : ∃ f, saveState (fun dt _ => dt) ⟨⟨1⟩, 2, [97]⟩ (RB2D.writeBinaryState exampleBodies) = .ok f ∧ RB2D.shapeInFile f 2 = some (.box ⟨⟨23⟩, ⟨24⟩⟩) := by
  obtain ⟨f, e, _, d⟩ := C68_rb2d_partial (fun dt _ => dt) ⟨⟨1⟩, 2, [97]⟩ exampleBodies 3 exampleBodies_sized
  exact ⟨f, e, d.shapes 2 (by decide)⟩

/-! ## Rigid bodies in space -/

/-- **C68, rigid bodies in space.** Without staples, saving the configuration of any simulation succeeds and the file contains the step, its number, the time and the version, positions,
velocities, masses with inertia and fixed flags of all bodies; following the table of types and numbers from a body leads to its own shape; planes and cylinders are listed in order.
`R` gives the orientation of a cylinder. -/
theorem C68_rb3d_partial (R : Tri F64 → F64 → RB3D.Quad) (times : F64 → UInt32 → F64) (h : Header) (s : RB3D.State) (hs : s.Sized) (hst : ∀ g ∈ s.geometry, g ≠ .staple) :
    ∃ f, saveState times h (RB3D.writeBinaryState R s) = .ok f ∧ Describes times h f ∧ RB3D.FileDescribes R s f :=
  RB3D.file_ok R times h s hs hst

/-- **With a staple among the geometries the program ends**, even when no body has this geometry: such simulations cannot save configurations. -/
theorem C68_staple_exits (R : Tri F64 → F64 → RB3D.Quad) (times : F64 → UInt32 → F64) (h : Header) (s : RB3D.State) (hs : s.Sized) (hst : .staple ∈ s.geometry) :
    saveState times h (RB3D.writeBinaryState R s) = .exit :=
  RB3D.staple_exit R times h s hs hst

/-- **The file does not determine the scene**: portals and the boundary of the simulation are not in it. -/
theorem C68_false_rb3d (R : Tri F64 → F64 → RB3D.Quad) (times : F64 → UInt32 → F64) (h : Header) (s : RB3D.State) (portals : List RB3D.Portal) (b : Int32) (lo hi : Tri F64) :
    saveState times h (RB3D.writeBinaryState R { s with portals := portals, boundary := b, boundaryMin := lo, boundaryMax := hi }) =
      saveState times h (RB3D.writeBinaryState R s) := rfl

/-- Two spheres of different radius and a box -/
def exampleSolids : RB3D.State where
  nbodies := 3
  q := [⟨1⟩]
  v := [⟨2⟩]
  M0 := ⟨1, 1, [0], [0, 1], [⟨3⟩]⟩
  Minv0 := ⟨1, 1, [0], [0, 1], [⟨3⟩]⟩
  M := ⟨1, 1, [0], [0, 1], [⟨3⟩]⟩
  Minv := ⟨1, 1, [0], [0, 1], [⟨3⟩]⟩
  fixed := [false, true, false]
  geometry := [.sphere ⟨4⟩, .box ⟨⟨5⟩, ⟨6⟩, ⟨7⟩⟩, .sphere ⟨8⟩]
  geoIdx := [2, 0, 1]
  forces := []
  planes := [⟨⟨⟨0⟩, ⟨1⟩, ⟨2⟩⟩, ⟨⟨3⟩, ⟨4⟩, ⟨5⟩⟩, ⟨⟨6⟩, ⟨7⟩, ⟨8⟩⟩, ⟨⟨9⟩, ⟨10⟩, ⟨11⟩⟩⟩]
  cylinders := []
  portals := []
  boundary := 0
  boundaryMin := ⟨⟨0⟩, ⟨0⟩, ⟨0⟩⟩
  boundaryMax := ⟨⟨0⟩, ⟨0⟩, ⟨0⟩⟩

theorem exampleSolids_sized : exampleSolids.Sized := ⟨rfl, rfl, by decide, by decide⟩

example : ∃ f, saveState (fun dt _ => dt) ⟨⟨1⟩, 2, [97]⟩ (RB3D.writeBinaryState (fun _ a => ⟨a, a, a, a⟩) exampleSolids) = .ok f ∧ RB3D.shapeInFile f 0 = some (.sphere ⟨8⟩) ∧
    RB3D.shapeInFile f 2 = some (.box ⟨⟨5⟩, ⟨6⟩, ⟨7⟩⟩) := by
  obtain ⟨f, e, _, d⟩ := C68_rb3d_partial (fun _ a => ⟨a, a, a, a⟩) (fun dt _ => dt) ⟨⟨1⟩, 2, [97]⟩ exampleSolids exampleSolids_sized (by decide)
  exact ⟨f, e, d.shapes 0 (by decide), d.shapes 2 (by decide)⟩

example : saveState (fun dt _ => dt) ⟨⟨1⟩, 2, [97]⟩ (RB3D.writeBinaryState (fun _ a => ⟨a, a, a, a⟩) { exampleSolids with geometry := exampleSolids.geometry ++ [.staple] }) = .exit :=
  C68_staple_exits _ _ _ _ ⟨rfl, rfl, by decide, by decide⟩ (by simp)

/-- **C68, nothing is confused.** Two simulations of bodies in space that are saved to the same file have the same bodies, planes and cylinders. -/
theorem C68_rb3d_determines (R : Tri F64 → F64 → RB3D.Quad) (times : F64 → UInt32 → F64) (h h' : Header) (s s' : RB3D.State) (hs : s.Sized) (hs' : s'.Sized)
    (hst : ∀ g ∈ s.geometry, g ≠ .staple) (hst' : ∀ g ∈ s'.geometry, g ≠ .staple)
    (heq : saveState times h (RB3D.writeBinaryState R s) = saveState times h' (RB3D.writeBinaryState R s')) :
    h.timestep = h'.timestep ∧ h.iteration = h'.iteration ∧ s.q = s'.q ∧ s.v = s'.v ∧ s.M0.values = s'.M0.values ∧ s.fixed = s'.fixed ∧ s.nbodies = s'.nbodies ∧ s.planes = s'.planes ∧
    (∀ b (h1 : b < s.geoIdx.length) (h2 : b < s'.geoIdx.length),
      (s.geometry[s.geoIdx[b].toNat]?).bind RB3D.shapeOf = (s'.geometry[s'.geoIdx[b].toNat]?).bind RB3D.shapeOf) ∧
    s.cylinders.map (fun c => (c.x, R c.n c.theta, c.v, c.omega, c.r)) = s'.cylinders.map (fun c => (c.x, R c.n c.theta, c.v, c.omega, c.r)) := by
  obtain ⟨f, e, d, g⟩ := C68_rb3d_partial R times h s hs hst
  obtain ⟨f', e', d', g'⟩ := C68_rb3d_partial R times h' s' hs' hst'
  rw [e, e'] at heq
  cases heq
  have hn : s.nbodies = s'.nbodies := by
    obtain ⟨c, t⟩ := g.table
    obtain ⟨c', t'⟩ := g'.table
    rw [t] at t'
    simp only [Option.some.injEq, DataSet.mk.injEq, List.cons.injEq, true_and] at t'
    exact UInt32.toNat_inj.mp t'.1.1
  refine ⟨by simpa using column_unique d.timestep d'.timestep, ?_, column_unique g.q g'.q, column_unique g.v g'.v, column_unique g.M0 g'.M0, ?_, hn, ?_, ?_, ?_⟩
  · have a := d.iteration.2 0 (by simp)
    have b := d'.iteration.2 0 (by simp)
    rw [a] at b
    simpa [Scalar.elem] using b
  · apply List.ext_getElem (by rw [hs.fixed, hs'.fixed, hn])
    intro i h1 h2
    have a := g.fixed.2 i (by simpa using h1)
    have b := g'.fixed.2 i (by simpa using h2)
    rw [a] at b
    simp only [List.getElem_map, Scalar.elem, Option.some.injEq, Elem.uint.injEq] at b
    revert b
    cases s.fixed[i] <;> cases s'.fixed[i] <;> simp
  · apply List.ext_getElem?
    intro k
    rw [← g.planes, ← g'.planes]
  · intro b h1 h2
    rw [← g.shapes b h1, ← g'.shapes b h2]
  · apply List.ext_getElem?
    intro k
    rw [List.getElem?_map, List.getElem?_map, ← g.cylinders, ← g'.cylinders]

end Scisim
