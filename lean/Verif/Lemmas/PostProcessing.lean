import Verif.Spec.PostProcessing
import Verif.Lemmas.HDF5Files
/-!
# Lemmas on the post-processing tools
-/

namespace Scisim
namespace PostProcessing

open HDF5

/-- A number that is written can be read. -/
def Faithful (α : Type) [Scalar α] : Prop := ∀ x : α, Scalar.get (Scalar.elem x) = some x

theorem faithful_f64 : Faithful F64 := fun _ => rfl
theorem faithful_int : Faithful Int32 := fun _ => rfl
theorem faithful_uint : Faithful UInt32 := fun _ => rfl

theorem value_of_entry {α : Type} [Scalar α] (hg : Faithful α) {f : File} {n : Name} {ty : Ty} {r c : ℕ} {cells : List (Option Elem)} (hf : f.find n = some ⟨ty, [r, c], cells⟩) {i j : ℕ} {x : α}
    (he : f.entry n i j = some (Scalar.elem x)) : value ⟨ty, [r, c], cells⟩ (i * c + j) = x := by
  unfold File.entry at he
  rw [hf] at he
  simp only at he
  split_ifs at he
  unfold value
  simp only
  rw [he]
  simp [hg x]

theorem readTable_ok {α : Type} [Scalar α] (hg : Faithful α) {f : File} {n : Name} {r c : ℕ} (h : f.IsTable n (Scalar.ty α) r c) :
    ∃ t, readTable α f n = .ok t ∧ t.rows = r ∧ t.cols = c ∧ ∀ i j x, f.entry n i j = some (Scalar.elem x) → t.at' i j = x := by
  obtain ⟨cells, hf⟩ := h
  refine ⟨⟨r, c, fun i j => value ⟨Scalar.ty α, [r, c], cells⟩ (i * c + j)⟩, ?_, rfl, rfl, fun i j x he => value_of_entry hg hf he⟩
  unfold readTable lookup
  rw [hf]
  simp only [Outcome.bind, ne_eq, not_true_eq_false, if_false]

theorem readScalar_ok {α : Type} [Scalar α] (hg : Faithful α) {f : File} {n : Name} {x : α} (h : f.IsColumn n [x]) : readScalar α f n = .ok x := by
  obtain ⟨t, ht, hr, hc, ha⟩ := readTable_ok hg h.1
  unfold readScalar
  rw [ht]
  simp only [Outcome.bind]
  rw [hr, hc, if_neg (by simp), ha 0 0 x (by simpa using h.2 0 (by simp))]

theorem readColumn_ok {α : Type} [Scalar α] (hg : Faithful α) {f : File} {n : Name} {l : List α} (h : f.IsColumn n l) : readColumn α f n = .ok l := by
  obtain ⟨⟨cells, hf⟩, he⟩ := h
  unfold readColumn lookup
  rw [hf]
  simp only [Outcome.bind, ne_eq, not_true_eq_false, if_false, one_ne_zero]
  refine congrArg Outcome.ok (List.ext_getElem (by simp) fun i h1 h2 => ?_)
  simp only [List.getElem_map, List.getElem_range]
  exact value_of_entry hg hf (i := i) (j := 0) (he i h2)

theorem readString_ok {f : File} {n : Name} {s : Bytes} (h : f.IsString n s) : readString f n = .ok s := by
  unfold readString lookup
  rw [h]
  rfl

theorem readRecords_ok {f : File} {n : Name} (h : ∀ d, f.find n = some d → d.ty = .compound ∧ ∃ c, d.dims = [c]) :
    ∃ l, readRecords f n = .ok l ∧ ∀ k r, f.recordAt n k = some r → l[k]? = some r := by
  unfold readRecords File.recordAt
  cases hf : f.find n with
  | none => exact ⟨_, rfl, fun k r h => by simp at h⟩
  | some d =>
    obtain ⟨ht, c, hd⟩ := h d hf
    obtain ⟨ty, dims, cells⟩ := d
    simp only at ht hd
    subst ht hd
    refine ⟨_, rfl, fun k r h => ?_⟩
    simp only at h
    split_ifs at h with hk
    rw [List.getElem?_map, List.getElem?_range hk]
    simp only [Option.map_some]
    generalize cells[k]?.join = o at h ⊢
    match o with
    | some (.record r') => simpa using h
    | none => simp at h
    | some (.double _) => simp at h
    | some (.int _) => simp at h
    | some (.uint _) => simp at h
    | some (.long _) => simp at h
    | some (.string _) => simp at h

theorem check_ok {b : Bool} (h : b = true) : check b = .ok () := by rw [h]; rfl

theorem slice3_ok {l : List F64} {k : ℕ} (h : k + 3 ≤ l.length) : slice3 l k = .ok (triAt l k) := by
  have : (l.drop k).take 3 = [l.getD k ⟨0⟩, l.getD (k + 1) ⟨0⟩, l.getD (k + 2) ⟨0⟩] := by
    refine List.ext_getElem (by simp; omega) fun i h1 h2 => ?_
    simp only [List.length_cons, List.length_nil] at h2
    simp only [List.getElem_take, List.getElem_drop, List.getD_eq_getElem?_getD]
    match i with
    | 0 => simp [List.getElem?_eq_getElem (show k < l.length by omega)]
    | 1 => simp [List.getElem?_eq_getElem (show k + 1 < l.length by omega)]
    | 2 => simp [List.getElem?_eq_getElem (show k + 2 < l.length by omega)]
    | i + 3 => omega
  unfold slice3
  rw [this]
  rfl

theorem item_ok {α : Type} {l : List α} {k : ℕ} {x : α} (h : l[k]? = some x) : item l k = .ok x := by
  unfold item
  rw [h]

theorem item_getD {α : Type} {l : List α} {k : ℕ} (d : α) (h : k < l.length) : item l k = .ok (l.getD k d) :=
  item_ok (by rw [List.getD_eq_getElem?_getD, List.getElem?_eq_getElem h]; rfl)

/-- What the constructor finds in a file of the spatial program -/
theorem init_ok (A : Arith) (R : Tri F64 → F64 → RB3D.Quad) (times : F64 → UInt32 → F64) (h : Header) (s : RB3D.State) (n : ℕ) (f : File) (hs : Sized s n)
    (hd : Describes times h f) (hf : RB3D.FileDescribes R s f) (h1 : A.nonneg (times h.timestep h.iteration) = true) (h2 : A.nonneg h.timestep = true) :
    ∃ d, DiscreteState.init A f = .ok d ∧ d.q = s.q ∧ d.nbodies = n ∧ d.v = s.v ∧ d.M0 = s.M0.values ∧ d.scripted = s.fixed.map (fun b => if b then 1 else 0) ∧
      (∀ i j x, f.entry "geometry/geometry_indices".toList i j = some (.uint x) → d.geoIndices.at' i j = x) ∧
      (∀ k r, f.recordAt "geometry/meshes".toList k = some r → d.meshes[k]? = some r) ∧
      d.gitHash = cStr h.git ∧ d.iteration = h.iteration ∧ d.time = times h.timestep h.iteration ∧ d.timestep = h.timestep := by
  obtain ⟨t, ht, hr, hc, ha⟩ := readTable_ok faithful_uint hf.table
  obtain ⟨sp, hsp, _⟩ := readRecords_ok (hf.lists "geometry/spheres".toList (by simp))
  obtain ⟨me, hme, hm⟩ := readRecords_ok (hf.lists "geometry/meshes".toList (by simp))
  have hq : s.q.length / 12 = n := by rw [hs.q]; omega
  refine ⟨⟨s.q, n, s.v, s.M0.values, t, s.fixed.map (fun b => if b then 1 else 0), sp, me, cStr h.git, h.iteration, times h.timestep h.iteration, h.timestep⟩, ?_, rfl, rfl, rfl, rfl, rfl, ha,
    hm, rfl, rfl, rfl, rfl⟩
  unfold DiscreteState.init
  refine Outcome.bind_ok_iff.mpr ⟨_, readColumn_ok faithful_f64 hf.q, ?_⟩
  refine Outcome.bind_ok_iff.mpr ⟨_, check_ok (by rw [hs.q]; simp), ?_⟩
  simp only [hq]
  refine Outcome.bind_ok_iff.mpr ⟨_, readColumn_ok faithful_f64 hf.v, ?_⟩
  refine Outcome.bind_ok_iff.mpr ⟨_, check_ok (by rw [hs.v]; simp), ?_⟩
  refine Outcome.bind_ok_iff.mpr ⟨_, readColumn_ok faithful_f64 hf.M0, ?_⟩
  refine Outcome.bind_ok_iff.mpr ⟨_, check_ok (by rw [hs.M0]; simp), ?_⟩
  refine Outcome.bind_ok_iff.mpr ⟨_, ht, ?_⟩
  refine Outcome.bind_ok_iff.mpr ⟨_, check_ok (by rw [hr, hc, hs.count]; simp), ?_⟩
  refine Outcome.bind_ok_iff.mpr ⟨_, readColumn_ok faithful_uint hf.fixed, ?_⟩
  refine Outcome.bind_ok_iff.mpr ⟨_, check_ok (by rw [List.length_map, hs.state.fixed, hs.count]; simp), ?_⟩
  refine Outcome.bind_ok_iff.mpr ⟨_, hsp, ?_⟩
  refine Outcome.bind_ok_iff.mpr ⟨_, hme, ?_⟩
  refine Outcome.bind_ok_iff.mpr ⟨_, readString_ok hd.git, ?_⟩
  refine Outcome.bind_ok_iff.mpr ⟨_, readScalar_ok faithful_uint hd.iteration, ?_⟩
  refine Outcome.bind_ok_iff.mpr ⟨_, readScalar_ok faithful_f64 hd.time, ?_⟩
  refine Outcome.bind_ok_iff.mpr ⟨_, check_ok h1, ?_⟩
  refine Outcome.bind_ok_iff.mpr ⟨_, readScalar_ok faithful_f64 hd.timestep, ?_⟩
  exact Outcome.bind_ok_iff.mpr ⟨_, check_ok h2, rfl⟩

/-- What the file says of the shape of a body, in terms of type and number -/
theorem shape_entries {f : File} {b : ℕ} {g : RB3D.Shape} (h : RB3D.shapeInFile f b = some g) :
    ∃ ty k, f.entry "geometry/geometry_indices".toList 0 b = some (.uint ty) ∧ f.entry "geometry/geometry_indices".toList 1 b = some (.uint k) ∧
      (ty = 3 ↔ ∃ name, g = .mesh name) ∧ ∀ name, g = .mesh name → f.recordAt "geometry/meshes".toList k.toNat = some [("file_name", .text name)] := by
  unfold RB3D.shapeInFile at h
  split at h
  · rename_i ty k e0 e1
    refine ⟨ty, k, e0, e1, ?_⟩
    split_ifs at h with c0 c1 c3
    · split at h
      · cases h
        subst c0
        exact ⟨by simp, by simp⟩
      · cases h
    · split at h
      · cases h
        subst c1
        exact ⟨by simp, by simp⟩
      · cases h
    · split at h
      · rename_i nm e
        cases h
        exact ⟨by simp [c3], fun name hn => by cases hn; exact e⟩
      · cases h
  · cases h

theorem meshBody_ok (A : Arith) (s : RB3D.State) (n : ℕ) (d : DiscreteState) (hs : Sized s n) (b : ℕ) (hb : b < n) (hq : d.q = s.q) (hn : d.nbodies = n) (hv : d.v = s.v) (hM : d.M0 = s.M0.values)
    (hk : d.scripted = s.fixed.map (fun b => if b then 1 else 0)) (name : Bytes) (hm : d.meshes[(d.geoIndices.at' 1 b).toNat]? = some [("file_name", .text (cStr name))])
    (hsane : Sane A s n b) : meshBody A d b = .ok (described A s n b name) := by
  obtain ⟨g1, g2, g3, g4, g5, g6, g7⟩ := hsane
  have lq := hs.q
  have lv := hs.v
  have lM := hs.M0
  have lf : b < s.fixed.length := by rw [hs.state.fixed, hs.count]; exact hb
  unfold meshBody
  rw [hq, hn, hv, hM, hk]
  refine Outcome.bind_ok_iff.mpr ⟨_, check_ok (decide_eq_true (List.getElem?_eq_some_iff.mp hm).1), ?_⟩
  refine Outcome.bind_ok_iff.mpr ⟨_, item_ok hm, ?_⟩
  refine Outcome.bind_ok_iff.mpr ⟨_, rfl, ?_⟩
  refine Outcome.bind_ok_iff.mpr ⟨if s.fixed.getD b false then 1 else 0, item_ok ?_, ?_⟩
  · rw [List.getElem?_map, List.getD_eq_getElem?_getD, List.getElem?_eq_getElem lf]
    rfl
  refine Outcome.bind_ok_iff.mpr ⟨_, slice3_ok (by omega), ?_⟩
  refine Outcome.bind_ok_iff.mpr ⟨_, slice3_ok (by omega), ?_⟩
  refine Outcome.bind_ok_iff.mpr ⟨_, slice3_ok (by omega), ?_⟩
  refine Outcome.bind_ok_iff.mpr ⟨_, slice3_ok (by omega), ?_⟩
  refine Outcome.bind_ok_iff.mpr ⟨_, check_ok g1, ?_⟩
  refine Outcome.bind_ok_iff.mpr ⟨_, slice3_ok (by omega), ?_⟩
  refine Outcome.bind_ok_iff.mpr ⟨_, slice3_ok (by omega), ?_⟩
  refine Outcome.bind_ok_iff.mpr ⟨_, item_getD ⟨0⟩ (by omega), ?_⟩
  refine Outcome.bind_ok_iff.mpr ⟨_, check_ok g2, ?_⟩
  refine Outcome.bind_ok_iff.mpr ⟨_, item_getD ⟨0⟩ (by omega), ?_⟩
  refine Outcome.bind_ok_iff.mpr ⟨_, check_ok g3, ?_⟩
  refine Outcome.bind_ok_iff.mpr ⟨_, item_getD ⟨0⟩ (by omega), ?_⟩
  refine Outcome.bind_ok_iff.mpr ⟨_, check_ok g4, ?_⟩
  refine Outcome.bind_ok_iff.mpr ⟨_, slice3_ok (by omega), ?_⟩
  exact Outcome.bind_ok_iff.mpr ⟨_, check_ok (by rw [g5, g6, g7]; rfl), rfl⟩

theorem shape_some {s : RB3D.State} {n : ℕ} (hs : Sized s n) {b : ℕ} (hb : b < n) :
    ∃ (hl : b < s.geoIdx.length) (g : RB3D.Geo), g ∈ s.geometry ∧ shape s b = some g ∧ s.geometry[(s.geoIdx[b]'hl).toNat]? = some g := by
  have hl : b < s.geoIdx.length := by rw [hs.state.geoIdx, hs.count]; exact hb
  have hi := hs.state.indices _ (List.getElem_mem hl)
  refine ⟨hl, s.geometry[(s.geoIdx[b]'hl).toNat], List.getElem_mem hi, ?_, List.getElem?_eq_getElem hi⟩
  unfold shape
  rw [List.getElem?_eq_getElem hl]
  exact List.getElem?_eq_getElem hi

theorem meshLoop_ok (A : Arith) (R : Tri F64 → F64 → RB3D.Quad) (s : RB3D.State) (n : ℕ) (f : File) (d : DiscreteState) (hs : Sized s n) (hst : ∀ g ∈ s.geometry, g ≠ .staple)
    (hf : RB3D.FileDescribes R s f) (hq : d.q = s.q) (hn : d.nbodies = n) (hv : d.v = s.v) (hM : d.M0 = s.M0.values)
    (hk : d.scripted = s.fixed.map (fun b => if b then 1 else 0)) (ha : ∀ i j x, f.entry "geometry/geometry_indices".toList i j = some (.uint x) → d.geoIndices.at' i j = x)
    (hme : ∀ k r, f.recordAt "geometry/meshes".toList k = some r → d.meshes[k]? = some r) (hsane : ∀ b < n, ∀ m, shape s b = some (.mesh m) → Sane A s n b) :
    ∀ k b, b + k = n → meshLoop A d b k = .ok ((List.range' b k).filterMap fun b => match shape s b with | some (.mesh m) => some (described A s n b m.fileName) | _ => none) := by
  intro k
  induction k with
  | zero => intro b _; rfl
  | succ k ih =>
    intro b hb
    have hbn : b < n := by omega
    obtain ⟨hl, g, hg, hsh, hgi⟩ := shape_some hs hbn
    have hfile := hf.shapes b hl
    rw [hgi] at hfile
    simp only [Option.bind_some] at hfile
    obtain ⟨sg, hsg⟩ : ∃ sg, RB3D.shapeOf g = some sg := by
      cases g with
      | staple => exact absurd rfl (hst _ hg)
      | _ => exact ⟨_, rfl⟩
    rw [hsg] at hfile
    obtain ⟨ty, kk, e0, e1, h3, hrec⟩ := shape_entries hfile
    unfold meshLoop
    rw [ha 0 b ty e0, List.range'_succ, ih (b + 1) (by omega)]
    have key : ∀ m, g = .mesh m → meshBody A d b = .ok (described A s n b m.fileName) := fun m hm => by
      subst hm
      refine meshBody_ok A s n d hs b hbn hq hn hv hM hk m.fileName ?_ (hsane b hbn m hsh)
      rw [ha 1 b kk e1]
      exact hme _ _ (hrec _ (by simpa [RB3D.shapeOf] using hsg.symm))
    cases g with
    | mesh m =>
      rw [if_pos (h3.mpr ⟨_, by simpa [RB3D.shapeOf] using hsg.symm⟩), key m rfl]
      simp only [Outcome.bind, List.filterMap_cons, hsh]
    | staple => exact absurd rfl (hst _ hg)
    | box r =>
      rw [if_neg (fun hh => by obtain ⟨nm, e⟩ := h3.mp hh; subst e; simp [RB3D.shapeOf] at hsg)]
      simp only [List.filterMap_cons, hsh]
    | sphere r =>
      rw [if_neg (fun hh => by obtain ⟨nm, e⟩ := h3.mp hh; subst e; simp [RB3D.shapeOf] at hsg)]
      simp only [List.filterMap_cons, hsh]

/-! ## Contacts -/

theorem flatMap3_length {P α : Type} (a b c : P → α) (l : List P) : (l.flatMap fun p => [a p, b p, c p]).length = 3 * l.length := by
  induction l with
  | nil => rfl
  | cons p l ih => simp only [List.flatMap_cons, List.length_append, ih, List.length_cons, List.length_nil]; omega

theorem flatMap3_get {P α : Type} (a b c : P → α) (l : List P) (k : ℕ) (h : k < l.length) :
    (l.flatMap fun p => [a p, b p, c p])[k * 3]? = some (a l[k]) ∧ (l.flatMap fun p => [a p, b p, c p])[k * 3 + 1]? = some (b l[k]) ∧
      (l.flatMap fun p => [a p, b p, c p])[k * 3 + 2]? = some (c l[k]) := by
  induction l generalizing k with
  | nil => simp at h
  | cons p l ih =>
    cases k with
    | zero => simp
    | succ k =>
      have := ih k (by simpa using h)
      simp only [List.flatMap_cons, List.getElem_cons_succ]
      rw [show (k + 1) * 3 = k * 3 + 1 + 1 + 1 by omega]
      simpa using this

/-- The data set of a matrix -/
def denseSet {α : Type} [Scalar α] (m : Dense α) : DataSet := ⟨Scalar.ty α, [m.rows, m.cols], (rowMajor m).map (·.map Scalar.elem)⟩

theorem entry3 {f : File} (hn : f.names.Nodup) {n : Name} (l : List (Tri F64)) (h : (n, denseSet (rows3 l)) ∈ f.sets) (j : ℕ) (hj : j < l.length) :
    f.entry n 0 j = some (.double l[j].x) ∧ f.entry n 1 j = some (.double l[j].y) ∧ f.entry n 2 j = some (.double l[j].z) := by
  have hf := File.find_of_mem hn h
  have hlen : (rows3 l).data.length = (rows3 l).rows * (rows3 l).cols := flatMap3_length _ _ _ l
  obtain ⟨l0, e0⟩ := entry_of_find (m := rows3 l) hf hlen 0 j (by simp [rows3]) hj
  obtain ⟨l1, e1⟩ := entry_of_find (m := rows3 l) hf hlen 1 j (by simp [rows3]) hj
  obtain ⟨l2, e2⟩ := entry_of_find (m := rows3 l) hf hlen 2 j (by simp [rows3]) hj
  obtain ⟨g0, g1, g2⟩ := flatMap3_get (fun t : Tri F64 => t.x) (fun t => t.y) (fun t => t.z) l j hj
  rw [e0, e1, e2]
  simp only [rows3, Nat.add_zero] at l0 l1 l2 ⊢
  rw [List.getElem?_eq_getElem l0] at g0
  rw [List.getElem?_eq_getElem l1] at g1
  rw [List.getElem?_eq_getElem l2] at g2
  rw [Option.some.inj g0, Option.some.inj g1, Option.some.inj g2]
  exact ⟨rfl, rfl, rfl⟩

theorem entry2 {f : File} (hn : f.names.Nodup) {n : Name} (l : List (Int32 × Int32)) (h : (n, denseSet (rows2 l)) ∈ f.sets) (j : ℕ) (hj : j < l.length) :
    f.entry n 0 j = some (.int l[j].1) ∧ f.entry n 1 j = some (.int l[j].2) := by
  have hf := File.find_of_mem hn h
  have hlen : (rows2 l).data.length = (rows2 l).rows * (rows2 l).cols := flatMap2_length _ _ l
  obtain ⟨l0, e0⟩ := entry_of_find (m := rows2 l) hf hlen 0 j (by simp [rows2]) hj
  obtain ⟨l1, e1⟩ := entry_of_find (m := rows2 l) hf hlen 1 j (by simp [rows2]) hj
  obtain ⟨g0, g1⟩ := flatMap2_get (fun t : Int32 × Int32 => t.1) (fun t => t.2) l j hj
  rw [e0, e1]
  simp only [rows2, Nat.add_zero] at l0 l1 ⊢
  rw [List.getElem?_eq_getElem l0] at g0
  rw [List.getElem?_eq_getElem l1] at g1
  rw [Option.some.inj g0, Option.some.inj g1]
  exact ⟨rfl, rfl⟩

/-- The data sets of a file with contacts -/
theorem forces_file (times : F64 → UInt32 → F64) (h : Header) (c : Contacts) (hc : c.indices ≠ []) :
    ∃ f, saveForces times h (some c) = .ok f ∧ f.names.Nodup ∧ f.sets = headerSets times h ++ [("collision_count".toList, columnSet [UInt32.ofNat c.indices.length]),
      ("collision_indices".toList, denseSet (rows2 c.indices)), ("collision_points".toList, denseSet (rows3 c.points)), ("collision_normals".toList, denseSet (rows3 c.normals)),
      ("collision_forces".toList, denseSet (rows3 c.forces))] := by
  obtain ⟨f0, I0, s0, W⟩ := header_step times h
  obtain ⟨f1, e1, I1, s1⟩ := column_step I0 "collision_count".toList (by decide) (by decide) [UInt32.ofNat c.indices.length]
  obtain ⟨f2, e2, I2, s2⟩ := write_step I1 "collision_indices".toList (by decide) (by decide) (rows2 c.indices)
  obtain ⟨f3, e3, I3, s3⟩ := write_step I2 "collision_points".toList (by decide) (by decide) (rows3 c.points)
  obtain ⟨f4, e4, I4, s4⟩ := write_step I3 "collision_normals".toList (by decide) (by decide) (rows3 c.normals)
  obtain ⟨f5, e5, I5, s5⟩ := write_step I4 "collision_forces".toList (by decide) (by decide) (rows3 c.forces)
  refine ⟨f5, ?_, I5.nodup, ?_⟩
  · unfold saveForces
    rw [W]
    have : writeContacts c f0 = .ok f5 := by
      unfold writeContacts
      refine Outcome.bind_ok_iff.mpr ⟨f1, e1, ?_⟩
      rw [if_neg (by simpa using hc)]
      exact Outcome.bind_ok_iff.mpr ⟨f2, e2, Outcome.bind_ok_iff.mpr ⟨f3, e3, Outcome.bind_ok_iff.mpr ⟨f4, e4, e5⟩⟩⟩
    simp only [this]
  · rw [s5, s4, s3, s2, s1, s0]
    rfl

theorem col3_ok {f : File} (hn : f.names.Nodup) {n : Name} {l : List (Tri F64)} (h : (n, denseSet (rows3 l)) ∈ f.sets) {t : Table F64}
    (ht : ∀ i j x, f.entry n i j = some (Scalar.elem x) → t.at' i j = x) {j : ℕ} (hj : j < l.length) : col3 t j = l.getD j ⟨⟨0⟩, ⟨0⟩, ⟨0⟩⟩ := by
  obtain ⟨e0, e1, e2⟩ := entry3 hn l h j hj
  unfold col3
  rw [ht 0 j _ e0, ht 1 j _ e1, ht 2 j _ e2, List.getD_eq_getElem?_getD, List.getElem?_eq_getElem hj]
  rfl

theorem collisionLoop_ok (A : Arith) (s : CollisionState) (out : ℕ → Collision) : ∀ k j,
    (∀ i, j ≤ i → i < j + k → A.isUnit (col3 s.normals i) = true ∧ (⟨col3 s.impulses i, (s.indices.at' 0 i, s.indices.at' 1 i), col3 s.normals i, col3 s.points i⟩ : Collision) = out i) →
    collisionLoop A s j k = .ok ((List.range' j k).map out) := by
  intro k
  induction k with
  | zero => intro j _; rfl
  | succ k ih =>
    intro j h
    obtain ⟨h1, h2⟩ := h j (le_refl _) (by omega)
    unfold collisionLoop
    rw [check_ok h1, ih (j + 1) (fun i a b => h i (by omega) (by omega)), List.range'_succ]
    simp only [Outcome.bind, List.map_cons, h2]

end PostProcessing
end Scisim
