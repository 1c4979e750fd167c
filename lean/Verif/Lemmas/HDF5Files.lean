import Verif.Lemmas.HDF5
/-!
# The files of the three programs
-/

namespace Scisim

namespace HDF5

/-- The data set of a column of numbers -/
def columnSet {α : Type} [Scalar α] (l : List α) : DataSet :=
  ⟨Scalar.ty α, [(column l).rows, (column l).cols], (rowMajor (column l)).map (·.map Scalar.elem)⟩

/-- The data set of some records -/
def recordSet (l : List (List (String × Field))) : DataSet := ⟨.compound, [l.length], l.map fun r => some (.record r)⟩

/-- The first four data sets of every file -/
def headerSets (times : F64 → UInt32 → F64) (h : Header) : List (Name × DataSet) :=
  [("timestep".toList, columnSet [h.timestep]),
   ("iteration".toList, columnSet [h.iteration]),
   ("time".toList, columnSet [times h.timestep h.iteration]),
   ("git_hash".toList, ⟨.string, [1], [some (.string (cStr h.git))]⟩)]

theorem column_step {α : Type} [Scalar α] {f : File} {gs L : List Name} (h : Inv f gs L) (full : Name) (hs : splits full = true)
    (hf : fresh gs L (splitFullName full).1 (splitFullName full).2 = true) (l : List α) :
    ∃ f', write f full (column l) = .ok f' ∧ Inv f' ((splitFullName full).1 :: gs) (full :: L) ∧ f'.sets = f.sets ++ [(full, columnSet l)] :=
  write_step h full hs hf (column l)

theorem isColumn_of_mem {α : Type} [Scalar α] {f : File} (hn : f.names.Nodup) {n : Name} {l : List α} (h : (n, columnSet l) ∈ f.sets) : f.IsColumn n l :=
  isColumn_of_find (File.find_of_mem hn h)

theorem header_step (times : F64 → UInt32 → F64) (h : Header) : ∃ f0, Inv f0 [[], [], [], []] ["git_hash".toList, "time".toList, "iteration".toList, "timestep".toList] ∧
    f0.sets = headerSets times h ∧ ∀ W, saveState times h W = match W f0 with | .fail => .exit | o => o := by
  have h0 : Inv File.empty [] [] := ⟨by simp [File.empty], by simp [File.names, File.empty], by simp [File.names, File.empty]⟩
  obtain ⟨f1, e1, I1, s1⟩ := column_step h0 "timestep".toList (by decide) (by decide) [h.timestep]
  obtain ⟨f2, e2, I2, s2⟩ := column_step I1 "iteration".toList (by decide) (by decide) [h.iteration]
  obtain ⟨f3, e3, I3, s3⟩ := column_step I2 "time".toList (by decide) (by decide) [times h.timestep h.iteration]
  obtain ⟨f4, e4, I4, s4⟩ := writeString_step I3 "git_hash".toList (by decide) (by decide) h.git
  refine ⟨f4, I4, ?_, ?_⟩
  · rw [s4, s3, s2, s1]
    rfl
  · intro W
    have h1 : writeScalar File.empty "timestep".toList h.timestep = .ok f1 := e1
    have h2 : writeScalar f1 "iteration".toList h.iteration = .ok f2 := e2
    have h3 : writeScalar f2 "time".toList (times h.timestep h.iteration) = .ok f3 := e3
    unfold saveState
    rw [h1]
    simp only [Outcome.bind, h2, h3, e4]
    all_goals (cases W f4 <;> rfl)

theorem describes_of {times : F64 → UInt32 → F64} {h : Header} {f : File} (hn : f.names.Nodup) (hs : ∀ e ∈ headerSets times h, e ∈ f.sets) : Describes times h f := by
  unfold headerSets at hs
  simp only [List.forall_mem_cons] at hs
  exact ⟨isColumn_of_mem hn hs.1, isColumn_of_mem hn hs.2.1, isColumn_of_mem hn hs.2.2.1, File.find_of_mem hn hs.2.2.2.1⟩

/-- A list of records that may be left out of the file -/
theorem recordAt_of_sets {f : File} (hn : f.names.Nodup) {n : Name} {l : List (List (String × Field))} (h1 : l ≠ [] → (n, recordSet l) ∈ f.sets)
    (h2 : l = [] → n ∉ f.names) (k : Nat) : f.recordAt n k = l[k]? := by
  by_cases h : l = []
  · rw [recordAt_of_none ((f.find_none_iff _).mpr (h2 h)), h]; simp
  · exact recordAt_of_find (File.find_of_mem hn (h1 h)) rfl k

/-- Entries of a table with two rows given column by column -/
theorem flatMap2_get {P α : Type} (a b : P → α) (l : List P) (k : Nat) (h : k < l.length) :
    (l.flatMap fun p => [a p, b p])[k * 2]? = some (a l[k]) ∧ (l.flatMap fun p => [a p, b p])[k * 2 + 1]? = some (b l[k]) := by
  induction l generalizing k with
  | nil => simp at h
  | cons p l ih =>
    cases k with
    | zero => simp
    | succ k =>
      have := ih k (by simpa using h)
      simp only [List.flatMap_cons, List.getElem_cons_succ]
      rw [show (k + 1) * 2 = k * 2 + 1 + 1 by omega]
      simpa using this

theorem flatMap2_length {P α : Type} (a b : P → α) (l : List P) : (l.flatMap fun p => [a p, b p]).length = 2 * l.length := by
  induction l with
  | nil => rfl
  | cons p l ih => simp only [List.flatMap_cons, List.length_append, ih, List.length_cons, List.length_nil]; omega

theorem table2_of_mem {P : Type} (a b : P → F64) (l : List P) {f : File} (hn : f.names.Nodup) {n : Name}
    (h : (n, (⟨.double, [2, l.length], (rowMajor ⟨2, l.length, l.flatMap fun p => [a p, b p]⟩).map (·.map Scalar.elem)⟩ : DataSet)) ∈ f.sets) :
    f.IsTable n .double 2 l.length ∧ ∀ k (h : k < l.length), f.entry n 0 k = some (.double (a l[k])) ∧ f.entry n 1 k = some (.double (b l[k])) := by
  have hf := File.find_of_mem hn h
  refine ⟨⟨_, hf⟩, fun k hk => ?_⟩
  obtain ⟨l0, e0⟩ := entry_of_find (m := ⟨2, l.length, l.flatMap fun p => [a p, b p]⟩) hf (flatMap2_length a b l) 0 k (by simp) hk
  obtain ⟨l1, e1⟩ := entry_of_find (m := ⟨2, l.length, l.flatMap fun p => [a p, b p]⟩) hf (flatMap2_length a b l) 1 k (by simp) hk
  obtain ⟨g0, g1⟩ := flatMap2_get a b l k hk
  rw [e0, e1]
  simp only [Nat.add_zero] at l0 ⊢
  rw [List.getElem?_eq_getElem l0] at g0
  rw [List.getElem?_eq_getElem l1] at g1
  rw [Option.some.inj g0, Option.some.inj g1]
  exact ⟨rfl, rfl⟩

/-- A list of records that is left out when it is empty -/
def optSet (n : Name) (l : List (List (String × Field))) : List (Name × DataSet) := if l = [] then [] else [(n, recordSet l)]

theorem mem_optSet {n : Name} {l : List (List (String × Field))} (h : l ≠ []) : (n, recordSet l) ∈ optSet n l := by
  unfold optSet
  rw [if_neg h]
  exact .head _

theorem optSet_names {n x : Name} {l : List (List (String × Field))} (h : x ∈ (optSet n l).map (·.1)) : x = n ∧ l ≠ [] := by
  unfold optSet at h
  by_cases hl : l = []
  · rw [if_pos hl] at h; exact absurd h (by simp)
  · rw [if_neg hl] at h
    exact ⟨by simpa using h, hl⟩

theorem records_opt {G : Type} (sel : G → Option (List (String × Field))) (items : List G) {f : File} {gs L : List Name} (h : Inv f gs L) (group name : Name)
    (hf : fresh gs L group name = true) (count : Nat) (hc : count = (items.filterMap sel).length) (p : Prop) [Decidable p] (hp : p ↔ count ≠ 0) :
    ∃ f', (if p then writeRecords sel items count group name f else .ok f) = .ok f' ∧ Inv f' (group :: gs) (join group name :: L) ∧
      f'.sets = f.sets ++ optSet (join group name) (items.filterMap sel) := by
  obtain ⟨f', e, I, s⟩ := records_step_if sel items h hf count hc p hp
  refine ⟨f', e, I, ?_⟩
  rw [s]
  unfold optSet recordSet
  rw [hc]

theorem sets_sub {f f' : File} {X : List (Name × DataSet)} (h : f'.sets = f.sets ++ X) {e : Name × DataSet} (he : e ∈ f.sets) : e ∈ f'.sets := by
  rw [h]; exact List.mem_append_left _ he

theorem sets_new {f f' : File} {X : List (Name × DataSet)} (h : f'.sets = f.sets ++ X) {e : Name × DataSet} (he : e ∈ X) : e ∈ f'.sets := by
  rw [h]; exact List.mem_append_right _ he

theorem names_split {f f' : File} {n x : Name} {l : List (List (String × Field))} (h : f'.sets = f.sets ++ optSet n l) (hx : x ∈ f'.names) :
    x ∈ f.names ∨ (x = n ∧ l ≠ []) := by
  unfold File.names at hx
  rw [h, List.map_append] at hx
  rcases List.mem_append.mp hx with hx | hx
  · exact Or.inl hx
  · exact Or.inr (optSet_names hx)

theorem shape_lookup {G β : Type} (code : G → Nat) (sel : G → Option β) (t : Nat) (hs : ∀ g, (sel g).isSome = decide (code g = t)) (geometry : List G)
    (hl : geometry.length < 4294967296) (i : Nat) (g : G) (hi : geometry[i]? = some g) (r : β) (hr : sel g = some r) :
    (geometry.filterMap sel)[(UInt32.ofNat ((geometry.take i).countP fun x => code x = code g)).toNat]? = some r := by
  obtain ⟨hlt, rfl⟩ := List.getElem?_eq_some_iff.mp hi
  have hcode : code geometry[i] = t := by
    have := hs geometry[i]
    rw [hr] at this
    simpa using this.symm
  have h1 : (UInt32.ofNat ((geometry.take i).countP fun x => code x = code geometry[i])).toNat = (geometry.take i).countP fun g => (sel g).isSome := by
    rw [UInt32.toNat_ofNat', Nat.mod_eq_of_lt]
    · rw [hcode]
      congr 1
      funext x
      exact (hs x).symm
    · refine Nat.lt_of_le_of_lt List.countP_le_length (Nat.lt_of_le_of_lt ?_ hl)
      rw [List.length_take]; omega
  rw [h1]
  exact filterMap_rank sel geometry i hlt r hr

theorem flags_ok (l : List Bool) (n : Nat) (h : l.length = n) : flags l n = .ok (l.map fun b => if b then 1 else 0) := by
  unfold flags
  rw [if_pos (by omega), ← h, List.take_length]

end HDF5

open HDF5

namespace Ball2D

theorem file_ok (times : F64 → UInt32 → F64) (h : Header) (s : State) (n : Nat) (hs : s.Sized n) :
    ∃ f, saveState times h (writeBinaryState s) = .ok f ∧ Describes times h f ∧ FileDescribes s n f := by
  obtain ⟨f0, I0, s0, e0⟩ := header_step times h
  have hb : ∃ f1, writeBalls s f0 = .ok f1 ∧
      Inv f1 [[], [], [], [], [], [], [], []] ["m".toList, "r".toList, "v".toList, "q".toList, "git_hash".toList, "time".toList, "iteration".toList, "timestep".toList] ∧
      f1.sets = f0.sets ++ if n = 0 then [] else [("q".toList, columnSet s.q), ("v".toList, columnSet s.v), ("r".toList, columnSet s.r), ("m".toList, columnSet s.M.values)] := by
    by_cases h0 : n = 0
    · refine ⟨f0, ?_, (((I0.weaken _ _).weaken _ _).weaken _ _).weaken _ _, by simp [h0]⟩
      unfold writeBalls
      rw [if_pos (by rw [hs.q, h0])]
    · obtain ⟨f1, e1, I1, s1⟩ := column_step I0 "q".toList (by decide) (by decide) s.q
      obtain ⟨f2, e2, I2, s2⟩ := column_step I1 "v".toList (by decide) (by decide) s.v
      obtain ⟨f3, e3, I3, s3⟩ := column_step I2 "r".toList (by decide) (by decide) s.r
      obtain ⟨f4, e4, I4, s4⟩ := column_step I3 "m".toList (by decide) (by decide) s.M.values
      refine ⟨f4, ?_, I4, ?_⟩
      · unfold writeBalls
        have hv : firstValues s.M s.q.length = .ok s.M.values := by
          unfold firstValues
          rw [if_pos (by rw [hs.q, hs.M]), hs.q, ← hs.M, List.take_length]
        rw [if_neg (by rw [hs.q]; omega), e1]
        simp only [Outcome.bind, e2, e3, e4, hv]
      · rw [s4, s3, s2, s1, if_neg h0]; simp
  obtain ⟨f1, e1, I1, s1⟩ := hb
  have hp : ∃ f2 gs L, writeBinaryState s f0 = .ok f2 ∧ Inv f2 gs L ∧ f2.sets = f1.sets ++ if s.planes = [] then [] else
      [("static_plane_centers".toList, ⟨.double, [2, s.planes.length], (rowMajor ⟨2, s.planes.length, s.planes.flatMap fun p => [p.x.x, p.x.y]⟩).map (·.map Scalar.elem)⟩),
       ("static_plane_normals".toList, ⟨.double, [2, s.planes.length], (rowMajor ⟨2, s.planes.length, s.planes.flatMap fun p => [p.n.x, p.n.y]⟩).map (·.map Scalar.elem)⟩)] := by
    by_cases h0 : s.planes = []
    · refine ⟨f1, _, _, ?_, I1, by simp [h0]⟩
      unfold writeBinaryState
      rw [e1]
      simp [Outcome.bind, h0]
    · obtain ⟨f2, e2, I2, s2⟩ := write_step I1 "static_plane_centers".toList (by decide) (by decide) (⟨2, s.planes.length, s.planes.flatMap fun p => [p.x.x, p.x.y]⟩ : Dense F64)
      obtain ⟨f3, e3, I3, s3⟩ := write_step I2 "static_plane_normals".toList (by decide) (by decide) (⟨2, s.planes.length, s.planes.flatMap fun p => [p.n.x, p.n.y]⟩ : Dense F64)
      refine ⟨f3, _, _, ?_, I3, ?_⟩
      · unfold writeBinaryState
        rw [e1]
        simp only [Outcome.bind, e2, e3]
        rw [if_neg (by simpa using h0)]
      · rw [s3, s2, if_neg h0, List.append_assoc]; rfl
  obtain ⟨f2, gs, L, e2, I2, s2⟩ := hp
  have hset := s2
  rw [s1, s0] at hset
  refine ⟨f2, by rw [e0, e2], describes_of I2.nodup fun e he => by rw [hset]; exact List.mem_append_left _ (List.mem_append_left _ he), ?_⟩
  refine ⟨fun h0 => isColumn_of_mem I2.nodup ?_, fun h0 => isColumn_of_mem I2.nodup ?_, fun h0 => isColumn_of_mem I2.nodup ?_, fun h0 => isColumn_of_mem I2.nodup ?_, fun h0 => ?_, ?_⟩
  · rw [hset, if_neg h0]; exact List.mem_append_left _ (List.mem_append_right _ (.head _))
  · rw [hset, if_neg h0]; exact List.mem_append_left _ (List.mem_append_right _ (.tail _ (.head _)))
  · rw [hset, if_neg h0]; exact List.mem_append_left _ (List.mem_append_right _ (.tail _ (.tail _ (.head _))))
  · rw [hset, if_neg h0]; exact List.mem_append_left _ (List.mem_append_right _ (.tail _ (.tail _ (.tail _ (.head _)))))
  · obtain ⟨a1, a2⟩ := table2_of_mem (fun p : Plane => p.x.x) (fun p => p.x.y) s.planes (n := "static_plane_centers".toList) I2.nodup
      (by rw [hset, if_neg h0]; exact List.mem_append_right _ (.head _))
    obtain ⟨b1, b2⟩ := table2_of_mem (fun p : Plane => p.n.x) (fun p => p.n.y) s.planes (n := "static_plane_normals".toList) I2.nodup
      (by rw [hset, if_neg h0]; exact List.mem_append_right _ (.tail _ (.head _)))
    exact ⟨a1, b1, fun k hk => ⟨(a2 k hk).1, (a2 k hk).2, (b2 k hk).1, (b2 k hk).2⟩⟩
  · unfold File.names
    rw [hset, List.map_append, List.map_append]
    by_cases h0 : n = 0
    · rw [if_pos h0, if_pos h0]
      by_cases h1 : s.planes = []
      · rw [if_pos h1, if_pos h1]; rfl
      · rw [if_neg h1, if_neg h1]; rfl
    · rw [if_neg h0, if_neg h0]
      by_cases h1 : s.planes = []
      · rw [if_pos h1, if_pos h1]; rfl
      · rw [if_neg h1, if_neg h1]; rfl

end Ball2D

namespace RB2D

theorem file_ok (times : F64 → UInt32 → F64) (h : Header) (s : State) (n : Nat) (hs : s.Sized n) :
    ∃ f, saveState times h (writeBinaryState s) = .ok f ∧ Describes times h f ∧ FileDescribes s n f := by
  obtain ⟨f0, I0, s0, e0⟩ := header_step times h
  obtain ⟨f1, e1, I1, s1⟩ := column_step I0 "q".toList (by decide) (by decide) s.q
  obtain ⟨f2, e2, I2, s2⟩ := column_step I1 "v".toList (by decide) (by decide) s.v
  obtain ⟨f3, e3, I3, s3⟩ := column_step I2 "m".toList (by decide) (by decide) s.M.values
  obtain ⟨f4, e4, I4, s4⟩ := column_step (α := UInt32) I3 "kinematically_scripted".toList (by decide) (by decide) (s.fixed.map fun b => if b then 1 else 0)
  obtain ⟨f5, cells, e5, I5, s5, hcells⟩ := indices_step Geo.code s.geometry s.geoIdx I4 (group := "geometry".toList) (by decide) hs.indices
  have c0 : ∀ g, (circleRecord g).isSome = decide (Geo.code g = 0) := by intro g; cases g <;> rfl
  have c1 : ∀ g, (boxRecord g).isSome = decide (Geo.code g = 1) := by intro g; cases g <;> rfl
  obtain ⟨f6, e6, I6, s6⟩ := records_opt circleRecord s.geometry I5 "geometry".toList "circles".toList (by decide) (countType Geo.code 0 s.geometry).toNat
    (by rw [countType_toNat _ _ _ hs.geometry, filterMap_length _ _ _ c0]) (countType Geo.code 0 s.geometry ≠ 0) (countType_ne_zero _ _ _)
  obtain ⟨f7, e7, I7, s7⟩ := records_opt boxRecord s.geometry I6 "geometry".toList "boxes".toList (by decide) (countType Geo.code 1 s.geometry).toNat
    (by rw [countType_toNat _ _ _ hs.geometry, filterMap_length _ _ _ c1]) (countType Geo.code 1 s.geometry ≠ 0) (countType_ne_zero _ _ _)
  obtain ⟨f8, e8, I8, s8⟩ := records_opt (some ∘ planeRecord) s.planes I7 "static_geometry".toList "static_planes".toList (by decide) s.planes.length
    (by rw [List.filterMap_eq_map]; simp) (s.planes.length ≠ 0) Iff.rfl
  obtain ⟨f9, e9, I9, s9⟩ := records_opt (some ∘ portalRecord) s.portals I8 "static_geometry".toList "planar_portals".toList (by decide) s.portals.length
    (by rw [List.filterMap_eq_map]; simp) (s.portals.length ≠ 0) Iff.rfl
  have hv : firstValues s.M s.q.length = .ok s.M.values := by
    unfold firstValues
    rw [if_pos (by rw [hs.q, hs.M]), hs.q, ← hs.M, List.take_length]
  have hfl := flags_ok s.fixed (s.q.length / 3) (by rw [hs.q, hs.fixed]; omega)
  have hw : writeBinaryState s f0 = .ok f9 := by
    unfold writeBinaryState writeGeometry
    rw [e1]
    simp only [Outcome.bind, e2, e3, e4, e5, e6, e7, e8, e9, hv, hfl]
  rw [show join "geometry".toList "geometry_indices".toList = "geometry/geometry_indices".toList by decide] at s5
  rw [show join "geometry".toList "circles".toList = "geometry/circles".toList by decide] at s6
  rw [show join "geometry".toList "boxes".toList = "geometry/boxes".toList by decide] at s7
  rw [show join "static_geometry".toList "static_planes".toList = "static_geometry/static_planes".toList by decide, List.filterMap_eq_map] at s8
  rw [show join "static_geometry".toList "planar_portals".toList = "static_geometry/planar_portals".toList by decide, List.filterMap_eq_map] at s9
  have hnd := I9.nodup
  have hrec : ∀ {n : Name} {l : List (List (String × Field))} (k : Nat), (∀ e ∈ optSet n l, e ∈ f9.sets) → (l = [] → n ∉ f9.names) → f9.recordAt n k = l[k]? :=
    fun k h1 h2 => recordAt_of_sets hnd (fun hl => h1 _ (mem_optSet hl)) h2 k
  have up5 : ∀ e ∈ f5.sets, e ∈ f9.sets := fun e he => sets_sub s9 (sets_sub s8 (sets_sub s7 (sets_sub s6 he)))
  have habsent : ∀ {x : Name}, x ∈ f9.names → x ∈ f5.names ∨
      (x = "geometry/circles".toList ∧ s.geometry.filterMap circleRecord ≠ []) ∨ (x = "geometry/boxes".toList ∧ s.geometry.filterMap boxRecord ≠ []) ∨
      (x = "static_geometry/static_planes".toList ∧ s.planes.map planeRecord ≠ []) ∨ (x = "static_geometry/planar_portals".toList ∧ s.portals.map portalRecord ≠ []) := by
    intro x hx
    rcases names_split s9 hx with hx | hx
    · rcases names_split s8 hx with hx | hx
      · rcases names_split s7 hx with hx | hx
        · rcases names_split s6 hx with hx | hx
          · exact Or.inl hx
          · exact Or.inr (Or.inl hx)
        · exact Or.inr (Or.inr (Or.inl hx))
      · exact Or.inr (Or.inr (Or.inr (Or.inl hx)))
    · exact Or.inr (Or.inr (Or.inr (Or.inr hx)))
  refine ⟨f9, by rw [e0, hw], describes_of hnd fun e he => up5 _ (sets_sub s5 (sets_sub s4 (sets_sub s3 (sets_sub s2 (sets_sub s1 (by rw [s0]; exact he)))))), ?_⟩
  · have mq := up5 _ (sets_sub s5 (sets_sub s4 (sets_sub s3 (sets_sub s2 (sets_new s1 (.head _))))))
    have mv := up5 _ (sets_sub s5 (sets_sub s4 (sets_sub s3 (sets_new s2 (.head _)))))
    have mm := up5 _ (sets_sub s5 (sets_sub s4 (sets_new s3 (.head _))))
    have mk := up5 _ (sets_sub s5 (sets_new s4 (.head _)))
    have mi := up5 _ (sets_new s5 (.head _))
    have rc : ∀ k, f9.recordAt "geometry/circles".toList k = (s.geometry.filterMap circleRecord)[k]? := fun k => hrec k
      (fun e he => sets_sub s9 (sets_sub s8 (sets_sub s7 (sets_new s6 he)))) fun h0 hx => by
        rcases habsent hx with hx | hx | hx | hx | hx
        · exact absurd (I5.names _ hx) (by decide)
        · exact hx.2 h0
        · exact absurd hx.1 (by decide)
        · exact absurd hx.1 (by decide)
        · exact absurd hx.1 (by decide)
    have rb : ∀ k, f9.recordAt "geometry/boxes".toList k = (s.geometry.filterMap boxRecord)[k]? := fun k => hrec k
      (fun e he => sets_sub s9 (sets_sub s8 (sets_new s7 he))) fun h0 hx => by
        rcases habsent hx with hx | hx | hx | hx | hx
        · exact absurd (I5.names _ hx) (by decide)
        · exact absurd hx.1 (by decide)
        · exact hx.2 h0
        · exact absurd hx.1 (by decide)
        · exact absurd hx.1 (by decide)
    have rp : ∀ k, f9.recordAt "static_geometry/static_planes".toList k = (s.planes.map planeRecord)[k]? := fun k => hrec k
      (fun e he => sets_sub s9 (sets_new s8 he)) fun h0 hx => by
        rcases habsent hx with hx | hx | hx | hx | hx
        · exact absurd (I5.names _ hx) (by decide)
        · exact absurd hx.1 (by decide)
        · exact absurd hx.1 (by decide)
        · exact hx.2 h0
        · exact absurd hx.1 (by decide)
    have rt : ∀ k, f9.recordAt "static_geometry/planar_portals".toList k = (s.portals.map portalRecord)[k]? := fun k => hrec k
      (fun e he => sets_new s9 he) fun h0 hx => by
        rcases habsent hx with hx | hx | hx | hx | hx
        · exact absurd (I5.names _ hx) (by decide)
        · exact absurd hx.1 (by decide)
        · exact absurd hx.1 (by decide)
        · exact absurd hx.1 (by decide)
        · exact hx.2 h0
    have fi := File.find_of_mem hnd mi
    refine ⟨isColumn_of_mem hnd mq, isColumn_of_mem hnd mv, isColumn_of_mem hnd mm, isColumn_of_mem hnd mk, ?_, ?_, ?_, ?_⟩
    · exact ⟨cells, by rw [fi, hs.geoIdx]⟩
    · intro b hb
      obtain ⟨g, hg, t0, t1⟩ := hcells b hb
      obtain ⟨u0, u1⟩ := entry_indices fi b hb
      rw [t0, Option.join_some] at u0
      rw [t1, Option.join_some] at u1
      unfold shapeInFile
      rw [u0, u1, hg]
      simp only
      cases g with
      | circle r =>
        have := shape_lookup Geo.code circleRecord 0 c0 s.geometry hs.geometry _ _ hg _ rfl
        rw [if_pos (show UInt32.ofNat (Geo.code (.circle r)) = 0 from rfl), rc, this]
        rfl
      | box r =>
        have := shape_lookup Geo.code boxRecord 1 c1 s.geometry hs.geometry _ _ hg _ rfl
        rw [if_neg (show ¬ UInt32.ofNat (Geo.code (.box r)) = 0 from (by decide : ¬ UInt32.ofNat 1 = 0)), if_pos (show UInt32.ofNat (Geo.code (.box r)) = 1 from rfl), rb, this]
        rfl
    · intro k
      unfold planeInFile
      rw [rp, List.getElem?_map]
      cases s.planes[k]? <;> rfl
    · intro k
      unfold portalInFile
      rw [rt, List.getElem?_map]
      cases s.portals[k]? <;> rfl

end RB2D

namespace RB3D

theorem file_ok (R : Tri F64 → F64 → Quad) (times : F64 → UInt32 → F64) (h : Header) (s : State) (hs : s.Sized) (hst : ∀ g ∈ s.geometry, g ≠ .staple) :
    ∃ f, saveState times h (writeBinaryState R s) = .ok f ∧ Describes times h f ∧ FileDescribes R s f := by
  obtain ⟨f0, I0, s0, e0⟩ := header_step times h
  obtain ⟨f1, cells, e1, I1, s1, hcells⟩ := indices_step Geo.code s.geometry s.geoIdx I0 (group := "geometry".toList) (by decide) hs.indices
  have c0 : ∀ g, (boxRecord g).isSome = decide (Geo.code g = 0) := by intro g; cases g <;> rfl
  have c1 : ∀ g, (sphereRecord g).isSome = decide (Geo.code g = 1) := by intro g; cases g <;> rfl
  have c3 : ∀ g, (meshRecord g).isSome = decide (Geo.code g = 3) := by intro g; cases g <;> rfl
  obtain ⟨f2, e2, I2, s2⟩ := records_opt boxRecord s.geometry I1 "geometry".toList "boxes".toList (by decide) (countType Geo.code 0 s.geometry).toNat
    (by rw [countType_toNat _ _ _ hs.geometry, filterMap_length _ _ _ c0]) (countType Geo.code 0 s.geometry ≠ 0) (countType_ne_zero _ _ _)
  obtain ⟨f3, e3, I3, s3⟩ := records_opt sphereRecord s.geometry I2 "geometry".toList "spheres".toList (by decide) (countType Geo.code 1 s.geometry).toNat
    (by rw [countType_toNat _ _ _ hs.geometry, filterMap_length _ _ _ c1]) (countType Geo.code 1 s.geometry ≠ 0) (countType_ne_zero _ _ _)
  obtain ⟨f4, e4, I4, s4⟩ := records_opt meshRecord s.geometry I3 "geometry".toList "meshes".toList (by decide) (countType Geo.code 3 s.geometry).toNat
    (by rw [countType_toNat _ _ _ hs.geometry, filterMap_length _ _ _ c3]) (countType Geo.code 3 s.geometry ≠ 0) (countType_ne_zero _ _ _)
  obtain ⟨f5, e5, I5, s5⟩ := records_opt (some ∘ planeRecord) s.planes I4 "static_geometry".toList "static_planes".toList (by decide) s.planes.length
    (by rw [List.filterMap_eq_map]; simp) (s.planes.length ≠ 0) Iff.rfl
  obtain ⟨f6, e6, I6, s6⟩ := records_opt (some ∘ cylinderRecord R) s.cylinders I5 "static_geometry".toList "static_cylinders".toList (by decide) s.cylinders.length
    (by rw [List.filterMap_eq_map]; simp) (s.cylinders.length ≠ 0) Iff.rfl
  obtain ⟨f7, e7, I7, s7⟩ := column_step I6 "state/q".toList (by decide) (by decide) s.q
  obtain ⟨f8, e8, I8, s8⟩ := column_step I7 "state/v".toList (by decide) (by decide) s.v
  obtain ⟨f9, e9, I9, s9⟩ := column_step I8 "state/M0".toList (by decide) (by decide) s.M0.values
  obtain ⟨f10, e10, I10, s10⟩ := column_step (α := UInt32) I9 "state/kinematically_scripted".toList (by decide) (by decide) (s.fixed.map fun b => if b then 1 else 0)
  have hfl := flags_ok s.fixed s.nbodies.toNat hs.fixed
  have h2 : ¬ countType Geo.code 2 s.geometry ≠ 0 := by
    intro hne
    refine (countType_ne_zero _ _ _).mp hne ?_
    rw [countType_toNat _ _ _ hs.geometry, List.countP_eq_zero]
    intro g hg
    have := hst g hg
    cases g <;> simp [Geo.code] at this ⊢
  have hw : writeBinaryState R s f0 = .ok f10 := by
    unfold writeBinaryState writeGeometry
    rw [e1]
    simp only [Outcome.bind, e2, e3, e4, e5, e6, e7, e8, e9, e10, hfl, if_neg h2]
  rw [show join "geometry".toList "geometry_indices".toList = "geometry/geometry_indices".toList by decide] at s1
  rw [show join "geometry".toList "boxes".toList = "geometry/boxes".toList by decide] at s2
  rw [show join "geometry".toList "spheres".toList = "geometry/spheres".toList by decide] at s3
  rw [show join "geometry".toList "meshes".toList = "geometry/meshes".toList by decide] at s4
  rw [show join "static_geometry".toList "static_planes".toList = "static_geometry/static_planes".toList by decide, List.filterMap_eq_map] at s5
  rw [show join "static_geometry".toList "static_cylinders".toList = "static_geometry/static_cylinders".toList by decide, List.filterMap_eq_map] at s6
  have hnd := I10.nodup
  have up6 : ∀ e ∈ f6.sets, e ∈ f10.sets := fun e he => sets_sub s10 (sets_sub s9 (sets_sub s8 (sets_sub s7 he)))
  have hlist : ∀ {n : Name} {l : List (List (String × Field))}, (∀ e ∈ optSet n l, e ∈ f6.sets) →
      (n ∉ ["state/q".toList, "state/v".toList, "state/M0".toList, "state/kinematically_scripted".toList]) → (l = [] → n ∉ f6.names) →
      ∀ d, f10.find n = some d → d.ty = .compound ∧ ∃ c, d.dims = [c] := by
    intro n l h1 h3 h2 d hd
    by_cases hl : l = []
    · exfalso
      have hx : n ∈ f10.names := by
        by_contra hx
        rw [(f10.find_none_iff n).mpr hx] at hd
        cases hd
      unfold File.names at hx
      rw [s10, s9, s8, s7] at hx
      simp only [List.map_append, List.append_assoc] at hx
      rcases List.mem_append.mp hx with hx | hx
      · exact h2 hl hx
      · exact h3 hx
    · rw [File.find_of_mem hnd (up6 _ (h1 _ (mem_optSet hl)))] at hd
      cases hd
      exact ⟨rfl, _, rfl⟩
  have hrec : ∀ {n : Name} {l : List (List (String × Field))} (k : Nat), (∀ e ∈ optSet n l, e ∈ f6.sets) →
      (n ∉ ["state/q".toList, "state/v".toList, "state/M0".toList, "state/kinematically_scripted".toList]) → (l = [] → n ∉ f6.names) → f10.recordAt n k = l[k]? := by
    intro n l k h1 h3 h2
    refine recordAt_of_sets hnd (fun hl => up6 _ (h1 _ (mem_optSet hl))) (fun hl hx => ?_) k
    unfold File.names at hx
    rw [s10, s9, s8, s7] at hx
    simp only [List.map_append, List.append_assoc] at hx
    rcases List.mem_append.mp hx with hx | hx
    · exact h2 hl hx
    · exact h3 hx
  have habsent : ∀ {x : Name}, x ∈ f6.names → x ∈ f1.names ∨
      (x = "geometry/boxes".toList ∧ s.geometry.filterMap boxRecord ≠ []) ∨ (x = "geometry/spheres".toList ∧ s.geometry.filterMap sphereRecord ≠ []) ∨
      (x = "geometry/meshes".toList ∧ s.geometry.filterMap meshRecord ≠ []) ∨
      (x = "static_geometry/static_planes".toList ∧ s.planes.map planeRecord ≠ []) ∨ (x = "static_geometry/static_cylinders".toList ∧ s.cylinders.map (cylinderRecord R) ≠ []) := by
    intro x hx
    rcases names_split s6 hx with hx | hx
    · rcases names_split s5 hx with hx | hx
      · rcases names_split s4 hx with hx | hx
        · rcases names_split s3 hx with hx | hx
          · rcases names_split s2 hx with hx | hx
            · exact Or.inl hx
            · exact Or.inr (Or.inl hx)
          · exact Or.inr (Or.inr (Or.inl hx))
        · exact Or.inr (Or.inr (Or.inr (Or.inl hx)))
      · exact Or.inr (Or.inr (Or.inr (Or.inr (Or.inl hx))))
    · exact Or.inr (Or.inr (Or.inr (Or.inr (Or.inr hx))))
  have up1 : ∀ e ∈ f1.sets, e ∈ f10.sets := fun e he => up6 e (sets_sub s6 (sets_sub s5 (sets_sub s4 (sets_sub s3 (sets_sub s2 he)))))
  refine ⟨f10, by rw [e0, hw], describes_of hnd fun e he => up1 _ (sets_sub s1 (by rw [s0]; exact he)), ?_⟩
  have mi := up1 _ (sets_new s1 (.head _))
  have mq := sets_sub s10 (sets_sub s9 (sets_sub s8 (sets_new s7 (.head _))))
  have mv := sets_sub s10 (sets_sub s9 (sets_new s8 (.head _)))
  have mm := sets_sub s10 (sets_new s9 (.head _))
  have mk := sets_new s10 (.head _)
  have rb : ∀ k, f10.recordAt "geometry/boxes".toList k = (s.geometry.filterMap boxRecord)[k]? := fun k => hrec k
    (fun e he => sets_sub s6 (sets_sub s5 (sets_sub s4 (sets_sub s3 (sets_new s2 he))))) (by decide) fun h0 hx => by
      rcases habsent hx with hx | hx | hx | hx | hx | hx
      · exact absurd (I1.names _ hx) (by decide)
      · exact hx.2 h0
      · exact absurd hx.1 (by decide)
      · exact absurd hx.1 (by decide)
      · exact absurd hx.1 (by decide)
      · exact absurd hx.1 (by decide)
  have ns : s.geometry.filterMap sphereRecord = [] → "geometry/spheres".toList ∉ f6.names := fun h0 hx => by
      rcases habsent hx with hx | hx | hx | hx | hx | hx
      · exact absurd (I1.names _ hx) (by decide)
      · exact absurd hx.1 (by decide)
      · exact hx.2 h0
      · exact absurd hx.1 (by decide)
      · exact absurd hx.1 (by decide)
      · exact absurd hx.1 (by decide)
  have rs : ∀ k, f10.recordAt "geometry/spheres".toList k = (s.geometry.filterMap sphereRecord)[k]? := fun k => hrec k
    (fun e he => sets_sub s6 (sets_sub s5 (sets_sub s4 (sets_new s3 he)))) (by decide) ns
  have ls := hlist (n := "geometry/spheres".toList) (l := s.geometry.filterMap sphereRecord) (fun e he => sets_sub s6 (sets_sub s5 (sets_sub s4 (sets_new s3 he)))) (by decide) ns
  have nm : s.geometry.filterMap meshRecord = [] → "geometry/meshes".toList ∉ f6.names := fun h0 hx => by
      rcases habsent hx with hx | hx | hx | hx | hx | hx
      · exact absurd (I1.names _ hx) (by decide)
      · exact absurd hx.1 (by decide)
      · exact absurd hx.1 (by decide)
      · exact hx.2 h0
      · exact absurd hx.1 (by decide)
      · exact absurd hx.1 (by decide)
  have rm : ∀ k, f10.recordAt "geometry/meshes".toList k = (s.geometry.filterMap meshRecord)[k]? := fun k => hrec k
    (fun e he => sets_sub s6 (sets_sub s5 (sets_new s4 he))) (by decide) nm
  have lm := hlist (n := "geometry/meshes".toList) (l := s.geometry.filterMap meshRecord) (fun e he => sets_sub s6 (sets_sub s5 (sets_new s4 he))) (by decide) nm
  have rp : ∀ k, f10.recordAt "static_geometry/static_planes".toList k = (s.planes.map planeRecord)[k]? := fun k => hrec k
    (fun e he => sets_sub s6 (sets_new s5 he)) (by decide) fun h0 hx => by
      rcases habsent hx with hx | hx | hx | hx | hx | hx
      · exact absurd (I1.names _ hx) (by decide)
      · exact absurd hx.1 (by decide)
      · exact absurd hx.1 (by decide)
      · exact absurd hx.1 (by decide)
      · exact hx.2 h0
      · exact absurd hx.1 (by decide)
  have rc : ∀ k, f10.recordAt "static_geometry/static_cylinders".toList k = (s.cylinders.map (cylinderRecord R))[k]? := fun k => hrec k
    (fun e he => sets_new s6 he) (by decide) fun h0 hx => by
      rcases habsent hx with hx | hx | hx | hx | hx | hx
      · exact absurd (I1.names _ hx) (by decide)
      · exact absurd hx.1 (by decide)
      · exact absurd hx.1 (by decide)
      · exact absurd hx.1 (by decide)
      · exact absurd hx.1 (by decide)
      · exact hx.2 h0
  have fi := File.find_of_mem hnd mi
  refine ⟨isColumn_of_mem hnd mq, isColumn_of_mem hnd mv, isColumn_of_mem hnd mm, isColumn_of_mem hnd mk, ?_, ?_, ?_, ?_, ?_⟩
  · exact ⟨cells, by rw [fi, hs.geoIdx]⟩
  · intro b hb
    obtain ⟨g, hg, t0, t1⟩ := hcells b hb
    obtain ⟨u0, u1⟩ := entry_indices fi b hb
    rw [t0, Option.join_some] at u0
    rw [t1, Option.join_some] at u1
    unfold shapeInFile
    rw [u0, u1, hg]
    simp only
    cases g with
    | box r =>
      have := shape_lookup Geo.code boxRecord 0 c0 s.geometry hs.geometry _ _ hg _ rfl
      rw [if_pos (show UInt32.ofNat (Geo.code (.box r)) = 0 from rfl), rb, this]
      rfl
    | sphere r =>
      have := shape_lookup Geo.code sphereRecord 1 c1 s.geometry hs.geometry _ _ hg _ rfl
      rw [if_neg (show ¬ UInt32.ofNat (Geo.code (.sphere r)) = 0 from (by decide : ¬ UInt32.ofNat 1 = 0)), if_pos (show UInt32.ofNat (Geo.code (.sphere r)) = 1 from rfl), rs, this]
      rfl
    | staple => exact absurd rfl (hst _ (List.mem_of_getElem? hg))
    | mesh m =>
      have := shape_lookup Geo.code meshRecord 3 c3 s.geometry hs.geometry _ _ hg _ rfl
      rw [if_neg (show ¬ UInt32.ofNat (Geo.code (.mesh m)) = 0 from (by decide : ¬ UInt32.ofNat 3 = 0)),
        if_neg (show ¬ UInt32.ofNat (Geo.code (.mesh m)) = 1 from (by decide : ¬ UInt32.ofNat 3 = 1)), if_pos (show UInt32.ofNat (Geo.code (.mesh m)) = 3 from rfl), rm, this]
      rfl
  · intro k
    unfold planeInFile
    rw [rp, List.getElem?_map]
    cases s.planes[k]? <;> rfl
  · intro k
    unfold cylinderInFile
    rw [rc, List.getElem?_map]
    cases s.cylinders[k]? <;> rfl
  · intro n hn
    simp only [List.mem_cons, List.not_mem_nil, or_false] at hn
    rcases hn with rfl | rfl
    · exact ls
    · exact lm

/-- With a staple among the geometries the run ends before the state is written. -/
theorem staple_exit (R : Tri F64 → F64 → Quad) (times : F64 → UInt32 → F64) (h : Header) (s : State) (hs : s.Sized) (hst : Geo.staple ∈ s.geometry) :
    saveState times h (writeBinaryState R s) = .exit := by
  obtain ⟨f0, I0, s0, e0⟩ := header_step times h
  obtain ⟨f1, cells, e1, I1, s1, hcells⟩ := indices_step Geo.code s.geometry s.geoIdx I0 (group := "geometry".toList) (by decide) hs.indices
  have c0 : ∀ g, (boxRecord g).isSome = decide (Geo.code g = 0) := by intro g; cases g <;> rfl
  have c1 : ∀ g, (sphereRecord g).isSome = decide (Geo.code g = 1) := by intro g; cases g <;> rfl
  obtain ⟨f2, e2, I2, s2⟩ := records_opt boxRecord s.geometry I1 "geometry".toList "boxes".toList (by decide) (countType Geo.code 0 s.geometry).toNat
    (by rw [countType_toNat _ _ _ hs.geometry, filterMap_length _ _ _ c0]) (countType Geo.code 0 s.geometry ≠ 0) (countType_ne_zero _ _ _)
  obtain ⟨f3, e3, I3, s3⟩ := records_opt sphereRecord s.geometry I2 "geometry".toList "spheres".toList (by decide) (countType Geo.code 1 s.geometry).toNat
    (by rw [countType_toNat _ _ _ hs.geometry, filterMap_length _ _ _ c1]) (countType Geo.code 1 s.geometry ≠ 0) (countType_ne_zero _ _ _)
  have h2 : countType Geo.code 2 s.geometry ≠ 0 := by
    rw [countType_ne_zero, countType_toNat _ _ _ hs.geometry]
    intro h0
    rw [List.countP_eq_zero] at h0
    exact h0 _ hst (by simp [Geo.code])
  rw [e0]
  unfold writeBinaryState writeGeometry
  rw [e1]
  simp only [Outcome.bind, e2, e3, if_pos h2]

end RB3D

end Scisim
