import Verif.Spec.HDF5
import Mathlib.Tactic.Ring
/-!
# Lemmas about output files
-/

namespace Scisim.HDF5

/-! ## Files -/

theorem File.find_none_iff (f : File) (n : Name) : f.find n = none ↔ n ∉ f.names := by
  unfold File.find File.names
  rw [List.lookup_eq_none_iff]
  simp only [List.mem_map, not_exists, not_and]
  constructor
  · rintro h p hp rfl
    simpa using h p hp
  · intro h p hp
    simpa using fun e => h p hp e.symm

theorem File.find_of_mem {f : File} (hn : f.names.Nodup) {n : Name} {d : DataSet} (h : (n, d) ∈ f.sets) : f.find n = some d := by
  unfold File.find
  unfold File.names at hn
  generalize f.sets = l at h hn
  induction l with
  | nil => simp at h
  | cons e l ih =>
    obtain ⟨k, v⟩ := e
    simp only [List.map_cons, List.nodup_cons] at hn
    rcases List.mem_cons.mp h with h' | h'
    · obtain ⟨rfl, rfl⟩ := Prod.mk.inj h'
      simp [List.lookup]
    · have : n ≠ k := by
        rintro rfl
        exact hn.1 (List.mem_map.mpr ⟨(n, d), h', rfl⟩)
      rw [List.lookup_cons, beq_false_of_ne this]
      exact ih h' hn.2

/-- What is known of a file while it is being written: its groups and its names are among those given, and no name is used twice. -/
structure Inv (f : File) (gs L : List Name) : Prop where
  groups : ∀ g ∈ f.groups, g ∈ gs
  names : ∀ n ∈ f.names, n ∈ L
  nodup : f.names.Nodup

/-- The checks on names that are made when a data set `name` is created in `group` -/
def fresh (gs L : List Name) (group name : Name) : Bool :=
  decide (name ≠ [] ∧ (splitFullName group).1 = [] ∧ group ∉ L ∧ join group name ∉ L ∧ join group name ∉ group :: gs)

/-- A full name is the group and the name it is split into -/
def splits (full : Name) : Bool := join (splitFullName full).1 (splitFullName full).2 == full

theorem create_step {f : File} {gs L : List Name} (h : Inv f gs L) {group name : Name} (hf : fresh gs L group name = true) (d : DataSet) (cells : List (Option Elem)) :
    ∃ f1 f2, findOrCreateGroup f group = .ok f1 ∧ createDataSet f1 group name d = .ok f2 ∧
      Inv (f2.setCells (join group name) cells) (group :: gs) (join group name :: L) ∧
      (f2.setCells (join group name) cells).sets = f.sets ++ [(join group name, { d with cells := cells })] := by
  simp only [fresh, decide_eq_true_eq] at hf
  obtain ⟨hn, hp, hg, hL, hG⟩ := hf
  have hgn : f.find group = none := (f.find_none_iff _).mpr fun hh => hg (h.names _ hh)
  have h1 : ∃ f1, findOrCreateGroup f group = .ok f1 ∧ f1.sets = f.sets ∧ ∀ g ∈ f1.groups, g ∈ group :: gs := by
    unfold findOrCreateGroup
    by_cases h0 : group = []
    · exact ⟨f, by rw [if_pos h0], rfl, fun g hg => List.mem_cons_of_mem _ (h.groups g hg)⟩
    · rw [if_neg h0]
      by_cases h1 : group ∈ f.groups
      · exact ⟨f, by rw [if_pos h1], rfl, fun g hg => List.mem_cons_of_mem _ (h.groups g hg)⟩
      · refine ⟨{ f with groups := f.groups ++ [group] }, ?_, rfl, ?_⟩
        · rw [if_neg h1, hgn]
          simp [File.parentExists, hp]
        · intro g hg
          rcases List.mem_append.mp hg with hg | hg
          · exact List.mem_cons_of_mem _ (h.groups g hg)
          · simp at hg; simp [hg]
  obtain ⟨f1, e1, s1, g1⟩ := h1
  have hnot : join group name ∉ f.names := fun hh => hL (h.names _ hh)
  have hfn : f1.find (join group name) = none := by
    rw [File.find_none_iff]; unfold File.names; rw [s1]; exact hnot
  refine ⟨f1, { f1 with sets := f1.sets ++ [(join group name, d)] }, e1, ?_, ?_⟩
  · unfold createDataSet
    rw [if_neg]
    rw [hfn]
    simp only [Option.isSome_none, Bool.false_eq_true, or_false, not_or]
    exact ⟨hn, fun hh => hG (g1 _ hh)⟩
  · have hs : (({ f1 with sets := f1.sets ++ [(join group name, d)] } : File).setCells (join group name) cells).sets
        = f.sets ++ [(join group name, { d with cells := cells })] := by
      simp only [File.setCells, List.map_append, List.map_cons, List.map_nil, if_true, s1]
      congr 1
      conv_rhs => rw [← List.map_id f.sets]
      refine List.map_congr_left fun e he => ?_
      rw [if_neg]; rfl
      intro hh
      exact hnot (List.mem_map.mpr ⟨e, he, hh⟩)
    refine ⟨⟨g1, ?_, ?_⟩, hs⟩
    · intro n hn'
      unfold File.names at hn'
      rw [hs] at hn'
      simp only [List.map_append, List.map_cons, List.map_nil, List.mem_append, List.mem_singleton] at hn'
      rcases hn' with hn' | rfl
      · exact List.mem_cons_of_mem _ (h.names n hn')
      · exact List.mem_cons_self
    · unfold File.names
      rw [hs]
      simp only [List.map_append, List.map_cons, List.map_nil]
      rw [List.nodup_append]
      refine ⟨h.nodup, by simp, ?_⟩
      intro a ha b hb
      simp only [List.mem_singleton] at hb
      subst hb
      rintro rfl
      exact hnot ha

theorem write_step {α : Type} [Scalar α] {f : File} {gs L : List Name} (h : Inv f gs L) (full : Name) (hs : splits full = true)
    (hf : fresh gs L (splitFullName full).1 (splitFullName full).2 = true) (m : Dense α) :
    ∃ f', write f full m = .ok f' ∧ Inv f' ((splitFullName full).1 :: gs) (full :: L) ∧
      f'.sets = f.sets ++ [(full, ⟨Scalar.ty α, [m.rows, m.cols], (rowMajor m).map (·.map Scalar.elem)⟩)] := by
  have hj : join (splitFullName full).1 (splitFullName full).2 = full := by simpa [splits] using hs
  obtain ⟨f1, f2, e1, e2, hI, hset⟩ := create_step h hf ⟨Scalar.ty α, [m.rows, m.cols], List.replicate (m.rows * m.cols) none⟩
    ((rowMajor m).map (·.map Scalar.elem))
  rw [hj] at hI hset
  refine ⟨_, ?_, hI, hset⟩
  unfold write
  rw [e1]; simp only [Outcome.bind]
  rw [e2]
  simp only [hj]

theorem writeString_step {f : File} {gs L : List Name} (h : Inv f gs L) (full : Name) (hs : splits full = true)
    (hf : fresh gs L (splitFullName full).1 (splitFullName full).2 = true) (s : Bytes) :
    ∃ f', writeString f full s = .ok f' ∧ Inv f' ((splitFullName full).1 :: gs) (full :: L) ∧
      f'.sets = f.sets ++ [(full, ⟨.string, [1], [some (.string (cStr s))]⟩)] := by
  have hj : join (splitFullName full).1 (splitFullName full).2 = full := by simpa [splits] using hs
  obtain ⟨f1, f2, e1, e2, hI, hset⟩ := create_step h hf ⟨.string, [1], [none]⟩ [some (.string (cStr s))]
  rw [hj] at hI hset
  refine ⟨_, ?_, hI, hset⟩
  unfold writeString
  rw [e1]; simp only [Outcome.bind]
  rw [e2]
  simp only [hj]

/-! ## Matrices -/

theorem rowMajor_get {α : Type} (m : Dense α) (i j : Nat) (hi : i < m.rows) (hj : j < m.cols) :
    (rowMajor m)[i * m.cols + j]? = some m.data[j * m.rows + i]? := by
  have hlt : i * m.cols + j < m.rows * m.cols := by
    calc i * m.cols + j < i * m.cols + m.cols := by omega
      _ = (i + 1) * m.cols := by rw [Nat.add_mul]; simp
      _ ≤ m.rows * m.cols := Nat.mul_le_mul_right _ hi
  unfold rowMajor
  rw [List.getElem?_map, List.getElem?_range hlt]
  simp only [Option.map_some]
  have h1 : (i * m.cols + j) % m.cols = j := by rw [Nat.mul_comm, Nat.mul_add_mod, Nat.mod_eq_of_lt hj]
  have h2 : (i * m.cols + j) / m.cols = i := by
    rw [Nat.mul_comm, Nat.mul_add_div (by omega), Nat.div_eq_of_lt hj, Nat.add_zero]
  rw [h1, h2]

theorem entry_of_find {α : Type} [Scalar α] {f : File} {n : Name} {m : Dense α} {ty : Ty}
    (h : f.find n = some ⟨ty, [m.rows, m.cols], (rowMajor m).map (·.map Scalar.elem)⟩) (hl : m.data.length = m.rows * m.cols) (i j : Nat) (hi : i < m.rows) (hj : j < m.cols) :
    ∃ hlt : j * m.rows + i < m.data.length, f.entry n i j = some (Scalar.elem m.data[j * m.rows + i]) := by
  have hlt : j * m.rows + i < m.data.length := by
    rw [hl]
    calc j * m.rows + i < j * m.rows + m.rows := by omega
      _ = (j + 1) * m.rows := by rw [Nat.add_mul]; simp
      _ ≤ m.cols * m.rows := Nat.mul_le_mul_right _ hj
      _ = m.rows * m.cols := Nat.mul_comm _ _
  refine ⟨hlt, ?_⟩
  unfold File.entry
  rw [h]
  simp only [hi, hj, and_self, if_true, List.getElem?_map, rowMajor_get m i j hi hj, Option.map_some, Option.join]
  rw [List.getElem?_eq_getElem hlt]
  rfl

theorem isColumn_of_find {α : Type} [Scalar α] {f : File} {n : Name} {l : List α}
    (h : f.find n = some ⟨Scalar.ty α, [(column l).rows, (column l).cols], (rowMajor (column l)).map (·.map Scalar.elem)⟩) : f.IsColumn n l := by
  refine ⟨⟨_, h⟩, fun i hi => ?_⟩
  obtain ⟨_, e⟩ := entry_of_find (m := column l) h (by simp [column]) i 0 hi (by simp [column])
  rw [e]
  simp [column]

/-! ## Records -/

theorem insertRecords_eq {G : Type} (sel : G → Option (List (String × Field))) (l : List G) (pre : List (Option Elem)) :
    insertRecords sel l pre.length (pre ++ List.replicate (l.filterMap sel).length none) = .ok (pre ++ (l.filterMap sel).map fun r => some (.record r)) := by
  induction l generalizing pre with
  | nil => simp [insertRecords]
  | cons g l ih =>
    unfold insertRecords
    cases hs : sel g with
    | none => simp only [List.filterMap_cons, hs]; exact ih pre
    | some r =>
      simp only [List.filterMap_cons, hs, List.length_cons, List.replicate_succ, List.length_append, List.length_replicate, List.map_cons]
      rw [if_pos (by omega)]
      have h1 : (pre ++ none :: List.replicate (l.filterMap sel).length none).set pre.length (some (Elem.record r))
          = (pre ++ [some (.record r)]) ++ List.replicate (l.filterMap sel).length none := by
        rw [List.set_append_right _ _ (Nat.le_refl _)]
        simp
      rw [h1]
      have := ih (pre ++ [some (.record r)])
      rw [List.length_append, List.length_singleton] at this
      rw [this]
      simp

theorem records_step {G : Type} (sel : G → Option (List (String × Field))) (items : List G) {f : File} {gs L : List Name} (h : Inv f gs L) {group name : Name}
    (hf : fresh gs L group name = true) (count : Nat) (hc : count = (items.filterMap sel).length) :
    ∃ f', writeRecords sel items count group name f = .ok f' ∧ Inv f' (group :: gs) (join group name :: L) ∧
      f'.sets = f.sets ++ [(join group name, ⟨.compound, [count], (items.filterMap sel).map fun r => some (.record r)⟩)] := by
  obtain ⟨f1, f2, e1, e2, hI, hset⟩ := create_step h hf ⟨.compound, [count], List.replicate count none⟩ ((items.filterMap sel).map fun r => some (.record r))
  refine ⟨_, ?_, hI, hset⟩
  unfold writeRecords
  rw [e1]; simp only [Outcome.bind]
  rw [e2]; simp only
  have := insertRecords_eq sel items []
  simp only [List.length_nil, List.nil_append] at this
  rw [hc, this]

theorem Inv.weaken {f : File} {gs L : List Name} (h : Inv f gs L) (g n : Name) : Inv f (g :: gs) (n :: L) :=
  ⟨fun x hx => List.mem_cons_of_mem _ (h.groups x hx), fun x hx => List.mem_cons_of_mem _ (h.names x hx), h.nodup⟩

/-- The same when the data set is left out if it would be empty -/
theorem records_step_if {G : Type} (sel : G → Option (List (String × Field))) (items : List G) {f : File} {gs L : List Name} (h : Inv f gs L) {group name : Name}
    (hf : fresh gs L group name = true) (count : Nat) (hc : count = (items.filterMap sel).length) (p : Prop) [Decidable p] (hp : p ↔ count ≠ 0) :
    ∃ f', (if p then writeRecords sel items count group name f else .ok f) = .ok f' ∧ Inv f' (group :: gs) (join group name :: L) ∧
      f'.sets = f.sets ++ (if (items.filterMap sel) = [] then [] else [(join group name, ⟨.compound, [count], (items.filterMap sel).map fun r => some (.record r)⟩)]) := by
  by_cases hp' : p
  · obtain ⟨f', e, hI, hs⟩ := records_step sel items h hf count hc
    refine ⟨f', by rw [if_pos hp', e], hI, ?_⟩
    rw [if_neg, hs]
    intro he
    rw [he] at hc
    exact hp.mp hp' (by simpa using hc)
  · refine ⟨f, by rw [if_neg hp'], h.weaken _ _, ?_⟩
    have : count = 0 := by
      by_contra h0
      exact hp' (hp.mpr h0)
    rw [if_pos]
    · simp
    · exact List.length_eq_zero_iff.mp (by rw [← hc, this])

/-- Looking up records -/
theorem recordAt_of_find {f : File} {n : Name} {c : Nat} {l : List (List (String × Field))} (h : f.find n = some ⟨.compound, [c], l.map fun r => some (.record r)⟩)
    (hc : c = l.length) (k : Nat) : f.recordAt n k = l[k]? := by
  unfold File.recordAt
  rw [h]
  simp only
  by_cases hk : k < c
  · rw [if_pos hk]
    have : k < l.length := hc ▸ hk
    simp [List.getElem?_eq_getElem this, Option.join]
  · rw [if_neg hk]
    have : ¬ k < l.length := hc ▸ hk
    rw [List.getElem?_eq_none (by omega)]

theorem recordAt_of_none {f : File} {n : Name} (h : f.find n = none) (k : Nat) : f.recordAt n k = none := by
  unfold File.recordAt
  rw [h]

/-! ## Numbering the geometries -/

theorem countType_eq {G : Type} (code : G → Nat) (t : Nat) (l : List G) : countType code t l = UInt32.ofNat (l.countP fun g => code g = t) := by
  induction l with
  | nil => rfl
  | cons g l ih =>
    unfold countType
    rw [ih, List.countP_cons]
    by_cases h : code g = t
    · simp [h, UInt32.add_comm]
    · simp [h]

theorem localIndices_get {G : Type} (code : G → Nat) (l : List G) (counts : Nat → UInt32) (i : Nat) (h : i < l.length) :
    (localIndices code l counts)[i]? = some (counts (code l[i]) + UInt32.ofNat ((l.take i).countP fun g => code g = code l[i])) := by
  induction l generalizing counts i with
  | nil => simp at h
  | cons g l ih =>
    unfold localIndices
    cases i with
    | zero => simp
    | succ i =>
      simp only [List.length_cons, Nat.add_lt_add_iff_right] at h
      simp only [List.getElem?_cons_succ, List.getElem_cons_succ, List.take_succ_cons, List.countP_cons]
      rw [ih _ i h]
      congr 1
      by_cases he : code g = code l[i]
      · simp only [he, if_true, decide_true]
        rw [UInt32.ofNat_add]
        rw [show UInt32.ofNat 1 = 1 from rfl]
        rw [UInt32.add_assoc, UInt32.add_comm (1 : UInt32)]
      · simp only [Ne.symm he, if_false, he, decide_false, Bool.false_eq_true, Nat.add_zero]

/-- The elements of the selected kind: the one at its own number -/
theorem filterMap_rank {G β : Type} (sel : G → Option β) (l : List G) (i : Nat) (h : i < l.length) (b : β) (hb : sel l[i] = some b) :
    (l.filterMap sel)[(l.take i).countP fun g => (sel g).isSome]? = some b := by
  have hl : l = l.take i ++ l[i] :: l.drop (i + 1) := by simp
  have hlen : ((l.take i).filterMap sel).length = (l.take i).countP fun g => (sel g).isSome := by
    generalize l.take i = k
    induction k with
    | nil => rfl
    | cons g k ih =>
      rw [List.countP_cons]
      cases hs : sel g <;> simp [hs, ih]
  conv_lhs => rw [hl]
  rw [List.filterMap_append, List.filterMap_cons, hb]
  rw [show ((List.take i l ++ l[i] :: List.drop (i + 1) l).take i) = l.take i by rw [← hl]]
  rw [← hlen, List.getElem?_append_right (Nat.le_refl _)]
  simp

theorem filterMap_length {G β : Type} (sel : G → Option β) (code : G → Nat) (t : Nat) (hs : ∀ g, (sel g).isSome = decide (code g = t)) (l : List G) :
    (l.filterMap sel).length = l.countP fun g => code g = t := by
  induction l with
  | nil => rfl
  | cons g k ih =>
    rw [List.countP_cons]
    have := hs g
    cases hh : sel g <;> simp [hh, ih] at this ⊢ <;> simp [this]

theorem countType_toNat {G : Type} (code : G → Nat) (t : Nat) (l : List G) (hl : l.length < 4294967296) : (countType code t l).toNat = l.countP fun g => code g = t := by
  rw [countType_eq, UInt32.toNat_ofNat']
  exact Nat.mod_eq_of_lt (Nat.lt_of_le_of_lt List.countP_le_length hl)

theorem countType_ne_zero {G : Type} (code : G → Nat) (t : Nat) (l : List G) : countType code t l ≠ 0 ↔ (countType code t l).toNat ≠ 0 := by
  rw [not_iff_not, ← UInt32.toNat_inj]; rfl

theorem fillIndices_ok {G : Type} (code : G → Nat) (geometry : List G) (locals : List UInt32) (n : Nat) (hloc : locals.length = geometry.length) (is : List UInt32) :
    ∀ (cur : Nat) (cells : List (Option Elem)), cur + is.length = n → cells.length = 2 * n → (∀ i ∈ is, i.toNat < geometry.length) →
    ∃ out, fillIndices code geometry locals n is cur cells = .ok out ∧ out.length = 2 * n ∧
      (∀ k, k < cur → out[k]? = cells[k]? ∧ out[n + k]? = cells[n + k]?) ∧
      ∀ j (hj : j < is.length), out[cur + j]? = (geometry[is[j].toNat]?).map (fun g => some (.uint (UInt32.ofNat (code g)))) ∧
        out[n + (cur + j)]? = (locals[is[j].toNat]?).map fun k => some (.uint k) := by
  induction is with
  | nil =>
    intro cur cells h1 h2 _
    exact ⟨cells, rfl, h2, fun k _ => ⟨rfl, rfl⟩, fun j hj => absurd hj (by simp)⟩
  | cons i is ih =>
    intro cur cells h1 h2 h3
    have hi : i.toNat < geometry.length := h3 i List.mem_cons_self
    have hi2 : i.toNat < locals.length := hloc ▸ hi
    simp only [List.length_cons] at h1
    unfold fillIndices
    rw [List.getElem?_eq_getElem hi, List.getElem?_eq_getElem hi2]
    simp only
    rw [if_pos (by omega)]
    obtain ⟨out, e, hl, hold, hnew⟩ := ih (cur + 1)
      ((cells.set cur (some (.uint (UInt32.ofNat (code geometry[i.toNat]))))).set (n + cur) (some (.uint locals[i.toNat]))) (by omega) (by simpa using h2)
      (fun j hj => h3 j (List.mem_cons_of_mem _ hj))
    refine ⟨out, e, hl, ?_, ?_⟩
    · intro k hk
      obtain ⟨a, b⟩ := hold k (by omega)
      rw [a, b]
      constructor
      · rw [List.getElem?_set_ne (by omega), List.getElem?_set_ne (by omega)]
      · rw [List.getElem?_set_ne (by omega), List.getElem?_set_ne (by omega)]
    · intro j hj
      cases j with
      | zero =>
        obtain ⟨a, b⟩ := hold cur (by omega)
        simp only [Nat.add_zero, List.getElem_cons_zero]
        rw [a, b, List.getElem?_eq_getElem hi, List.getElem?_eq_getElem hi2]
        constructor
        · rw [List.getElem?_set_ne (by omega), List.getElem?_set_self (by omega)]; rfl
        · rw [List.getElem?_set_self (by rw [List.length_set]; omega)]; rfl
      | succ j =>
        have := hnew j (by simpa using hj)
        simp only [List.getElem_cons_succ]
        rw [show cur + (j + 1) = cur + 1 + j by omega]
        exact this

theorem localIndices_length {G : Type} (code : G → Nat) (l : List G) (counts : Nat → UInt32) : (localIndices code l counts).length = l.length := by
  induction l generalizing counts with
  | nil => rfl
  | cons g l ih => simp [localIndices, ih]

/-- The table of types and numbers -/
theorem indices_step {G : Type} (code : G → Nat) (geometry : List G) (indices : List UInt32) {f : File} {gs L : List Name} (h : Inv f gs L) {group : Name}
    (hf : fresh gs L group "geometry_indices".toList = true) (hi : ∀ i ∈ indices, i.toNat < geometry.length) :
    ∃ f' cells, writeGeometryIndices code geometry indices group f = .ok f' ∧ Inv f' (group :: gs) (join group "geometry_indices".toList :: L) ∧
      f'.sets = f.sets ++ [(join group "geometry_indices".toList, ⟨.uint, [2, indices.length], cells⟩)] ∧
      ∀ b (hb : b < indices.length), ∃ g, geometry[indices[b].toNat]? = some g ∧ cells[b]? = some (some (.uint (UInt32.ofNat (code g)))) ∧
        cells[indices.length + b]? = some (some (.uint (UInt32.ofNat ((geometry.take indices[b].toNat).countP fun x => code x = code g)))) := by
  obtain ⟨cells, e, _, _, hcells⟩ := fillIndices_ok code geometry (localIndices code geometry fun _ => 0) indices.length (localIndices_length _ _ _) indices 0
    (List.replicate (2 * indices.length) none) (by simp) (by simp) hi
  obtain ⟨f1, f2, e1, e2, hI, hset⟩ := create_step h hf ⟨.uint, [2, indices.length], List.replicate (2 * indices.length) none⟩ cells
  refine ⟨_, cells, ?_, hI, hset, ?_⟩
  · unfold writeGeometryIndices
    rw [e1]; simp only [Outcome.bind]
    rw [e2]; simp only
    rw [e]
  · intro b hb
    have hlt := hi _ (List.getElem_mem hb)
    obtain ⟨a, c⟩ := hcells b hb
    rw [Nat.zero_add] at a c
    rw [List.getElem?_eq_getElem hlt] at a
    rw [localIndices_get code geometry _ _ hlt] at c
    refine ⟨_, List.getElem?_eq_getElem hlt, a, ?_⟩
    rw [c]
    simp

theorem entry_indices {f : File} {n : Name} {k : Nat} {cells : List (Option Elem)} (h : f.find n = some ⟨.uint, [2, k], cells⟩) (b : Nat) (hb : b < k) :
    f.entry n 0 b = cells[b]?.join ∧ f.entry n 1 b = cells[k + b]?.join := by
  unfold File.entry
  rw [h]
  simp [hb]

end Scisim.HDF5
