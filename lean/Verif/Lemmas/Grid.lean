import Verif.Spec.Grid
import Mathlib.Tactic.Linarith
import Mathlib.Tactic.FieldSimp
import Mathlib.Tactic.Ring
import Mathlib.Data.List.Nodup
import Mathlib.Data.List.Sort
/-!
# Lemmas about the spatial grid
-/

set_option linter.unusedSectionVars false

namespace Scisim

section lists

/-! ### Voxels -/

/-- contents of a voxel -/
def voxelAt : Voxels → Nat → List Nat
  | [], _ => []
  | (k', l) :: vs, k => if k' = k then l else voxelAt vs k

/-- keys strictly increasing -/
def KeysSorted (vs : Voxels) : Prop := vs.Pairwise fun a b => a.1 < b.1

theorem mem_addToVoxel_key {key idx : Nat} {vs : Voxels} {v : Nat × List Nat} (h : v ∈ addToVoxel key idx vs) :
    v.1 = key ∨ ∃ v' ∈ vs, v'.1 = v.1 := by
  induction vs with
  | nil => simp only [addToVoxel, List.mem_singleton] at h; left; rw [h]
  | cons w vs ih =>
    obtain ⟨k, l⟩ := w
    unfold addToVoxel at h
    split at h
    · rcases List.mem_cons.mp h with rfl | h
      · exact Or.inl rfl
      · exact Or.inr ⟨v, h, rfl⟩
    · split at h
      · rename_i hk
        rcases List.mem_cons.mp h with rfl | h
        · exact Or.inl hk.symm
        · exact Or.inr ⟨v, List.mem_cons_of_mem _ h, rfl⟩
      · rcases List.mem_cons.mp h with rfl | h
        · exact Or.inr ⟨_, List.mem_cons_self, rfl⟩
        · rcases ih h with h | ⟨v', h1, h2⟩
          · exact Or.inl h
          · exact Or.inr ⟨v', List.mem_cons_of_mem _ h1, h2⟩

theorem addToVoxel_sorted {key idx : Nat} {vs : Voxels} (h : KeysSorted vs) : KeysSorted (addToVoxel key idx vs) := by
  induction vs with
  | nil => exact List.pairwise_singleton _ _
  | cons w vs ih =>
    obtain ⟨k, l⟩ := w
    have hc := List.pairwise_cons.mp h
    unfold addToVoxel
    split
    · rename_i hk
      refine List.pairwise_cons.mpr ⟨fun v hv => ?_, h⟩
      rcases List.mem_cons.mp hv with rfl | hv
      · exact hk
      · exact Nat.lt_trans hk (hc.1 v hv)
    · split
      · exact List.pairwise_cons.mpr ⟨fun v hv => hc.1 v hv, hc.2⟩
      · refine List.pairwise_cons.mpr ⟨fun v hv => ?_, ih hc.2⟩
        rcases mem_addToVoxel_key hv with h1 | ⟨v', h1, h2⟩
        · show k < v.1; omega
        · have := hc.1 v' h1; show k < v.1; omega

theorem voxelAt_none {vs : Voxels} {k : Nat} (h : ∀ v ∈ vs, k < v.1) : voxelAt vs k = [] := by
  induction vs with
  | nil => rfl
  | cons w vs ih =>
    obtain ⟨k', l⟩ := w
    unfold voxelAt
    rw [if_neg (by have := h _ List.mem_cons_self; show ¬ k' = k; intro e; simp [e] at this)]
    exact ih fun v hv => h v (List.mem_cons_of_mem _ hv)

theorem voxelAt_add {key idx : Nat} {vs : Voxels} (h : KeysSorted vs) (k : Nat) :
    voxelAt (addToVoxel key idx vs) k = voxelAt vs k ++ if key = k then [idx] else [] := by
  induction vs with
  | nil =>
    by_cases hk : key = k <;> simp [addToVoxel, voxelAt, hk]
  | cons w vs ih =>
    obtain ⟨k', l⟩ := w
    have hc := List.pairwise_cons.mp h
    unfold addToVoxel
    split
    · rename_i hlt
      by_cases hk : key = k
      · subst hk
        rw [voxelAt, if_pos rfl, if_pos rfl, voxelAt_none]
        · rfl
        · intro v hv
          rcases List.mem_cons.mp hv with rfl | hv
          · exact hlt
          · exact Nat.lt_trans hlt (hc.1 v hv)
      · rw [voxelAt, if_neg hk, if_neg hk, List.append_nil]
    · split
      · rename_i _ he
        subst he
        by_cases hk : key = k
        · simp [voxelAt, hk]
        · simp [voxelAt, hk]
      · rename_i hnl hne
        by_cases hk : k' = k
        · subst hk
          simp [voxelAt, hne]
        · simp only [voxelAt, if_neg hk]
          exact ih hc.2

/-- every voxel of a sorted map is found by its key -/
theorem voxelAt_of_mem {vs : Voxels} (h : KeysSorted vs) {v : Nat × List Nat} (hv : v ∈ vs) : voxelAt vs v.1 = v.2 := by
  induction vs with
  | nil => simp at hv
  | cons w vs ih =>
    obtain ⟨k', l⟩ := w
    have hc := List.pairwise_cons.mp h
    rcases List.mem_cons.mp hv with rfl | hv
    · simp [voxelAt]
    · have := hc.1 v hv
      rw [voxelAt, if_neg (by show ¬ k' = v.1; intro e; simp [e] at this)]
      exact ih hc.2 hv

theorem mem_of_voxelAt_ne_nil {vs : Voxels} {k : Nat} (h : voxelAt vs k ≠ []) : (k, voxelAt vs k) ∈ vs := by
  induction vs with
  | nil => exact absurd rfl h
  | cons w vs ih =>
    obtain ⟨k', l⟩ := w
    unfold voxelAt at h ⊢
    split
    · rename_i hk; subst hk; exact List.mem_cons_self
    · rename_i hk
      rw [if_neg hk] at h
      exact List.mem_cons_of_mem _ (ih h)

/-! ### Pairs -/

theorem mem_pairsOf {l : List Nat} {i j : Nat} : (i, j) ∈ pairsOf l ↔ List.Sublist [i, j] l := by
  induction l with
  | nil => simp [pairsOf]
  | cons a l ih =>
    unfold pairsOf
    rw [List.mem_append, ih, List.mem_map]
    constructor
    · rintro (⟨b, hb, he⟩ | h)
      · cases he
        exact List.Sublist.cons_cons _ (List.singleton_sublist.mpr hb)
      · exact h.cons _
    · intro h
      cases h with
      | cons _ h => exact Or.inr h
      | cons_cons _ h => exact Or.inl ⟨j, List.singleton_sublist.mp h, rfl⟩

/-- in a sorted list every increasing pair of entries occurs in order -/
theorem sublist_of_sorted {l : List Nat} (h : l.Pairwise (· ≤ ·)) {i j : Nat} (hi : i ∈ l) (hj : j ∈ l) (hij : i < j) : List.Sublist [i, j] l := by
  induction l with
  | nil => simp at hi
  | cons a l ih =>
    have hc := List.pairwise_cons.mp h
    rcases List.mem_cons.mp hi with hi' | hi'
    · rcases List.mem_cons.mp hj with hj' | hj'
      · omega
      · rw [hi']; exact List.Sublist.cons_cons _ (List.singleton_sublist.mpr hj')
    · rcases List.mem_cons.mp hj with hj' | hj'
      · have := hc.1 i hi'; omega
      · exact (ih hc.2 hi' hj').cons _

theorem le_of_sublist {l : List Nat} (h : l.Pairwise (· ≤ ·)) {i j : Nat} (hs : List.Sublist [i, j] l) : i ≤ j := by
  have := h.sublist hs
  simpa using this

/-! ### Sets of pairs -/

/-- the order of `std::set<std::pair<unsigned,unsigned>>` -/
def pairLt (p q : Nat × Nat) : Prop := p.1 < q.1 ∨ (p.1 = q.1 ∧ p.2 < q.2)

theorem mem_insertPair {p q : Nat × Nat} {s : List (Nat × Nat)} : q ∈ insertPair p s ↔ q = p ∨ q ∈ s := by
  induction s with
  | nil => simp [insertPair]
  | cons r s ih =>
    unfold insertPair
    split
    · simp
    · split
      · rename_i he
        subst he
        constructor
        · exact Or.inr
        · rintro (rfl | h)
          · exact List.mem_cons_self
          · exact h
      · simp only [List.mem_cons, ih]
        tauto

theorem pairLt_trans {p q r : Nat × Nat} (h1 : pairLt p q) (h2 : pairLt q r) : pairLt p r := by
  unfold pairLt at *
  omega

theorem insertPair_sorted {p : Nat × Nat} {s : List (Nat × Nat)} (h : s.Pairwise pairLt) : (insertPair p s).Pairwise pairLt := by
  induction s with
  | nil => exact List.pairwise_singleton _ _
  | cons r s ih =>
    have hc := List.pairwise_cons.mp h
    unfold insertPair
    split
    · rename_i hlt
      refine List.pairwise_cons.mpr ⟨fun q hq => ?_, h⟩
      rcases List.mem_cons.mp hq with rfl | hq
      · exact hlt
      · exact pairLt_trans hlt (hc.1 q hq)
    · split
      · exact h
      · rename_i hn hne
        refine List.pairwise_cons.mpr ⟨fun q hq => ?_, ih hc.2⟩
        rcases mem_insertPair.mp hq with rfl | hq
        · unfold pairLt
          have : ¬ (q.1 = r.1 ∧ q.2 = r.2) := fun h => hne (Prod.ext h.1 h.2)
          omega
        · exact hc.1 q hq

theorem sorted_nodup {s : List (Nat × Nat)} (h : s.Pairwise pairLt) : s.Nodup := by
  refine h.imp ?_
  rintro a b hab rfl
  unfold pairLt at hab
  omega

/-- Two sorted lists with the same elements are equal. -/
theorem sorted_ext {s t : List (Nat × Nat)} (hs : s.Pairwise pairLt) (ht : t.Pairwise pairLt) (h : ∀ p, p ∈ s ↔ p ∈ t) : s = t := by
  have hp : s.Perm t := (List.perm_ext_iff_of_nodup (sorted_nodup hs) (sorted_nodup ht)).mpr h
  refine hp.eq_of_pairwise (le := pairLt) ?_ hs ht
  intro a b _ _ hab hba
  exfalso
  unfold pairLt at hab hba
  omega

theorem foldl_insert {P : Nat × Nat → Bool} {l : List (Nat × Nat)} {s : List (Nat × Nat)} (hs : s.Pairwise pairLt) :
    (l.foldl (fun out p => if P p then insertPair p out else out) s).Pairwise pairLt ∧
    ∀ q, q ∈ l.foldl (fun out p => if P p then insertPair p out else out) s ↔ q ∈ s ∨ (q ∈ l ∧ P q = true) := by
  induction l generalizing s with
  | nil => simpa using hs
  | cons p l ih =>
    rw [List.foldl_cons]
    by_cases hp : P p = true
    · obtain ⟨h1, h2⟩ := ih (insertPair_sorted (p := p) hs)
      rw [if_pos hp]
      refine ⟨h1, fun q => ?_⟩
      rw [h2, mem_insertPair]
      constructor
      · rintro ((rfl | h) | ⟨h, h'⟩)
        · exact Or.inr ⟨List.mem_cons_self, hp⟩
        · exact Or.inl h
        · exact Or.inr ⟨List.mem_cons_of_mem _ h, h'⟩
      · rintro (h | ⟨h, h'⟩)
        · exact Or.inl (Or.inr h)
        · rcases List.mem_cons.mp h with rfl | h
          · exact Or.inl (Or.inl rfl)
          · exact Or.inr ⟨h, h'⟩
    · obtain ⟨h1, h2⟩ := ih hs
      rw [if_neg hp]
      refine ⟨h1, fun q => ?_⟩
      rw [h2]
      constructor
      · rintro (h | ⟨h, h'⟩)
        · exact Or.inl h
        · exact Or.inr ⟨List.mem_cons_of_mem _ h, h'⟩
      · rintro (h | ⟨h, h'⟩)
        · exact Or.inl h
        · rcases List.mem_cons.mp h with rfl | h
          · exact absurd h' hp
          · exact Or.inr ⟨h, h'⟩

end lists

section cells

/-! ### Cells -/

theorem mem_cellsBetween {d : Nat} {lower upper c : Fin d → Nat} :
    c ∈ cellsBetween d lower upper ↔ ∀ i, lower i ≤ c i ∧ c i ≤ upper i := by
  induction d with
  | zero =>
    simp only [cellsBetween, List.mem_singleton]
    exact ⟨fun _ i => i.elim0, fun _ => funext fun i => i.elim0⟩
  | succ d ih =>
    simp only [cellsBetween, List.mem_flatMap, List.mem_map, List.mem_range'_1]
    constructor
    · rintro ⟨x, hx, c', hc', rfl⟩ i
      refine Fin.cases ?_ (fun i => ?_) i
      · rw [Fin.cons_zero]; omega
      · rw [Fin.cons_succ]; exact ih.mp hc' i
    · intro h
      refine ⟨c 0, ?_, Fin.tail c, ih.mpr fun i => h i.succ, Fin.cons_self_tail c⟩
      have := h 0
      omega

theorem cellsBetween_nodup {d : Nat} (lower upper : Fin d → Nat) : (cellsBetween d lower upper).Nodup := by
  induction d with
  | zero => exact List.nodup_singleton _
  | succ d ih =>
    unfold cellsBetween
    rw [List.nodup_flatMap]
    refine ⟨fun x _ => (ih _ _).map fun a b h => ?_, ?_⟩
    · have := congrArg Fin.tail h
      simpa using this
    · refine (List.nodup_range' (step := 1)).imp ?_
      intro a b hab
      show List.Disjoint _ _
      intro c h1 h2
      obtain ⟨c1, _, rfl⟩ := List.mem_map.mp h1
      obtain ⟨c2, _, h⟩ := List.mem_map.mp h2
      have := congrFun h 0
      simp only [Fin.cons_zero] at this
      exact hab this.symm

theorem cellNumber_lt {d : Nat} {idx dims : Fin d → Nat} (h : ∀ i, idx i < dims i) : cellNumber d idx dims < cellCount dims := by
  induction d with
  | zero => simp [cellNumber, cellCount]
  | succ d ih =>
    have h1 := ih (idx := Fin.tail idx) (dims := Fin.tail dims) fun i => h i.succ
    have h0 := h 0
    unfold cellNumber
    have e : cellCount dims = dims 0 * cellCount (Fin.tail dims) := by
      unfold cellCount
      rw [Fin.prod_univ_succ]; rfl
    rw [e]
    calc idx 0 + dims 0 * cellNumber d (Fin.tail idx) (Fin.tail dims)
        < dims 0 + dims 0 * cellNumber d (Fin.tail idx) (Fin.tail dims) := Nat.add_lt_add_right h0 _
      _ = dims 0 * (cellNumber d (Fin.tail idx) (Fin.tail dims) + 1) := by ring
      _ ≤ dims 0 * cellCount (Fin.tail dims) := Nat.mul_le_mul_left _ h1

theorem cellNumber_inj {d : Nat} {a b dims : Fin d → Nat} (ha : ∀ i, a i < dims i) (hb : ∀ i, b i < dims i)
    (h : cellNumber d a dims = cellNumber d b dims) : a = b := by
  induction d with
  | zero => exact funext fun i => i.elim0
  | succ d ih =>
    unfold cellNumber at h
    have h0 : a 0 = b 0 := by
      have := congrArg (· % dims 0) h
      simpa [Nat.add_mul_mod_self_left, Nat.mod_eq_of_lt (ha 0), Nat.mod_eq_of_lt (hb 0)] using this
    have h1 : cellNumber d (Fin.tail a) (Fin.tail dims) = cellNumber d (Fin.tail b) (Fin.tail dims) := by
      rw [h0] at h
      have hpos : 0 < dims 0 := Nat.lt_of_le_of_lt (Nat.zero_le _) (ha 0)
      exact Nat.eq_of_mul_eq_mul_left hpos (Nat.add_left_cancel h)
    have h2 := ih (fun i => ha i.succ) (fun i => hb i.succ) h1
    funext i
    refine Fin.cases h0 (fun i => ?_) i
    exact congrFun h2 i

theorem keyForIndex_inj {d : Nat} {a b dims : Fin d → Nat} (ha : ∀ i, a i < dims i) (hb : ∀ i, b i < dims i)
    (hc : cellCount dims ≤ 4294967296) (h : keyForIndex a dims = keyForIndex b dims) : a = b := by
  refine cellNumber_inj ha hb ?_
  unfold keyForIndex at h
  rwa [Nat.mod_eq_of_lt (Nat.lt_of_lt_of_le (cellNumber_lt ha) hc),
    Nat.mod_eq_of_lt (Nat.lt_of_lt_of_le (cellNumber_lt hb) hc)] at h

/-- the 2D expression in the code, ball2d/SpatialGridDetector.cpp:40 -/
theorem keyForIndex_two (x y X Y : Nat) : keyForIndex ![x, y] ![X, Y] = (x + X * y) % 4294967296 := by
  simp [keyForIndex, cellNumber, Fin.tail]

/-- the 3D expression in the code, rigidbody3d/SpatialGridDetector.cpp:40 -/
theorem keyForIndex_three (x y z X Y Z : Nat) :
    keyForIndex ![x, y, z] ![X, Y, Z] = (x + X * y + X * Y * z) % 4294967296 := by
  have : x + X * (y + Y * z) = x + X * y + X * Y * z := by ring
  simp [keyForIndex, cellNumber, Fin.tail, this]

end cells

section geometry

/-! ### Geometry -/

variable {d : Nat} {K : Type} [Field K] [LinearOrder K] [IsStrictOrderedRing K] [FloorRing K]

theorem overlaps_iff (a b : Box d K) (ha : ∀ i, a.min i ≤ a.max i) (hb : ∀ i, b.min i ≤ b.max i) :
    a.overlaps b = true ↔ Overlap a b := by
  unfold Box.overlaps
  constructor
  · intro h
    split at h
    · simp at h
    · rename_i h1
      split at h
      · simp at h
      · rename_i h2
        push Not at h1 h2
        refine ⟨fun i => max (a.min i) (b.min i), fun i => ⟨le_max_left _ _, max_le (ha i) (h1 i)⟩,
          fun i => ⟨le_max_right _ _, max_le (h2 i) (hb i)⟩⟩
  · rintro ⟨x, h1, h2⟩
    rw [if_neg, if_neg]
    · rintro ⟨i, hi⟩
      exact absurd (lt_of_le_of_lt (h2 i).2 (lt_of_lt_of_le hi (h1 i).1)) (by
        intro h; exact absurd (h2 i).1 (by
          have := (h2 i).2
          have := (h1 i).1
          linarith))
    · rintro ⟨i, hi⟩
      have := (h1 i).2
      have := (h2 i).1
      linarith

theorem castUnsigned_ok {x : Fin d → K} {n : Fin d → Nat} (h : castUnsigned x = .ok n) :
    (∀ i, -1 < x i ∧ x i < 4294967296) ∧ n = fun i => ⌊x i⌋₊ := by
  unfold castUnsigned at h
  split at h
  · rename_i hx
    exact ⟨hx, (Outcome.ok.inj h).symm⟩
  · simp at h

/-- cells between the cells of two coordinates are the cells that meet the interval -/
theorem cell_range_iff {m h lo hi : K} (hh : 0 < h) (hlo : m ≤ lo) (hlh : lo ≤ hi) (c : Nat) :
    (⌊(lo - m) / h⌋₊ ≤ c ∧ c ≤ ⌊(hi - m) / h⌋₊) ↔ ∃ x, (m + c * h ≤ x ∧ x < m + (c + 1) * h) ∧ lo ≤ x ∧ x ≤ hi := by
  have hq : 0 ≤ (hi - m) / h := div_nonneg (by linarith) hh.le
  constructor
  · rintro ⟨h1, h2⟩
    have h1' : (lo - m) / h < c + 1 := by
      have := Nat.lt_floor_add_one ((lo - m) / h)
      have h3 : ((⌊(lo - m) / h⌋₊ : ℕ) : K) ≤ (c : K) := by exact_mod_cast h1
      linarith
    have h2' : (c : K) ≤ (hi - m) / h := (Nat.le_floor_iff hq).mp h2
    rw [div_lt_iff₀ hh] at h1'
    rw [le_div_iff₀ hh] at h2'
    refine ⟨max lo (m + c * h), ⟨le_max_right _ _, max_lt (by linarith) (by linarith)⟩, le_max_left _ _, max_le hlh (by linarith)⟩
  · rintro ⟨x, ⟨h1, h2⟩, h3, h4⟩
    constructor
    · have : (lo - m) / h < c + 1 := by
        rw [div_lt_iff₀ hh]; linarith
      have h5 : ⌊(lo - m) / h⌋₊ < c + 1 := (Nat.floor_lt' (Nat.succ_ne_zero c)).mpr (by push_cast; exact this)
      omega
    · rw [Nat.le_floor_iff hq, le_div_iff₀ hh]
      linarith

/-- The grid encloses the box. -/
def GridSpec.Encloses (g : GridSpec d K) (b : Box d K) : Prop :=
  0 < g.h ∧ (∀ i, b.min i ≤ b.max i) ∧ (∀ i, g.minCoord i ≤ b.min i - 2 / 1000000) ∧
    ∀ i, b.max i + 2 / 1000000 ≤ g.minCoord i + g.dims i * g.h

theorem corners_ok {g : GridSpec d K} {b : Box d K} {c : (Fin d → Nat) × (Fin d → Nat)} (h : g.corners b = .ok c) :
    c = (fun i => ⌊(b.min i - 1 / 1000000 - g.minCoord i) / g.h⌋₊, fun i => ⌊(b.max i + 1 / 1000000 - g.minCoord i) / g.h⌋₊) := by
  unfold GridSpec.corners at h
  simp only [Outcome.bind_ok_iff] at h
  obtain ⟨l, hl, u, hu, hc⟩ := h
  cases hc
  rw [(castUnsigned_ok hl).2, (castUnsigned_ok hu).2]

/-- the cells a box is rasterised into are those that meet it, enlarged by `1e-6` -/
theorem mem_cells_iff {g : GridSpec d K} {b : Box d K} {c : (Fin d → Nat) × (Fin d → Nat)} (h : g.corners b = .ok c)
    (he : g.Encloses b) (cell : Fin d → Nat) :
    cell ∈ cellsBetween d c.1 c.2 ↔ g.Meets cell (b.enlarge (1 / 1000000)) := by
  obtain ⟨hh, hv, hlo, _⟩ := he
  rw [mem_cellsBetween, corners_ok h]
  have key : ∀ i, (⌊(b.min i - 1 / 1000000 - g.minCoord i) / g.h⌋₊ ≤ cell i ∧
      cell i ≤ ⌊(b.max i + 1 / 1000000 - g.minCoord i) / g.h⌋₊) ↔
      ∃ x, (g.minCoord i + cell i * g.h ≤ x ∧ x < g.minCoord i + (cell i + 1) * g.h) ∧
        b.min i - 1 / 1000000 ≤ x ∧ x ≤ b.max i + 1 / 1000000 := by
    intro i
    have h1 := hlo i
    have h2 := hv i
    refine cell_range_iff hh ?_ ?_ (cell i)
    · norm_num at h1 ⊢; linarith
    · norm_num; linarith
  constructor
  · intro hc
    choose x hx using fun i => (key i).mp (hc i)
    exact ⟨x, fun i => (hx i).1, fun i => (hx i).2⟩
  · rintro ⟨x, h1, h2⟩ i
    exact (key i).mpr ⟨x i, h1 i, h2 i⟩

/-- cells of an enclosed box are inside the grid -/
theorem cells_in_range {g : GridSpec d K} {b : Box d K} {c : (Fin d → Nat) × (Fin d → Nat)} (h : g.corners b = .ok c)
    (he : g.Encloses b) (cell : Fin d → Nat) (hc : cell ∈ cellsBetween d c.1 c.2) (i : Fin d) : cell i < g.dims i := by
  obtain ⟨x, h1, h2⟩ := (mem_cells_iff h he cell).mp hc
  obtain ⟨hh, _, _, hhi⟩ := he
  have h3 := (h1 i).1
  have h4 : x i ≤ b.max i + 1 / 1000000 := (h2 i).2
  have h5 := hhi i
  have h6 : (cell i : K) * g.h < g.dims i * g.h := by
    have : b.max i + 1 / 1000000 < b.max i + 2 / 1000000 := by norm_num
    linarith
  exact_mod_cast lt_of_mul_lt_mul_right h6 hh.le

theorem corners_defined {g : GridSpec d K} {b : Box d K} (he : g.Encloses b) (hd : ∀ i, g.dims i ≤ 4294967295) :
    ∃ c, g.corners b = .ok c := by
  obtain ⟨hh, hv, hlo, hhi⟩ := he
  have hupper : ∀ i, (b.max i + 1 / 1000000 - g.minCoord i) / g.h < 4294967296 := by
    intro i
    rw [div_lt_iff₀ hh]
    have h1 := hhi i
    have h2 : (g.dims i : K) ≤ 4294967295 := by exact_mod_cast hd i
    have h3 : (g.dims i : K) * g.h ≤ 4294967295 * g.h := mul_le_mul_of_nonneg_right h2 hh.le
    have : b.max i + 1 / 1000000 < b.max i + 2 / 1000000 := by norm_num
    linarith
  have hlower : ∀ i, 0 ≤ (b.min i - 1 / 1000000 - g.minCoord i) / g.h := by
    intro i
    refine div_nonneg ?_ hh.le
    have h1 := hlo i
    norm_num at h1 ⊢; linarith
  have hle : ∀ i, (b.min i - 1 / 1000000 - g.minCoord i) / g.h ≤ (b.max i + 1 / 1000000 - g.minCoord i) / g.h := by
    intro i
    refine div_le_div_of_nonneg_right ?_ hh.le
    have := hv i
    norm_num; linarith
  unfold GridSpec.corners computeCellIndex castUnsigned
  rw [if_pos fun i => ⟨by have := hlower i; linarith, lt_of_le_of_lt (hle i) (hupper i)⟩,
    if_pos fun i => ⟨by have := hlower i; have := hle i; linarith, hupper i⟩]
  exact ⟨_, rfl⟩

/-! ### The grid encloses every box -/

theorem boundingBox_le (b : Box d K) (bs : List (Box d K)) :
    (∀ i, (boundingBox b bs).min i ≤ b.min i ∧ b.max i ≤ (boundingBox b bs).max i) ∧
    ∀ b' ∈ bs, ∀ i, (boundingBox b bs).min i ≤ b'.min i ∧ b'.max i ≤ (boundingBox b bs).max i := by
  induction bs generalizing b with
  | nil => exact ⟨fun i => ⟨le_refl _, le_refl _⟩, fun b' h => by simp at h⟩
  | cons c bs ih =>
    obtain ⟨h1, h2⟩ := ih ⟨fun i => min (b.min i) (c.min i), fun i => max (b.max i) (c.max i)⟩
    refine ⟨fun i => ⟨(h1 i).1.trans (min_le_left _ _), (le_max_left _ _).trans (h1 i).2⟩, fun b' hb i => ?_⟩
    rcases List.mem_cons.mp hb with rfl | hb
    · exact ⟨(h1 i).1.trans (min_le_right _ _), (le_max_right _ _).trans (h1 i).2⟩
    · exact h2 b' hb i

theorem le_maxCoeff (d : Nat) (v : Fin (d + 1) → K) (i : Fin (d + 1)) : v i ≤ maxCoeff d v := by
  induction d with
  | zero =>
    have : i = 0 := Fin.ext (by have := i.isLt; show i.val = 0; omega)
    rw [this]; exact le_refl _
  | succ d ih =>
    unfold maxCoeff
    refine Fin.cases (le_max_left _ _) (fun j => ?_) i
    exact (ih (Fin.tail v) j).trans (le_max_right _ _)

theorem sum_extent_pos (bs : List (Box (d + 1) K)) (hv : ∀ b ∈ bs, b.Valid) (s : Fin (d + 1) → K) (i : Fin (d + 1)) :
    s i ≤ bs.foldl (fun s b i => s i + (b.max i - b.min i)) s i ∧
    (bs ≠ [] → s i < bs.foldl (fun s b i => s i + (b.max i - b.min i)) s i) := by
  induction bs generalizing s with
  | nil => exact ⟨le_refl _, fun h => absurd rfl h⟩
  | cons b bs ih =>
    obtain ⟨h1, _⟩ := ih (fun b hb => hv b (List.mem_cons_of_mem _ hb)) (fun i => s i + (b.max i - b.min i))
    have := hv b List.mem_cons_self i
    simp only [List.foldl_cons]
    exact ⟨by linarith, fun _ => by linarith⟩

theorem cellWidth_pos (bs : List (Box (d + 1) K)) (hv : ∀ b ∈ bs, b.Valid) (hne : bs ≠ []) : 0 < cellWidth bs := by
  unfold cellWidth
  refine div_pos ?_ ?_
  · have := (sum_extent_pos bs hv (fun _ => 0) 0).2 hne
    exact lt_of_lt_of_le this (le_maxCoeff d _ 0)
  · have : 0 < bs.length := List.length_pos_of_ne_nil hne
    exact_mod_cast this

theorem initialize_ok {bs : List (Box (d + 1) K)} {g : GridSpec (d + 1) K} (hv : ∀ b ∈ bs, b.Valid)
    (h : initializeSpatialGrid bs = .ok g) : bs ≠ [] ∧ (∀ b ∈ bs, g.Encloses b) ∧ ∀ i, g.dims i ≤ 4294967295 := by
  cases bs with
  | nil => simp [initializeSpatialGrid] at h
  | cons b rest =>
    have hne : b :: rest ≠ [] := by simp
    have hh := cellWidth_pos _ hv hne
    unfold initializeSpatialGrid at h
    simp only [if_neg hh.ne', Outcome.bind_ok_iff] at h
    obtain ⟨dims, hd, hg⟩ := h
    cases hg
    obtain ⟨hr, hdims⟩ := castUnsigned_ok hd
    obtain ⟨h1, h2⟩ := boundingBox_le b rest
    have hall : ∀ b' ∈ b :: rest, ∀ i, (boundingBox b rest).min i ≤ b'.min i ∧ b'.max i ≤ (boundingBox b rest).max i := by
      intro b' hb'
      rcases List.mem_cons.mp hb' with rfl | hb'
      · exact h1
      · exact h2 b' hb'
    have hdimc : ∀ i, (dims i : K) = ((⌈((boundingBox b rest).max i + 2 / 1000000 - ((boundingBox b rest).min i - 2 / 1000000)) /
        cellWidth (b :: rest)⌉ : ℤ) : K) := by
      intro i
      rw [hdims]
      simp only
      set z := ⌈((boundingBox b rest).max i + 2 / 1000000 - ((boundingBox b rest).min i - 2 / 1000000)) /
        cellWidth (b :: rest)⌉ with hz
      have hz0 : 0 ≤ z := by
        have h3 := (hr i).1
        have h4 : (-1 : ℤ) < z := by exact_mod_cast h3
        omega
      obtain ⟨m, hm⟩ := Int.eq_ofNat_of_zero_le hz0
      rw [hm]
      simp
    refine ⟨hne, fun b' hb' => ⟨hh, fun i => (hv b' hb' i).le, fun i => ?_, fun i => ?_⟩, fun i => ?_⟩
    · have := (hall b' hb' i).1
      show (boundingBox b rest).min i - 2 / 1000000 ≤ _
      linarith
    · show _ ≤ (boundingBox b rest).min i - 2 / 1000000 + dims i * cellWidth (b :: rest)
      rw [hdimc]
      have h3 := Int.le_ceil (((boundingBox b rest).max i + 2 / 1000000 - ((boundingBox b rest).min i - 2 / 1000000)) /
        cellWidth (b :: rest))
      rw [div_le_iff₀ hh] at h3
      have := (hall b' hb' i).2
      linarith
    · have h3 := (hr i).2
      rw [← hdimc i] at h3
      have h4 : dims i < 4294967296 := by exact_mod_cast h3
      show dims i ≤ 4294967295
      omega

end geometry

section raster

variable {d : Nat} {K : Type} [Field K] [LinearOrder K] [IsStrictOrderedRing K] [FloorRing K]

/-! ### Rasterising -/

theorem foldl_add (keys : List Nat) (idx : Nat) (vs : Voxels) (h : KeysSorted vs) :
    KeysSorted (keys.foldl (fun vs k => addToVoxel k idx vs) vs) ∧
    ∀ k, voxelAt (keys.foldl (fun vs k => addToVoxel k idx vs) vs) k = voxelAt vs k ++ List.replicate (keys.count k) idx := by
  induction keys generalizing vs with
  | nil => exact ⟨h, fun k => by simp⟩
  | cons a keys ih =>
    obtain ⟨h1, h2⟩ := ih (addToVoxel a idx vs) (addToVoxel_sorted h)
    refine ⟨h1, fun k => ?_⟩
    rw [List.foldl_cons, h2, voxelAt_add h, List.append_assoc]
    congr 1
    by_cases hk : a = k
    · subst hk
      rw [if_pos rfl, List.count_cons_self, List.replicate_succ]; rfl
    · rw [if_neg hk, List.count_cons_of_ne (by simpa using hk)]; rfl

/-- Box `b` is rasterised into voxel `k`. -/
def Hits (g : GridSpec d K) (b : Box d K) (k : Nat) : Prop :=
  ∃ c, g.corners b = .ok c ∧ ∃ cell ∈ cellsBetween d c.1 c.2, keyForIndex cell g.dims = k

/-- All boxes have their cells in voxels of their own. -/
def KeysApart (g : GridSpec d K) (b : Box d K) : Prop :=
  ∀ c, g.corners b = .ok c → ((cellsBetween d c.1 c.2).map fun cell => keyForIndex cell g.dims).Nodup

theorem rasterizeOne_ok {g : GridSpec d K} {idx : Nat} {b : Box d K} {vs vs' : Voxels} (h : rasterizeOne g idx b vs = .ok vs')
    (hs : KeysSorted vs) : KeysSorted vs' ∧ ∀ k, ∃ n, voxelAt vs' k = voxelAt vs k ++ List.replicate n idx ∧ (0 < n ↔ Hits g b k) ∧
      (KeysApart g b → n ≤ 1) := by
  unfold rasterizeOne at h
  simp only [Outcome.bind_ok_iff] at h
  obtain ⟨c, hc, h⟩ := h
  cases h
  obtain ⟨h1, h2⟩ := foldl_add ((cellsBetween d c.1 c.2).map fun cell => keyForIndex cell g.dims) idx vs hs
  rw [List.foldl_map] at h1
  refine ⟨h1, fun k => ⟨_, by have := h2 k; rw [List.foldl_map] at this; exact this, ?_, fun ha => ?_⟩⟩
  · rw [List.count_pos_iff, List.mem_map]
    constructor
    · rintro ⟨cell, hm, hk⟩
      exact ⟨c, hc, cell, hm, hk⟩
    · rintro ⟨c', hc', cell, hm, hk⟩
      rw [hc] at hc'
      cases hc'
      exact ⟨cell, hm, hk⟩
  · exact List.nodup_iff_count_le_one.mp (ha c hc) k

theorem rasterizeFrom_ok {g : GridSpec d K} {bs : List (Box d K)} {idx : Nat} {vs vs' : Voxels}
    (h : rasterizeFrom g idx bs vs = .ok vs') (hs : KeysSorted vs) (hp : ∀ k, (voxelAt vs k).Pairwise (· ≤ ·))
    (hlt : ∀ k, ∀ j ∈ voxelAt vs k, j < idx) :
    KeysSorted vs' ∧ ∀ k, (voxelAt vs' k).Pairwise (· ≤ ·) ∧
      (∀ j, j ∈ voxelAt vs' k ↔ j ∈ voxelAt vs k ∨ ∃ t b, bs[t]? = some b ∧ j = idx + t ∧ Hits g b k) ∧
      ((∀ b ∈ bs, KeysApart g b) → (voxelAt vs k).Nodup → (voxelAt vs' k).Nodup) := by
  induction bs generalizing idx vs with
  | nil =>
    cases h
    exact ⟨hs, fun k => ⟨hp k, fun j => by simp, fun _ hn => hn⟩⟩
  | cons b bs ih =>
    unfold rasterizeFrom at h
    simp only [Outcome.bind_ok_iff] at h
    obtain ⟨v1, h1, h⟩ := h
    obtain ⟨hs1, hv1⟩ := rasterizeOne_ok h1 hs
    have hmem1 : ∀ k j, j ∈ voxelAt v1 k ↔ j ∈ voxelAt vs k ∨ (j = idx ∧ Hits g b k) := by
      intro k j
      obtain ⟨n, e, hn, _⟩ := hv1 k
      rw [e, List.mem_append, List.mem_replicate, ← hn]
      constructor
      · rintro (h | ⟨h1, h2⟩)
        · exact Or.inl h
        · exact Or.inr ⟨h2, Nat.pos_of_ne_zero h1⟩
      · rintro (h | ⟨h1, h2⟩)
        · exact Or.inl h
        · exact Or.inr ⟨Nat.pos_iff_ne_zero.mp h2, h1⟩
    have hp1 : ∀ k, (voxelAt v1 k).Pairwise (· ≤ ·) := by
      intro k
      obtain ⟨n, e, _, _⟩ := hv1 k
      rw [e, List.pairwise_append]
      refine ⟨hp k, List.pairwise_replicate.mpr (Or.inr (Nat.le_refl _)), fun a ha c hc => ?_⟩
      rw [(List.mem_replicate.mp hc).2]
      exact (hlt k a ha).le
    have hlt1 : ∀ k, ∀ j ∈ voxelAt v1 k, j < idx + 1 := by
      intro k j hj
      rcases (hmem1 k j).mp hj with h | ⟨h, _⟩
      · have := hlt k j h; omega
      · omega
    obtain ⟨hs2, h2⟩ := ih h hs1 hp1 hlt1
    refine ⟨hs2, fun k => ⟨(h2 k).1, fun j => ?_, fun ha hn => ?_⟩⟩
    · rw [(h2 k).2.1, hmem1]
      constructor
      · rintro ((h | ⟨h, hh⟩) | ⟨t, b', hb', hj, hh⟩)
        · exact Or.inl h
        · exact Or.inr ⟨0, b, rfl, by omega, hh⟩
        · exact Or.inr ⟨t + 1, b', by simpa using hb', by omega, hh⟩
      · rintro (h | ⟨t, b', hb', hj, hh⟩)
        · exact Or.inl (Or.inl h)
        · cases t with
          | zero =>
            simp only [List.getElem?_cons_zero, Option.some.injEq] at hb'
            subst hb'
            exact Or.inl (Or.inr ⟨by omega, hh⟩)
          | succ t => exact Or.inr ⟨t, b', by simpa using hb', by omega, hh⟩
    · refine (h2 k).2.2 (fun b hb => ha b (List.mem_cons_of_mem _ hb)) ?_
      obtain ⟨n, e, _, hn1⟩ := hv1 k
      have := hn1 (ha b List.mem_cons_self)
      rw [e, List.nodup_append]
      refine ⟨hn, List.nodup_replicate.mpr this, fun a ha' c hc => ?_⟩
      rw [(List.mem_replicate.mp hc).2]
      exact (hlt k a ha').ne

theorem rasterize_defined {g : GridSpec d K} {bs : List (Box d K)} (he : ∀ b ∈ bs, g.Encloses b) (hd : ∀ i, g.dims i ≤ 4294967295)
    (idx : Nat) (vs : Voxels) : ∃ vs', rasterizeFrom g idx bs vs = .ok vs' := by
  induction bs generalizing idx vs with
  | nil => exact ⟨vs, rfl⟩
  | cons b bs ih =>
    obtain ⟨c, hc⟩ := corners_defined (he b List.mem_cons_self) hd
    unfold rasterizeFrom rasterizeOne
    rw [hc]
    exact ih (fun b hb => he b (List.mem_cons_of_mem _ hb)) (idx + 1) _

/-- What the collected set contains. -/
theorem collectPairs_ok (bs : List (Box d K)) (vs : Voxels) (out : List (Nat × Nat)) (ho : out.Pairwise pairLt) :
    (collectPairs bs vs out).Pairwise pairLt ∧
    ∀ p, p ∈ collectPairs bs vs out ↔ p ∈ out ∨ (∃ v ∈ vs, p ∈ pairsOf v.2) ∧ boxesOverlap bs p = true := by
  induction vs generalizing out with
  | nil => exact ⟨ho, fun p => by simp [collectPairs]⟩
  | cons v vs ih =>
    obtain ⟨h1, h2⟩ := foldl_insert (P := boxesOverlap bs) (l := pairsOf v.2) ho
    obtain ⟨h3, h4⟩ := ih _ h1
    refine ⟨h3, fun p => ?_⟩
    refine (h4 p).trans ?_
    rw [h2]
    constructor
    · rintro ((h | ⟨h, h'⟩) | ⟨⟨w, hw, hp⟩, h'⟩)
      · exact Or.inl h
      · exact Or.inr ⟨⟨v, List.mem_cons_self, h⟩, h'⟩
      · exact Or.inr ⟨⟨w, List.mem_cons_of_mem _ hw, hp⟩, h'⟩
    · rintro (h | ⟨⟨w, hw, hp⟩, h'⟩)
      · exact Or.inl (Or.inl h)
      · rcases List.mem_cons.mp hw with rfl | hw
        · exact Or.inl (Or.inr ⟨hp, h'⟩)
        · exact Or.inr ⟨⟨w, hw, hp⟩, h'⟩

theorem boxesOverlap_iff {bs : List (Box d K)} (hv : ∀ b ∈ bs, b.Valid) (i j : Nat) :
    boxesOverlap bs (i, j) = true ↔ ∃ a b, bs[i]? = some a ∧ bs[j]? = some b ∧ Overlap a b := by
  unfold boxesOverlap
  cases hi : bs[i]? with
  | none => simp
  | some a =>
    cases hj : bs[j]? with
    | none => simp
    | some b =>
      have ha := hv a (List.mem_of_getElem? hi)
      have hb := hv b (List.mem_of_getElem? hj)
      rw [overlaps_iff a b (fun i => (ha i).le) (fun i => (hb i).le)]
      simp

end raster

end Scisim
