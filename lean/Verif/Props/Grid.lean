import Verif.Lemmas.Grid
import Mathlib.Data.Rat.Floor
import Mathlib.Tactic.NormNum
import Mathlib.Tactic.FinCases
import Mathlib.Algebra.Order.BigOperators.Group.Finset
/-!
# C14, C15: the broad phase
-/

set_option linter.unusedSectionVars false

namespace Scisim

variable {d : Nat} {K : Type} [Field K] [LinearOrder K] [IsStrictOrderedRing K] [FloorRing K]

theorem boundingBox_attained (b : Box d K) (bs : List (Box d K)) (i : Fin d) :
    (∃ a ∈ b :: bs, (boundingBox b bs).max i = a.max i) ∧ ∃ a ∈ b :: bs, (boundingBox b bs).min i = a.min i := by
  have gen : ∀ (bs : List (Box d K)) (m : Box d K),
      ((boundingBox m bs).max i = m.max i ∨ ∃ a ∈ bs, (boundingBox m bs).max i = a.max i) ∧
      ((boundingBox m bs).min i = m.min i ∨ ∃ a ∈ bs, (boundingBox m bs).min i = a.min i) := by
    intro bs
    induction bs with
    | nil => exact fun m => ⟨Or.inl rfl, Or.inl rfl⟩
    | cons c bs ih =>
      intro m
      obtain ⟨h1, h2⟩ := ih ⟨fun i => min (m.min i) (c.min i), fun i => max (m.max i) (c.max i)⟩
      constructor
      · rcases h1 with h | ⟨a, ha, h⟩
        · rcases le_total (m.max i) (c.max i) with hl | hl
          · exact Or.inr ⟨c, List.mem_cons_self, h.trans (max_eq_right hl)⟩
          · exact Or.inl (h.trans (max_eq_left hl))
        · exact Or.inr ⟨a, List.mem_cons_of_mem _ ha, h⟩
      · rcases h2 with h | ⟨a, ha, h⟩
        · rcases le_total (m.min i) (c.min i) with hl | hl
          · exact Or.inl (h.trans (min_eq_left hl))
          · exact Or.inr ⟨c, List.mem_cons_self, h.trans (min_eq_right hl)⟩
        · exact Or.inr ⟨a, List.mem_cons_of_mem _ ha, h⟩
  obtain ⟨h1, h2⟩ := gen bs b
  constructor
  · rcases h1 with h | ⟨a, ha, h⟩
    · exact ⟨b, List.mem_cons_self, h⟩
    · exact ⟨a, List.mem_cons_of_mem _ ha, h⟩
  · rcases h2 with h | ⟨a, ha, h⟩
    · exact ⟨b, List.mem_cons_self, h⟩
    · exact ⟨a, List.mem_cons_of_mem _ ha, h⟩

theorem initialize_defined (bs : List (Box (d + 1) K)) (hne : bs ≠ []) (hv : ∀ b ∈ bs, b.Valid) {n : Nat} (hn : n ≤ 4294967295)
    (hf : Spread bs n) : ∃ g, initializeSpatialGrid bs = .ok g ∧ ∀ i, g.dims i ≤ n := by
  cases bs with
  | nil => exact absurd rfl hne
  | cons b rest =>
    have hh := cellWidth_pos _ hv hne
    unfold initializeSpatialGrid
    simp only [if_neg hh.ne']
    have : ∀ i, -1 < (((⌈((boundingBox b rest).max i + 2 / 1000000 - ((boundingBox b rest).min i - 2 / 1000000)) /
        cellWidth (b :: rest)⌉ : ℤ)) : K) ∧ (((⌈((boundingBox b rest).max i + 2 / 1000000 -
        ((boundingBox b rest).min i - 2 / 1000000)) / cellWidth (b :: rest)⌉ : ℤ)) : K) ≤ n := by
      intro i
      obtain ⟨⟨a, ha, e1⟩, ⟨a', ha', e2⟩⟩ := boundingBox_attained b rest i
      have hlow := boundingBox_le b rest
      have hbb := (hlow.1 i)
      have hvb := hv b List.mem_cons_self i
      constructor
      · have : (0 : K) ≤ ((boundingBox b rest).max i + 2 / 1000000 - ((boundingBox b rest).min i - 2 / 1000000)) /
            cellWidth (b :: rest) := by
          refine div_nonneg ?_ hh.le
          have : (0 : K) < 2 / 1000000 := by norm_num
          linarith [hbb.1, hbb.2]
        have h2 : (0 : ℤ) ≤ ⌈((boundingBox b rest).max i + 2 / 1000000 - ((boundingBox b rest).min i - 2 / 1000000)) /
            cellWidth (b :: rest)⌉ := Int.ceil_nonneg this
        have h3 : ((0 : ℤ) : K) ≤ _ := Int.cast_le.mpr h2
        rw [Int.cast_zero] at h3
        linarith
      · have h1 := hf a ha a' ha' i
        have : ((boundingBox b rest).max i + 2 / 1000000 - ((boundingBox b rest).min i - 2 / 1000000)) /
            cellWidth (b :: rest) ≤ n := by
          rw [div_le_iff₀ hh, e1, e2]
          have : (2 : K) / 1000000 + 2 / 1000000 = 4 / 1000000 := by norm_num
          linarith
        have h2 : ⌈((boundingBox b rest).max i + 2 / 1000000 - ((boundingBox b rest).min i - 2 / 1000000)) /
            cellWidth (b :: rest)⌉ ≤ (n : ℤ) := by
          rw [Int.ceil_le]; exact_mod_cast this
        have h3 : (((⌈((boundingBox b rest).max i + 2 / 1000000 - ((boundingBox b rest).min i - 2 / 1000000)) /
            cellWidth (b :: rest)⌉ : ℤ)) : K) ≤ ((n : ℤ) : K) := Int.cast_le.mpr h2
        exact_mod_cast h3
    have hnK : (n : K) < 4294967296 := by
      have : ((n : ℕ) : K) ≤ ((4294967295 : ℕ) : K) := Nat.cast_le.mpr hn
      push_cast at this
      linarith
    unfold castUnsigned
    rw [if_pos fun i => ⟨(this i).1, lt_of_le_of_lt (this i).2 hnK⟩]
    refine ⟨_, rfl, fun i => ?_⟩
    have h4 := Nat.floor_mono (this i).2
    rwa [Nat.floor_natCast] at h4

/-- the shape of a successful call -/
theorem getPotentialOverlaps_ok {bs : List (Box (d + 1) K)} {s : List (Nat × Nat)} (hv : ∀ b ∈ bs, b.Valid)
    (h : getPotentialOverlaps bs = .ok s) : ∃ g vs, initializeSpatialGrid bs = .ok g ∧ rasterizeFrom g 0 bs [] = .ok vs ∧
      s.Pairwise pairLt ∧ ∀ i j, (i, j) ∈ s ↔ (∃ k, List.Sublist [i, j] (voxelAt vs k)) ∧
        ∃ a b, bs[i]? = some a ∧ bs[j]? = some b ∧ Overlap a b := by
  unfold getPotentialOverlaps at h
  simp only [Outcome.bind_ok_iff] at h
  obtain ⟨g, hg, vs, hvs, h⟩ := h
  cases h
  obtain ⟨h1, h2⟩ := collectPairs_ok bs vs [] List.Pairwise.nil
  obtain ⟨hs, _⟩ := rasterizeFrom_ok hvs List.Pairwise.nil (fun k => List.Pairwise.nil) (fun k j hj => by simp [voxelAt] at hj)
  refine ⟨g, vs, hg, hvs, h1, fun i j => ?_⟩
  rw [h2, ← boxesOverlap_iff hv]
  constructor
  · rintro (h | ⟨⟨v, hvm, hp⟩, ho⟩)
    · simp at h
    · refine ⟨⟨v.1, ?_⟩, ho⟩
      rw [voxelAt_of_mem hs hvm]
      exact mem_pairsOf.mp hp
  · rintro ⟨⟨k, hk⟩, ho⟩
    refine Or.inr ⟨⟨(k, voxelAt vs k), mem_of_voxelAt_ne_nil ?_, mem_pairsOf.mpr hk⟩, ho⟩
    intro he
    rw [he] at hk
    simp at hk

/-- two overlapping boxes share a voxel -/
theorem share_voxel {bs : List (Box (d + 1) K)} {g : GridSpec (d + 1) K} (hv : ∀ b ∈ bs, b.Valid)
    (hg : initializeSpatialGrid bs = .ok g) {a b : Box (d + 1) K} (ha : a ∈ bs) (hb : b ∈ bs) (ho : Overlap a b) :
    ∃ k, Hits g a k ∧ Hits g b k := by
  obtain ⟨_, henc, hdims⟩ := initialize_ok hv hg
  obtain ⟨x, hxa, hxb⟩ := ho
  have hea := henc a ha
  have heb := henc b hb
  obtain ⟨ca, hca⟩ := corners_defined hea hdims
  obtain ⟨cb, hcb⟩ := corners_defined heb hdims
  have hh := hea.1
  -- the cell of the common point
  let cell : Fin (d + 1) → Nat := fun i => ⌊(x i - g.minCoord i) / g.h⌋₊
  have hcell : g.cell cell x := by
    intro i
    have h0 : 0 ≤ (x i - g.minCoord i) / g.h := by
      refine div_nonneg ?_ hh.le
      have h1 := hea.2.2.1 i
      have h2 := (hxa i).1
      have h3 : (0 : K) < 2 / 1000000 := by norm_num
      linarith
    have h1 := Nat.floor_le h0
    have h2 := Nat.lt_floor_add_one ((x i - g.minCoord i) / g.h)
    rw [le_div_iff₀ hh] at h1
    rw [div_lt_iff₀ hh] at h2
    exact ⟨by show _ + ((⌊(x i - g.minCoord i) / g.h⌋₊ : ℕ) : K) * _ ≤ _; linarith,
      by show _ < _ + (((⌊(x i - g.minCoord i) / g.h⌋₊ : ℕ) : K) + 1) * _; linarith⟩
  have hmeet : ∀ c : Box (d + 1) K, c.Contains x → g.Meets cell (c.enlarge (1 / 1000000)) := by
    intro c hc
    have h3 : (0 : K) < 1 / 1000000 := by norm_num
    exact ⟨x, hcell, fun i => ⟨by have := (hc i).1; show c.min i - _ ≤ _; linarith,
      by have := (hc i).2; show _ ≤ c.max i + _; linarith⟩⟩
  exact ⟨keyForIndex cell g.dims, ⟨ca, hca, cell, (mem_cells_iff hca hea cell).mpr (hmeet a hxa), rfl⟩,
    ⟨cb, hcb, cell, (mem_cells_iff hcb heb cell).mpr (hmeet b hxb), rfl⟩⟩

/-! ## C14 -/

/-- **C14, no overlap is missed and nothing else is reported**, in any dimension, whatever the size of the grid: every overlapping pair
`i < j` is reported, every reported pair `(i, j)` overlaps and has `i ≤ j`, and no pair is reported twice. Missing for the full
property: `i < j`, which needs the number of cells to fit in 32 bits (`C14_exact_partial`, `C14_self_pair`). -/
theorem C14_complete_partial (bs : List (Box (d + 1) K)) (hv : ∀ b ∈ bs, b.Valid) (s : List (Nat × Nat))
    (h : getPotentialOverlaps bs = .ok s) :
    s.Nodup ∧
    (∀ i j a b, i < j → bs[i]? = some a → bs[j]? = some b → Overlap a b → (i, j) ∈ s) ∧
    (∀ i j, (i, j) ∈ s → i ≤ j ∧ ∃ a b, bs[i]? = some a ∧ bs[j]? = some b ∧ Overlap a b) := by
  obtain ⟨g, vs, hg, hvs, hs, hmem⟩ := getPotentialOverlaps_ok hv h
  obtain ⟨_, hr⟩ := rasterizeFrom_ok hvs List.Pairwise.nil (fun k => List.Pairwise.nil) (fun k j hj => by simp [voxelAt] at hj)
  refine ⟨sorted_nodup hs, fun i j a b hij ha hb ho => ?_, fun i j hp => ?_⟩
  · obtain ⟨k, hka, hkb⟩ := share_voxel hv hg (List.mem_of_getElem? ha) (List.mem_of_getElem? hb) ho
    refine (hmem i j).mpr ⟨⟨k, sublist_of_sorted (hr k).1 ?_ ?_ hij⟩, a, b, ha, hb, ho⟩
    · exact ((hr k).2.1 i).mpr (Or.inr ⟨i, a, ha, (Nat.zero_add i).symm, hka⟩)
    · exact ((hr k).2.1 j).mpr (Or.inr ⟨j, b, hb, (Nat.zero_add j).symm, hkb⟩)
  · obtain ⟨⟨k, hk⟩, ho⟩ := (hmem i j).mp hp
    exact ⟨le_of_sublist (hr k).1 hk, ho⟩

theorem allPairs_ok (bs : List (Box d K)) (hv : ∀ b ∈ bs, b.Valid) :
    (getPotentialOverlapsAllPairs bs).Pairwise pairLt ∧ IsOverlapSet bs (getPotentialOverlapsAllPairs bs) := by
  obtain ⟨h1, h2⟩ := foldl_insert (P := boxesOverlap bs) (l := pairsOf (List.range bs.length)) List.Pairwise.nil
  refine ⟨h1, sorted_nodup h1, fun i j => ?_⟩
  refine (h2 (i, j)).trans ?_
  rw [boxesOverlap_iff hv]
  have hsorted : (List.range bs.length).Pairwise (· < ·) := List.pairwise_lt_range
  constructor
  · rintro (h | ⟨h, ho⟩)
    · simp at h
    · have hs := hsorted.sublist (mem_pairsOf.mp h)
      exact ⟨by simpa using hs, ho⟩
  · rintro ⟨hij, a, b, ha, hb, ho⟩
    refine Or.inr ⟨mem_pairsOf.mpr (sublist_of_sorted (hsorted.imp Nat.le_of_lt) ?_ ?_ hij), a, b, ha, hb, ho⟩
    · exact List.mem_range.mpr (List.getElem?_eq_some_iff.mp ha).1
    · exact List.mem_range.mpr (List.getElem?_eq_some_iff.mp hb).1

/-- **C14, testing all pairs** returns exactly the overlapping pairs. -/
theorem C14_all_pairs (bs : List (Box d K)) (hv : ∀ b ∈ bs, b.Valid) : IsOverlapSet bs (getPotentialOverlapsAllPairs bs) :=
  (allPairs_ok bs hv).2

/-- **C14, grids of at most 2^32 cells.** The grid returns exactly the overlapping pairs `i < j`, each once, the same set as testing all
pairs. Missing for the full property: larger grids (`C14_self_pair`). -/
theorem C14_exact_partial (bs : List (Box (d + 1) K)) (hv : ∀ b ∈ bs, b.Valid) (s : List (Nat × Nat))
    (h : getPotentialOverlaps bs = .ok s)
    (hc : ∀ g, initializeSpatialGrid bs = .ok g → cellCount g.dims ≤ 4294967296) :
    IsOverlapSet bs s ∧ s = getPotentialOverlapsAllPairs bs := by
  obtain ⟨hn, hcomp, hsound⟩ := C14_complete_partial bs hv s h
  obtain ⟨g, vs, hg, hvs, hs, hmem⟩ := getPotentialOverlaps_ok hv h
  obtain ⟨_, hr⟩ := rasterizeFrom_ok hvs List.Pairwise.nil (fun k => List.Pairwise.nil) (fun k j hj => by simp [voxelAt] at hj)
  obtain ⟨_, henc, _⟩ := initialize_ok hv hg
  have hapart : ∀ b ∈ bs, KeysApart g b := by
    intro b hb c hcc
    refine List.Nodup.map_on ?_ (cellsBetween_nodup _ _)
    intro x hx y hy hk
    exact keyForIndex_inj (cells_in_range hcc (henc b hb) x hx) (cells_in_range hcc (henc b hb) y hy) (hc g hg) hk
  have hset : IsOverlapSet bs s := by
    refine ⟨hn, fun i j => ⟨fun hp => ?_, ?_⟩⟩
    · obtain ⟨hle, ho⟩ := hsound i j hp
      refine ⟨lt_of_le_of_ne hle ?_, ho⟩
      rintro rfl
      obtain ⟨⟨k, hk⟩, _⟩ := (hmem i i).mp hp
      have hnd := (hr k).2.2 hapart List.nodup_nil
      have := hnd.sublist hk
      simp at this
    · rintro ⟨hij, a, b, ha, hb, ho⟩
      exact hcomp i j a b hij ha hb ho
  refine ⟨hset, sorted_ext hs (allPairs_ok bs hv).1 fun p => ?_⟩
  obtain ⟨i, j⟩ := p
  rw [hset.2, (C14_all_pairs bs hv).2]

/-- **C14, the call is defined** for every non-empty list of boxes whose grid has fewer than 2^32 cells in each direction. -/
theorem C14_defined (bs : List (Box (d + 1) K)) (hne : bs ≠ []) (hv : ∀ b ∈ bs, b.Valid) (hf : Spread bs 4294967295) :
    ∃ s, getPotentialOverlaps bs = .ok s := by
  obtain ⟨g, hg, _⟩ := initialize_defined bs hne hv (Nat.le_refl _) hf
  obtain ⟨_, henc, hd⟩ := initialize_ok hv hg
  obtain ⟨vs, hvs⟩ := rasterize_defined henc hd 0 []
  exact ⟨_, by unfold getPotentialOverlaps; rw [hg]; simp only [Outcome.bind]; rw [hvs]⟩

/-- **C14, in terms of the boxes only.** If the boxes extend over at most `n` average box sizes in each direction, with
`n ^ dimension ≤ 2 ^ 32` (65536 in the plane, 1625 in space), the call is defined and returns exactly the overlapping pairs. -/
theorem C14_spread_partial (bs : List (Box (d + 1) K)) (hne : bs ≠ []) (hv : ∀ b ∈ bs, b.Valid) (n : Nat) (hn : n ≤ 4294967295)
    (hp : n ^ (d + 1) ≤ 4294967296) (hf : Spread bs n) : ∃ s, getPotentialOverlaps bs = .ok s ∧ IsOverlapSet bs s := by
  have hf' : Spread bs 4294967295 := by
    intro a ha b hb i
    refine (hf a ha b hb i).trans ?_
    exact mul_le_mul_of_nonneg_right (Nat.cast_le.mpr hn) (cellWidth_pos bs hv hne).le
  obtain ⟨s, hs⟩ := C14_defined bs hne hv hf'
  refine ⟨s, hs, (C14_exact_partial bs hv s hs fun g hg => ?_).1⟩
  obtain ⟨g', hg', hd⟩ := initialize_defined bs hne hv hn hf
  rw [hg] at hg'
  cases hg'
  refine le_trans ?_ hp
  unfold cellCount
  calc ∏ i, g.dims i ≤ ∏ _i : Fin (d + 1), n := Finset.prod_le_prod' fun i _ => hd i
    _ = n ^ (d + 1) := by simp

/-- Without boxes the number of cells is computed from infinities: undefined behaviour. -/
theorem C14_empty_undefined : getPotentialOverlaps ([] : List (Box (d + 1) K)) = .ub := rfl

/-- **C14, one box against many** (rigid bodies inserted by a script, portals). -/
theorem C14_trial (t : Box d K) (ht : t.Valid) (bs : List (Box d K)) (hv : ∀ b ∈ bs, b.Valid) :
    (trialOverlaps t bs).Pairwise (· < ·) ∧ ∀ i, i ∈ trialOverlaps t bs ↔ ∃ b, bs[i]? = some b ∧ Overlap b t := by
  refine ⟨List.pairwise_lt_range.filter _, fun i => ?_⟩
  unfold trialOverlaps
  rw [List.mem_filter, List.mem_range]
  cases hi : bs[i]? with
  | none => simp
  | some b =>
    have hb := hv b (List.mem_of_getElem? hi)
    simp only [overlaps_iff b t (fun i => (hb i).le) (fun i => (ht i).le), Option.some.injEq, exists_eq_left']
    exact ⟨fun h => h.2, fun h => ⟨(List.getElem?_eq_some_iff.mp hi).1, h⟩⟩

/-- **The full C14 is false for huge grids**: two small boxes more than four billion box widths apart; the 32-bit cell numbers wrap
and each box is reported to overlap itself. -/
def farBoxes : List (Box 2 ℚ) := [⟨![0, 0], ![1, 1]⟩, ⟨![4294967293, 0], ![4294967294, 1]⟩]

theorem C14_self_pair : (∀ b ∈ farBoxes, b.Valid) ∧ getPotentialOverlaps farBoxes = .ok [(0, 0), (1, 1)] ∧
    getPotentialOverlapsAllPairs farBoxes = [] := by
  refine ⟨?_, ?_, ?_⟩
  · intro b hb i
    simp only [farBoxes, List.mem_cons, List.not_mem_nil, or_false] at hb
    rcases hb with rfl | rfl <;> fin_cases i <;> norm_num
  · decide +kernel
  · decide +kernel

/-- Four boxes, two of them touching along an edge. -/
def exampleBoxes : List (Box 2 ℚ) :=
  [⟨![0, 0], ![1, 1]⟩, ⟨![1, 0], ![2, 1]⟩, ⟨![5, 5], ![8, 8]⟩, ⟨![1/2, -3], ![6, 6]⟩]

example : getPotentialOverlaps exampleBoxes = .ok [(0, 1), (0, 3), (1, 3), (2, 3)] := by decide +kernel

theorem exampleBoxes_valid : ∀ b ∈ exampleBoxes, b.Valid := by
  intro b hb i
  simp only [exampleBoxes, List.mem_cons, List.not_mem_nil, or_false] at hb
  rcases hb with rfl | rfl | rfl | rfl <;> fin_cases i <;> norm_num

example : IsOverlapSet exampleBoxes [(0, 1), (0, 3), (1, 3), (2, 3)] :=
  (C14_exact_partial exampleBoxes exampleBoxes_valid _ (by decide +kernel) (by
    intro g hg
    have h2 : (match initializeSpatialGrid exampleBoxes with
      | .ok g => decide (cellCount g.dims ≤ 4294967296) | _ => false) = true := by decide +kernel
    rw [hg] at h2
    exact of_decide_eq_true h2)).1

example : Spread exampleBoxes 65536 := by
  have hw : cellWidth exampleBoxes = 14 / 4 := by decide +kernel
  intro a ha b hb i
  rw [hw]
  simp only [exampleBoxes, List.mem_cons, List.not_mem_nil, or_false] at ha hb
  rcases ha with rfl | rfl | rfl | rfl <;> rcases hb with rfl | rfl | rfl | rfl <;> fin_cases i <;> norm_num

/-- and in three dimensions -/
example : getPotentialOverlaps ([⟨![0, 0, 0], ![1, 1, 1]⟩, ⟨![1, 0, 2], ![2, 1, 3]⟩, ⟨![1, 0, 0], ![2, 1, 5]⟩] : List (Box 3 ℚ)) =
    .ok [(0, 2), (1, 2)] := by decide +kernel

/-! ## C15 -/

/-- **C15.** For every box of the list, the first and last cell are defined, and the cells the box is rasterised into are inside the
grid, are exactly the cells that meet the box enlarged by `1e-6`, and so include every cell that meets the box. -/
theorem C15_cells (bs : List (Box (d + 1) K)) (hv : ∀ b ∈ bs, b.Valid) (g : GridSpec (d + 1) K)
    (h : initializeSpatialGrid bs = .ok g) (b : Box (d + 1) K) (hb : b ∈ bs) :
    ∃ c, g.corners b = .ok c ∧ ∀ cell,
      (cell ∈ cellsBetween (d + 1) c.1 c.2 → ∀ i, cell i < g.dims i) ∧
      (cell ∈ cellsBetween (d + 1) c.1 c.2 ↔ g.Meets cell (b.enlarge (1 / 1000000))) ∧
      (g.Meets cell b → cell ∈ cellsBetween (d + 1) c.1 c.2) := by
  obtain ⟨_, henc, hd⟩ := initialize_ok hv h
  obtain ⟨c, hc⟩ := corners_defined (henc b hb) hd
  refine ⟨c, hc, fun cell => ⟨cells_in_range hc (henc b hb) cell, mem_cells_iff hc (henc b hb) cell, ?_⟩⟩
  rintro ⟨x, h1, h2⟩
  have h3 : (0 : K) < 1 / 1000000 := by norm_num
  exact (mem_cells_iff hc (henc b hb) cell).mpr ⟨x, h1, fun i =>
    ⟨by have := (h2 i).1; show b.min i - _ ≤ _; linarith, by have := (h2 i).2; show _ ≤ b.max i + _; linarith⟩⟩

/-- **C15, the grid covers the boxes**: every point of a box lies in a cell of the grid. -/
theorem C15_points_covered (bs : List (Box (d + 1) K)) (hv : ∀ b ∈ bs, b.Valid) (g : GridSpec (d + 1) K)
    (h : initializeSpatialGrid bs = .ok g) (b : Box (d + 1) K) (hb : b ∈ bs) (x : Fin (d + 1) → K) (hx : b.Contains x) :
    ∃ cell, (∀ i, cell i < g.dims i) ∧ g.cell cell x := by
  obtain ⟨_, henc, hd⟩ := initialize_ok hv h
  obtain ⟨hh, _, hlo, hhi⟩ := henc b hb
  refine ⟨fun i => ⌊(x i - g.minCoord i) / g.h⌋₊, fun i => ?_, fun i => ?_⟩
  all_goals
    have h3 : (0 : K) < 2 / 1000000 := by norm_num
    have h0 : 0 ≤ (x i - g.minCoord i) / g.h := by
      refine div_nonneg ?_ hh.le
      have h1 := hlo i
      have h2 := (hx i).1
      linarith
  · rw [Nat.floor_lt h0, div_lt_iff₀ hh]
    have h1 := hhi i
    have h2 := (hx i).2
    linarith
  · have h1 := Nat.floor_le h0
    have h2 := Nat.lt_floor_add_one ((x i - g.minCoord i) / g.h)
    rw [le_div_iff₀ hh] at h1
    rw [div_lt_iff₀ hh] at h2
    exact ⟨by show _ + ((⌊(x i - g.minCoord i) / g.h⌋₊ : ℕ) : K) * _ ≤ _; linarith,
      by show _ < _ + (((⌊(x i - g.minCoord i) / g.h⌋₊ : ℕ) : K) + 1) * _; linarith⟩

example : (match initializeSpatialGrid exampleBoxes with
    | .ok g => decide (g.dims 0 = 3 ∧ g.dims 1 = 4) | _ => false) = true := by decide +kernel

end Scisim
