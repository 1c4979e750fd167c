import Mathlib.Tactic.Linarith
import Mathlib.Tactic.NormNum
import Mathlib.Tactic.IntervalCases
import Mathlib.Tactic.Conv
import Mathlib.Tactic.Ring
import Mathlib.Algebra.BigOperators.Fin
import Verif.Spec.SparseMatrix
/-!
# C49: extracting columns of a sparse matrix
-/

namespace Scisim

variable {S : Type}

theorem insertEntry_append (r : Nat) (v : S) (acc : List (Nat × S)) (h : ∀ e ∈ acc, e.1 < r) : insertEntry r v acc = .ok (acc ++ [(r, v)]) := by
  induction acc with
  | nil => rfl
  | cons e acc ih =>
    obtain ⟨r', w⟩ := e
    have h1 : r' < r := h (r', w) (List.mem_cons_self ..)
    unfold insertEntry
    rw [if_neg (by omega), if_neg (by omega), ih fun e he => h e (List.mem_cons_of_mem _ he)]
    rfl

theorem copyEntries_ok (rows : Nat) (l : List (Nat × S)) : ∀ acc : List (Nat × S), ((acc ++ l).map (·.1)).Pairwise (· < ·) → (∀ e ∈ l, e.1 < rows) →
    copyEntries rows l acc = .ok (acc ++ l) := by
  induction l with
  | nil => intro acc _ _; simp [copyEntries]
  | cons e l ih =>
    intro acc hs hr
    obtain ⟨r, v⟩ := e
    unfold copyEntries
    have hlt : ∀ e ∈ acc, e.1 < r := by
      intro e he
      rw [List.map_append, List.pairwise_append] at hs
      exact hs.2.2 e.1 (List.mem_map_of_mem he) r (by simp)
    rw [if_pos (hr (r, v) (List.mem_cons_self ..)), insertEntry_append r v acc hlt]
    show copyEntries rows l (acc ++ [(r, v)]) = _
    rw [ih (acc ++ [(r, v)]) (by simpa using hs) fun e he => hr e (List.mem_cons_of_mem _ he)]
    simp

theorem columnStarts_length (cs : List (List (Nat × S))) : ∀ b, (columnStarts b cs).length = cs.length + 1 := by
  induction cs with
  | nil => intro b; rfl
  | cons c cs ih => intro b; simp [columnStarts, ih]

theorem columnStarts_get (cs : List (List (Nat × S))) : ∀ b j, j ≤ cs.length → (columnStarts b cs)[j]? = some (b + (cs.take j).flatten.length) := by
  induction cs with
  | nil =>
    intro b j hj
    simp only [List.length_nil, Nat.le_zero] at hj
    subst hj
    simp [columnStarts]
  | cons c cs ih =>
    intro b j hj
    cases j with
    | zero => simp [columnStarts]
    | succ j =>
      rw [columnStarts, List.getElem?_cons_succ, ih _ j (by simpa using hj)]
      simp
      omega

theorem columnStarts_sorted (cs : List (List (Nat × S))) : ∀ b, (columnStarts b cs).Pairwise (· ≤ ·) ∧ ∀ x ∈ columnStarts b cs, b ≤ x := by
  induction cs with
  | nil => intro b; simp [columnStarts]
  | cons c cs ih =>
    intro b
    obtain ⟨h1, h2⟩ := ih (b + c.length)
    constructor
    · rw [columnStarts, List.pairwise_cons]
      exact ⟨fun x hx => le_trans (Nat.le_add_right _ _) (h2 x hx), h1⟩
    · intro x hx
      rw [columnStarts, List.mem_cons] at hx
      rcases hx with rfl | hx
      · exact le_rfl
      · exact le_trans (Nat.le_add_right _ _) (h2 x hx)

theorem zip_fst_snd {α β : Type} (l : List (α × β)) : (l.map (·.1)).zip (l.map (·.2)) = l := by
  induction l with
  | nil => rfl
  | cons a l ih => simp [ih]

/-- A compressed matrix has the columns it was built from. -/
theorem compress_column (rows : Nat) (cs : List (List (Nat × S))) (j : Nat) (hj : j < cs.length) : (compress rows cs).column j = .ok cs[j] := by
  unfold Csc.column compress
  simp only
  rw [columnStarts_get cs 0 j hj.le, columnStarts_get cs 0 (j + 1) hj]
  have hsplit : cs.flatten = (cs.take j).flatten ++ (cs[j] ++ (cs.drop (j + 1)).flatten) := by
    have h := congrArg List.flatten (List.take_append_drop j cs)
    rw [List.drop_eq_getElem_cons hj, List.flatten_append, List.flatten_cons] at h
    exact h.symm
  have htake : (cs.take (j + 1)).flatten = (cs.take j).flatten ++ cs[j] := by
    rw [List.take_succ_eq_append_getElem hj, List.flatten_append]
    simp only [List.flatten_cons, List.flatten_nil, List.append_nil]
  simp only [Nat.zero_add]
  rw [zip_fst_snd, htake, if_pos]
  · rw [hsplit, ← List.append_assoc, List.take_left', List.drop_left']
    · rfl
    · rfl
  · rw [List.length_map, List.length_map, hsplit]
    simp

theorem copyColumnList_ok (A : Csc S) (hA : A.Valid) (cols : List Nat) (hc : ∀ c ∈ cols, c < A.cols) :
    ∃ cs, copyColumnList A cols = .ok cs ∧ cs.length = cols.length ∧
      ∀ (j : Nat) (h : j < cols.length) (h' : j < cs.length), A.column cols[j] = .ok cs[j] := by
  induction cols with
  | nil => exact ⟨[], rfl, rfl, fun j h => absurd h (by simp)⟩
  | cons c cols ih =>
    obtain ⟨l, hl, hs, hr⟩ := hA.column c (hc c (List.mem_cons_self ..))
    obtain ⟨cs, hcs, hlen, hcol⟩ := ih fun d hd => hc d (List.mem_cons_of_mem _ hd)
    refine ⟨l :: cs, ?_, by simp [hlen], ?_⟩
    · unfold copyColumnList
      rw [hl]
      show ((copyEntries A.rows l []).bind fun l' => (copyColumnList A cols).bind fun ls => .ok (l' :: ls)) = _
      rw [copyEntries_ok A.rows l [] (by simpa using hs) hr, hcs]
      rfl
    · intro j h h'
      cases j with
      | zero => exact hl
      | succ j => exact hcol j (by simpa using h) (by simpa using h')

/-- Extracting columns gives a well formed matrix with as many rows as before, whose `j`-th column is the `j`-th requested column, entry by entry,
and stores the same entries. Columns may be requested in any order and more than once. -/
theorem C49_extract [Zero S] (A : Csc S) (hA : A.Valid) (cols : List Nat) (hc : ∀ c ∈ cols, c < A.cols) :
    ∃ B, extractColumns A cols = .ok B ∧ B.Valid ∧ B.rows = A.rows ∧ B.cols = cols.length ∧
      (∀ (j : Nat) (h : j < cols.length), B.column j = A.column cols[j]) ∧
      ∀ (i j : Nat) (h : j < cols.length), B.entry i j = A.entry i cols[j] := by
  obtain ⟨cs, hcs, hlen, hcol⟩ := copyColumnList_ok A hA cols hc
  have hcolumn : ∀ (j : Nat) (h : j < cols.length), (compress A.rows cs).column j = A.column cols[j] := by
    intro j h
    rw [compress_column A.rows cs j (hlen ▸ h), hcol j h (hlen ▸ h)]
  refine ⟨compress A.rows cs, ?_, ?_, rfl, hlen, hcolumn, ?_⟩
  · unfold extractColumns
    rw [hcs]
    rfl
  · refine ⟨columnStarts_length cs 0, ?_, (columnStarts_sorted cs 0).1, ?_, ?_, ?_⟩
    · have := columnStarts_get cs 0 0 (Nat.zero_le _)
      simpa [compress] using this
    · have := columnStarts_get cs 0 cs.length le_rfl
      rw [Nat.zero_add, List.take_length] at this
      simp only [compress, List.length_map]
      exact this
    · simp only [compress, List.length_map]
    · intro j hj
      have hj' : j < cols.length := hlen ▸ hj
      obtain ⟨l, hl, h1, h2⟩ := hA.column cols[j] (hc _ (List.getElem_mem hj'))
      exact ⟨l, (hcolumn j hj').trans hl, h1, h2⟩
  · intro i j h
    unfold Csc.entry
    rw [hcolumn j h]

/-- A request for a column that does not exist reads outside the arrays. -/
theorem C49_out_of_range (A : Csc S) (hA : A.Valid) (c : Nat) (h : A.cols ≤ c) : extractColumns A [c] = .ub := by
  have : A.outer[c + 1]? = none := by
    rw [List.getElem?_eq_none_iff, hA.outer_length]; omega
  have hcol : A.column c = .ub := by
    unfold Csc.column
    rw [this]
    rcases A.outer[c]? with _ | _ <;> rfl
  unfold extractColumns copyColumnList
  rw [hcol]
  rfl

/-- The matrix [[5, 0, 7], [0, 6, 8]] -/
def exampleMatrix : Csc ℚ := ⟨2, 3, [0, 1, 2, 4], [0, 1, 0, 1], [5, 6, 7, 8]⟩

theorem exampleMatrix_valid : exampleMatrix.Valid := by
  refine ⟨rfl, rfl, by decide, rfl, rfl, ?_⟩
  intro j hj
  have h3 : j < 3 := hj
  interval_cases j
  · exact ⟨[(0, 5)], rfl, by decide, by simp [exampleMatrix]⟩
  · exact ⟨[(1, 6)], rfl, by decide, by simp [exampleMatrix]⟩
  · exact ⟨[(0, 7), (1, 8)], rfl, by decide, by simp [exampleMatrix]⟩

example : ∃ B, extractColumns exampleMatrix [2, 0] = .ok B ∧ B.entry 1 0 = 8 ∧ B.entry 1 1 = 0 := by
  obtain ⟨B, h1, _, _, _, _, h2⟩ := C49_extract exampleMatrix exampleMatrix_valid [2, 0] (by simp [exampleMatrix])
  exact ⟨B, h1, (h2 1 0 (by decide)).trans (by decide +kernel), (h2 1 1 (by decide)).trans (by decide +kernel)⟩

end Scisim
