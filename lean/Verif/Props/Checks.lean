import Mathlib.Tactic.Linarith
import Mathlib.Tactic.NormNum
import Mathlib.Tactic.Ring
import Mathlib.Tactic.FinCases
import Mathlib.Algebra.BigOperators.Fin
import Mathlib.LinearAlgebra.Matrix.NonsingularInverse
import Mathlib.LinearAlgebra.Matrix.DotProduct
import Verif.Spec.SparseMatrix
import Verif.Spec.Rotations
import Verif.Lemmas.Integrals
/-!
# C53: what the checks on matrices and frames accept
-/

namespace Scisim

variable {S : Type}

/-- The value stored for a row, zero if there is none -/
def look [Zero S] (l : List (Nat × S)) (i : Nat) : S := ((l.find? fun e => e.1 = i).map (·.2)).getD 0

theorem look_cons [Zero S] (r : Nat) (v : S) (l : List (Nat × S)) (i : Nat) : look ((r, v) :: l) i = if r = i then v else look l i := by
  unfold look
  by_cases h : r = i
  · rw [if_pos h, List.find?_cons_of_pos (by simpa using h)]
    rfl
  · rw [if_neg h, List.find?_cons_of_neg (by simpa using h)]

theorem look_notMem [Zero S] (l : List (Nat × S)) (i : Nat) (h : ∀ e ∈ l, e.1 ≠ i) : look l i = 0 := by
  unfold look
  rw [List.find?_eq_none.mpr]
  · rfl
  · intro e he
    simpa using h e he

theorem look_mem [Zero S] (l : List (Nat × S)) (hs : (l.map (·.1)).Pairwise (· < ·)) (e : Nat × S) (he : e ∈ l) : look l e.1 = e.2 := by
  induction l with
  | nil => simp at he
  | cons x l ih =>
    obtain ⟨r, v⟩ := x
    rw [look_cons]
    rw [List.map_cons, List.pairwise_cons] at hs
    rcases List.mem_cons.mp he with rfl | he
    · rw [if_pos rfl]
    · rw [if_neg, ih hs.2 he]
      have := hs.1 e.1 (List.mem_map_of_mem he)
      simp only at this
      omega

theorem Csc.entry_eq [Zero S] (A : Csc S) (j : Nat) (l : List (Nat × S)) (h : A.column j = .ok l) (i : Nat) : A.entry i j = look l i := by
  unfold Csc.entry
  rw [h]
  rfl

/-! ## The identity check -/

theorem storedFrom_ok (A : Csc S) (js : List Nat) (h : ∀ j ∈ js, ∃ l, A.column j = .ok l) :
    ∃ es, A.storedFrom js = .ok es ∧ ∀ i j v, (i, j, v) ∈ es ↔ j ∈ js ∧ ∃ l, A.column j = .ok l ∧ (i, v) ∈ l := by
  induction js with
  | nil => exact ⟨[], rfl, by simp⟩
  | cons j js ih =>
    obtain ⟨l, hl⟩ := h j (List.mem_cons_self ..)
    obtain ⟨es, hes, hmem⟩ := ih fun k hk => h k (List.mem_cons_of_mem _ hk)
    refine ⟨l.map (fun e => (e.1, j, e.2)) ++ es, ?_, ?_⟩
    · unfold Csc.storedFrom
      rw [hl, hes]
      rfl
    · intro i j' v
      rw [List.mem_append, hmem, List.mem_map]
      constructor
      · rintro (⟨e, he, h⟩ | ⟨h1, h2⟩)
        · simp only [Prod.mk.injEq] at h
          obtain ⟨rfl, rfl, rfl⟩ := h
          exact ⟨List.mem_cons_self .., l, hl, he⟩
        · exact ⟨List.mem_cons_of_mem _ h1, h2⟩
      · rintro ⟨h1, l', hl', hm⟩
        rcases List.mem_cons.mp h1 with rfl | h1
        · rw [hl] at hl'
          cases hl'
          exact Or.inl ⟨(i, v), hm, rfl⟩
        · exact Or.inr ⟨h1, l', hl', hm⟩

/-- The diagonal entries of a matrix are all stored. -/
def DiagonalStored (A : Csc S) : Prop := ∀ j < A.cols, ∀ l, A.column j = .ok l → ∃ v, (j, v) ∈ l

/-- The identity check looks at stored entries only. It is exact for matrices that store their diagonal entries; without that, nothing is known about
diagonal entries that are not stored (`C53_identity_false`). -/
theorem C53_identity_partial (A : Csc ℝ) (hA : A.Valid) (tol : ℝ) (htol : 0 ≤ tol) :
    ∃ b, isIdentity A tol = .ok b ∧
      (b = true → A.rows = A.cols ∧ ∀ i j, i < A.rows → j < A.cols → i ≠ j → |A.entry i j| ≤ tol) ∧
      (DiagonalStored A → (b = true ↔ A.rows = A.cols ∧ ∀ i j, i < A.rows → j < A.cols → |A.entry i j - if i = j then 1 else 0| ≤ tol)) := by
  classical
  by_cases hsq : A.rows = A.cols
  · obtain ⟨es, hes, hmem⟩ := storedFrom_ok A (List.range A.cols) fun j hj => by
      obtain ⟨l, hl, _⟩ := hA.column j (List.mem_range.mp hj)
      exact ⟨l, hl⟩
    have hval : isIdentity A tol = .ok (es.all fun e => if e.1 = e.2.1 then decide (¬ FloatOps.abs (e.2.2 - 1) > tol) else decide (¬ FloatOps.abs e.2.2 > tol)) := by
      unfold isIdentity Csc.stored
      rw [if_pos hsq, hes]
      rfl
    refine ⟨_, hval, ?_⟩
    have hspec : (es.all fun e => if e.1 = e.2.1 then decide (¬ FloatOps.abs (e.2.2 - 1) > tol) else decide (¬ FloatOps.abs e.2.2 > tol)) = true ↔
        ∀ i j v, (i, j, v) ∈ es → |v - if i = j then 1 else 0| ≤ tol := by
      rw [List.all_eq_true]
      constructor
      · intro h i j v he
        have := h (i, j, v) he
        by_cases hij : i = j
        · rw [if_pos hij] at this ⊢
          exact not_lt.mp (of_decide_eq_true this)
        · rw [if_neg hij] at this ⊢
          rw [sub_zero]
          exact not_lt.mp (of_decide_eq_true this)
      · rintro h ⟨i, j, v⟩ he
        have := h i j v he
        simp only
        by_cases hij : i = j
        · rw [if_pos hij] at this ⊢
          exact decide_eq_true (not_lt.mpr this)
        · rw [if_neg hij, sub_zero] at this
          rw [if_neg hij]
          exact decide_eq_true (not_lt.mpr this)
    rw [hspec]
    have hoff : (∀ i j v, (i, j, v) ∈ es → |v - if i = j then 1 else 0| ≤ tol) → ∀ i j, j < A.cols → (i ≠ j ∨ ∃ v, (i, j, v) ∈ es) →
        |A.entry i j - if i = j then 1 else 0| ≤ tol := by
      intro h i j hj hor
      obtain ⟨l, hl, hs, hr⟩ := hA.column j hj
      rw [A.entry_eq j l hl]
      by_cases hst : ∃ v, (i, v) ∈ l
      · obtain ⟨v, hv⟩ := hst
        rw [look_mem l hs (i, v) hv]
        exact h i j v ((hmem i j v).mpr ⟨List.mem_range.mpr hj, l, hl, hv⟩)
      · rcases hor with hne | ⟨v, hv⟩
        · rw [look_notMem l i, if_neg hne, sub_zero, abs_zero]
          · exact htol
          · rintro ⟨i', v⟩ he rfl
            exact hst ⟨v, he⟩
        · obtain ⟨_, l', hl', hm⟩ := (hmem i j v).mp hv
          rw [hl] at hl'
          cases hl'
          exact absurd ⟨v, hm⟩ hst
    constructor
    · intro h
      refine ⟨hsq, fun i j _ hj hij => ?_⟩
      have := hoff h i j hj (Or.inl hij)
      rwa [if_neg hij, sub_zero] at this
    · intro hd
      constructor
      · intro h
        refine ⟨hsq, fun i j hi hj => hoff h i j hj ?_⟩
        by_cases hij : i = j
        · subst hij
          obtain ⟨l, hl, _⟩ := hA.column i hj
          obtain ⟨v, hv⟩ := hd i hj l hl
          exact Or.inr ⟨v, (hmem i i v).mpr ⟨List.mem_range.mpr hj, l, hl, hv⟩⟩
        · exact Or.inl hij
      · rintro ⟨_, h⟩ i j v he
        obtain ⟨hj, l, hl, hm⟩ := (hmem i j v).mp he
        rw [List.mem_range] at hj
        obtain ⟨l', hl', hs, hr⟩ := hA.column j hj
        rw [hl] at hl'
        cases hl'
        have := h i j (hr (i, v) hm) hj
        rwa [A.entry_eq j l hl, look_mem l hs (i, v) hm] at this
  · refine ⟨false, ?_, by simp, fun _ => ?_⟩
    · unfold isIdentity
      rw [if_neg hsq]
    · simp [hsq]

/-- The zero matrix of any size passes the identity check with any tolerance that is not negative, since it stores no entries. -/
theorem C53_identity_false (n : Nat) (tol : ℝ) (_htol : 0 ≤ tol) :
    let A : Csc ℝ := ⟨n, n, List.replicate (n + 1) 0, [], []⟩
    A.Valid ∧ isIdentity A tol = .ok true ∧ ∀ i j, A.entry i j = 0 := by
  intro A
  have hcol : ∀ j < n, A.column j = .ok [] := by
    intro j hj
    unfold Csc.column
    simp only [A]
    rw [List.getElem?_replicate, if_pos (by omega), List.getElem?_replicate, if_pos (by omega)]
    simp
  have hst : ∀ js : List Nat, (∀ j ∈ js, j < n) → A.storedFrom js = .ok [] := by
    intro js
    induction js with
    | nil => intro _; rfl
    | cons j js ih =>
      intro h
      unfold Csc.storedFrom
      rw [hcol j (h j (List.mem_cons_self ..)), ih fun k hk => h k (List.mem_cons_of_mem _ hk)]
      rfl
  refine ⟨⟨by simp [A], by simp [A], ?_, by simp [A], rfl, fun j hj => ⟨[], hcol j hj, by simp, by simp⟩⟩, ?_, ?_⟩
  · simp only [A]
    exact List.pairwise_replicate.mpr (Or.inr le_rfl)
  · unfold isIdentity Csc.stored
    rw [if_pos rfl, hst _ fun j hj => List.mem_range.mp hj]
    rfl
  · intro i j
    unfold Csc.entry Csc.column
    simp only [A]
    rcases (List.replicate (n + 1) 0)[j]? with _ | lo
    · rfl
    · rcases (List.replicate (n + 1) 0)[j + 1]? with _ | hi
      · rfl
      · by_cases h : hi ≤ ([] : List Nat).length ∧ hi ≤ ([] : List ℝ).length
        · simp only [h, and_self, if_true]
          simp
        · simp only [h, if_false]

/-- A matrix whose only entry is not a number passes the identity check. -/
theorem C53_identity_nan_false (tol : XR) : isIdentity (⟨1, 1, [0, 1], [0], [XR.nan]⟩ : Csc XR) tol = .ok true := by
  classical
  unfold isIdentity
  rw [if_pos rfl]
  have : (⟨1, 1, [0, 1], [0], [XR.nan]⟩ : Csc XR).stored = .ok [(0, 0, XR.nan)] := rfl
  rw [this]
  have h : ¬ FloatOps.abs (XR.nan - 1) > tol := by
    have : FloatOps.abs (XR.nan - 1) = XR.nan := rfl
    rw [this]
    rcases tol with _ | _ | _ | _ <;> exact fun h => h
  show Outcome.ok (([(0, 0, XR.nan)] : List (Nat × Nat × XR)).all _) = _
  simp [h]

/-! ## The symmetry check -/

theorem mergeSub_spec (a b : List (Nat × ℝ)) : (a.map (·.1)).Pairwise (· < ·) → (b.map (·.1)).Pairwise (· < ·) → ∀ P : ℝ → Prop, P 0 →
    ((∀ e ∈ mergeSub a b, P e.2) ↔ ∀ i, P (look a i - look b i)) := by
  have nil_look : ∀ i, look ([] : List (Nat × ℝ)) i = 0 := fun i => rfl
  have key : ∀ (r : Nat) (l : List (Nat × ℝ)), ((r :: l.map (·.1)).Pairwise (· < ·)) → look l r = 0 := by
    intro r l h
    rw [List.pairwise_cons] at h
    refine look_notMem l r fun e he => ?_
    have := h.1 e.1 (List.mem_map_of_mem he)
    omega
  induction a, b using mergeSub.induct with
  | case1 => intro _ _ P h0; simp [mergeSub, nil_look, h0]
  | case2 r w bs ih =>
    intro ha hb P h0
    rw [mergeSub]
    rw [List.forall_mem_cons, ih ha (List.pairwise_cons.mp hb).2 P h0]
    simp only [nil_look, look_cons]
    constructor
    · rintro ⟨h1, h2⟩ i
      by_cases hi : r = i
      · rw [if_pos hi]; exact h1
      · rw [if_neg hi]; exact h2 i
    · intro h
      refine ⟨by simpa using h r, fun i => ?_⟩
      by_cases hi : r = i
      · subst hi; rw [key r bs hb]; simpa using h0
      · simpa [hi] using h i
  | case3 r v as ih =>
    intro ha hb P h0
    rw [mergeSub]
    rw [List.forall_mem_cons, ih (List.pairwise_cons.mp ha).2 hb P h0]
    simp only [nil_look, look_cons]
    constructor
    · rintro ⟨h1, h2⟩ i
      by_cases hi : r = i
      · rw [if_pos hi]; exact h1
      · rw [if_neg hi]; exact h2 i
    · intro h
      refine ⟨by simpa using h r, fun i => ?_⟩
      by_cases hi : r = i
      · subst hi; rw [key r as ha]; simpa using h0
      · simpa [hi] using h i
  | case4 r v as r' w bs hlt ih =>
    intro ha hb P h0
    rw [mergeSub, if_pos hlt]
    rw [List.forall_mem_cons, ih (List.pairwise_cons.mp ha).2 hb P h0]
    have hz : look ((r', w) :: bs) r = 0 := by
      rw [look_cons, if_neg (by omega)]
      refine look_notMem bs r fun e he => ?_
      have := (List.pairwise_cons.mp hb).1 e.1 (List.mem_map_of_mem he)
      simp only at this
      omega
    rw [show (∀ i, P (look ((r, v) :: as) i - look ((r', w) :: bs) i)) ↔ ∀ i, P ((if r = i then v else look as i) - look ((r', w) :: bs) i) by simp only [look_cons r v as]]
    constructor
    · rintro ⟨h1, h2⟩ i
      by_cases hi : r = i
      · rw [if_pos hi, ← hi, hz]; exact h1
      · rw [if_neg hi]; exact h2 i
    · intro h
      refine ⟨by simpa [hz] using h r, fun i => ?_⟩
      by_cases hi : r = i
      · subst hi; rw [key r as ha, hz]; simpa using h0
      · simpa [hi] using h i
  | case5 r v as r' w bs hnlt hlt ih =>
    intro ha hb P h0
    rw [mergeSub, if_neg hnlt, if_pos hlt]
    rw [List.forall_mem_cons, ih ha (List.pairwise_cons.mp hb).2 P h0]
    have hz : look ((r, v) :: as) r' = 0 := by
      rw [look_cons, if_neg (by omega)]
      refine look_notMem as r' fun e he => ?_
      have := (List.pairwise_cons.mp ha).1 e.1 (List.mem_map_of_mem he)
      simp only at this
      omega
    rw [show (∀ i, P (look ((r, v) :: as) i - look ((r', w) :: bs) i)) ↔ ∀ i, P (look ((r, v) :: as) i - (if r' = i then w else look bs i)) by simp only [look_cons r' w bs]]
    constructor
    · rintro ⟨h1, h2⟩ i
      by_cases hi : r' = i
      · rw [if_pos hi, ← hi, hz]; exact h1
      · rw [if_neg hi]; exact h2 i
    · intro h
      refine ⟨by simpa [hz] using h r', fun i => ?_⟩
      by_cases hi : r' = i
      · subst hi; rw [key r' bs hb, hz]; simpa using h0
      · simpa [hi] using h i
  | case6 r v as r' w bs h1 h2 ih =>
    intro ha hb P h0
    have hr : r = r' := by omega
    subst hr
    rw [mergeSub, if_neg h1, if_neg h2]
    rw [List.forall_mem_cons, ih (List.pairwise_cons.mp ha).2 (List.pairwise_cons.mp hb).2 P h0]
    simp only [look_cons]
    constructor
    · rintro ⟨h1, h2⟩ i
      by_cases hi : r = i
      · rw [if_pos hi, if_pos hi]; exact h1
      · rw [if_neg hi, if_neg hi]; exact h2 i
    · intro h
      refine ⟨by simpa using h r, fun i => ?_⟩
      by_cases hi : r = i
      · subst hi; rw [key r as ha, key r bs hb]; simpa using h0
      · simpa [hi] using h i

/-- Rows of a list of columns -/
theorem rowOf_spec (i : Nat) (cs : List (List (Nat × ℝ))) : ∀ j0, (∀ c ∈ cs, (c.map (·.1)).Pairwise (· < ·)) →
    ((rowOf i j0 cs).map (·.1)).Pairwise (· < ·) ∧ (∀ e ∈ rowOf i j0 cs, j0 ≤ e.1) ∧ ∀ k, look (rowOf i j0 cs) (j0 + k) = look (cs.getD k []) i := by
  induction cs with
  | nil => intro j0 _; exact ⟨by simp [rowOf], by simp [rowOf], fun k => rfl⟩
  | cons c cs ih =>
    intro j0 h
    obtain ⟨h1, h2, h3⟩ := ih (j0 + 1) fun d hd => h d (List.mem_cons_of_mem _ hd)
    have hc := h c (List.mem_cons_self ..)
    have hf : (c.filter fun e => e.1 = i) = [] ∧ look c i = 0 ∨ ∃ v, (c.filter fun e => e.1 = i) = [(i, v)] ∧ look c i = v := by
      clear ih h1 h2 h3 h
      induction c with
      | nil => exact Or.inl ⟨rfl, rfl⟩
      | cons e c ih =>
        obtain ⟨r, v⟩ := e
        rw [List.map_cons, List.pairwise_cons] at hc
        by_cases hr : r = i
        · subst hr
          refine Or.inr ⟨v, ?_, by rw [look_cons, if_pos rfl]⟩
          have : (c.filter fun e => e.1 = r) = [] := by
            rw [List.filter_eq_nil_iff]
            intro e he
            have := hc.1 e.1 (List.mem_map_of_mem he)
            simp only at this
            simp; omega
          rw [List.filter_cons_of_pos (by simp), this]
        · rw [List.filter_cons_of_neg (by simpa using hr), look_cons, if_neg hr]
          exact ih hc.2
    rcases hf with ⟨hf, hl⟩ | ⟨v, hf, hl⟩
    · have he : rowOf i j0 (c :: cs) = rowOf i (j0 + 1) cs := by rw [rowOf, hf]; rfl
      rw [he]
      refine ⟨h1, fun e he => by have := h2 e he; omega, fun k => ?_⟩
      cases k with
      | zero =>
        rw [List.getD_cons_zero, hl]
        refine look_notMem _ _ fun e he => ?_
        have := h2 e he
        omega
      | succ k =>
        rw [List.getD_cons_succ, ← h3 k]
        congr 1; omega
    · have he : rowOf i j0 (c :: cs) = (j0, v) :: rowOf i (j0 + 1) cs := by rw [rowOf, hf]; rfl
      rw [he]
      refine ⟨?_, ?_, fun k => ?_⟩
      · rw [List.map_cons, List.pairwise_cons]
        refine ⟨fun x hx => ?_, h1⟩
        obtain ⟨e, he, rfl⟩ := List.mem_map.mp hx
        have := h2 e he
        simp only
        omega
      · intro e he
        rcases List.mem_cons.mp he with rfl | he
        · exact le_rfl
        · have := h2 e he; omega
      · cases k with
        | zero => rw [List.getD_cons_zero, hl, look_cons, if_pos (by omega)]
        | succ k =>
          rw [List.getD_cons_succ, ← h3 k, look_cons, if_neg (by omega)]
          congr 1; omega

theorem columnsFrom_ok (A : Csc S) (js : List Nat) (h : ∀ j ∈ js, ∃ l, A.column j = .ok l) :
    ∃ cs, A.columnsFrom js = .ok cs ∧ cs.length = js.length ∧ ∀ (k : Nat) (hk : k < js.length) (hk' : k < cs.length), A.column js[k] = .ok cs[k] := by
  induction js with
  | nil => exact ⟨[], rfl, rfl, fun k hk => absurd hk (by simp)⟩
  | cons j js ih =>
    obtain ⟨l, hl⟩ := h j (List.mem_cons_self ..)
    obtain ⟨cs, hcs, hlen, hget⟩ := ih fun k hk => h k (List.mem_cons_of_mem _ hk)
    refine ⟨l :: cs, ?_, by simp [hlen], ?_⟩
    · unfold Csc.columnsFrom
      rw [hl, hcs]
      rfl
    · intro k hk hk'
      cases k with
      | zero => exact hl
      | succ k => exact hget k (by simpa using hk) (by simpa using hk')

/-- The symmetry check accepts a square matrix exactly if opposite entries differ by at most the tolerance, whatever entries are stored. -/
theorem C53_symmetric (A : Csc ℝ) (hA : A.Valid) (hsq : A.rows = A.cols) (tol : ℝ) (htol : 0 ≤ tol) :
    ∃ b, isSymmetric A tol = .ok b ∧ (b = true ↔ ∀ i j, i < A.rows → j < A.cols → |A.entry i j - A.entry j i| ≤ tol) := by
  classical
  obtain ⟨cs, hcs, hlen, hget⟩ := columnsFrom_ok A (List.range A.cols) fun j hj => by
    obtain ⟨l, hl, _⟩ := hA.column j (List.mem_range.mp hj)
    exact ⟨l, hl⟩
  rw [List.length_range] at hlen
  have hget' : ∀ (k : Nat) (hk : k < A.cols), A.column k = .ok (cs.getD k []) := by
    intro k hk
    have := hget k (by simpa using hk) (by omega)
    rw [List.getElem_range] at this
    rw [this]
    simp [List.getD, List.getElem?_eq_getElem (hlen ▸ hk : k < cs.length)]
  have hsorted : ∀ c ∈ cs, (c.map (·.1)).Pairwise (· < ·) := by
    intro c hc
    obtain ⟨k, hk, rfl⟩ := List.mem_iff_getElem.mp hc
    obtain ⟨l, hl, hs, _⟩ := hA.column k (hlen ▸ hk)
    have := hget k (by simpa [hlen] using hk) hk
    rw [List.getElem_range, hl] at this
    cases this
    exact hs
  have hval : isSymmetric A tol = .ok ((List.range A.cols).all fun j => (mergeSub (cs.getD j []) (rowOf j 0 cs)).all fun e => decide (¬ FloatOps.abs e.2 > tol)) := by
    unfold isSymmetric
    rw [if_pos hsq, hcs]
    rfl
  refine ⟨_, hval, ?_⟩
  rw [List.all_eq_true]
  have hcol : ∀ j, j < A.cols → (((mergeSub (cs.getD j []) (rowOf j 0 cs)).all fun e => decide (¬ FloatOps.abs e.2 > tol)) = true ↔
      ∀ i, |look (cs.getD j []) i - look (cs.getD i []) j| ≤ tol) := by
    intro j hj
    rw [List.all_eq_true]
    obtain ⟨r1, _, r3⟩ := rowOf_spec j cs 0 hsorted
    have hs : ((cs.getD j []).map (·.1)).Pairwise (· < ·) := by
      have : cs.getD j [] ∈ cs := by
        simp [List.getD, List.getElem?_eq_getElem (hlen ▸ hj : j < cs.length)]
      exact hsorted _ this
    have := mergeSub_spec (cs.getD j []) (rowOf j 0 cs) hs r1 (fun x => |x| ≤ tol) (by simpa using htol)
    simp only [Nat.zero_add] at r3
    simp only [r3] at this
    rw [← this]
    exact forall_congr' fun e => forall_congr' fun _ => by
      rw [decide_eq_true_iff]
      exact not_lt
  constructor
  · intro h i j hi hj
    have := (hcol j hj).mp (h j (List.mem_range.mpr hj)) i
    rwa [A.entry_eq j _ (hget' j hj), A.entry_eq i _ (hget' i (hsq ▸ hi))]
  · intro h j hj
    rw [List.mem_range] at hj
    rw [hcol j hj]
    intro i
    by_cases hi : i < A.cols
    · have := h i j (hsq ▸ hi) hj
      rwa [A.entry_eq j _ (hget' j hj), A.entry_eq i _ (hget' i hi)] at this
    · have h1 : look (cs.getD j []) i = 0 := by
        obtain ⟨l, hl, _, hr⟩ := hA.column j hj
        rw [hget' j hj] at hl
        cases hl
        refine look_notMem _ _ fun e he => ?_
        have := hr e he
        omega
      have h2 : cs.getD i [] = [] := by
        simp [List.getD, List.getElem?_eq_none (show cs.length ≤ i by omega)]
      rw [h1, h2]
      have : look ([] : List (Nat × ℝ)) j = 0 := rfl
      rw [this, sub_zero, abs_zero]
      exact htol

/-- The symmetry check of a matrix that is not square subtracts matrices of different shapes. -/
theorem C53_symmetric_shape (A : Csc ℝ) (h : A.rows ≠ A.cols) (tol : ℝ) : isSymmetric A tol = .ub := by
  unfold isSymmetric
  rw [if_neg h]

/-! ## Frames -/

/-- The lengths of the vectors differ from one, and their products from zero, by at most the tolerance -/
def NearOrthonormal3 (a b c : Vec3) (tol : ℝ) : Prop :=
  |Real.sqrt (dotProduct a a) - 1| ≤ tol ∧ |Real.sqrt (dotProduct b b) - 1| ≤ tol ∧ |Real.sqrt (dotProduct c c) - 1| ≤ tol ∧
  |dotProduct a b| ≤ tol ∧ |dotProduct a c| ≤ tol ∧ |dotProduct b c| ≤ tol

theorem sdot3_eq (a b : Vec3) : sdot3 a b = dotProduct a b := by
  simp [sdot3, dotProduct, Fin.sum_univ_three]

theorem supNorm3_le (a : Vec3) (t : ℝ) : ¬ supNorm3 a > t ↔ ∀ i, |a i| ≤ t := by
  have hsm : ∀ x y : ℝ, smax x y = max x y := by
    intro x y
    unfold smax
    by_cases h : x < y
    · rw [if_pos h, max_eq_right h.le]
    · rw [if_neg h, max_eq_left (not_lt.mp h)]
  unfold supNorm3
  rw [hsm, hsm, gt_iff_lt, not_lt]
  have habs : ∀ x : ℝ, FloatOps.abs x = |x| := fun _ => rfl
  simp only [habs, max_le_iff]
  constructor
  · rintro ⟨⟨h0, h1⟩, h2⟩ i
    fin_cases i
    · exact h0
    · exact h1
    · exact h2
  · intro h
    exact ⟨⟨h 0, h 1⟩, h 2⟩

/-- The frame check in space accepts exactly the frames that are orthonormal within the tolerance and whose third vector is the cross product
of the other two within the tolerance. -/
theorem C53_frame3 (a b c : Vec3) (tol : ℝ) : isFrame3 a b c tol = true ↔
    NearOrthonormal3 a b c tol ∧ ∀ i, |crossProduct a b i - c i| ≤ tol := by
  classical
  have hcross : (fun i => scross3 a b i - c i) = fun i => crossProduct a b i - c i := by
    ext i
    fin_cases i <;> simp [scross3, cross_apply]
  unfold isFrame3 NearOrthonormal3
  simp only [sdot3_eq]
  have habs : ∀ x : ℝ, FloatOps.abs x = |x| := fun _ => rfl
  have hsq : ∀ x : ℝ, FloatOps.sqrt x = Real.sqrt x := fun _ => rfl
  simp only [habs, hsq]
  rw [hcross]
  by_cases h1 : |Real.sqrt (dotProduct a a) - 1| > tol
  · rw [if_pos h1]; simp [h1]
  rw [if_neg h1]
  by_cases h2 : |Real.sqrt (dotProduct b b) - 1| > tol
  · rw [if_pos h2]; simp [h2]
  rw [if_neg h2]
  by_cases h3 : |Real.sqrt (dotProduct c c) - 1| > tol
  · rw [if_pos h3]; simp [h3]
  rw [if_neg h3]
  by_cases h4 : |dotProduct a b| > tol
  · rw [if_pos h4]; simp [h4]
  rw [if_neg h4]
  by_cases h5 : |dotProduct a c| > tol
  · rw [if_pos h5]; simp [h5]
  rw [if_neg h5]
  by_cases h6 : |dotProduct b c| > tol
  · rw [if_pos h6]; simp [h6]
  rw [if_neg h6]
  have h7 := supNorm3_le (fun i => crossProduct a b i - c i) tol
  by_cases h8 : supNorm3 (fun i => crossProduct a b i - c i) > tol
  · rw [if_pos h8]
    simp only [Bool.false_eq_true, false_iff]
    intro h
    exact h7.mpr h.2 h8
  · rw [if_neg h8]
    simp only [true_iff]
    exact ⟨⟨not_lt.mp h1, not_lt.mp h2, not_lt.mp h3, not_lt.mp h4, not_lt.mp h5, not_lt.mp h6⟩, h7.mp h8⟩

/-- Accepted frames are right handed, for tolerances up to 1/4. -/
theorem C53_frame3_right_handed (a b c : Vec3) (tol : ℝ) (htol : tol ≤ 1 / 4) (h : isFrame3 a b c tol = true) : 0 < (columns3 a b c).det := by
  obtain ⟨⟨_, _, hc, _⟩, hx⟩ := (C53_frame3 a b c tol).mp h
  have hdet : (columns3 a b c).det = dotProduct (crossProduct a b) c := by
    rw [Matrix.det_fin_three]
    simp [columns3, dotProduct, Fin.sum_univ_three, cross_apply]
    ring
  set d : Vec3 := fun i => crossProduct a b i - c i with hd
  have hsplit : dotProduct (crossProduct a b) c = dotProduct c c + dotProduct d c := by
    simp only [hd, dotProduct, Fin.sum_univ_three]
    ring
  rw [hdet, hsplit]
  set n := Real.sqrt (dotProduct c c) with hn
  have hcc : dotProduct c c = c 0 ^ 2 + c 1 ^ 2 + c 2 ^ 2 := by simp [dotProduct, Fin.sum_univ_three]; ring
  have hn2 : n ^ 2 = c 0 ^ 2 + c 1 ^ 2 + c 2 ^ 2 := by
    rw [hn, Real.sq_sqrt] <;> rw [hcc]
    positivity
  have hnlo : 3 / 4 ≤ n := by
    have := (abs_le.mp hc).1
    linarith
  have hci : ∀ i, |c i| ≤ n := by
    intro i
    refine abs_le_of_sq_le_sq ?_ (by linarith)
    rw [hn2]
    fin_cases i <;> simp <;> nlinarith [sq_nonneg (c 0), sq_nonneg (c 1), sq_nonneg (c 2)]
  have hdd : dotProduct d c = d 0 * c 0 + d 1 * c 1 + d 2 * c 2 := by simp [dotProduct, Fin.sum_univ_three]
  have h0 : 0 ≤ tol := le_trans (abs_nonneg _) hc
  have hsum : (|c 0| + |c 1| + |c 2|) ^ 2 ≤ 3 * n ^ 2 := by
    rw [hn2, ← sq_abs (c 0), ← sq_abs (c 1), ← sq_abs (c 2)]
    nlinarith [sq_nonneg (|c 0| - |c 1|), sq_nonneg (|c 1| - |c 2|), sq_nonneg (|c 0| - |c 2|)]
  have hsum' : |c 0| + |c 1| + |c 2| ≤ 2 * n := by
    refine le_of_sq_le_sq ?_ (by linarith)
    nlinarith
  have hdc : ∀ i, -(tol * |c i|) ≤ d i * c i := by
    intro i
    have h1 : |d i * c i| ≤ tol * |c i| := by
      rw [abs_mul]
      exact mul_le_mul_of_nonneg_right (hx i) (abs_nonneg _)
    exact (abs_le.mp h1).1
  rw [hdd, hcc, ← hn2]
  have := hdc 0
  have := hdc 1
  have := hdc 2
  nlinarith

/-- With tolerance zero the frame check accepts exactly the rotations. -/
theorem C53_frame3_exact (a b c : Vec3) : isFrame3 a b c 0 = true ↔ IsRotation (columns3 a b c) := by
  have hsqrt : ∀ x : ℝ, |Real.sqrt x - 1| ≤ 0 ↔ x = 1 := by
    intro x
    rw [abs_nonpos_iff, sub_eq_zero, Real.sqrt_eq_one]
  have hTM : (columns3 a b c).transpose * columns3 a b c =
      !![dotProduct a a, dotProduct a b, dotProduct a c; dotProduct a b, dotProduct b b, dotProduct b c; dotProduct a c, dotProduct b c, dotProduct c c] := by
    ext i j
    fin_cases i <;> fin_cases j <;> simp [columns3, Matrix.mul_apply, dotProduct, Fin.sum_univ_three] <;> ring
  have hdet : (columns3 a b c).det = dotProduct (crossProduct a b) c := by
    rw [Matrix.det_fin_three]
    simp [columns3, dotProduct, Fin.sum_univ_three, cross_apply]
    ring
  constructor
  · intro h
    have hpos := C53_frame3_right_handed a b c 0 (by norm_num) h
    obtain ⟨⟨h1, h2, h3, h4, h5, h6⟩, h7⟩ := (C53_frame3 a b c 0).mp h
    rw [hsqrt] at h1 h2 h3
    rw [abs_nonpos_iff] at h4 h5 h6
    have hone : (columns3 a b c).transpose * columns3 a b c = 1 := by
      rw [hTM, h1, h2, h3, h4, h5, h6]
      ext i j
      fin_cases i <;> fin_cases j <;> simp
    refine ⟨mul_eq_one_comm.mp hone, hone, ?_⟩
    have := congrArg Matrix.det hone
    rw [Matrix.det_mul, Matrix.det_transpose, Matrix.det_one] at this
    nlinarith
  · rintro ⟨_, hone, hd⟩
    rw [hTM] at hone
    have e : ∀ i j, (!![dotProduct a a, dotProduct a b, dotProduct a c; dotProduct a b, dotProduct b b, dotProduct b c; dotProduct a c, dotProduct b c, dotProduct c c] : Mat3) i j = (1 : Mat3) i j :=
      fun i j => by rw [hone]
    have h1 := e 0 0
    have h2 := e 1 1
    have h3 := e 2 2
    have h4 := e 0 1
    have h5 := e 0 2
    have h6 := e 1 2
    simp at h1 h2 h3 h4 h5 h6
    rw [C53_frame3]
    refine ⟨⟨(hsqrt _).mpr h1, (hsqrt _).mpr h2, (hsqrt _).mpr h3, by rw [h4, abs_zero], by rw [h5, abs_zero], by rw [h6, abs_zero]⟩, ?_⟩
    have hn : dotProduct (crossProduct a b - c) (crossProduct a b - c) = 0 := by
      rw [sub_dotProduct, dotProduct_sub, dotProduct_sub, dotProduct_comm c (crossProduct a b), ← hdet, hd, h3, cross_dot_cross, h1, h2, h4]
      rw [dotProduct_comm b a, h4]
      ring
    have hz : crossProduct a b - c = 0 := dotProduct_self_eq_zero.mp hn
    intro i
    have := congrFun hz i
    rw [Pi.sub_apply] at this
    rw [this]
    simp

/-- The frame check in the plane accepts exactly the pairs that are orthonormal within the tolerance and positively oriented. -/
theorem C53_frame2 (a b : Fin 2 → ℝ) (tol : ℝ) : isFrame2 a b tol = true ↔
    |Real.sqrt (a 0 ^ 2 + a 1 ^ 2) - 1| ≤ tol ∧ |Real.sqrt (b 0 ^ 2 + b 1 ^ 2) - 1| ≤ tol ∧ |a 0 * b 0 + a 1 * b 1| ≤ tol ∧
    0 < a 0 * b 1 - a 1 * b 0 := by
  classical
  unfold isFrame2
  have habs : ∀ x : ℝ, FloatOps.abs x = |x| := fun _ => rfl
  have hsq : ∀ x : ℝ, FloatOps.sqrt x = Real.sqrt x := fun _ => rfl
  have hd : ∀ x : Fin 2 → ℝ, sdot2 x x = x 0 ^ 2 + x 1 ^ 2 := fun x => by simp [sdot2]; ring
  simp only [habs, hsq, hd]
  rw [show sdot2 a b = a 0 * b 0 + a 1 * b 1 from rfl, show scross2 a b = a 0 * b 1 - a 1 * b 0 from rfl]
  by_cases h1 : |Real.sqrt (a 0 ^ 2 + a 1 ^ 2) - 1| > tol
  · rw [if_pos h1]; simp [h1]
  rw [if_neg h1]
  by_cases h2 : |Real.sqrt (b 0 ^ 2 + b 1 ^ 2) - 1| > tol
  · rw [if_pos h2]; simp [h2]
  rw [if_neg h2]
  by_cases h3 : |a 0 * b 0 + a 1 * b 1| > tol
  · rw [if_pos h3]; simp [h3]
  rw [if_neg h3]
  by_cases h4 : a 0 * b 1 - a 1 * b 0 ≤ 0
  · rw [if_pos h4]; simp [not_lt.mpr h4]
  · rw [if_neg h4]
    simp only [true_iff]
    exact ⟨not_lt.mp h1, not_lt.mp h2, not_lt.mp h3, not_le.mp h4⟩

/-- Vectors that are not numbers pass the frame checks. -/
theorem C53_frame_nan_false (tol : XR) : isFrame3 (fun _ => XR.nan) (fun _ => XR.nan) (fun _ => XR.nan) tol = true ∧
    isFrame2 (fun _ => XR.nan) (fun _ => XR.nan) tol = true := by
  classical
  have hn : ¬ XR.nan > tol := by rcases tol with _ | _ | _ | _ <;> exact fun h => h
  have h1 : sdot3 (fun _ => XR.nan) (fun _ => XR.nan) = XR.nan := rfl
  have h2 : sdot2 (fun _ => XR.nan) (fun _ => XR.nan) = XR.nan := rfl
  have h3 : FloatOps.abs (FloatOps.sqrt XR.nan - 1) = XR.nan := rfl
  have h4 : FloatOps.abs XR.nan = XR.nan := rfl
  have h5 : supNorm3 (fun i => scross3 (fun _ => XR.nan) (fun _ => XR.nan) i - XR.nan) = XR.nan := by
    have e : ∀ i : Fin 3, FloatOps.abs (scross3 (fun _ => XR.nan) (fun _ => XR.nan) i - XR.nan) = XR.nan := by
      intro i
      fin_cases i <;> rfl
    have hm : smax XR.nan XR.nan = XR.nan := by
      unfold smax
      simp
    unfold supNorm3
    rw [e, e, e, hm, hm]
  have h6 : scross2 (fun _ => XR.nan) (fun _ => XR.nan) = XR.nan := rfl
  have h7 : ¬ XR.nan ≤ 0 := fun h => h
  constructor
  · unfold isFrame3
    simp only [h1, h3, h4, h5]
    simp only [hn, if_false]
  · unfold isFrame2
    simp only [h2, h3, h4, h6]
    simp only [hn, if_false]
    rw [if_neg h7]

/-! ## Examples -/

/-- A 2 × 2 matrix that is nearly the identity, with all entries stored -/
noncomputable def nearIdentity : Csc ℝ := ⟨2, 2, [0, 2, 4], [0, 1, 0, 1], [1, 1 / 1000, 1 / 1000, 1]⟩

theorem nearIdentity_valid : nearIdentity.Valid := by
  refine ⟨rfl, rfl, by simp [nearIdentity], rfl, rfl, ?_⟩
  intro j hj
  have h3 : j < 2 := hj
  rcases (by omega : j = 0 ∨ j = 1) with rfl | rfl
  · exact ⟨[(0, 1), (1, 1 / 1000)], rfl, by simp, by simp [nearIdentity]⟩
  · exact ⟨[(0, 1 / 1000), (1, 1)], rfl, by simp, by simp [nearIdentity]⟩

example : ∃ b, isSymmetric nearIdentity 0 = .ok b ∧ b = true := by
  obtain ⟨b, h, hb⟩ := C53_symmetric nearIdentity nearIdentity_valid rfl 0 le_rfl
  refine ⟨b, h, hb.mpr fun i j hi hj => ?_⟩
  have hi' : i < 2 := hi
  have hj' : j < 2 := hj
  rcases (by omega : i = 0 ∨ i = 1) with rfl | rfl <;> rcases (by omega : j = 0 ∨ j = 1) with rfl | rfl
  · simp
  · rw [show nearIdentity.entry 0 1 = 1 / 1000 from rfl, show nearIdentity.entry 1 0 = 1 / 1000 from rfl]; simp
  · rw [show nearIdentity.entry 0 1 = 1 / 1000 from rfl, show nearIdentity.entry 1 0 = 1 / 1000 from rfl]; simp
  · simp

example : DiagonalStored nearIdentity := by
  intro j hj l hl
  have h3 : j < 2 := hj
  rcases (by omega : j = 0 ∨ j = 1) with rfl | rfl
  · have : nearIdentity.column 0 = .ok [(0, 1), (1, 1 / 1000)] := rfl
    rw [this] at hl; cases hl; exact ⟨1, by simp⟩
  · have : nearIdentity.column 1 = .ok [(0, 1 / 1000), (1, 1)] := rfl
    rw [this] at hl; cases hl; exact ⟨1, by simp⟩

example : isFrame3 ![1, 0, 0] ![0, 1, 0] ![0, 0, 1] (0 : ℝ) = true := by
  rw [C53_frame3_exact]
  have : columns3 ![1, 0, 0] ![0, 1, 0] ![0, 0, 1] = 1 := by
    ext i j
    fin_cases i <;> fin_cases j <;> simp [columns3]
  rw [this]
  exact ⟨by simp, by simp, by simp⟩

end Scisim
