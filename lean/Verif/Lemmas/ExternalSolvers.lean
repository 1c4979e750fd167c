import Mathlib.Analysis.Calculus.Deriv.Add
import Mathlib.Analysis.Calculus.Deriv.Mul
import Mathlib.Analysis.Calculus.Deriv.Pow
import Mathlib.Tactic.Linarith
import Mathlib.Tactic.Ring
import Verif.Lemmas.MassMatrix
import Verif.Lemmas.ImpactLCP
import Verif.Spec.ExternalSolvers
/-!
# Posing problems to Ipopt and QL: helper lemmas
-/

namespace Scisim

open Matrix

/-! ## Stored entries -/

section Stored

variable {A : Csc ℝ}

/-- The position of a stored entry -/
def pos3 (e : Nat × Nat × ℝ) : Nat × Nat := (e.1, e.2.1)

theorem column_entry {l : List (Nat × ℝ)} {j : Nat} (h : A.column j = .ok l) (hs : (l.map (·.1)).Pairwise (· < ·)) (i : Nat) :
    (∀ x, (i, x) ∈ l → A.entry i j = x) ∧ ((∀ x, (i, x) ∉ l) → A.entry i j = 0) := by
  unfold Csc.entry
  rw [h]
  dsimp only
  constructor
  · intro x hx
    clear h
    induction l with
    | nil => simp at hx
    | cons e l ih =>
      rw [List.map_cons, List.pairwise_cons] at hs
      rcases List.mem_cons.mp hx with rfl | hx
      · simp
      · have hlt : e.1 < i := hs.1 i (List.mem_map.mpr ⟨(i, x), hx, rfl⟩)
        rw [List.find?_cons_of_neg (by simp; omega)]
        exact ih hs.2 hx
  · intro hn
    rw [List.find?_eq_none.mpr]
    · rfl
    · rintro ⟨r, x⟩ he hc
      have : r = i := by simpa using hc
      exact hn x (this ▸ he)

theorem storedFrom_spec (hA : A.Valid) : ∀ js : List Nat, js.Nodup → (∀ j ∈ js, j < A.cols) → ∃ es, A.storedFrom js = .ok es ∧ (es.map pos3).Nodup ∧
    (∀ e ∈ es, e.1 < A.rows ∧ e.2.1 ∈ js) ∧ (∀ e ∈ es, A.entry e.1 e.2.1 = e.2.2) ∧ (∀ i, ∀ j ∈ js, (∀ x, (i, j, x) ∉ es) → A.entry i j = 0) ∧
    ∀ i, ∀ j ∈ js, ∀ l x, A.column j = .ok l → (i, x) ∈ l → (i, j, x) ∈ es
  | [], _, _ => ⟨[], rfl, by simp, by simp, by simp, by simp, by simp⟩
  | j :: js, hnd, hj => by
    rw [List.nodup_cons] at hnd
    obtain ⟨es, h1, h2, h3, h4, h5, h6⟩ := storedFrom_spec hA js hnd.2 fun k hk => hj k (List.mem_cons_of_mem _ hk)
    obtain ⟨l, hl, hs, hr⟩ := hA.column j (hj j (by simp))
    refine ⟨l.map (fun e => (e.1, j, e.2)) ++ es, ?_, ?_, ?_, ?_, ?_, ?_⟩
    · rw [Csc.storedFrom, hl]
      change ((A.storedFrom js).bind _) = _
      rw [h1]
      rfl
    · rw [List.map_append, List.nodup_append]
      refine ⟨?_, h2, ?_⟩
      · rw [List.map_map]
        have : (pos3 ∘ fun e : Nat × ℝ => (e.1, j, e.2)) = (fun r => (r, j)) ∘ (·.1) := rfl
        rw [this, ← List.map_map]
        exact (hs.imp fun h => Nat.ne_of_lt h).map (fun r => (r, j)) fun a b hab h => hab (by simpa using h)
      · intro p hp q hq hpq
        obtain ⟨e, he, rfl⟩ := List.mem_map.mp hp
        obtain ⟨e', he', rfl⟩ := List.mem_map.mp hq
        obtain ⟨a, ha, rfl⟩ := List.mem_map.mp he
        have h7 := (h3 e' he').2
        have h8 : j = e'.2.1 := congrArg Prod.snd hpq
        rw [← h8] at h7
        exact hnd.1 h7
    · intro e he
      rcases List.mem_append.mp he with he | he
      · obtain ⟨a, ha, rfl⟩ := List.mem_map.mp he
        exact ⟨hr a ha, by simp⟩
      · exact ⟨(h3 e he).1, List.mem_cons_of_mem _ (h3 e he).2⟩
    · intro e he
      rcases List.mem_append.mp he with he | he
      · obtain ⟨a, ha, rfl⟩ := List.mem_map.mp he
        exact (column_entry hl hs a.1).1 a.2 ha
      · exact h4 e he
    · intro i k hk hn
      rcases List.mem_cons.mp hk with rfl | hk
      · refine (column_entry hl hs i).2 fun x hx => hn x ?_
        exact List.mem_append_left _ (List.mem_map.mpr ⟨(i, x), hx, rfl⟩)
      · exact h5 i k hk fun x hx => hn x (List.mem_append_right _ hx)
    · intro i k hk l' x hl' hx
      rcases List.mem_cons.mp hk with rfl | hk
      · rw [hl] at hl'
        cases hl'
        exact List.mem_append_left _ (List.mem_map.mpr ⟨(i, x), hx, rfl⟩)
      · exact List.mem_append_right _ (h6 i k hk l' x hl' hx)

/-- The entries on and below the diagonal -/
def lowerPart (es : List (Nat × Nat × ℝ)) : List (Nat × Nat × ℝ) := es.filter fun e => e.2.1 ≤ e.1

theorem lowerPart_cons_upper {e : Nat × Nat × ℝ} {es} (h : e.2.1 > e.1) : lowerPart (e :: es) = lowerPart es := by
  unfold lowerPart; rw [List.filter_cons_of_neg]; simpa using h

theorem lowerPart_cons_lower {e : Nat × Nat × ℝ} {es} (h : ¬ e.2.1 > e.1) : lowerPart (e :: es) = e :: lowerPart es := by
  unfold lowerPart; rw [List.filter_cons_of_pos]; simpa using h

theorem count_lower : ∀ (es : List (Nat × Nat × ℝ)) (k : Nat), es.foldl (fun num e => if e.2.1 > e.1 then num else num + 1) k = k + (lowerPart es).length
  | [], k => by simp [lowerPart]
  | e :: es, k => by
    rw [List.foldl_cons, count_lower es]
    by_cases h : e.2.1 > e.1
    · rw [if_pos h, lowerPart_cons_upper h]
    · rw [if_neg h, lowerPart_cons_lower h, List.length_cons]; omega

theorem take_set_succ {α : Type} (l : List α) (k : Nat) (x : α) (h : k < l.length) : (l.set k x).take (k + 1) = l.take k ++ [x] := by
  rw [List.take_add_one, List.take_set_of_le (le_refl k)]
  simp [h]

theorem patternLoop_spec : ∀ (es : List (Nat × Nat × ℝ)) (k : Nat) (r c : List Nat), r.length = k + (lowerPart es).length → c.length = k + (lowerPart es).length →
    patternLoop es k r c = .ok (r.take k ++ (lowerPart es).map (·.1), c.take k ++ (lowerPart es).map (·.2.1), k + (lowerPart es).length)
  | [], k, r, c, hr, hc => by
    simp only [lowerPart, List.filter_nil, List.length_nil, Nat.add_zero] at hr hc ⊢
    rw [patternLoop, ← hr, List.take_length, hr, ← hc, List.take_length]
    simp
  | e :: es, k, r, c, hr, hc => by
    unfold patternLoop
    by_cases h : e.2.1 > e.1
    · rw [lowerPart_cons_upper h] at hr hc ⊢
      rw [if_pos h]
      exact patternLoop_spec es k r c hr hc
    · rw [lowerPart_cons_lower h, List.length_cons] at hr hc
      have hk : k < r.length ∧ k < c.length := ⟨by omega, by omega⟩
      rw [if_neg h, if_pos hk, patternLoop_spec es (k + 1) _ _ (by rw [List.length_set]; omega) (by rw [List.length_set]; omega),
        take_set_succ _ _ _ hk.1, take_set_succ _ _ _ hk.2, lowerPart_cons_lower h]
      simp
      omega

theorem valuesLoop_spec : ∀ (es : List (Nat × Nat × ℝ)) (k : Nat) (v : List ℝ), v.length = k + (lowerPart es).length →
    valuesLoop es k v = .ok (v.take k ++ (lowerPart es).map (·.2.2), k + (lowerPart es).length)
  | [], k, v, hv => by
    simp only [lowerPart, List.filter_nil, List.length_nil, Nat.add_zero] at hv ⊢
    rw [valuesLoop, ← hv, List.take_length]
    simp
  | e :: es, k, v, hv => by
    unfold valuesLoop
    by_cases h : e.2.1 > e.1
    · rw [lowerPart_cons_upper h] at hv ⊢
      rw [if_pos h]
      exact valuesLoop_spec es k v hv
    · rw [lowerPart_cons_lower h, List.length_cons] at hv
      rw [if_neg h, if_pos (by omega), valuesLoop_spec es (k + 1) _ (by rw [List.length_set]; omega), take_set_succ _ _ _ (by omega), lowerPart_cons_lower h]
      simp
      omega

end Stored

/-! ## Triplets -/

theorem tripletEntry_absent (rows cols : List Nat) (vals : List ℝ) (i j : Nat) (h : (i, j) ∉ rows.zip cols) : tripletEntry rows cols vals i j = 0 := by
  unfold tripletEntry
  rw [List.filter_eq_nil_iff.mpr]
  · rfl
  · intro t ht hc
    have h1 : t.1 = (i, j) := by simpa using hc
    exact h (h1 ▸ (List.of_mem_zip ht).1)

theorem zip_filter_nodup : ∀ (ps : List (Nat × Nat)) (vals : List ℝ) (k : Nat) (p : Nat × Nat) (v : ℝ), ps.Nodup → ps[k]? = some p → vals[k]? = some v →
    (((ps.zip vals).filter fun t => t.1 = p).map (·.2)).sum = v
  | [], _, k, p, v, _, h, _ => by simp at h
  | q :: ps, [], k, p, v, _, _, h => by simp at h
  | q :: ps, w :: vals, 0, p, v, hn, hp, hv => by
    simp only [List.getElem?_cons_zero, Option.some.injEq] at hp hv
    subst hp hv
    rw [List.nodup_cons] at hn
    rw [List.zip_cons_cons, List.filter_cons_of_pos (by simp), List.map_cons, List.sum_cons, List.filter_eq_nil_iff.mpr]
    · simp
    · intro t ht hc
      have h1 : t.1 = q := by simpa using hc
      exact hn.1 (h1 ▸ (List.of_mem_zip ht).1)
  | q :: ps, w :: vals, k + 1, p, v, hn, hp, hv => by
    simp only [List.getElem?_cons_succ] at hp hv
    rw [List.nodup_cons] at hn
    have hne : ¬ q = p := fun h => hn.1 (h ▸ List.mem_of_getElem? hp)
    rw [List.zip_cons_cons, List.filter_cons_of_neg (by simpa using hne)]
    exact zip_filter_nodup ps vals k p v hn.2 hp hv

theorem tripletEntry_at (rows cols : List Nat) (vals : List ℝ) (k i j : Nat) (v : ℝ) (hn : (rows.zip cols).Nodup) (hp : (rows.zip cols)[k]? = some (i, j))
    (hv : vals[k]? = some v) : tripletEntry rows cols vals i j = v := zip_filter_nodup _ _ k (i, j) v hn hp hv

theorem zip_map_pos (es : List (Nat × Nat × ℝ)) : (es.map (·.1)).zip (es.map (·.2.1)) = es.map pos3 := by
  induction es with
  | nil => rfl
  | cons e es ih => simp only [List.map_cons, List.zip_cons_cons, ih]; rfl

/-! ## Vectors -/

section Vectors

variable {n : Nat}

@[simp] theorem arr_val (x : Fin n → ℝ) (i : Fin n) : arr x i = x i := by simp [arr]

theorem arr_lt (x : Fin n → ℝ) (i : Nat) (h : i < n) : arr x i = x ⟨i, h⟩ := by simp [arr, h]

theorem map_range_ofFn {α : Type} (f : Nat → α) (n : Nat) : (List.range n).map f = List.ofFn fun i : Fin n => f i := by
  apply List.ext_getElem
  · simp
  · intro i h1 h2; simp

theorem sum_range_arr (f : Nat → ℝ) : ∑ i ∈ Finset.range n, f i = ∑ i : Fin n, f i := Finset.sum_range f

theorem sparse_product (Q : Csc ℝ) (hQ : Q.Valid) (hc : Q.cols = n) (x : Nat → ℝ) : ∃ y, spmv Q x (List.range Q.cols) (fun _ => 0) = .ok y ∧
    ∀ i : Fin n, y i = (Q.toMatrix n *ᵥ vec n x) i := by
  obtain ⟨y, hy, h⟩ := spmv_eq Q x (List.range Q.cols) (fun _ => 0) fun j hj => by
    obtain ⟨l, hl, hs, _⟩ := hQ.column j (List.mem_range.mp hj)
    exact ⟨l, hl, hs.imp fun h => Nat.ne_of_lt h⟩
  refine ⟨y, hy, fun i => ?_⟩
  rw [h, sum_map_range, zero_add, hc, sum_range_arr]
  rfl

theorem vdot_vec (a b : Nat → ℝ) : vdotTo n a b = vec n a ⬝ᵥ vec n b := by
  rw [vdotTo_eq, sum_range_arr]
  rfl

@[simp] theorem vec_arr (x : Fin n → ℝ) : vec n (arr x) = x := by funext i; simp [vec]

theorem objective_value (Q : Csc ℝ) (hQ : Q.Valid) (hc : Q.cols = n) (b x : Nat → ℝ) :
    quadraticObjective n Q b x = .ok (quadratic (Q.toMatrix n) (vec n b) (vec n x)) := by
  obtain ⟨y, hy, h⟩ := sparse_product Q hQ hc x
  unfold quadraticObjective quadratic
  rw [hy]
  change Outcome.ok _ = _
  rw [vdot_vec, vdot_vec, show vec n y = Q.toMatrix n *ᵥ vec n x from funext h]

theorem gradient_eq (Q : Csc ℝ) (hQ : Q.Valid) (hc : Q.cols = n) (b x : Nat → ℝ) :
    quadraticGradient n Q b x = .ok (List.ofFn fun i => (Q.toMatrix n *ᵥ vec n x + vec n b) i) := by
  obtain ⟨y, hy, h⟩ := sparse_product Q hQ hc x
  unfold quadraticGradient
  rw [hy]
  change Outcome.ok _ = _
  rw [map_range_ofFn]
  congr 2
  funext i
  rw [h]
  rfl

theorem getD_replicate {k i : Nat} (v : ℝ) (h : i < k) : (List.replicate k v).getD i 0 = v := by simp [List.getD, List.getElem?_replicate, h]

theorem getD_mapRange {k i : Nat} (f : Nat → ℝ) (h : i < k) : ((List.range k).map f).getD i 0 = f i := by simp [List.getD, h]

/-! ## Derivatives -/

theorem update_eq_add (x : Fin n → ℝ) (i : Fin n) (t : ℝ) : Function.update x i t = x + (t - x i) • Pi.single i 1 := by
  funext j
  by_cases h : j = i
  · subst h; simp
  · simp [h]

theorem quadratic_add (Q : Matrix (Fin n) (Fin n) ℝ) (hs : Q.IsSymm) (b x : Fin n → ℝ) (s : ℝ) (w : Fin n → ℝ) :
    quadratic Q b (x + s • w) = quadratic Q b x + s * ((Q *ᵥ x + b) ⬝ᵥ w) + s ^ 2 * (1 / 2 * (w ⬝ᵥ (Q *ᵥ w))) := by
  unfold quadratic
  have h1 : w ⬝ᵥ (Q *ᵥ x) = x ⬝ᵥ (Q *ᵥ w) := by
    rw [dotProduct_mulVec, ← mulVec_transpose, hs, dotProduct_comm]
  have h2 : (Q *ᵥ x) ⬝ᵥ w = x ⬝ᵥ (Q *ᵥ w) := by rw [dotProduct_comm, h1]
  rw [mulVec_add, mulVec_smul]
  simp only [dotProduct_add, add_dotProduct, smul_dotProduct, dotProduct_smul, smul_eq_mul, h1, h2]
  ring

theorem isPartial_quadratic (Q : Matrix (Fin n) (Fin n) ℝ) (hs : Q.IsSymm) (b x : Fin n → ℝ) (i : Fin n) :
    IsPartial (quadratic Q b) x i ((Q *ᵥ x + b) i) := by
  unfold IsPartial
  have e : (fun t => quadratic Q b (Function.update x i t)) =
      fun t => quadratic Q b x + (t - x i) * ((Q *ᵥ x + b) ⬝ᵥ Pi.single i 1) + (t - x i) ^ 2 * (1 / 2 * (Pi.single i 1 ⬝ᵥ (Q *ᵥ Pi.single i 1))) := by
    funext t
    rw [update_eq_add, quadratic_add Q hs]
  rw [e, dotProduct_single_one]
  have h1 := (hasDerivAt_id (x i)).sub_const (x i)
  have h2 := ((h1.mul_const ((Q *ᵥ x + b) i)).const_add (quadratic Q b x)).add ((h1.pow 2).mul_const (1 / 2 * (Pi.single i 1 ⬝ᵥ (Q *ᵥ Pi.single i 1))))
  exact h2.congr_deriv (by simp)

theorem isPartial_linear (w : Fin n → ℝ) (b : ℝ) (x : Fin n → ℝ) (i : Fin n) : IsPartial (fun z => w ⬝ᵥ z + b) x i (w i) := by
  unfold IsPartial
  have e : (fun t => w ⬝ᵥ Function.update x i t + b) = fun t => (w ⬝ᵥ x + (t - x i) * w i) + b := by
    funext t
    rw [update_eq_add, dotProduct_add, dotProduct_smul, dotProduct_single_one, smul_eq_mul]
  rw [e]
  have h1 := (hasDerivAt_id (x i)).sub_const (x i)
  have h2 := ((h1.mul_const (w i)).const_add (w ⬝ᵥ x)).add_const b
  exact h2.congr_deriv (by simp)

theorem IsPartial.add {f g : (Fin n → ℝ) → ℝ} {x : Fin n → ℝ} {i : Fin n} {a b : ℝ} (hf : IsPartial f x i a) (hg : IsPartial g x i b) :
    IsPartial (fun z => f z + g z) x i (a + b) := HasDerivAt.add hf hg

theorem IsPartial.const_mul {f : (Fin n → ℝ) → ℝ} {x : Fin n → ℝ} {i : Fin n} {a : ℝ} (s : ℝ) (hf : IsPartial f x i a) :
    IsPartial (fun z => s * f z) x i (s * a) := HasDerivAt.const_mul s hf

theorem IsPartial.sum {k : Nat} {f : Fin k → (Fin n → ℝ) → ℝ} {x : Fin n → ℝ} {i : Fin n} {a : Fin k → ℝ} (hf : ∀ l, IsPartial (f l) x i (a l)) :
    IsPartial (fun z => ∑ l, f l z) x i (∑ l, a l) := HasDerivAt.fun_sum fun l _ => hf l

theorem isPartial_square (j : Fin n) (x : Fin n → ℝ) (i : Fin n) : IsPartial (fun z => z j ^ 2) x i (if i = j then 2 * x j else 0) := by
  unfold IsPartial
  by_cases h : i = j
  · subst h
    simp only [Function.update_self, if_true]
    have := (hasDerivAt_id (x i)).pow 2
    exact this.congr_deriv (by simp)
  · simp only [Function.update_of_ne (fun hc => h hc.symm), if_neg h]
    exact hasDerivAt_const _ _

end Vectors

/-! ## The entries on the diagonal -/

theorem diagonalIndices_spec : ∀ (ps : List (Nat × Nat)) (k : Nat) (d : List Nat), ps.Nodup → (∀ p ∈ ps, p.1 < d.length) →
    ∃ d', diagonalIndices ps k d = .ok d' ∧ d'.length = d.length ∧ ∀ j, (∀ t, ps[t]? = some (j, j) → d'[j]? = some (k + t)) ∧
      ((j, j) ∉ ps → d'[j]? = d[j]?)
  | [], k, d, _, _ => ⟨d, rfl, rfl, fun j => ⟨by simp, fun _ => rfl⟩⟩
  | p :: ps, k, d, hn, hb => by
    rw [List.nodup_cons] at hn
    have hp := hb p (by simp)
    unfold diagonalIndices
    by_cases h : p.1 = p.2
    · obtain ⟨d', h1, h2, h3⟩ := diagonalIndices_spec ps (k + 1) (d.set p.1 k) hn.2 fun q hq => by
        rw [List.length_set]; exact hb q (List.mem_cons_of_mem _ hq)
      rw [if_pos h, if_pos hp]
      refine ⟨d', h1, by rw [h2, List.length_set], fun j => ⟨fun t ht => ?_, fun hj => ?_⟩⟩
      · cases t with
        | zero =>
          simp only [List.getElem?_cons_zero, Option.some.injEq] at ht
          subst ht
          rw [(h3 j).2 hn.1]
          have hj : j < d.length := hp
          simp [hj]
        | succ t =>
          rw [List.getElem?_cons_succ] at ht
          rw [(h3 j).1 t ht]
          congr 1
          omega
      · rw [(h3 j).2 fun hc => hj (List.mem_cons_of_mem _ hc)]
        have hne : p.1 ≠ j := by
          rintro rfl
          exact hj (List.mem_cons.mpr (Or.inl (Prod.ext rfl h)))
        simp [hne]
    · obtain ⟨d', h1, h2, h3⟩ := diagonalIndices_spec ps (k + 1) d hn.2 fun q hq => hb q (List.mem_cons_of_mem _ hq)
      rw [if_neg h]
      refine ⟨d', h1, h2, fun j => ⟨fun t ht => ?_, fun hj => ?_⟩⟩
      · cases t with
        | zero =>
          simp only [List.getElem?_cons_zero, Option.some.injEq] at ht
          subst ht
          exact absurd rfl h
        | succ t =>
          rw [List.getElem?_cons_succ] at ht
          rw [(h3 j).1 t ht]
          congr 1
          omega
      · exact (h3 j).2 fun hc => hj (List.mem_cons_of_mem _ hc)

theorem addDiagonal_spec (ps : List (Nat × Nat)) (hn : ps.Nodup) (diag : List Nat) (values : List ℝ) (hl : values.length = ps.length) (j : Nat) (x : ℝ)
    (h : ∃ t, diag[j]? = some t ∧ ps[t]? = some (j, j)) : ∃ v', addDiagonal diag values j x = .ok v' ∧ v'.length = ps.length ∧
      ∀ (t : Nat) (p : Nat × Nat) (v : ℝ), ps[t]? = some p → values[t]? = some v → v'[t]? = some (v + if p = (j, j) then x else 0) := by
  obtain ⟨t, ht, hp⟩ := h
  have hlt : t < values.length := by rw [hl]; exact (List.getElem?_eq_some_iff.mp hp).1
  obtain ⟨y, hy⟩ : ∃ y, values[t]? = some y := ⟨values[t], List.getElem?_eq_getElem hlt⟩
  refine ⟨values.set t (y + x), ?_, by rw [List.length_set, hl], fun t' p v hp' hv => ?_⟩
  · unfold addDiagonal addAt
    rw [ht]
    dsimp only
    rw [hy]
  · by_cases htt : t = t'
    · subst htt
      rw [hp] at hp'
      cases hp'
      rw [hy] at hv
      cases hv
      simp [hlt]
    · have hne : p ≠ (j, j) := by
        rintro rfl
        have h1 := (List.getElem?_eq_some_iff.mp hp)
        have h2 := (List.getElem?_eq_some_iff.mp hp')
        exact htt ((List.Nodup.getElem_inj_iff hn).mp (h1.2.trans h2.2.symm))
      rw [if_neg hne, add_zero, List.getElem?_set, if_neg htt, hv]

theorem bonus_cons (lambda : Nat → ℝ) (i : Nat) (is : List Nat) (h : i ∉ is) (a b : Nat) (v : ℝ) :
    v + (if (a, b) = (2 * i + 0, 2 * i + 0) then 2 * lambda i else 0) + (if (a, b) = (2 * i + 1, 2 * i + 1) then 2 * lambda i else 0) +
      (if a = b ∧ a / 2 ∈ is then 2 * lambda (a / 2) else 0) = v + if a = b ∧ a / 2 ∈ i :: is then 2 * lambda (a / 2) else 0 := by
  simp only [Prod.mk.injEq, List.mem_cons]
  by_cases hab : a = b
  · subst hab
    by_cases hi : a / 2 = i
    · have hni : ¬ (a = a ∧ a / 2 ∈ is) := fun hc => h (hi ▸ hc.2)
      rw [if_neg hni, if_pos (c := a = a ∧ (a / 2 = i ∨ a / 2 ∈ is)) ⟨rfl, Or.inl hi⟩, hi]
      rcases (show a = 2 * i + 0 ∨ a = 2 * i + 1 by omega) with h1 | h1
      · have h2 : ¬ (a = 2 * i + 1 ∧ a = 2 * i + 1) := by omega
        rw [if_pos ⟨h1, h1⟩, if_neg h2]; ring
      · have h2 : ¬ (a = 2 * i + 0 ∧ a = 2 * i + 0) := by omega
        rw [if_neg h2, if_pos ⟨h1, h1⟩]; ring
    · have h1 : ¬ (a = 2 * i + 0 ∧ a = 2 * i + 0) := by omega
      have h2 : ¬ (a = 2 * i + 1 ∧ a = 2 * i + 1) := by omega
      rw [if_neg h1, if_neg h2]
      simp only [hi, false_or, add_zero]
  · have h1 : ¬ (a = 2 * i + 0 ∧ b = 2 * i + 0) := by omega
    have h2 : ¬ (a = 2 * i + 1 ∧ b = 2 * i + 1) := by omega
    have h3 : ¬ (a = b ∧ a / 2 ∈ is) := fun h => hab h.1
    have h4 : ¬ (a = b ∧ (a / 2 = i ∨ a / 2 ∈ is)) := fun h => hab h.1
    rw [if_neg h1, if_neg h2, if_neg h3, if_neg h4]; ring

theorem addMultipliers_spec (ps : List (Nat × Nat)) (hn : ps.Nodup) (diag : List Nat) (lambda : Nat → ℝ) : ∀ (is : List Nat) (values : List ℝ), is.Nodup →
    values.length = ps.length → (∀ i ∈ is, ∀ j, j / 2 = i → ∃ t, diag[j]? = some t ∧ ps[t]? = some (j, j)) →
    ∃ v', addMultipliers diag lambda is values = .ok v' ∧ v'.length = ps.length ∧
      ∀ (t : Nat) (p : Nat × Nat) (v : ℝ), ps[t]? = some p → values[t]? = some v → v'[t]? = some (v + if p.1 = p.2 ∧ p.1 / 2 ∈ is then 2 * lambda (p.1 / 2) else 0)
  | [], values, _, hl, _ => ⟨values, rfl, hl, fun t p v _ hv => by simp [hv]⟩
  | i :: is, values, hnd, hl, h => by
    rw [List.nodup_cons] at hnd
    obtain ⟨v1, a1, a2, a3⟩ := addDiagonal_spec ps hn diag values hl (2 * i + 0) (2 * lambda i) (h i (by simp) _ (by omega))
    obtain ⟨v2, b1, b2, b3⟩ := addDiagonal_spec ps hn diag v1 a2 (2 * i + 1) (2 * lambda i) (h i (by simp) _ (by omega))
    obtain ⟨v3, c1, c2, c3⟩ := addMultipliers_spec ps hn diag lambda is v2 hnd.2 b2 fun k hk => h k (List.mem_cons_of_mem _ hk)
    refine ⟨v3, ?_, c2, fun t p v hp hv => ?_⟩
    · unfold addMultipliers
      rw [a1]
      change (addDiagonal _ _ _ _).bind _ = _
      rw [b1]
      exact c1
    · rw [c3 t p _ hp (b3 t p _ hp (a3 t p v hp hv))]
      congr 1
      rcases p with ⟨a, b⟩
      exact bonus_cons lambda i is hnd.1 a b v

/-! ## Hessians -/

section Hessian

variable {n : Nat} {Q : Csc ℝ}

/-- The lower half of a sparse matrix in the order of the loops -/
structure LowerOf (Q : Csc ℝ) (n : Nat) (es : List (Nat × Nat × ℝ)) : Prop where
  stored : Q.stored = .ok es
  nodup : ((lowerPart es).map pos3).Nodup
  range : ∀ p ∈ (lowerPart es).map pos3, p.2 ≤ p.1 ∧ p.1 < n
  entry : ∀ (k i j : Nat), ((lowerPart es).map pos3)[k]? = some (i, j) → ((lowerPart es).map (·.2.2))[k]? = some (Q.entry i j)
  absent : ∀ i j, j < n → j ≤ i → (i, j) ∉ (lowerPart es).map pos3 → Q.entry i j = 0
  diagonal : Q.DiagonalStored → ∀ j < n, (j, j) ∈ (lowerPart es).map pos3

theorem lowerOf (hQ : Q.Valid) (hr : Q.rows = n) (hc : Q.cols = n) : ∃ es, LowerOf Q n es := by
  obtain ⟨es, h1, h2, h3, h4, h5, h6⟩ := storedFrom_spec hQ (List.range Q.cols) List.nodup_range fun j hj => List.mem_range.mp hj
  have hsub : List.Sublist (lowerPart es) es := List.filter_sublist
  have hlow : ∀ e, e ∈ lowerPart es ↔ e ∈ es ∧ e.2.1 ≤ e.1 := fun e => by simp [lowerPart]
  refine ⟨es, h1, (hsub.map pos3).nodup h2, ?_, ?_, ?_, ?_⟩
  · intro p hp
    obtain ⟨e, he, rfl⟩ := List.mem_map.mp hp
    exact ⟨((hlow e).mp he).2, hr ▸ (h3 e ((hlow e).mp he).1).1⟩
  · intro k i j hk
    rw [List.getElem?_map, Option.map_eq_some_iff] at hk
    obtain ⟨e, he, hp⟩ := hk
    rw [List.getElem?_map, he]
    have hm : e ∈ lowerPart es := List.mem_of_getElem? he
    have := h4 e ((hlow e).mp hm).1
    have e1 : e.1 = i := congrArg Prod.fst hp
    have e2 : e.2.1 = j := congrArg Prod.snd hp
    rw [e1, e2] at this
    rw [this]
    rfl
  · intro i j hj hji hn
    refine h5 i j (List.mem_range.mpr (hc ▸ hj)) fun x hx => hn ?_
    exact List.mem_map.mpr ⟨(i, j, x), (hlow _).mpr ⟨hx, hji⟩, rfl⟩
  · intro hd j hj
    obtain ⟨l, x, hl, hx⟩ := hd j (hc ▸ hj)
    exact List.mem_map.mpr ⟨(j, j, x), (hlow _).mpr ⟨h6 j j (List.mem_range.mpr (hc ▸ hj)) l x hl hx, le_refl _⟩, rfl⟩

variable {es : List (Nat × Nat × ℝ)} (L : LowerOf Q n es)

include L

theorem nzLower_eq : nzLowerTriangular Q = .ok (lowerPart es).length := by
  unfold nzLowerTriangular
  rw [L.stored]
  change Outcome.ok _ = _
  rw [count_lower, Nat.zero_add]

theorem pattern_eq (r c : List Nat) (hr : r.length = (lowerPart es).length) (hc : c.length = (lowerPart es).length) :
    sparsityPatternLowerTriangular Q r c = .ok ((lowerPart es).map (·.1), (lowerPart es).map (·.2.1), (lowerPart es).length) := by
  unfold sparsityPatternLowerTriangular
  rw [L.stored]
  change patternLoop es 0 r c = _
  rw [patternLoop_spec es 0 r c (by omega) (by omega)]
  simp

theorem values_eq (v : List ℝ) (hv : v.length = (lowerPart es).length) :
    valuesLowerTriangular Q v = .ok ((lowerPart es).map (·.2.2), (lowerPart es).length) := by
  unfold valuesLowerTriangular
  rw [L.stored]
  change valuesLoop es 0 v = _
  rw [valuesLoop_spec es 0 v (by omega)]
  simp

/-- The lower half of the scaled matrix -/
theorem qp_triplets (σ : ℝ) (i j : Nat) (hj : j < n) (hji : j ≤ i) :
    tripletEntry ((lowerPart es).map (·.1)) ((lowerPart es).map (·.2.1)) (((lowerPart es).map (·.2.2)).map (· * σ)) i j = σ * Q.entry i j := by
  by_cases h : (i, j) ∈ (lowerPart es).map pos3
  · obtain ⟨k, hk⟩ := List.mem_iff_getElem?.mp h
    rw [tripletEntry_at _ _ _ k i j (Q.entry i j * σ) (by rw [zip_map_pos]; exact L.nodup) (by rw [zip_map_pos]; exact hk)
      (by rw [List.getElem?_map, L.entry k i j hk]; rfl), mul_comm]
  · rw [tripletEntry_absent _ _ _ _ _ (by rw [zip_map_pos]; exact h), L.absent i j hj hji h, mul_zero]

/-- The lower half of the Hessian with the curvature of the constraints -/
theorem smooth_values (hd : Q.DiagonalStored) (hn : n % 2 = 0) (σ : ℝ) (lambda : Nat → ℝ) (v : List ℝ) (hv : v.length = (lowerPart es).length) :
    ∃ d vals, smoothHessPattern n Q (List.replicate v.length 0) (List.replicate v.length 0) = .ok (((lowerPart es).map (·.1), (lowerPart es).map (·.2.1)), d) ∧
      smoothHessValues n Q d σ lambda v = .ok vals ∧ vals.length = (lowerPart es).length ∧ ∀ i j, j < n → j ≤ i →
        tripletEntry ((lowerPart es).map (·.1)) ((lowerPart es).map (·.2.1)) vals i j = σ * Q.entry i j + if i = j then 2 * lambda (i / 2) else 0 := by
  obtain ⟨d, h1, h2, h3⟩ := diagonalIndices_spec ((lowerPart es).map pos3) 0 (List.replicate n 0) L.nodup fun p hp => by
    rw [List.length_replicate]; exact (L.range p hp).2
  obtain ⟨vals, g1, g2, g3⟩ := addMultipliers_spec ((lowerPart es).map pos3) L.nodup d lambda (List.range (n / 2)) (((lowerPart es).map (·.2.2)).map (· * σ))
    List.nodup_range (by simp) (by
      intro i hi j hji
      have hj : j < n := by have := List.mem_range.mp hi; omega
      obtain ⟨t, ht⟩ := List.mem_iff_getElem?.mp (L.diagonal hd j hj)
      exact ⟨t, by rw [(h3 j).1 t ht, Nat.zero_add], ht⟩)
  refine ⟨d, vals, ?_, ?_, by rw [g2, List.length_map], fun i j hj hji => ?_⟩
  · unfold smoothHessPattern
    rw [pattern_eq L _ _ (by rw [List.length_replicate, hv]) (by rw [List.length_replicate, hv])]
    change (diagonalIndices _ _ _).bind _ = _
    dsimp only
    rw [zip_map_pos, h1]
    rfl
  · unfold smoothHessValues
    rw [values_eq L v hv]
    exact g1
  · by_cases h : (i, j) ∈ (lowerPart es).map pos3
    · obtain ⟨k, hk⟩ := List.mem_iff_getElem?.mp h
      have hv' := g3 k (i, j) (Q.entry i j * σ) hk (by rw [List.getElem?_map, L.entry k i j hk]; rfl)
      rw [tripletEntry_at _ _ _ k i j _ (by rw [zip_map_pos]; exact L.nodup) (by rw [zip_map_pos]; exact hk) hv', mul_comm σ]
      congr 1
      by_cases hij : i = j
      · subst hij
        rw [if_pos ⟨rfl, List.mem_range.mpr (by dsimp only; omega)⟩, if_pos rfl]
      · rw [if_neg fun hc => hij hc.1, if_neg hij]
    · have hij : i ≠ j := by
        rintro rfl
        exact h (L.diagonal hd i hj)
      rw [tripletEntry_absent _ _ _ _ _ (by rw [zip_map_pos]; exact h), L.absent i j hj hji h, if_neg hij]
      simp

end Hessian

/-! ## The constraints of friction -/

section Discs

variable {c : Nat}

theorem pairOf_index (x : Fin (2 * c) → ℝ) (k : Fin c) (j : Fin (2 * c)) :
    ((if j = ⟨2 * (k : Nat), by omega⟩ then 2 * x ⟨2 * (k : Nat), by omega⟩ else 0) +
      if j = ⟨2 * (k : Nat) + 1, by omega⟩ then 2 * x ⟨2 * (k : Nat) + 1, by omega⟩ else 0) = if (j : Nat) / 2 = k then 2 * x j else 0 := by
  by_cases h : (j : Nat) / 2 = k
  · rw [if_pos h]
    rcases (show (j : Nat) = 2 * k ∨ (j : Nat) = 2 * k + 1 by omega) with h1 | h1
    · have e : j = ⟨2 * (k : Nat), by omega⟩ := Fin.ext h1
      have e' : ¬ j = ⟨2 * (k : Nat) + 1, by omega⟩ := fun hc => by have := congrArg Fin.val hc; simp at this; omega
      rw [if_neg e', if_pos e, ← e, add_zero]
    · have e : j = ⟨2 * (k : Nat) + 1, by omega⟩ := Fin.ext h1
      have e' : ¬ j = ⟨2 * (k : Nat), by omega⟩ := fun hc => by have := congrArg Fin.val hc; simp at this; omega
      rw [if_neg e', if_pos e, ← e, zero_add]
  · have e : ¬ j = ⟨2 * (k : Nat), by omega⟩ := fun hc => by have := congrArg Fin.val hc; simp at this; omega
    have e' : ¬ j = ⟨2 * (k : Nat) + 1, by omega⟩ := fun hc => by have := congrArg Fin.val hc; simp at this; omega
    rw [if_neg h, if_neg e, if_neg e', add_zero]

theorem isPartial_disc (k : Fin c) (x : Fin (2 * c) → ℝ) (j : Fin (2 * c)) :
    IsPartial (fun z => pairSq (pairOf z k)) x j (if (j : Nat) / 2 = k then 2 * x j else 0) := by
  rw [← pairOf_index]
  exact (isPartial_square _ x j).add (isPartial_square _ x j)

theorem sum_at_contact (l : Fin c → ℝ) (j : Fin (2 * c)) (t : ℝ) :
    (∑ k, l k * if (j : Nat) / 2 = (k : Nat) then t else 0) = arr l (j / 2) * t := by
  have hj : (j : Nat) / 2 < c := by omega
  rw [Finset.sum_eq_single (⟨(j : Nat) / 2, hj⟩ : Fin c)]
  · rw [if_pos rfl, arr_lt l _ hj]
  · intro k _ hk
    rw [if_neg fun h => hk (Fin.ext h.symm), mul_zero]
  · intro h; exact absurd (Finset.mem_univ _) h

theorem isPartial_coord (b : ℝ) (j : Fin (2 * c)) (x : Fin (2 * c) → ℝ) (i : Fin (2 * c)) : IsPartial (fun z => b * z j) x i (if i = j then b else 0) := by
  unfold IsPartial
  by_cases h : i = j
  · subst h
    simp only [Function.update_self, if_true]
    exact ((hasDerivAt_id (x i)).const_mul b).congr_deriv (by simp)
  · simp only [Function.update_of_ne (fun hc => h hc.symm), if_neg h]
    exact hasDerivAt_const _ _

/-- Rows of the Jacobian -/
theorem jac_rows (c : Nat) : ((List.range c).flatMap fun i => [i, i]) = (List.range (2 * c)).map (· / 2) := by
  induction c with
  | zero => rfl
  | succ c ih =>
    rw [List.range_succ, List.flatMap_append, ih, show 2 * (c + 1) = 2 * c + 1 + 1 by omega, List.range_succ, List.range_succ, List.map_append, List.map_append]
    have h1 : 2 * c / 2 = c := by omega
    have h2 : (2 * c + 1) / 2 = c := by omega
    simp [h1, h2]

theorem jac_triplets (v : Nat → ℝ) (N i j : Nat) :
    tripletEntry ((List.range N).map (· / 2)) (List.range N) ((List.range N).map v) i j = if j < N ∧ j / 2 = i then v j else 0 := by
  have hz : ((List.range N).map (· / 2)).zip (List.range N) = (List.range N).map fun k => (k / 2, k) := by
    apply List.ext_getElem (by simp)
    intro k h1 h2
    simp
  have hnd : (((List.range N).map (· / 2)).zip (List.range N)).Nodup := by
    rw [hz]
    exact List.nodup_range.map fun a b h => congrArg Prod.snd h
  by_cases h : j < N ∧ j / 2 = i
  · rw [if_pos h]
    refine tripletEntry_at _ _ _ j i j _ hnd ?_ ?_
    · rw [hz, List.getElem?_map, List.getElem?_range h.1, ← h.2]; rfl
    · rw [List.getElem?_map, List.getElem?_range h.1]; rfl
  · rw [if_neg h]
    apply tripletEntry_absent
    rw [hz]
    intro hc
    obtain ⟨k, hk, he⟩ := List.mem_map.mp hc
    have e1 : k / 2 = i := congrArg Prod.fst he
    have e2 : k = j := congrArg Prod.snd he
    subst e2
    exact h ⟨List.mem_range.mp hk, e1⟩

end Discs

end Scisim
