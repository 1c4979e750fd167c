import Verif.Lemmas.ExternalAnswers
/-!
# C75: what is handed to Ipopt and QL is the right problem, and their answers are used as the operators promise
-/

namespace Scisim

open Matrix

variable {n c : Nat}

/-! ## The problems -/

/-- C75: the impact operator poses `1/2 α^T Q α + b^T α → min` to Ipopt: objective, gradient and Hessian are consistent with each other whatever the
symmetric matrix, no write leaves the arrays that Ipopt has allocated, the points that the bounds allow are those with non-negative impulses, and the start
is the initial guess. -/
theorem C75_impact_problem (Q : Csc ℝ) (hQ : Q.Valid) (hr : Q.rows = n) (hc : Q.cols = n) (hs : (Q.toMatrix n).IsSymm) (b alpha : Nat → ℝ) :
    (∃ nz, Poses (qpNlp n Q b alpha) (quadratic (Q.toMatrix n) (vec n b)) (m := 0) Fin.elim0 0 nz) ∧
      (qpNlp n Q b alpha).bounds.Complete n 0 ∧
      (∀ x : Fin n → ℝ, (qpNlp n Q b alpha).bounds.Allows (m := 0) Fin.elim0 x ↔ ∀ i, 0 ≤ x i) ∧
      (qpNlp n Q b alpha).start = List.ofFn (vec n alpha) := by
  obtain ⟨es, L⟩ := lowerOf hQ hr hc
  refine ⟨⟨(lowerPart es).length, ?_, ?_, ?_, ?_, ?_, ?_⟩, ?_, ?_, ?_⟩
  · change (nzLowerTriangular Q).bind _ = _
    rw [nzLower_eq L]; rfl
  · intro x
    change quadraticObjective n Q b (arr x) = _
    rw [objective_value Q hQ hc, vec_arr]
  · intro x
    refine ⟨fun i => (Q.toMatrix n *ᵥ x + vec n b) i, ?_, fun i => isPartial_quadratic _ hs _ _ _⟩
    change quadraticGradient n Q b (arr x) = _
    rw [gradient_eq Q hQ hc, vec_arr]
  · intro h; exact absurd h (lt_irrefl 0)
  · refine ⟨[], [], rfl, rfl, by simp, by simp, fun r c hr hc => ?_, fun x buf hb => ⟨[], ?_, rfl, fun i => i.elim0⟩⟩
    · change Outcome.ok (r, c) = _
      rw [List.length_eq_zero_iff.mp hr, List.length_eq_zero_iff.mp hc]
    · change Outcome.ok buf = _
      rw [List.length_eq_zero_iff.mp hb]
  · refine ⟨(lowerPart es).map (·.1), (lowerPart es).map (·.2.1), List.length_map _, List.length_map _, ?_, fun r c hr hc => ?_, fun x σ l buf hb => ?_⟩
    · rw [zip_map_pos]; exact L.range
    · change (sparsityPatternLowerTriangular Q r c).bind _ = _
      rw [pattern_eq L r c hr hc]; rfl
    · refine ⟨((lowerPart es).map (·.2.2)).map (· * σ), ?_, by simp, fun i j hji => ?_⟩
      · change (valuesLowerTriangular Q buf).bind _ = _
        rw [values_eq L buf hb]; rfl
      · refine ⟨fun y => σ * (Q.toMatrix n *ᵥ y + vec n b) j, fun y => ?_, ?_⟩
        · have := (isPartial_quadratic (Q.toMatrix n) hs (vec n b) y j).const_mul σ
          simpa using this
        · rw [qp_triplets L σ i j j.2 hji]
          have h1 : Q.entry i j = Q.toMatrix n j i := by rw [← hs.apply]; rfl
          rw [h1]
          exact (isPartial_linear (fun k => Q.toMatrix n j k) (vec n b j) x i).const_mul σ
  · exact ⟨List.length_replicate .., List.length_replicate .., rfl, rfl⟩
  · intro x
    have hlo : ∀ i : Fin n, (List.replicate n (0 : ℝ)).getD i 0 = 0 := fun i => by simp
    have hhi : ∀ i : Fin n, (List.replicate n (2 * 10 ^ 19 : ℝ)).getD i 0 = 2 * 10 ^ 19 := fun i => by
      exact getD_replicate _ i.2
    constructor
    · intro h i
      have := (h.1 i).1
      rw [show (qpNlp n Q b alpha).bounds.xl.getD i 0 = 0 from hlo i] at this
      exact this (by norm_num)
    · intro h
      refine ⟨fun i => ⟨fun _ => ?_, fun hh => ?_⟩, fun i => i.elim0⟩
      · rw [show (qpNlp n Q b alpha).bounds.xl.getD i 0 = 0 from hlo i]; exact h i
      · rw [show (qpNlp n Q b alpha).bounds.xu.getD i 0 = 2 * 10 ^ 19 from hhi i] at hh
        norm_num at hh
  · exact map_range_ofFn alpha n

/-- C75: the friction operator poses `1/2 β^T Q β + A^T β → min` with `|β_i|² ≤ C_i` for every contact: constraints, Jacobian and the Hessian of the
Lagrangian are consistent, if every entry on the diagonal of the matrix is stored. The bounds allow exactly the impulses in the discs, if their squared
radii are less than `10 ^ 19`. -/
theorem C75_friction_problem (Q : Csc ℝ) (hQ : Q.Valid) (hr : Q.rows = 2 * c) (hc : Q.cols = 2 * c) (hs : (Q.toMatrix (2 * c)).IsSymm)
    (hd : Q.DiagonalStored) (A C beta : Nat → ℝ) :
    (∃ nz, Poses (smoothMdpNlp (2 * c) Q A C beta) (quadratic (Q.toMatrix (2 * c)) (vec (2 * c) A)) (fun (i : Fin c) x => pairSq (pairOf x i)) (2 * c) nz) ∧
      (smoothMdpNlp (2 * c) Q A C beta).bounds.Complete (2 * c) c ∧
      ((∀ i < c, C i < 10 ^ 19) → ∀ x : Fin (2 * c) → ℝ,
        (smoothMdpNlp (2 * c) Q A C beta).bounds.Allows (fun (i : Fin c) x => pairSq (pairOf x i)) x ↔ ∀ i : Fin c, pairSq (pairOf x i) ≤ C i) ∧
      (smoothMdpNlp (2 * c) Q A C beta).start = List.ofFn (vec (2 * c) beta) := by
  obtain ⟨es, L⟩ := lowerOf hQ hr hc
  have h2 : 2 * c / 2 = c := by omega
  refine ⟨⟨(lowerPart es).length, ?_, ?_, ?_, ?_, ?_, ?_⟩, ?_, ?_, ?_⟩
  · change (nzLowerTriangular Q).bind _ = _
    rw [nzLower_eq L, h2]; rfl
  · intro x
    change quadraticObjective (2 * c) Q A (arr x) = _
    rw [objective_value Q hQ hc, vec_arr]
  · intro x
    refine ⟨fun i => (Q.toMatrix (2 * c) *ᵥ x + vec (2 * c) A) i, ?_, fun i => isPartial_quadratic _ hs _ _ _⟩
    change quadraticGradient (2 * c) Q A (arr x) = _
    rw [gradient_eq Q hQ hc, vec_arr]
  · intro _ x
    change Outcome.ok _ = _
    rw [h2, map_range_ofFn]
    congr 2
    funext i
    rw [arr_lt x _ (by omega), arr_lt x _ (by omega)]
    simp [pairSq, pairOf, sq]
  · refine ⟨(List.range (2 * c)).map (· / 2), List.range (2 * c), by simp, by simp, ?_, fun j hj => List.mem_range.mp hj, fun r c' _ _ => ?_, fun x buf _ => ?_⟩
    · intro i hi
      obtain ⟨k, hk, rfl⟩ := List.mem_map.mp hi
      have := List.mem_range.mp hk
      omega
    · change Outcome.ok _ = _
      rw [h2, jac_rows]
    · refine ⟨(List.range (2 * c)).map fun i => 2 * arr x i, rfl, by simp, fun i j => ?_⟩
      rw [jac_triplets, arr_val]
      have := isPartial_disc i x j
      rwa [show (if (j : Nat) < 2 * c ∧ (j : Nat) / 2 = i then 2 * x j else 0) = if (j : Nat) / 2 = i then 2 * x j else 0 by simp [j.2]]
  · refine ⟨(lowerPart es).map (·.1), (lowerPart es).map (·.2.1), List.length_map _, List.length_map _, ?_, fun r c' hr' hc' => ?_, fun x σ l buf hb => ?_⟩
    · rw [zip_map_pos]; exact L.range
    · obtain ⟨d, vals, h1, _⟩ := smooth_values L hd (by omega) 0 (fun _ => 0) (List.replicate (lowerPart es).length 0) (by simp)
      change (smoothHessPattern (2 * c) Q r c').bind _ = _
      have e : smoothHessPattern (2 * c) Q r c' = smoothHessPattern (2 * c) Q (List.replicate (List.replicate (lowerPart es).length (0 : ℝ)).length 0)
          (List.replicate (List.replicate (lowerPart es).length (0 : ℝ)).length 0) := by
        unfold smoothHessPattern
        rw [pattern_eq L r c' hr' hc', pattern_eq L _ _ (by simp) (by simp)]
      rw [e, h1]; rfl
    · obtain ⟨d, vals, h1, h2', h3, h4⟩ := smooth_values L hd (by omega) σ (arr l) buf hb
      refine ⟨vals, ?_, h3, fun i j hji => ?_⟩
      · change (smoothHessPattern _ _ _ _).bind _ = _
        rw [h1]; exact h2'
      · refine ⟨fun y => σ * (Q.toMatrix (2 * c) *ᵥ y + vec (2 * c) A) j + 2 * arr l (j / 2) * y j, fun y => ?_, ?_⟩
        · have a1 := (isPartial_quadratic (Q.toMatrix (2 * c)) hs (vec (2 * c) A) y j).const_mul σ
          have a2 := IsPartial.sum (f := fun (k : Fin c) z => l k * pairSq (pairOf z k)) fun k => (isPartial_disc k y j).const_mul (l k)
          have a3 := a1.add a2
          rw [sum_at_contact] at a3
          dsimp only
          rwa [mul_comm (2 : ℝ), mul_assoc]
        · rw [h4 i j j.2 hji]
          have e1 : Q.entry i j = Q.toMatrix (2 * c) j i := by rw [← hs.apply]; rfl
          rw [e1]
          have b1 := (isPartial_linear (fun k => Q.toMatrix (2 * c) j k) (vec (2 * c) A j) x i).const_mul σ
          have b2 := isPartial_coord (2 * arr l (j / 2)) j x i
          have b3 := b1.add b2
          have e2 : (if (i : Nat) = j then 2 * arr l ((i : Nat) / 2) else 0) = if i = j then 2 * arr l ((j : Nat) / 2) else 0 := by
            by_cases h : i = j
            · subst h; simp
            · rw [if_neg h, if_neg fun hh => h (Fin.ext hh)]
          rw [e2]
          exact b3
  · refine ⟨List.length_replicate .., List.length_replicate .., ?_, ?_⟩
    · change (List.replicate (2 * c / 2) _).length = c
      simp
    · change ((List.range (2 * c / 2)).map C).length = c
      simp
  · intro hC x
    have e1 : ∀ i : Fin (2 * c), (smoothMdpNlp (2 * c) Q A C beta).bounds.xl.getD i 0 = -(2 * 10 ^ 19) := fun i => by
      change (List.replicate (2 * c) (-(2 * 10 ^ 19) : ℝ)).getD i 0 = _
      exact getD_replicate _ i.2
    have e2 : ∀ i : Fin (2 * c), (smoothMdpNlp (2 * c) Q A C beta).bounds.xu.getD i 0 = 2 * 10 ^ 19 := fun i => by
      change (List.replicate (2 * c) (2 * 10 ^ 19 : ℝ)).getD i 0 = _
      exact getD_replicate _ i.2
    have e3 : ∀ i : Fin c, (smoothMdpNlp (2 * c) Q A C beta).bounds.gl.getD i 0 = -(2 * 10 ^ 19) := fun i => by
      change (List.replicate (2 * c / 2) (-(2 * 10 ^ 19) : ℝ)).getD i 0 = _
      exact getD_replicate _ (by omega)
    have e4 : ∀ i : Fin c, (smoothMdpNlp (2 * c) Q A C beta).bounds.gu.getD i 0 = C i := fun i => by
      change ((List.range (2 * c / 2)).map C).getD i 0 = _
      exact getD_mapRange _ (by omega)
    constructor
    · intro h i
      have := (h.2 i).2
      rw [e4] at this
      exact this (hC i i.2)
    · intro h
      refine ⟨fun i => ⟨fun hh => ?_, fun hh => ?_⟩, fun i => ⟨fun hh => ?_, fun _ => ?_⟩⟩
      · rw [e1] at hh; norm_num at hh
      · rw [e2] at hh; norm_num at hh
      · rw [e3] at hh; norm_num at hh
      · rw [e4]; exact h i
  · exact map_range_ofFn beta (2 * c)

/-! ## The linear solvers -/

/-- C75: an operator can be built exactly with a list of linear solvers that is not empty, names none of them twice, and names only those that Ipopt has. -/
theorem C75_linear_solvers (names solvers : List String) : ipoptOperator names = .ok solvers ↔
    solvers = names ∧ names ≠ [] ∧ names.Nodup ∧ ∀ s ∈ names, s ∈ ["ma27", "ma57", "mumps", "ma86", "ma97"] := by
  have hsup : ∀ s, linearSolverSupported s = true ↔ s ∈ ["ma27", "ma57", "mumps", "ma86", "ma97"] := by
    intro s
    unfold linearSolverSupported
    simp only [List.mem_cons, List.not_mem_nil, or_false]
    by_cases h : s ≠ "ma27" ∧ s ≠ "ma57" ∧ s ≠ "mumps" ∧ s ≠ "ma86" ∧ s ≠ "ma97"
    · rw [if_pos h]; simp [h.1, h.2.1, h.2.2.1, h.2.2.2.1, h.2.2.2.2]
    · rw [if_neg h]; simp; tauto
  unfold ipoptOperator
  by_cases h1 : names = []
  · simp [h1]
  rw [if_neg h1]
  by_cases h2 : containsDuplicates names = true
  · rw [if_pos h2]
    have : ¬ names.Nodup := fun h => by rw [(containsDuplicates_iff names).mpr h] at h2; cases h2
    simp [this]
  rw [if_neg h2]
  have h2' := (containsDuplicates_iff names).mp (by simpa using h2)
  by_cases h3 : (names.any fun s => !linearSolverSupported s) = true
  · rw [if_pos h3]
    obtain ⟨s, hs, hn⟩ := List.any_eq_true.mp h3
    have : ¬ ∀ s ∈ names, s ∈ ["ma27", "ma57", "mumps", "ma86", "ma97"] := fun h => by
      have := (hsup s).mpr (h s hs)
      simp [this] at hn
    simp only [this, and_false]
    exact ⟨fun h => (nomatch h), False.elim⟩
  · rw [if_neg h3]
    have : ∀ s ∈ names, s ∈ ["ma27", "ma57", "mumps", "ma86", "ma97"] := fun s hs => by
      rw [← hsup]
      by_contra hn
      exact h3 (List.any_eq_true.mpr ⟨s, hs, by simpa using hn⟩)
    constructor
    · intro h
      cases h
      exact ⟨rfl, h1, h2', this⟩
    · rintro ⟨rfl, _⟩
      rfl

example : ipoptOperator ["ma97", "ma27"] = .ok ["ma97", "ma27"] := by decide +kernel
example : ipoptOperator ["ma97", "ma27", "ma97"] = .exit := by decide +kernel

/-- C75: no two statuses of Ipopt have the same text. -/
theorem C75_status_text (a b : SolverReturn) : ipoptReturnStatusToString a = ipoptReturnStatusToString b ↔ a = b := by
  constructor
  · cases a <;> cases b <;> intro h <;> first | rfl | (exact absurd h (by decide))
  · rintro rfl; rfl

/-! ## The answers of Ipopt -/

theorem getLast_getLastD (solvers : List String) : ∀ l, solvers.getLast? = some l → l = solvers.getLastD "" := by
  intro l h
  rw [List.getLastD_eq_getLast?, h]
  rfl

/-- C75: the impulses of the impact operator are those of the first linear solver, in the given order, that reports success or an acceptable point. The
program ends if and only if none does; a solver that Ipopt cannot even set up counts as one that has failed. -/
theorem C75_impact_result (ipopt : Ipopt) (names solvers : List String) (hs : ipoptOperator names = .ok solvers) (k : Nat) (Q : Csc ℝ) (b alpha : Nat → ℝ) :
    (∀ x, lcpIpoptFlow ipopt solvers k Q b alpha = .ok x ↔ ∃ i st, ipopt.FirstAnswer (qpNlp k Q b alpha) SolverReturn.Solved solvers i st x) ∧
      (lcpIpoptFlow ipopt solvers k Q b alpha = .exit ↔ ∀ i st x, ¬ ipopt.FirstAnswer (qpNlp k Q b alpha) SolverReturn.Solved solvers i st x) := by
  obtain ⟨rfl, hne, hnd, _⟩ := (C75_linear_solvers names solvers).mp hs
  have hfin : ∀ (s : NlpState) st x, finalizeSolution none s (some (st, x)) = .ok ⟨st, x, (fun _ a => a) x s.achieved⟩ := fun _ _ _ => rfl
  have key := ipoptLoop_spec ipopt (qpNlp k Q b) none flowAccepts true (solvers.getLastD "") alpha (fun _ a => a) hfin solvers 0 ⟨.internalError, alpha, none⟩ (by rfl) hnd
    (getLast_getLastD solvers)
  simp only [firstFrom_zero ipopt (qpNlp k Q b) flowAccepts alpha SolverReturn.Solved flowAccepts_iff] at key
  unfold lcpIpoptFlow
  rcases key with ⟨i, st, x, a, h1, h2⟩ | ⟨h1, h2⟩
  · rw [h2]
    refine ⟨fun x' => ⟨fun h => ?_, fun ⟨j, st', h⟩ => ?_⟩, ⟨fun h => (nomatch h), fun h => absurd h1 (h i st x)⟩⟩
    · cases h
      exact ⟨i, st, h1⟩
    · obtain ⟨_, _, rfl⟩ := firstAnswer_unique h1 h
      rfl
  · rcases h2 with ⟨_, _, h3⟩ | ⟨h3 | h3, _⟩
    · rw [h3]
      exact ⟨fun x => ⟨fun h => (nomatch h), fun ⟨i, st, h⟩ => absurd h (h1 i st x)⟩, fun _ => h1, fun _ => rfl⟩
    · cases h3
    · exact absurd h3 hne

/-- C75: in the same way for the form of the impact operator with the caller's own test, which may also stop Ipopt; it returns the value of the test at the
impulses that are returned. -/
theorem C75_impact_tolerance (ipopt : Ipopt) (names solvers : List String) (hs : ipoptOperator names = .ok solvers) (Q : Csc ℝ) (hQ : Q.Valid) (hc : Q.cols = n)
    (term : (Nat → ℝ) → List ℝ → ℝ) (b alpha : Nat → ℝ) :
    (∀ x a, lcpIpoptSolveQP ipopt solvers n term Q b alpha = .ok (x, a) ↔
      (∃ i st, ipopt.FirstAnswer (qpNlp n Q b alpha) SolverReturn.SolvedOrStopped solvers i st x) ∧
        a = some (term x (List.ofFn (Q.toMatrix n *ᵥ vec n x + vec n b)))) ∧
      (lcpIpoptSolveQP ipopt solvers n term Q b alpha = .exit ↔
        ∀ i st x, ¬ ipopt.FirstAnswer (qpNlp n Q b alpha) SolverReturn.SolvedOrStopped solvers i st x) := by
  obtain ⟨rfl, hne, hnd, _⟩ := (C75_linear_solvers names solvers).mp hs
  have hfin : ∀ (s : NlpState) st x, finalizeSolution (some fun x => (quadraticGradient n Q b x).bind fun y => .ok (term x y)) s (some (st, x)) =
      .ok ⟨st, x, (fun x _ => some (term x (List.ofFn (Q.toMatrix n *ᵥ vec n x + vec n b)))) x s.achieved⟩ := fun s st x => by
    unfold finalizeSolution
    dsimp only
    rw [gradient_eq Q hQ hc]
    rfl
  have key := ipoptLoop_spec ipopt (qpNlp n Q b) (some fun x => (quadraticGradient n Q b x).bind fun y => .ok (term x y)) solveQPAccepts true
    (solvers.getLastD "") alpha (fun x _ => some (term x (List.ofFn (Q.toMatrix n *ᵥ vec n x + vec n b)))) hfin solvers 0 ⟨.internalError, alpha, none⟩ (by rfl) hnd
    (getLast_getLastD solvers)
  simp only [firstFrom_zero ipopt (qpNlp n Q b) solveQPAccepts alpha SolverReturn.SolvedOrStopped solveQPAccepts_iff] at key
  unfold lcpIpoptSolveQP
  rcases key with ⟨i, st, x, a, h1, h2⟩ | ⟨h1, h2⟩
  · rw [h2]
    refine ⟨fun x' a' => ⟨fun h => ?_, fun ⟨⟨j, st', h⟩, ha⟩ => ?_⟩, ⟨fun h => (nomatch h), fun h => absurd h1 (h i st x)⟩⟩
    · cases h
      exact ⟨⟨i, st, h1⟩, rfl⟩
    · obtain ⟨_, _, rfl⟩ := firstAnswer_unique h1 h
      rw [ha]
      rfl
  · rcases h2 with ⟨_, _, h3⟩ | ⟨h3 | h3, _⟩
    · rw [h3]
      exact ⟨fun x a => ⟨fun h => (nomatch h), fun ⟨⟨i, st, h⟩, _⟩ => absurd h (h1 i st x)⟩, fun _ => h1, fun _ => rfl⟩
    · cases h3
    · exact absurd h3 hne

/-- C75: if Ipopt keeps its word about convex problems, the impulses of the impact operator solve the complementarity problem: no impulse and no separating
velocity is negative, and no contact has both. -/
theorem C75_impact_answer (ipopt : Ipopt) (hip : ipopt.SolvesConvex) (names solvers : List String) (hs : ipoptOperator names = .ok solvers) (Q : Csc ℝ)
    (hQ : Q.Valid) (hr : Q.rows = n) (hc : Q.cols = n) (hsym : (Q.toMatrix n).IsSymm) (hpos : ∀ y, 0 ≤ y ⬝ᵥ (Q.toMatrix n *ᵥ y)) (b alpha x : Nat → ℝ)
    (h : lcpIpoptFlow ipopt solvers n Q b alpha = .ok x) : SolvesLCP (Q.toMatrix n) (vec n b) (vec n x) := by
  obtain ⟨i, st, ⟨s, _, h1⟩, h2, _⟩ := ((C75_impact_result ipopt names solvers hs n Q b alpha).1 x).mp h
  obtain ⟨⟨nz, hp⟩, hb, ha, _⟩ := C75_impact_problem Q hQ hr hc hsym b alpha
  have hm := hip i s _ n 0 (Q.toMatrix n) (vec n b) Fin.elim0 0 nz st x hsym hpos (fun i => i.elim0) hp hb (fun i hi => absurd hi (Nat.not_lt_zero i)) h1 h2
  rw [qp_iff_lcp hsym hpos]
  exact ⟨(ha _).mp hm.1, fun y hy => hm.2 y ((ha y).mpr hy)⟩

/-- The friction operator, when Ipopt can be set up at the first call -/
theorem smooth_loop (ipopt : Ipopt) (P : (Nat → ℝ) → Nlp ℝ) (term : Option ((Nat → ℝ) → Outcome ℝ)) (accept : SolverReturn → Bool) (exits : Bool) (x0 : Nat → ℝ)
    (fin : (Nat → ℝ) → Option ℝ → Option ℝ) (hfin : ∀ s st x, finalizeSolution term s (some (st, x)) = .ok ⟨st, x, fin x s.achieved⟩) (solvers : List String)
    (hne : solvers ≠ []) (hset : ∀ s, ipopt 0 s (P x0) ≠ none) :
    ipoptLoop ipopt P term accept exits (solvers.getLastD "") x0 0 solvers ⟨.success, x0, none⟩ =
      ipoptLoop ipopt P term accept exits (solvers.getLastD "") x0 0 solvers ⟨.internalError, x0, none⟩ := by
  cases solvers with
  | nil => exact absurd rfl hne
  | cons solver rest =>
    cases h : ipopt 0 solver (P x0) with
    | none => exact absurd h (hset solver)
    | some ans =>
      unfold ipoptLoop
      rw [h, hfin, hfin]

/-- C75: the friction operator returns the impulses of the first linear solver that reports success or an acceptable point, and the speeds of the slip of all
contacts at these impulses; the program ends if and only if no solver does. This needs that Ipopt can be set up at its first call. -/
theorem C75_friction_result (ipopt : Ipopt) (names solvers : List String) (hs : ipoptOperator names = .ok solvers) (Q : Csc ℝ) (hQ : Q.Valid) (hc : Q.cols = 2 * c)
    (A mu alpha beta : Nat → ℝ) (hset : ∀ s P, ipopt 0 s P ≠ none) :
    (∀ x l, smoothMdpFlow ipopt solvers c Q A mu alpha beta = .ok (x, l) ↔
      (∃ i st, ipopt.FirstAnswer (smoothMdpNlp (2 * c) Q A (fun i => mu i * mu i * alpha i * alpha i) beta) SolverReturn.Solved solvers i st x) ∧
        l = List.ofFn fun i : Fin c => √(pairSq (pairOf (Q.toMatrix (2 * c) *ᵥ vec (2 * c) x + vec (2 * c) A) i))) ∧
      (smoothMdpFlow ipopt solvers c Q A mu alpha beta = .exit ↔ ∀ i st x,
        ¬ ipopt.FirstAnswer (smoothMdpNlp (2 * c) Q A (fun i => mu i * mu i * alpha i * alpha i) beta) SolverReturn.Solved solvers i st x) := by
  obtain ⟨rfl, hne, hnd, _⟩ := (C75_linear_solvers names solvers).mp hs
  have hfin : ∀ (s : NlpState) st x, finalizeSolution none s (some (st, x)) = .ok ⟨st, x, (fun _ a => a) x s.achieved⟩ := fun _ _ _ => rfl
  have key := ipoptLoop_spec ipopt (smoothMdpNlp (2 * c) Q A fun i => mu i * mu i * alpha i * alpha i) none flowAccepts true (solvers.getLastD "") beta (fun _ a => a) hfin
    solvers 0 ⟨.internalError, beta, none⟩ (by rfl) hnd (getLast_getLastD solvers)
  simp only [firstFrom_zero ipopt _ flowAccepts beta SolverReturn.Solved flowAccepts_iff] at key
  unfold smoothMdpFlow
  rw [smooth_loop ipopt _ none flowAccepts true beta (fun _ a => a) hfin solvers hne (fun s => hset s _)]
  rcases key with ⟨i, st, x, a, h1, h2⟩ | ⟨h1, h2⟩
  · rw [h2]
    change (∀ x' l, (frictionMultipliers c Q A x).bind _ = _ ↔ _) ∧ ((frictionMultipliers c Q A x).bind _ = _ ↔ _)
    rw [frictionMultipliers_eq Q hQ hc]
    refine ⟨fun x' l => ⟨fun h => ?_, fun ⟨⟨j, st', h⟩, hl⟩ => ?_⟩, ⟨fun h => (nomatch h), fun h => absurd h1 (h i st x)⟩⟩
    · cases h
      exact ⟨⟨i, st, h1⟩, rfl⟩
    · obtain ⟨_, _, rfl⟩ := firstAnswer_unique h1 h
      rw [hl]
      rfl
  · rcases h2 with ⟨_, _, h3⟩ | ⟨h3 | h3, _⟩
    · rw [h3]
      exact ⟨fun x l => ⟨fun h => (nomatch h), fun ⟨⟨i, st, h⟩, _⟩ => absurd h (h1 i st x)⟩, fun _ => h1, fun _ => rfl⟩
    · cases h3
    · exact absurd h3 hne

/-- C75: if Ipopt keeps its word, the friction operator returns impulses in the discs that oppose the slip at every contact, at full strength while there is
slip, with the speed of the slip as the multiplier. -/
theorem C75_friction_answer (ipopt : Ipopt) (hip : ipopt.SolvesConvex) (hset : ∀ s P, ipopt 0 s P ≠ none) (names solvers : List String)
    (hs : ipoptOperator names = .ok solvers) (Q : Csc ℝ) (hQ : Q.Valid) (hr : Q.rows = 2 * c) (hc : Q.cols = 2 * c) (hd : Q.DiagonalStored)
    (hsym : (Q.toMatrix (2 * c)).IsSymm) (hpos : ∀ y, 0 ≤ y ⬝ᵥ (Q.toMatrix (2 * c) *ᵥ y)) (A mu alpha beta : Nat → ℝ) (hmu : ∀ i, 0 ≤ mu i) (hal : ∀ i, 0 ≤ alpha i)
    (hbig : ∀ i, (mu i * alpha i) ^ 2 < 10 ^ 19) (x : Nat → ℝ) (l : List ℝ) (h : smoothMdpFlow ipopt solvers c Q A mu alpha beta = .ok (x, l)) :
    l.length = c ∧ ∀ i : Fin c, MaximallyDissipative (mu i * alpha i) (l.getD i 0) (pairOf (vec (2 * c) x) i)
      (pairOf (Q.toMatrix (2 * c) *ᵥ vec (2 * c) x + vec (2 * c) A) i) := by
  obtain ⟨⟨i, st, ⟨s, _, h1⟩, h2, _⟩, rfl⟩ := ((C75_friction_result ipopt names solvers hs Q hQ hc A mu alpha beta hset).1 x l).mp h
  obtain ⟨⟨nz, hp⟩, hb, ha, _⟩ := C75_friction_problem Q hQ hr hc hsym hd A (fun i => mu i * mu i * alpha i * alpha i) beta
  have hsq : ∀ i, mu i * mu i * alpha i * alpha i = (mu i * alpha i) ^ 2 := fun i => by ring
  have ha' := ha fun i _ => by rw [hsq]; exact hbig i
  have hm := hip i s _ (2 * c) c (Q.toMatrix (2 * c)) (vec (2 * c) A) _ (2 * c) nz st x hsym hpos convexOn_disc hp hb (fun i hi => by
    change (List.replicate (2 * c / 2) (-(2 * 10 ^ 19) : ℝ)).getD i 0 ≤ _
    rw [getD_replicate _ (by omega)]
    norm_num) h1 h2
  have hm' : Minimizes (Q.toMatrix (2 * c)) (vec (2 * c) A) (discs fun i : Fin c => mu i * alpha i) (vec (2 * c) x) := by
    have e : {y | (smoothMdpNlp (2 * c) Q A (fun i => mu i * mu i * alpha i * alpha i) beta).bounds.Allows (fun (i : Fin c) x => pairSq (pairOf x i)) y} =
        discs fun i : Fin c => mu i * alpha i := by
      ext y
      refine (ha' y).trans ?_
      simp only [hsq]
      rfl
    rwa [e] at hm
  refine ⟨List.length_ofFn, fun i => ?_⟩
  have e : (List.ofFn fun i : Fin c => √(pairSq (pairOf (Q.toMatrix (2 * c) *ᵥ vec (2 * c) x + vec (2 * c) A) i))).getD i 0 =
      √(pairSq (pairOf (Q.toMatrix (2 * c) *ᵥ vec (2 * c) x + vec (2 * c) A) i)) := by simp [List.getD]
  rw [e]
  exact minimizer_dissipates hsym (fun i => mul_nonneg (hmu i) (hal i)) hm' i

/-- C75: the friction operator with the caller's own test: if a linear solver is content, it returns the impulses of the first such solver, the speeds of the slip
and the value of the test. Otherwise it returns something all the same. -/
theorem C75_friction_tolerance_partial (ipopt : Ipopt) (names solvers : List String) (hs : ipoptOperator names = .ok solvers) (Q : Csc ℝ) (hQ : Q.Valid)
    (hc : Q.cols = 2 * c) (term : (Nat → ℝ) → List ℝ → ℝ) (A b beta : Nat → ℝ) (hset : ∀ s P, ipopt 0 s P ≠ none) :
    (∀ i st x, ipopt.FirstAnswer (smoothMdpNlp (2 * c) Q A (fun i => b i * b i) beta) SolverReturn.SolvedOrStopped solvers i st x →
      smoothMdpSolveQP ipopt solvers c term Q A b beta =
        .ok (x, List.ofFn fun i : Fin c => √(pairSq (pairOf (Q.toMatrix (2 * c) *ᵥ vec (2 * c) x + vec (2 * c) A) i)),
          some (term x (List.ofFn (Q.toMatrix (2 * c) *ᵥ vec (2 * c) x + vec (2 * c) A))))) ∧
      ∃ r, smoothMdpSolveQP ipopt solvers c term Q A b beta = .ok r := by
  obtain ⟨rfl, hne, hnd, _⟩ := (C75_linear_solvers names solvers).mp hs
  have hfin : ∀ (s : NlpState) st x, finalizeSolution (some fun x => (quadraticGradient (2 * c) Q A x).bind fun y => .ok (term x y)) s (some (st, x)) =
      .ok ⟨st, x, (fun x _ => some (term x (List.ofFn (Q.toMatrix (2 * c) *ᵥ vec (2 * c) x + vec (2 * c) A)))) x s.achieved⟩ := fun s st x => by
    unfold finalizeSolution
    dsimp only
    rw [gradient_eq Q hQ hc]
    rfl
  have key := ipoptLoop_spec ipopt (smoothMdpNlp (2 * c) Q A fun i => b i * b i) (some fun x => (quadraticGradient (2 * c) Q A x).bind fun y => .ok (term x y))
    solveQPAccepts false (solvers.getLastD "") beta (fun x _ => some (term x (List.ofFn (Q.toMatrix (2 * c) *ᵥ vec (2 * c) x + vec (2 * c) A)))) hfin
    solvers 0 ⟨.internalError, beta, none⟩ (by rfl) hnd (getLast_getLastD solvers)
  simp only [firstFrom_zero ipopt _ solveQPAccepts beta SolverReturn.SolvedOrStopped solveQPAccepts_iff] at key
  unfold smoothMdpSolveQP
  rw [smooth_loop ipopt _ _ solveQPAccepts false beta (fun x _ => some (term x (List.ofFn (Q.toMatrix (2 * c) *ᵥ vec (2 * c) x + vec (2 * c) A)))) hfin solvers hne
    (fun s => hset s _)]
  rcases key with ⟨i, st, x, a, h1, h2⟩ | ⟨h1, h2⟩
  · rw [h2]
    change (∀ i st x', _ → (frictionMultipliers c Q A x).bind _ = _) ∧ ∃ r, (frictionMultipliers c Q A x).bind _ = _
    rw [frictionMultipliers_eq Q hQ hc]
    refine ⟨fun j st' x' h => ?_, _, rfl⟩
    obtain ⟨_, _, rfl⟩ := firstAnswer_unique h1 h
    rfl
  · refine ⟨fun i st x h => absurd h (h1 i st x), ?_⟩
    rcases h2 with ⟨h3, _⟩ | ⟨_, s', h3⟩
    · cases h3
    · rw [h3]
      change ∃ r, (frictionMultipliers c Q A s'.x).bind _ = _
      rw [frictionMultipliers_eq Q hQ hc]
      exact ⟨_, rfl⟩

/-! ## The answers of QL -/

/-- C75: the three calls of QL give it arrays of the sizes it is told, and work arrays as long as its documentation asks for. -/
theorem C75_ql_calls (k s c : Nat) (Q : Nat → Nat → ℝ) (b mu alpha : Nat → ℝ) :
    (lcpQlCall k Q b).WellFormed ∧ (linearMdpQlCall s c Q b mu alpha).WellFormed ∧ (boundMdpQlCall c Q b mu alpha).WellFormed := by
  refine ⟨?_, ?_, ?_⟩
  · constructor <;> simp [lcpQlCall, byColumns_length, mul_assoc]
  · constructor <;> simp [linearMdpQlCall, byColumns_length, mul_assoc]
  · constructor <;> simp [boundMdpQlCall, byColumns_length, mul_assoc]

theorem colEntry_sum (k : Nat) (Q : Nat → Nat → ℝ) (x : Nat → ℝ) (j : Nat) (hj : j < k) :
    ∑ i ∈ Finset.range k, colEntry k (byColumns k k Q) j i * x i = ∑ i ∈ Finset.range k, Q j i * x i :=
  Finset.sum_congr rfl fun i hi => by rw [colEntry_byColumns k k Q j i hj (Finset.mem_range.mp hi)]

/-- C75: if QL keeps its word and reports no failure, the impulses of the impact operator solve the complementarity problem. -/
theorem C75_ql_impact (ql : QlSolver) (hql : ql.Solves) (k : Nat) (Q : Nat → Nat → ℝ) (b alpha : Nat → ℝ) (hok : (ql (lcpQlCall k Q b) alpha).2.2 = 0) :
    ∃ x, lcpQlFlow ql k Q b alpha = .ok x ∧ SolvesLCP (Matrix.of fun i j : Fin k => Q i j) (vec k b) (vec k x) := by
  have h := hql (lcpQlCall k Q b) alpha (C75_ql_calls k 0 0 Q b b b).1 hok
  refine ⟨(ql (lcpQlCall k Q b) alpha).1, ?_, ?_⟩
  · unfold lcpQlFlow
    dsimp only
    rw [if_neg (by rw [hok]; simp)]
  generalize (ql (lcpQlCall k Q b) alpha).1 = x at *
  generalize (ql (lcpQlCall k Q b) alpha).2.1 = u at *
  have hup : ∀ j < k, u (0 + k + j) = 0 := fun j hj => by
    rcases h.complementaryUpper j hj with h1 | h1
    · exact h1
    · change (List.replicate k none)[j]? = _ at h1
      rw [List.getElem?_replicate, if_pos hj] at h1
      cases h1
  have hst : ∀ j < k, (∑ i ∈ Finset.range k, Q j i * x i) + b j = u (0 + j) := fun j hj => by
    have h1 := h.stationary j hj
    have e1 : (lcpQlCall k Q b).d.getD j 0 = b j := getD_mapRange b hj
    have e2 : u ((lcpQlCall k Q b).m + (lcpQlCall k Q b).n + j) = 0 := hup j hj
    rw [e1, e2] at h1
    have e3 : (∑ i ∈ Finset.range (lcpQlCall k Q b).n, colEntry (lcpQlCall k Q b).nmax (lcpQlCall k Q b).C j i * x i) = ∑ i ∈ Finset.range k, Q j i * x i :=
      colEntry_sum k Q x j hj
    rw [e3] at h1
    rw [h1]
    change (∑ i ∈ Finset.range 0, _) + u (0 + j) - 0 = _
    simp
  have hv : ∀ i : Fin k, ((Matrix.of fun i j : Fin k => Q i j) *ᵥ vec k x + vec k b) i = u (0 + i) := fun i => by
    rw [← hst i i.2, sum_range_arr]
    rfl
  have hlo : ∀ j < k, (lcpQlCall k Q b).xl.getD j 0 = 0 := fun j hj => getD_replicate 0 hj
  refine ⟨fun i => ?_, fun i => ?_, fun i => ?_⟩
  · have := h.lower i i.2
    rwa [hlo i i.2] at this
  · rw [hv]
    refine h.nonneg _ ?_
    change 0 + (i : Nat) < 0 + k + k
    omega
  · rw [hv]
    rcases h.complementaryLower i i.2 with h1 | h1
    · exact Or.inr h1
    · rw [hlo i i.2] at h1
      exact Or.inl h1

/-- C75: if QL keeps its word and reports no failure, the linearized friction operator returns friction impulses that meet the conditions of maximal
dissipation at every contact, with the multipliers in `lambda`. -/
theorem C75_ql_linear_friction (ql : QlSolver) (hql : ql.Solves) (s c : Nat) (Q : Nat → Nat → ℝ) (d mu alpha beta : Nat → ℝ)
    (hok : (ql (linearMdpQlCall s c Q d mu alpha) beta).2.2 = 0) :
    ∃ x l, linearMdpQlFlow ql s c Q d mu alpha beta = .ok (x, l) ∧ l.length = c ∧
      ∀ i < c, LinearFriction s i (mu i * alpha i) (l.getD i 0) x fun j => (∑ k ∈ Finset.range (s * c), Q j k * x k) + d j := by
  have h := hql (linearMdpQlCall s c Q d mu alpha) beta (C75_ql_calls 0 s c Q d mu alpha).2.1 hok
  refine ⟨(ql (linearMdpQlCall s c Q d mu alpha) beta).1, (List.range c).map fun i => (ql (linearMdpQlCall s c Q d mu alpha) beta).2.1 i, ?_, by simp, ?_⟩
  · unfold linearMdpQlFlow
    dsimp only
    rw [if_neg (by rw [hok]; simp)]
  generalize (ql (linearMdpQlCall s c Q d mu alpha) beta).1 = x at *
  generalize (ql (linearMdpQlCall s c Q d mu alpha) beta).2.1 = u at *
  intro i hi
  rw [getD_mapRange u hi]
  have hin : ∀ k < s, s * i + k < s * c := fun k hk => by
    calc s * i + k < s * i + s := by omega
      _ = s * (i + 1) := by ring
      _ ≤ s * c := Nat.mul_le_mul_left _ hi
  have hA : ∀ i < c, ∀ j < s * c, colEntry c (byColumns c (s * c) fun i j => -formLinearFrictionDiskConstraint s c j i) i j = -formLinearFrictionDiskConstraint s c j i :=
    fun i hi j hj => colEntry_byColumns _ _ _ _ _ hi hj
  have hsum : ∀ i < c, ∑ j ∈ Finset.range (linearMdpQlCall s c Q d mu alpha).n,
      colEntry (linearMdpQlCall s c Q d mu alpha).mmax ((linearMdpQlCall s c Q d mu alpha).A.getD []) i j * x j = -∑ k ∈ Finset.range s, x (s * i + k) := fun i hi => by
    rw [← disk_row_sum s c i hi, ← Finset.sum_neg_distrib]
    refine Finset.sum_congr rfl fun j hj => ?_
    have := hA i hi j (Finset.mem_range.mp hj)
    change colEntry c (byColumns c (s * c) fun i j => -formLinearFrictionDiskConstraint s c j i) i j * x j = _
    rw [this]
    ring
  have hb : ((linearMdpQlCall s c Q d mu alpha).b.getD []).getD i 0 = mu i * alpha i := getD_mapRange (fun i => mu i * alpha i) hi
  have hlo : ∀ j < s * c, (linearMdpQlCall s c Q d mu alpha).xl.getD j 0 = 0 := fun j hj => getD_replicate 0 hj
  have hup : ∀ j < s * c, u (c + s * c + j) = 0 := fun j hj => by
    rcases h.complementaryUpper j hj with h1 | h1
    · exact h1
    · change (List.replicate (s * c) none)[j]? = _ at h1
      rw [List.getElem?_replicate, if_pos hj] at h1
      cases h1
  have hcol : ∀ k < s, ∑ t ∈ Finset.range c, colEntry c (byColumns c (s * c) fun i j => -formLinearFrictionDiskConstraint s c j i) t (s * i + k) * u t = -u i := fun k hk => by
    rw [Finset.sum_eq_single i]
    · rw [hA i hi _ (hin k hk), disk_entries, if_pos ⟨⟨k, hk, rfl⟩, hi⟩]
      ring
    · intro t ht hne
      rw [hA t (Finset.mem_range.mp ht) _ (hin k hk), disk_entries, if_neg]
      · simp
      · rintro ⟨⟨k', hk', he⟩, _⟩
        apply hne
        have e1 : (s * i + k) / s = i := by rw [Nat.mul_add_div (by omega), Nat.div_eq_of_lt hk, Nat.add_zero]
        have e2 : (s * t + k') / s = t := by rw [Nat.mul_add_div (by omega), Nat.div_eq_of_lt hk', Nat.add_zero]
        rw [← e1, ← e2, he]
    · intro h; exact absurd (Finset.mem_range.mpr hi) h
  have hst : ∀ k < s, (∑ t ∈ Finset.range (s * c), Q (s * i + k) t * x t) + d (s * i + k) = -u i + u (c + (s * i + k)) := fun k hk => by
    have hj := hin k hk
    have h1 := h.stationary (s * i + k) hj
    have e1 : (linearMdpQlCall s c Q d mu alpha).d.getD (s * i + k) 0 = d (s * i + k) := getD_mapRange d hj
    have e2 : u ((linearMdpQlCall s c Q d mu alpha).m + (linearMdpQlCall s c Q d mu alpha).n + (s * i + k)) = 0 := hup _ hj
    have e3 : (∑ t ∈ Finset.range (linearMdpQlCall s c Q d mu alpha).n, colEntry (linearMdpQlCall s c Q d mu alpha).nmax (linearMdpQlCall s c Q d mu alpha).C (s * i + k) t * x t) =
        ∑ t ∈ Finset.range (s * c), Q (s * i + k) t * x t := colEntry_sum (s * c) Q x _ hj
    have e4 : (∑ t ∈ Finset.range (linearMdpQlCall s c Q d mu alpha).m,
        colEntry (linearMdpQlCall s c Q d mu alpha).mmax ((linearMdpQlCall s c Q d mu alpha).A.getD []) t (s * i + k) * u t) = -u i := hcol k hk
    rw [e1, e2, e3, e4, sub_zero] at h1
    exact h1
  refine ⟨fun k hk => ?_, ?_, ?_, fun k hk => ?_, fun k hk => ?_, ?_⟩
  · have := h.lower _ (hin k hk)
    rwa [hlo _ (hin k hk)] at this
  · have := h.linear i hi
    rw [hsum i hi, hb] at this
    linarith
  · refine h.nonneg i ?_
    change i < c + s * c + s * c
    omega
  · skip
    rw [hst k hk]
    have : 0 ≤ u (c + (s * i + k)) := h.nonneg _ (by change c + (s * i + k) < c + s * c + s * c; have := hin k hk; omega)
    linarith
  · skip
    rw [hst k hk]
    rcases h.complementaryLower _ (hin k hk) with h1 | h1
    · right
      have : u (c + (s * i + k)) = 0 := h1
      linarith
    · left
      rwa [hlo _ (hin k hk)] at h1
  · rcases h.complementaryLinear i hi with h1 | h1
    · exact Or.inl h1
    · right
      rw [hsum i hi, hb] at h1
      linarith

/-- C75: if QL keeps its word and reports no failure, the friction operator for the plane returns impulses within their bounds that oppose the slip, and a
multiplier that is the speed of the slip at every contact that can carry friction. -/
theorem C75_ql_bound_friction (ql : QlSolver) (hql : ql.Solves) (c : Nat) (Q : Nat → Nat → ℝ) (d mu alpha beta : Nat → ℝ)
    (hok : (ql (boundMdpQlCall c Q d mu alpha) beta).2.2 = 0) :
    ∃ x l, boundMdpQlFlow ql c Q d mu alpha beta = .ok (x, l) ∧ l.length = c ∧ ∀ i < c,
      let v := (∑ k ∈ Finset.range c, Q i k * x k) + d i
      |x i| ≤ mu i * alpha i ∧ |v| ≤ l.getD i 0 ∧ (0 < mu i * alpha i → l.getD i 0 = |v| ∧ (v = 0 ∨ |x i| = mu i * alpha i) ∧ mu i * alpha i * v = -|v| * x i) := by
  have h := hql (boundMdpQlCall c Q d mu alpha) beta (C75_ql_calls 0 0 c Q d mu alpha).2.2 hok
  refine ⟨(ql (boundMdpQlCall c Q d mu alpha) beta).1,
    (List.range c).map fun i => max ((ql (boundMdpQlCall c Q d mu alpha) beta).2.1 i) ((ql (boundMdpQlCall c Q d mu alpha) beta).2.1 (c + i)), ?_, by simp, ?_⟩
  · unfold boundMdpQlFlow
    dsimp only
    rw [if_neg (by rw [hok]; simp)]
  generalize (ql (boundMdpQlCall c Q d mu alpha) beta).1 = x at *
  generalize (ql (boundMdpQlCall c Q d mu alpha) beta).2.1 = u at *
  intro i hi
  rw [getD_mapRange (fun i => max (u i) (u (c + i))) hi]
  have hxl : (boundMdpQlCall c Q d mu alpha).xl.getD i 0 = -mu i * alpha i := getD_mapRange (fun i => -mu i * alpha i) hi
  have hxu : (boundMdpQlCall c Q d mu alpha).xu[i]? = some (some (-(-mu i * alpha i))) := by
    change ((List.range c).map fun i => some (-(-mu i * alpha i)))[i]? = _
    rw [List.getElem?_map, List.getElem?_range hi]
    rfl
  have e1 : (boundMdpQlCall c Q d mu alpha).d.getD i 0 = d i := getD_mapRange d hi
  have e3 : (∑ t ∈ Finset.range (boundMdpQlCall c Q d mu alpha).n, colEntry (boundMdpQlCall c Q d mu alpha).nmax (boundMdpQlCall c Q d mu alpha).C i t * x t) =
      ∑ t ∈ Finset.range c, Q i t * x t := colEntry_sum c Q x i hi
  have hst := h.stationary i hi
  rw [e1, e3] at hst
  have e4 : u ((boundMdpQlCall c Q d mu alpha).m + i) = u i := by change u (0 + i) = _; rw [Nat.zero_add]
  have e5 : u ((boundMdpQlCall c Q d mu alpha).m + (boundMdpQlCall c Q d mu alpha).n + i) = u (c + i) := by change u (0 + c + i) = _; rw [Nat.zero_add]
  have e6 : ∑ t ∈ Finset.range (boundMdpQlCall c Q d mu alpha).m,
      colEntry (boundMdpQlCall c Q d mu alpha).mmax ((boundMdpQlCall c Q d mu alpha).A.getD []) t i * u t = 0 := by
    change ∑ t ∈ Finset.range 0, _ = _
    simp
  rw [e4, e5, e6, zero_add] at hst
  have hl := h.lower i hi
  have hu := h.upper i hi _ hxu
  have cl := h.complementaryLower i hi
  have cu := h.complementaryUpper i hi
  rw [hxl] at hl
  rw [hxl, e4] at cl
  rw [hxu, e5] at cu
  have u1 : 0 ≤ u i := h.nonneg i (by change i < 0 + c + c; omega)
  have u2 : 0 ≤ u (c + i) := h.nonneg (c + i) (by change c + i < 0 + c + c; omega)
  have cu' : u (c + i) = 0 ∨ x i = mu i * alpha i := by
    rcases cu with h1 | h1
    · exact Or.inl h1
    · right
      rw [Option.some_inj, Option.some_inj] at h1
      linarith
  have cl' : u i = 0 ∨ x i = -(mu i * alpha i) := by
    rcases cl with h1 | h1
    · exact Or.inl h1
    · right; linarith
  dsimp only
  rw [hst]
  have hx : |x i| ≤ mu i * alpha i := abs_le.mpr ⟨by linarith, by linarith⟩
  refine ⟨hx, abs_le.mpr ⟨?_, ?_⟩, fun hp => ?_⟩
  · linarith [le_max_right (u i) (u (c + i))]
  · linarith [le_max_left (u i) (u (c + i))]
  · rcases cl' with h1 | h1
    · rw [h1, zero_sub, abs_neg, abs_of_nonneg u2, max_eq_right u2]
      rcases cu' with h2 | h2
      · simp [h2]
      · refine ⟨rfl, Or.inr ?_, ?_⟩
        · rw [h2, abs_of_pos hp]
        · rw [h2]; ring
    · have h2 : u (c + i) = 0 := cu'.resolve_right fun h2 => by linarith
      rw [h2, sub_zero, abs_of_nonneg u1, max_eq_left u1]
      refine ⟨rfl, Or.inr ?_, ?_⟩
      · rw [h1, abs_neg, abs_of_pos hp]
      · rw [h1]; ring

/-- C75: what a failure of QL does. The operators go on with the variables as QL left them, after a warning, if the number of the failure is 1, 2, 3, 5 or greater
than 100; otherwise the program ends. -/
theorem C75_ql_failures (ql : QlSolver) (k s c : Nat) (Q : Nat → Nat → ℝ) (b d mu alpha beta : Nat → ℝ) :
    let known := fun f : Int => f = 0 ∨ f = 1 ∨ f = 2 ∨ f = 3 ∨ f = 5 ∨ 100 < f
    (lcpQlFlow ql k Q b alpha = if known (ql (lcpQlCall k Q b) alpha).2.2 then .ok (ql (lcpQlCall k Q b) alpha).1 else .exit) ∧
      (linearMdpQlFlow ql s c Q d mu alpha beta = if known (ql (linearMdpQlCall s c Q d mu alpha) beta).2.2 then
        .ok ((ql (linearMdpQlCall s c Q d mu alpha) beta).1, (List.range c).map fun i => (ql (linearMdpQlCall s c Q d mu alpha) beta).2.1 i) else .exit) ∧
      (boundMdpQlFlow ql c Q d mu alpha beta = if known (ql (boundMdpQlCall c Q d mu alpha) beta).2.2 then
        .ok ((ql (boundMdpQlCall c Q d mu alpha) beta).1,
          (List.range c).map fun i => max ((ql (boundMdpQlCall c Q d mu alpha) beta).2.1 i) ((ql (boundMdpQlCall c Q d mu alpha) beta).2.1 (c + i))) else .exit) := by
  have key : ∀ {α : Type} (f : Int) (r : α), (if 0 ≠ f then (qlStatusMessage f).bind fun _ => Outcome.ok r else .ok r) =
      if f = 0 ∨ f = 1 ∨ f = 2 ∨ f = 3 ∨ f = 5 ∨ 100 < f then .ok r else .exit := by
    intro α f r
    unfold qlStatusMessage
    by_cases h : f = 0 ∨ f = 1 ∨ f = 2 ∨ f = 3 ∨ f = 5 ∨ 100 < f
    · rw [if_pos h, if_pos h]
      by_cases h0 : (0 : Int) ≠ f
      · rw [if_pos h0]; rfl
      · rw [if_neg h0]
    · rw [if_neg h, if_neg h, if_pos fun h0 => h (Or.inl h0.symm)]
      rfl
  exact ⟨key _ _, key _ _, key _ _⟩

/-! ## Cases that meet the hypotheses -/

/-- Two contacts, or one contact with two directions: the identity -/
def identity2 : Csc ℝ := ⟨2, 2, [0, 1, 2], [0, 1], [1, 1]⟩

theorem identity2_column (j : Nat) (hj : j < 2) : identity2.column j = .ok [(j, 1)] := by
  rcases (show j = 0 ∨ j = 1 by omega) with rfl | rfl <;> simp [identity2, Csc.column]

theorem identity2_valid : identity2.Valid := by
  refine ⟨rfl, rfl, by simp [identity2], rfl, rfl, fun j hj => ⟨[(j, 1)], identity2_column j hj, by simp, fun e he => ?_⟩⟩
  rw [List.mem_singleton] at he
  rw [he]
  exact hj

theorem identity2_diagonal : identity2.DiagonalStored := fun i hi => ⟨[(i, 1)], 1, identity2_column i hi, List.mem_singleton_self _⟩

theorem identity2_matrix : identity2.toMatrix 2 = 1 := by
  ext i j
  unfold Csc.toMatrix Csc.entry
  rw [Matrix.of_apply, identity2_column j j.2]
  fin_cases i <;> fin_cases j <;> simp

theorem identity2_symm : (identity2.toMatrix 2).IsSymm := by rw [identity2_matrix]; exact Matrix.isSymm_one

theorem identity2_pos (y : Fin 2 → ℝ) : 0 ≤ y ⬝ᵥ (identity2.toMatrix 2 *ᵥ y) := by
  rw [identity2_matrix, one_mulVec]
  exact Finset.sum_nonneg fun i _ => mul_self_nonneg _

/-- The problem of two contacts -/
example (b alpha : Nat → ℝ) : ∃ nz, Poses (qpNlp 2 identity2 b alpha) (quadratic (identity2.toMatrix 2) (vec 2 b)) (m := 0) Fin.elim0 0 nz :=
  (C75_impact_problem identity2 identity2_valid rfl rfl identity2_symm b alpha).1

/-- The problem of one contact with friction -/
example (A C beta : Nat → ℝ) : ∃ nz, Poses (smoothMdpNlp (2 * 1) identity2 A C beta) (quadratic (identity2.toMatrix (2 * 1)) (vec (2 * 1) A))
    (fun (i : Fin 1) x => pairSq (pairOf x i)) (2 * 1) nz :=
  (C75_friction_problem (c := 1) identity2 identity2_valid rfl rfl identity2_symm identity2_diagonal A C beta).1

/-- The functions that Ipopt calls determine the problem. -/
theorem poses_unique {P : Nlp ℝ} {n m m' nj nj' nh nh' : Nat} {f f' : (Fin n → ℝ) → ℝ} {g : Fin m → (Fin n → ℝ) → ℝ} {g' : Fin m' → (Fin n → ℝ) → ℝ}
    (h : Poses P f g nj nh) (h' : Poses P f' g' nj' nh') : f = f' ∧ ∀ B : NlpBounds ℝ, {y | B.Allows g y} = {y | B.Allows g' y} := by
  have e := h.info.symm.trans h'.info
  injection e with e
  injection e with _ e1 _ _
  subst e1
  refine ⟨?_, fun B => ?_⟩
  · funext x
    have := (h.value x).symm.trans (h'.value x)
    injection this
  · rcases Nat.eq_zero_or_pos m with h0 | h0
    · subst h0
      ext y
      exact ⟨fun hy => ⟨hy.1, fun i => i.elim0⟩, fun hy => ⟨hy.1, fun i => i.elim0⟩⟩
    · have eg : g = g' := by
        funext i x
        have := (h.constraints h0 x).symm.trans (h'.constraints h0 x)
        injection this with this
        exact congrFun (List.ofFn_injective this) i
      rw [eg]

/-- What a problem asks for -/
def Wanted (P : Nlp ℝ) (x : Nat → ℝ) : Prop := ∃ (n m : Nat) (Q : Matrix (Fin n) (Fin n) ℝ) (b : Fin n → ℝ) (g : Fin m → (Fin n → ℝ) → ℝ) (nzJac nzHess : Nat),
  Poses P (quadratic Q b) g nzJac nzHess ∧ Minimizes Q b {y | P.bounds.Allows g y} (vec n x)

open Classical in
/-- An Ipopt that finds every solution there is -/
noncomputable def idealIpopt : Ipopt := fun _ _ P => if h : ∃ x, Wanted P x then some (.success, h.choose) else some (.internalError, fun _ => 0)

theorem idealIpopt_solves : idealIpopt.SolvesConvex := by
  intro call solver P n m Q b g nj nh st x _ _ _ hp _ _ h hst
  unfold idealIpopt at h
  by_cases hw : ∃ x, Wanted P x
  · rw [dif_pos hw] at h
    obtain ⟨n', m', Q', b', g', nj', nh', hp', hmin⟩ := hw.choose_spec
    injection h with h
    injection h with _ hx
    rw [hx] at hmin
    have e := hp.info.symm.trans hp'.info
    injection e with e
    injection e with e1 _ _ _
    subst e1
    obtain ⟨u1, u2⟩ := poses_unique hp hp'
    refine ⟨by rw [u2]; exact hmin.1, fun y hy => ?_⟩
    rw [u1]
    exact hmin.2 y (by rw [← u2]; exact hy)
  · rw [dif_neg hw] at h
    injection h with h
    injection h with h _
    subst h
    rcases hst with h | h <;> cases h

theorem idealIpopt_answers (P : Nlp ℝ) (x : Nat → ℝ) (h : Wanted P x) (call : Nat) (s : String) : ∃ x, idealIpopt call s P = some (.success, x) := by
  have hw : ∃ x, Wanted P x := ⟨x, h⟩
  refine ⟨hw.choose, ?_⟩
  unfold idealIpopt
  rw [dif_pos hw]

/-- Two contacts that approach at unit speed: there is an Ipopt that keeps its word, with which the operator returns impulses. -/
example : ∃ ipopt : Ipopt, ipopt.SolvesConvex ∧ ∃ x, lcpIpoptFlow ipopt ["ma97", "ma57"] 2 identity2 (fun _ => -1) (fun _ => 0) = .ok x := by
  refine ⟨idealIpopt, idealIpopt_solves, ?_⟩
  obtain ⟨⟨nz, hp⟩, _, ha, _⟩ := C75_impact_problem (n := 2) identity2 identity2_valid rfl rfl identity2_symm (fun _ => -1) (fun _ => 0)
  have hw : Wanted (qpNlp 2 identity2 (fun _ => -1) fun _ => 0) fun _ => 1 := by
    refine ⟨2, 0, _, _, _, 0, nz, hp, (ha _).mpr fun _ => zero_le_one, fun y _ => ?_⟩
    rw [identity2_matrix]
    simp only [quadratic, one_mulVec, dotProduct, Fin.sum_univ_two, vec]
    nlinarith [sq_nonneg (y 0 - 1), sq_nonneg (y 1 - 1)]
  obtain ⟨x, hx⟩ := idealIpopt_answers _ _ hw 0 "ma97"
  refine ⟨x, ((C75_impact_result idealIpopt ["ma97", "ma57"] ["ma97", "ma57"] (by decide +kernel) 2 identity2 _ _).1 x).mpr ⟨0, .success, ⟨"ma97", rfl, hx⟩, Or.inl rfl, ?_⟩⟩
  intro j s st' x' hj
  exact absurd hj (Nat.not_lt_zero j)

/-- One contact that slips: there is an Ipopt that keeps its word, with which the operator returns impulses. -/
example : ∃ ipopt : Ipopt, ipopt.SolvesConvex ∧ (∀ s P, ipopt 0 s P ≠ none) ∧ ∃ r,
    smoothMdpFlow ipopt ["ma97"] 1 identity2 (fun i => if i = 0 then -2 else 0) (fun _ => 1) (fun _ => 1) (fun _ => 0) = .ok r := by
  have hset : ∀ s P, idealIpopt 0 s P ≠ none := fun s P h => by
    unfold idealIpopt at h
    split at h <;> cases h
  refine ⟨idealIpopt, idealIpopt_solves, hset, ?_⟩
  obtain ⟨⟨nz, hp⟩, _, ha, _⟩ := C75_friction_problem (c := 1) identity2 identity2_valid rfl rfl identity2_symm identity2_diagonal (fun i => if i = 0 then -2 else 0)
    (fun _ => 1 * 1 * 1 * 1) (fun _ => 0)
  have ha' := ha fun i _ => by norm_num
  have hw : Wanted (smoothMdpNlp (2 * 1) identity2 (fun i => if i = 0 then -2 else 0) (fun _ => 1 * 1 * 1 * 1) fun _ => 0) fun i => if i = 0 then 1 else 0 := by
    refine ⟨2 * 1, 1, _, _, _, 2 * 1, nz, hp, (ha' _).mpr fun i => ?_, fun y hy => ?_⟩
    · have : i = 0 := Subsingleton.elim _ _
      subst this
      simp [pairSq, pairOf, vec]
    · have h1 := (ha' y).mp hy 0
      have h2 : y 0 ^ 2 + y 1 ^ 2 ≤ 1 := by simpa [pairSq, pairOf] using h1
      have e : identity2.toMatrix (2 * 1) = 1 := identity2_matrix
      rw [e]
      simp only [quadratic, one_mulVec, dotProduct, Fin.sum_univ_two, vec]
      simp
      nlinarith [sq_nonneg (y 0 - 1), sq_nonneg (y 1), sq_nonneg (y 0)]
  obtain ⟨x, hx⟩ := idealIpopt_answers _ _ hw 0 "ma97"
  exact ⟨(x, _), ((C75_friction_result (c := 1) idealIpopt ["ma97"] ["ma97"] (by decide +kernel) identity2 identity2_valid rfl _ _ _ _ hset).1 x _).mpr
    ⟨⟨0, .success, ⟨"ma97", rfl, hx⟩, Or.inl rfl, fun j s st' x' hj => absurd hj (Nat.not_lt_zero j)⟩, rfl⟩⟩

open Classical in
/-- A QL that finds every solution there is -/
noncomputable def idealQl : QlSolver := fun q _ => if h : ∃ r : (Nat → ℝ) × (Nat → ℝ), q.Optimal r.1 r.2 then (h.choose.1, h.choose.2, 0) else (fun _ => 0, fun _ => 0, 1)

theorem idealQl_solves : idealQl.Solves := by
  intro q x0 _ h
  unfold idealQl at *
  by_cases hw : ∃ r : (Nat → ℝ) × (Nat → ℝ), q.Optimal r.1 r.2
  · rw [dif_pos hw]
    exact hw.choose_spec
  · rw [dif_neg hw] at h
    cases h

/-- One contact that approaches at unit speed -/
example : ∃ ql : QlSolver, ql.Solves ∧ (ql (lcpQlCall 1 (fun _ _ => 1) fun _ => -1) fun _ => 0).2.2 = 0 := by
  refine ⟨idealQl, idealQl_solves, ?_⟩
  unfold idealQl
  suffices h : (lcpQlCall 1 (fun _ _ => (1 : ℝ)) fun _ => -1).Optimal (fun _ => 1) fun _ => 0 by rw [dif_pos ⟨(fun _ => 1, fun _ => 0), h⟩]
  have e : (lcpQlCall 1 (fun _ _ => (1 : ℝ)) fun _ => -1) = ⟨0, 0, 0, 1, 1, 2, [1], [-1], none, none, [0], [none], 13, 1⟩ := by
    simp [lcpQlCall, byColumns]
  rw [e]
  constructor <;> simp [colEntry]

/-- One contact in the plane that slips at speed 2: the bound of the impulse is reached. -/
example : ∃ ql : QlSolver, ql.Solves ∧ (ql (boundMdpQlCall 1 (fun _ _ => 1) (fun _ => -2) (fun _ => 1) fun _ => 1) fun _ => 0).2.2 = 0 := by
  refine ⟨idealQl, idealQl_solves, ?_⟩
  unfold idealQl
  suffices h : (boundMdpQlCall 1 (fun _ _ => (1 : ℝ)) (fun _ => -2) (fun _ => 1) fun _ => 1).Optimal (fun _ => 1) fun i => if i = 1 then 1 else 0 by
    rw [dif_pos ⟨(fun _ => 1, fun i => if i = 1 then 1 else 0), h⟩]
  have e : (boundMdpQlCall 1 (fun _ _ => (1 : ℝ)) (fun _ => -2) (fun _ => 1) fun _ => 1) = ⟨0, 0, 0, 1, 1, 2, [1], [-2], none, none, [-1], [some 1], 13, 1⟩ := by
    simp [boundMdpQlCall, byColumns]
  rw [e]
  constructor
  · simp
  · simp
  · simp
  · intro i _
    split <;> norm_num
  · intro j hj
    simp at hj
    subst hj
    norm_num [colEntry]
  · simp
  · simp
  · intro j hj
    simp at hj
    subst hj
    right
    rfl

/-! ## Where the promises fail -/

/-- C75 fails for the friction operator if Ipopt cannot be set up: the status starts as success, and the initial guess is returned as if it solved the
problem. The impact operator ends the program then. -/
theorem C75_friction_without_solver (ipopt : Ipopt) (hno : ∀ k s P, ipopt k s P = none) (names solvers : List String) (hs : ipoptOperator names = .ok solvers)
    (Q : Csc ℝ) (hQ : Q.Valid) (hc : Q.cols = 2 * c) (A b mu alpha beta : Nat → ℝ) :
    (∃ l, smoothMdpFlow ipopt solvers c Q A mu alpha beta = .ok (beta, l)) ∧ lcpIpoptFlow ipopt solvers (2 * c) Q b beta = .exit := by
  constructor
  · obtain ⟨rfl, hne, _, _⟩ := (C75_linear_solvers names solvers).mp hs
    cases solvers with
    | nil => exact absurd rfl hne
    | cons s rest =>
      refine ⟨List.ofFn fun i : Fin c => √(pairSq (pairOf (Q.toMatrix (2 * c) *ᵥ vec (2 * c) beta + vec (2 * c) A) i)), ?_⟩
      unfold smoothMdpFlow ipoptLoop
      rw [hno]
      change (frictionMultipliers c Q A beta).bind _ = _
      rw [frictionMultipliers_eq Q hQ hc]
      rfl
  · rw [(C75_impact_result ipopt names solvers hs (2 * c) Q b beta).2]
    rintro i st x ⟨⟨s, _, h⟩, _⟩
    rw [hno] at h
    cases h

/-- In that case nothing like friction is returned: the contact slips, but the impulse is not at its bound. -/
example : ∃ l, smoothMdpFlow (fun _ _ _ => none) ["ma97"] 1 identity2 (fun i => if i = 0 then -2 else 0) (fun _ => 1) (fun _ => 1) (fun _ => 0) = .ok (fun _ => 0, l) ∧
    ¬ MaximallyDissipative 1 (l.getD 0 0) (pairOf (vec (2 * 1) fun _ => 0) 0)
      (pairOf (identity2.toMatrix (2 * 1) *ᵥ vec (2 * 1) (fun _ => 0) + vec (2 * 1) fun i => if i = 0 then -2 else 0) 0) := by
  obtain ⟨l, hl⟩ := (C75_friction_without_solver (c := 1) (fun _ _ _ => none) (fun _ _ _ => rfl) ["ma97"] ["ma97"] (by decide +kernel) identity2 identity2_valid rfl
    (fun i => if i = 0 then -2 else 0) (fun _ => 0) (fun _ => 1) (fun _ => 1) (fun _ => 0)).1
  refine ⟨l, hl, fun hm => ?_⟩
  have e : identity2.toMatrix (2 * 1) = 1 := identity2_matrix
  rw [e, one_mulVec] at hm
  rcases hm.full with h0 | h0
  · have := hm.speed
    rw [h0] at this
    simp [pairSq, pairOf, vec] at this
  · simp [pairSq, pairOf, vec] at h0

/-- C75 fails for the friction operator with the caller's own test if all linear solvers fail: the message says that the program ends, but it goes on with the last
point, here far outside of the disc. -/
theorem C75_friction_all_failed : ∃ (ipopt : Ipopt) (x : Nat → ℝ) (l : List ℝ) (a : Option ℝ), (∀ k s P st y, ipopt k s P = some (st, y) → st = .localInfeasibility) ∧
    smoothMdpSolveQP ipopt ["ma97"] 1 (fun _ _ => 0) identity2 (fun _ => 0) (fun _ => 1) (fun _ => 0) = .ok (x, l, a) ∧ ¬ pairSq (pairOf (vec (2 * 1) x) 0) ≤ 1 ^ 2 := by
  refine ⟨fun _ _ _ => some (.localInfeasibility, fun _ => 100), fun _ => 100,
    List.ofFn fun i : Fin 1 => √(pairSq (pairOf (identity2.toMatrix (2 * 1) *ᵥ vec (2 * 1) (fun _ => 100) + vec (2 * 1) fun _ => 0) i)), some 0, ?_, ?_, ?_⟩
  · intro k s P st y h
    injection h with h
    injection h with h _
    exact h.symm
  · unfold smoothMdpSolveQP ipoptLoop
    unfold finalizeSolution
    dsimp only
    rw [gradient_eq (n := 2 * 1) identity2 identity2_valid rfl]
    simp only [Outcome.bind, solveQPAccepts, Bool.false_eq_true, and_false, if_false, ipoptLoop]
    simp only [reduceCtorEq, ne_eq, not_false_eq_true, and_self, not_true_eq_false, decide_false, Bool.false_eq_true, if_false]
    rw [frictionMultipliers_eq (c := 1) identity2 identity2_valid rfl]
  · norm_num [pairSq, pairOf, vec]

/-- C75 fails for the friction operator if an entry on the diagonal is not stored, as zeros need not be: the curvature of the constraint is added to the
wrong entry (here `1 + 2 * 1` is right for the entry at the top left) ... -/
theorem C75_friction_hessian_misplaced : let Q : Csc ℚ := ⟨2, 2, [0, 1, 1], [0], [1]⟩
    let P := smoothMdpNlp 2 Q (fun _ => 0) (fun _ => 1) fun _ => 0
    P.info = .ok ⟨2, 1, 2, 1⟩ ∧ P.hessPattern [7] [7] = .ok ([0], [0]) ∧ P.hessValues (fun _ => 0) 1 (fun _ => 1) [7] = .ok [1 + 4 * 1] := by
  decide +kernel

/-- ... or written outside of the array, if the matrix has no entries at all. -/
theorem C75_friction_hessian_overrun : let Q : Csc ℚ := ⟨2, 2, [0, 0, 0], [], []⟩
    let P := smoothMdpNlp 2 Q (fun _ => 0) (fun _ => 1) fun _ => 0
    P.info = .ok ⟨2, 1, 2, 0⟩ ∧ P.hessValues (fun _ => 0) 1 (fun _ => 1) [] = .ub := by
  decide +kernel

/-- C75 fails for the friction operator at contacts that can carry an impulse of `10 ^ 10`: Ipopt takes the square of it for no bound at all. -/
theorem C75_friction_bound_ignored : ¬ ∀ x : Fin (2 * 1) → ℝ,
    (smoothMdpNlp (2 * 1) identity2 (fun _ => 0) (fun _ => 10 ^ 10 * 10 ^ 10) fun _ => 0).bounds.Allows (fun (i : Fin 1) x => pairSq (pairOf x i)) x →
      pairSq (pairOf x 0) ≤ (10 ^ 10) ^ 2 := by
  intro h
  have := h (fun _ => 10 ^ 11) ⟨fun i => ⟨fun hh => ?_, fun hh => ?_⟩, fun i => ⟨fun hh => ?_, fun hh => ?_⟩⟩
  · norm_num [pairSq, pairOf] at this
  · exfalso
    change -10 ^ 19 < (List.replicate (2 * 1) (-(2 * 10 ^ 19) : ℝ)).getD i 0 at hh
    rw [getD_replicate _ i.2] at hh
    norm_num at hh
  · exfalso
    change (List.replicate (2 * 1) (2 * 10 ^ 19 : ℝ)).getD i 0 < 10 ^ 19 at hh
    rw [getD_replicate _ i.2] at hh
    norm_num at hh
  · exfalso
    change -10 ^ 19 < (List.replicate (2 * 1 / 2) (-(2 * 10 ^ 19) : ℝ)).getD i 0 at hh
    rw [getD_replicate _ (by omega)] at hh
    norm_num at hh
  · exfalso
    change ((List.range (2 * 1 / 2)).map fun _ => (10 ^ 10 * 10 ^ 10 : ℝ)).getD i 0 < 10 ^ 19 at hh
    rw [getD_mapRange _ (by omega)] at hh
    norm_num at hh

end Scisim
