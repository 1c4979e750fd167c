import Mathlib.Tactic.Linarith
import Mathlib.Tactic.NormNum
import Mathlib.Tactic.Ring
import Mathlib.LinearAlgebra.Matrix.Notation
import Verif.Spec.Staggered
import Verif.Lemmas.Solvers
/-!
# C38: staggered projections
-/

namespace Scisim

open Matrix

theorem XR.le_of_lt_of_le {x y z : XR} (h : x < y) (h' : y ≤ z) : x ≤ z := by
  cases x <;> cases y <;> cases z <;> first | exact h.le.trans h' | exact le_of_lt (lt_of_lt_of_le (α := ℝ) h h') | exact trivial | exact h | exact h' | exact h.elim | exact h'.elim

theorem XR.le_pinf_of_lt {x : XR} (h : x < .pinf) : x ≤ .pinf := by
  cases x <;> first | exact trivial | exact h

theorem XR.le_pinf_of_le {x y : XR} (h : x ≤ y) : x ≤ .pinf := by
  cases x <;> first | exact trivial | (cases y <;> exact h)

variable {ι : Type} [Fintype ι] {c b : Nat}

theorem visit_unique {p : SPProblem ι c b} {s : SPState ι c b} {k : Nat} {t u : SPState ι c b} (ht : Visit p s k t) (hu : Visit p s k u) : t = u := by
  induction ht generalizing u with
  | start => cases hu; rfl
  | step _ hi hf ih =>
    cases hu with
    | step hb hi' hf' =>
      have := ih hb
      subst this
      rw [hi] at hi'
      cases hi'
      rw [hf] at hf'
      cases hf'
      rfl

theorem visit_of_iterate {p : SPProblem ι c b} {s t u : SPState ι c b} {k : Nat} (ht : Visit p s k t) (h : spIterate p k t = .ok u) :
    Visit p s (k + 1) u := by
  unfold spIterate spImpact spFriction at h
  obtain ⟨alpha, ha, h⟩ := Outcome.bind_ok_iff.mp h
  obtain ⟨beta, hb, h⟩ := Outcome.bind_ok_iff.mp h
  cases h
  exact .step ht ha hb

/-- the invariant of the loop for the best iterate after `k` iterations -/
def BestUpTo (p : SPProblem ι c b) (s0 : SPState ι c b) (k : Nat) (best : SPBest c b) : Prop :=
  (best = ⟨.pinf, s0.alpha, s0.beta⟩ ∨
    ∃ j t, 1 ≤ j ∧ j ≤ k ∧ Visit p s0 j t ∧ best = ⟨t.err p, t.alpha, t.beta⟩ ∧ t.err p < .pinf) ∧
  ∀ i t, 1 ≤ i → i ≤ k → Visit p s0 i t → ¬ t.err p < best.error

theorem spLoop_spec (p : SPProblem ι c b) (tol : XR) (s0 : SPState ι c b) :
    ∀ (remaining itr : Nat) (s : SPState ι c b) (best : SPBest c b) (r : SPState ι c b × SPBest c b × Bool × Nat),
      Visit p s0 itr s → BestUpTo p s0 itr best → (∀ k t, 1 ≤ k → k ≤ itr → Visit p s0 k t → ¬ t.err p ≤ tol) →
      spLoop p tol remaining itr s best = .ok r →
      Visit p s0 r.2.2.2 r.1 ∧ BestUpTo p s0 r.2.2.2 r.2.1 ∧ r.2.2.2 ≤ itr + remaining ∧
        (∀ k t, 1 ≤ k → k < r.2.2.2 → Visit p s0 k t → ¬ t.err p ≤ tol) ∧
        (r.2.2.1 = true → 1 ≤ r.2.2.2 ∧ r.1.err p ≤ tol) ∧
        (r.2.2.1 = false → r.2.2.2 = itr + remaining ∧ (1 ≤ r.2.2.2 → ¬ r.1.err p ≤ tol ∨ r.2.2.2 = itr)) := by
  intro remaining
  induction remaining with
  | zero =>
    intro itr s best r hv hbest hno h
    unfold spLoop at h
    cases h
    exact ⟨hv, hbest, by simp, fun k t h1 h2 => hno k t h1 h2.le, by simp, fun _ => ⟨by simp, fun _ => Or.inr rfl⟩⟩
  | succ m ih =>
    intro itr s best r hv hbest hno h
    unfold spLoop at h
    obtain ⟨s', hs', h⟩ := Outcome.bind_ok_iff.mp h
    have hv' := visit_of_iterate hv hs'
    have hbest' : BestUpTo p s0 (itr + 1) (open Classical in if p.errorOf s'.alpha s'.beta < best.error then ⟨p.errorOf s'.alpha s'.beta, s'.alpha, s'.beta⟩ else best) := by
      by_cases hc : p.errorOf s'.alpha s'.beta < best.error
      · rw [if_pos hc]
        refine ⟨Or.inr ⟨itr + 1, s', by omega, le_rfl, hv', rfl, ?_⟩, ?_⟩
        · rcases hbest.1 with hb | ⟨j, t, _, _, _, hb, hlt⟩
          · rw [hb] at hc; exact hc
          · rw [hb] at hc; exact XR.lt_trans hc hlt
        · intro i t h1 h2 ht hlt
          rcases Nat.lt_or_ge i (itr + 1) with hi | hi
          · exact hbest.2 i t h1 (by omega) ht (XR.lt_trans hlt hc)
          · have : i = itr + 1 := by omega
            subst this
            rw [visit_unique ht hv'] at hlt
            exact XR.lt_irrefl _ hlt
      · rw [if_neg hc]
        refine ⟨?_, ?_⟩
        · rcases hbest.1 with hb | ⟨j, t, h1, h2, hrest⟩
          · exact Or.inl hb
          · exact Or.inr ⟨j, t, h1, by omega, hrest⟩
        · intro i t h1 h2 ht hlt
          rcases Nat.lt_or_ge i (itr + 1) with hi | hi
          · exact hbest.2 i t h1 (by omega) ht hlt
          · have : i = itr + 1 := by omega
            subst this
            rw [visit_unique ht hv'] at hlt
            exact hc hlt
    by_cases htol : p.errorOf s'.alpha s'.beta ≤ tol
    · simp only [if_pos htol] at h
      cases h
      refine ⟨hv', hbest', by dsimp only; omega, fun k t h1 h2 => hno k t h1 (by dsimp only at h2; omega), fun _ => ⟨by dsimp only; omega, htol⟩, by simp⟩
    · simp only [if_neg htol] at h
      have hno' : ∀ k t, 1 ≤ k → k ≤ itr + 1 → Visit p s0 k t → ¬ t.err p ≤ tol := by
        intro k t h1 h2 ht
        rcases Nat.lt_or_ge k (itr + 1) with hi | hi
        · exact hno k t h1 (by omega) ht
        · have : k = itr + 1 := by omega
          subst this
          rw [visit_unique ht hv']
          exact htol
      obtain ⟨q1, q2, q3, q4, q5, q6⟩ := ih (itr + 1) s' _ r hv' hbest' hno' h
      refine ⟨q1, q2, by omega, q4, q5, fun hf => ?_⟩
      obtain ⟨e1, e2⟩ := q6 hf
      refine ⟨by omega, fun h1 => ?_⟩
      rcases e2 h1 with e | e
      · exact Or.inl e
      · refine Or.inl ?_
        rw [e] at q1
        exact hno' _ _ (by omega) le_rfl q1

/-- **C38.** Whatever the impact operator, the friction operator and the error measure do, if the solver returns then
* it has made at most the permitted number of iterations, and fewer only if the last iterate is within tolerance; no earlier iterate is;
* the friction impulses are those of a visited iterate, and no visited iterate has a smaller error. Only if no iterate at all has an error below
  infinity are they those it was started with;
* the normal impulses are the answer of the impact operator under exactly this friction;
* the velocity is the initial velocity with exactly the returned impulses applied, and the returned friction force is that of the returned impulses;
* the error is that of the returned impulses, and success is reported exactly if it is within tolerance. -/
theorem C38_staggered (p : SPProblem ι c b) (maxIters : Nat) (tol : XR) (f0 : ι → ℝ) (alpha0 : Fin c → ℝ) (beta0 : Fin b → ℝ)
    (r : SPResult ι c b) (h : spSolve p [] [] maxIters tol f0 alpha0 beta0 = .ok r) :
    (r.iterations ≤ maxIters ∧
      (∀ k t, 1 ≤ k → k < r.iterations → Visit p ⟨f0, alpha0, beta0⟩ k t → ¬ t.err p ≤ tol) ∧
      ∃ last, Visit p ⟨f0, alpha0, beta0⟩ r.iterations last ∧ (r.iterations < maxIters → last.err p ≤ tol)) ∧
    (∃ j t, j ≤ r.iterations ∧ Visit p ⟨f0, alpha0, beta0⟩ j t ∧ r.beta = t.beta ∧
      p.impact r.iterations (p.v0 + p.Minv *ᵥ r.f) (if p.warmAlpha then t.alpha else 0) = .ok r.alpha ∧
      ((1 ≤ j ∧ t.err p ≤ .pinf ∧ ∀ k u, 1 ≤ k → k ≤ r.iterations → Visit p ⟨f0, alpha0, beta0⟩ k u → ¬ u.err p < t.err p) ∨
       (j = 0 ∧ ∀ k u, 1 ≤ k → k ≤ r.iterations → Visit p ⟨f0, alpha0, beta0⟩ k u → ¬ u.err p < .pinf))) ∧
    r.f = p.D *ᵥ r.beta ∧
    r.vout = p.v0 + p.Minv *ᵥ (p.N *ᵥ r.alpha + p.D *ᵥ r.beta) ∧
    r.error = p.errorOf r.alpha r.beta ∧
    (r.succeeded ↔ r.error ≤ tol) := by
  unfold spSolve at h
  simp only [ne_eq, not_true_eq_false, if_false] at h
  obtain ⟨l, hl, h⟩ := Outcome.bind_ok_iff.mp h
  obtain ⟨alpha, ha, h⟩ := Outcome.bind_ok_iff.mp h
  cases h
  obtain ⟨q1, q2, q3, q4, q5, q6⟩ := spLoop_spec p tol ⟨f0, alpha0, beta0⟩ maxIters 0 _ _ l .start
    ⟨Or.inl rfl, fun i t h1 h2 => by omega⟩ (fun k t h1 h2 => by omega) hl
  have hpos : 0 < l.2.2.2 → ∃ t beta, l.1 = (⟨p.D *ᵥ beta, t, beta⟩ : SPState ι c b) := by
    intro hp
    generalize l.2.2.2 = k at q1 hp
    generalize l.1 = t at q1
    cases q1 with
    | start => omega
    | step _ _ _ => exact ⟨_, _, rfl⟩
  have hf : (if l.2.2.1 = true then l.1 else ⟨p.D *ᵥ l.2.1.beta, l.2.1.alpha, l.2.1.beta⟩ : SPState ι c b).f =
      p.D *ᵥ (if l.2.2.1 = true then l.1 else ⟨p.D *ᵥ l.2.1.beta, l.2.1.alpha, l.2.1.beta⟩ : SPState ι c b).beta := by
    by_cases hs : l.2.2.1 = true
    · rw [if_pos hs]
      obtain ⟨t, beta, e⟩ := hpos (q5 hs).1
      rw [e]
    · rw [if_neg hs]
  refine ⟨⟨by dsimp only; omega, q4, l.1, q1, ?_⟩, ?_, hf, ?_, rfl, Iff.rfl⟩
  · intro hlt
    dsimp only at hlt
    cases hs : l.2.2.1 with
    | true => exact (q5 hs).2
    | false => have := (q6 hs).1; omega
  · dsimp only
    by_cases hs : l.2.2.1 = true
    · simp only [if_pos hs] at ha ⊢
      refine ⟨l.2.2.2, l.1, le_rfl, q1, rfl, ha, Or.inl ⟨(q5 hs).1, XR.le_pinf_of_le (q5 hs).2, ?_⟩⟩
      intro k u h1 h2 hu hlt
      rcases Nat.lt_or_ge k l.2.2.2 with hk | hk
      · exact q4 k u h1 hk hu (XR.le_of_lt_of_le hlt (q5 hs).2)
      · have : k = l.2.2.2 := by omega
        subst this
        rw [visit_unique hu q1] at hlt
        exact XR.lt_irrefl _ hlt
    · simp only [if_neg hs] at ha ⊢
      rcases q2.1 with hb | ⟨j, t, h1, h2, ht, hb, hlt⟩
      · rw [hb] at ha ⊢
        refine ⟨0, _, Nat.zero_le _, .start, rfl, ha, Or.inr ⟨rfl, ?_⟩⟩
        have := q2.2
        rw [hb] at this
        exact this
      · rw [hb] at ha ⊢
        refine ⟨j, t, h2, ht, rfl, ha, Or.inl ⟨h1, XR.le_pinf_of_lt hlt, ?_⟩⟩
        have := q2.2
        rw [hb] at this
        exact this
  · dsimp only
    rw [hf]

theorem spLoop_total (p : SPProblem ι c b) (hi : ∀ k v a, ∃ a', p.impact k v a = .ok a') (hf : ∀ k v a x, ∃ x', p.friction k v a x = .ok x') (tol : XR) :
    ∀ (remaining itr : Nat) (s : SPState ι c b) (best : SPBest c b), ∃ r, spLoop p tol remaining itr s best = .ok r := by
  intro remaining
  induction remaining with
  | zero => intro itr s best; exact ⟨_, rfl⟩
  | succ m ih =>
    intro itr s best
    unfold spLoop spIterate spImpact spFriction
    obtain ⟨alpha, ha⟩ := hi itr (p.v0 + p.Minv *ᵥ s.f) (if p.warmAlpha then s.alpha else 0)
    obtain ⟨beta, hb⟩ := hf itr (p.v0 + p.Minv *ᵥ (p.N *ᵥ alpha)) alpha (if p.warmBeta then s.beta else 0)
    rw [ha]
    simp only [Outcome.bind]
    rw [hb]
    simp only [Outcome.bind]
    by_cases htol : p.errorOf alpha beta ≤ tol
    · simp only [if_pos htol]
      exact ⟨_, rfl⟩
    · simp only [if_neg htol]
      exact ih _ _ _

/-- **C38, the solver returns.** If the operators return, so does the solver, for every iteration limit (zero included) and every tolerance. -/
theorem C38_returns (p : SPProblem ι c b) (hi : ∀ k v a, ∃ a', p.impact k v a = .ok a') (hf : ∀ k v a x, ∃ x', p.friction k v a x = .ok x')
    (maxIters : Nat) (tol : XR) (f0 : ι → ℝ) (alpha0 : Fin c → ℝ) (beta0 : Fin b → ℝ) :
    ∃ r, spSolve p [] [] maxIters tol f0 alpha0 beta0 = .ok r := by
  obtain ⟨l, hl⟩ := spLoop_total p hi hf tol maxIters 0 ⟨f0, alpha0, beta0⟩ ⟨.pinf, alpha0, beta0⟩
  unfold spSolve
  simp only [ne_eq, not_true_eq_false, if_false]
  rw [hl]
  simp only [Outcome.bind]
  unfold spImpact
  obtain ⟨alpha, ha⟩ := hi l.2.2.2 (p.v0 + p.Minv *ᵥ (if l.2.2.1 = true then l.1 else ⟨p.D *ᵥ l.2.1.beta, l.2.1.alpha, l.2.1.beta⟩ : SPState ι c b).f)
    (if p.warmAlpha then (if l.2.2.1 = true then l.1 else ⟨p.D *ᵥ l.2.1.beta, l.2.1.alpha, l.2.1.beta⟩ : SPState ι c b).alpha else 0)
  rw [ha]
  exact ⟨_, rfl⟩

/-- **C38, no penetration.** If the impact operator leaves every contact with a relative normal velocity of at least `lower i` when it is asked, then the
velocity handed back has it as well, success or not: the last thing the solver does is an impact solve under the returned friction. -/
theorem C38_nonpenetrating (p : SPProblem ι c b) (lower : Fin c → ℝ)
    (hi : ∀ k v a a', p.impact k v a = .ok a' → ∀ i, lower i ≤ (p.Nᵀ *ᵥ (v + p.Minv *ᵥ (p.N *ᵥ a'))) i)
    (maxIters : Nat) (tol : XR) (f0 : ι → ℝ) (alpha0 : Fin c → ℝ) (beta0 : Fin b → ℝ)
    (r : SPResult ι c b) (h : spSolve p [] [] maxIters tol f0 alpha0 beta0 = .ok r) (i : Fin c) :
    lower i ≤ (p.Nᵀ *ᵥ r.vout) i := by
  obtain ⟨-, ⟨j, t, -, -, -, ha, -⟩, hf, hv, -, -⟩ := C38_staggered p maxIters tol f0 alpha0 beta0 r h
  have := hi _ _ _ _ ha i
  rw [hv, ← hf]
  have e : p.v0 + p.Minv *ᵥ (p.N *ᵥ r.alpha + r.f) = p.v0 + p.Minv *ᵥ r.f + p.Minv *ᵥ (p.N *ᵥ r.alpha) := by
    rw [Matrix.mulVec_add, add_comm (p.Minv *ᵥ (p.N *ᵥ r.alpha)), add_assoc]
  rw [e]
  exact this

/-- Extra kinematic terms, which the stabilised map hands over, end the program. -/
theorem C38_extra_terms (p : SPProblem ι c b) (nrelExtra drelExtra : List ℝ) (h : nrelExtra ≠ [] ∨ drelExtra ≠ []) (maxIters : Nat) (tol : XR)
    (f0 : ι → ℝ) (alpha0 : Fin c → ℝ) (beta0 : Fin b → ℝ) : spSolve p nrelExtra drelExtra maxIters tol f0 alpha0 beta0 = .exit := by
  unfold spSolve
  by_cases h1 : nrelExtra ≠ []
  · rw [if_pos h1]
  · rw [if_neg h1, if_pos (h.resolve_left h1)]

/-- **C38, the one-pass solver.** Its velocity is consistent with its impulses, but it reports success and error zero without computing an error, and
it hands back the friction force it was given, not that of its impulses. -/
theorem C38_one_pass (p : SPProblem ι c b) (f0 : ι → ℝ) (r : SPResult ι c b) (h : grrFrictionSolve p [] [] f0 = .ok r) :
    p.impact 0 p.v0 0 = .ok r.alpha ∧ p.friction 0 (p.v0 + p.Minv *ᵥ (p.N *ᵥ r.alpha)) r.alpha 0 = .ok r.beta ∧
    r.vout = p.v0 + p.Minv *ᵥ (p.N *ᵥ r.alpha + p.D *ᵥ r.beta) ∧ r.succeeded ∧ r.error = 0 ∧ r.f = f0 := by
  unfold grrFrictionSolve at h
  simp only [ne_eq, not_true_eq_false, if_false] at h
  obtain ⟨alpha, ha, h⟩ := Outcome.bind_ok_iff.mp h
  obtain ⟨beta, hb, h⟩ := Outcome.bind_ok_iff.mp h
  cases h
  exact ⟨ha, hb, rfl, trivial, rfl, rfl⟩

/-- **C38, the forces the error is computed from.** The force of contact `i` is its normal impulse along the first vector of its frame plus each of its
friction impulses along the corresponding tangent. -/
theorem C38_contact_force {d : Nat} (k : Nat) (bases : Nat → Fin d → ℝ) (alpha beta : Nat → ℝ) (i : Nat) :
    perContactForce k bases alpha beta i =
      alpha i • bases ((k + 1) * i) + ∑ s ∈ Finset.range k, beta (k * i + s) • bases ((k + 1) * i + (s + 1)) := by
  unfold perContactForce
  generalize alpha i • bases ((k + 1) * i) = a
  have : ∀ m, (List.range m).foldl (fun acc s => acc + beta (k * i + s) • bases ((k + 1) * i + (s + 1))) a =
      a + ∑ s ∈ Finset.range m, beta (k * i + s) • bases ((k + 1) * i + (s + 1)) := by
    intro m
    induction m with
    | zero => simp
    | succ m ih => rw [List.range_succ, List.foldl_append, ih, Finset.sum_range_succ, ← add_assoc]; rfl
  exact this k

/-- A sliding, falling body on the ground: one normal and one tangential degree of freedom, friction coefficient one half. The operators answer exactly.
The solver returns; by `C38_nonpenetrating` the body does not sink. -/
noncomputable example : ∃ (p : SPProblem (Fin 2) 1 1) (r : SPResult (Fin 2) 1 1),
    spSolve p [] [] 3 (.fin 0) 0 0 0 = .ok r ∧ 0 ≤ (p.Nᵀ *ᵥ r.vout) 0 ∧ r.beta = ![-1 / 2] ∧ r.succeeded := by
  let p : SPProblem (Fin 2) 1 1 :=
    { Minv := 1, N := !![1; 0], D := !![0; 1], v0 := ![-1, 2]
      impact := fun _ v _ => .ok ![max 0 (-(v 0))]
      friction := fun _ v a _ => .ok ![max (-(a 0 / 2)) (min (a 0 / 2) (-(v 1)))]
      errorOf := fun a x => .fin (|a 0 - 1| + |x 0 + 1 / 2|)
      warmAlpha := false, warmBeta := false }
  have hn : ∀ k v a a', p.impact k v a = .ok a' → ∀ i, (0 : ℝ) ≤ (p.Nᵀ *ᵥ (v + p.Minv *ᵥ (p.N *ᵥ a'))) i := by
    intro k v a a' h i
    cases h
    have hi : i = 0 := Subsingleton.elim _ _
    subst hi
    simp only [p, Matrix.one_mulVec, Matrix.mulVec, dotProduct, Fin.sum_univ_two, Matrix.transpose_apply]
    norm_num [Matrix.mulVec, dotProduct]
    rcases le_total 0 (-(v 0)) with hv | hv
    · rw [max_eq_right hv]; linarith
    · rw [max_eq_left hv]; linarith
  obtain ⟨r, hr⟩ := C38_returns p (fun _ _ _ => ⟨_, rfl⟩) (fun _ _ _ _ => ⟨_, rfl⟩) 3 (.fin 0) 0 0 0
  have first : Visit p ⟨0, 0, 0⟩ 1 ⟨p.D *ᵥ ![-1 / 2], ![1], ![-1 / 2]⟩ := by
    refine .step .start ?_ ?_
    · simp [p]
    · norm_num [p, Matrix.mulVec, dotProduct, Fin.sum_univ_two]
  obtain ⟨⟨h1, h2, last, h3, h4⟩, ⟨j, t, hj, ht, hb, ha, hbest⟩, hf, -, he, hs⟩ := C38_staggered p 3 (.fin 0) 0 0 0 r hr
  have e1 : SPState.err p ⟨p.D *ᵥ ![-1 / 2], ![1], ![-1 / 2]⟩ = .fin 0 := by norm_num [SPState.err, p]
  have hit : r.iterations = 1 := by
    rcases Nat.lt_trichotomy r.iterations 1 with h | h | h
    · have h0 : r.iterations = 0 := by omega
      rw [h0] at h3
      cases h3
      have := h4 (by omega)
      simp only [SPState.err, p] at this
      norm_num at this
    · exact h
    · exact absurd (by rw [e1]; exact (XR.fin_le 0 0).mpr le_rfl) (h2 1 _ le_rfl h first)
  have hj1 : j = 1 := by
    rcases hbest with ⟨h, -⟩ | ⟨-, h⟩
    · omega
    · exact absurd (by rw [e1]; exact trivial) (h 1 _ le_rfl (by omega) first)
  subst hj1
  have := visit_unique ht first
  subst this
  refine ⟨p, r, hr, C38_nonpenetrating p (fun _ => 0) hn 3 (.fin 0) 0 0 0 r hr 0, hb, ?_⟩
  rw [hs, he]
  have hal : r.alpha = ![1] := by
    rw [hf, hb] at ha
    have := Outcome.ok.inj ha
    rw [← this]
    norm_num [p, Matrix.mulVec, dotProduct, Fin.sum_univ_two]
  rw [hal, hb]
  norm_num [p]

end Scisim
