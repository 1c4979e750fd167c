import Verif.Lemmas.ExternalSolvers
import Verif.Props.Frames
/-!
# The answers of Ipopt and QL: helper lemmas
-/

namespace Scisim

open Matrix

/-! ## The loop over the linear solvers -/

section Loop

variable (ipopt : Ipopt) (P : (Nat → ℝ) → Nlp ℝ) (term : Option ((Nat → ℝ) → Outcome ℝ)) (accept : SolverReturn → Bool) (exits : Bool) (last : String)
  (x0 : Nat → ℝ)

/-- Like `FirstAnswer`, with the calls counted from `call` -/
def firstFrom (call : Nat) (solvers : List String) (i : Nat) (st : SolverReturn) (x : Nat → ℝ) : Prop :=
  (∃ s, solvers[i]? = some s ∧ ipopt (call + i) s (P x0) = some (st, x)) ∧ accept st = true ∧
    ∀ (j : Nat) (s : String) (st' : SolverReturn) (x' : Nat → ℝ), j < i → solvers[j]? = some s → ipopt (call + j) s (P x0) = some (st', x') → ¬ accept st' = true

theorem firstFrom_succ {call : Nat} {solver : String} {rest : List String} {i : Nat} {st : SolverReturn} {x : Nat → ℝ}
    (h : firstFrom ipopt P accept x0 call (solver :: rest) (i + 1) st x) : firstFrom ipopt P accept x0 (call + 1) rest i st x := by
  obtain ⟨⟨s, h1, h2⟩, h3, h4⟩ := h
  refine ⟨⟨s, by simpa using h1, by rw [show call + 1 + i = call + (i + 1) by omega]; exact h2⟩, h3, fun j s' st' x' hj hs hi => ?_⟩
  exact h4 (j + 1) s' st' x' (by omega) (by simpa using hs) (by rw [show call + (j + 1) = call + 1 + j by omega]; exact hi)

theorem firstFrom_cons {call : Nat} {solver : String} {rest : List String} {i : Nat} {st : SolverReturn} {x : Nat → ℝ}
    (h : firstFrom ipopt P accept x0 (call + 1) rest i st x)
    (h0 : ∀ st' x', ipopt call solver (P x0) = some (st', x') → ¬ accept st' = true) : firstFrom ipopt P accept x0 call (solver :: rest) (i + 1) st x := by
  obtain ⟨⟨s, h1, h2⟩, h3, h4⟩ := h
  refine ⟨⟨s, by simpa using h1, by rw [show call + (i + 1) = call + 1 + i by omega]; exact h2⟩, h3, fun j s' st' x' hj hs hi => ?_⟩
  cases j with
  | zero =>
    rw [List.getElem?_cons_zero, Option.some_inj] at hs
    subst hs
    exact h0 st' x' hi
  | succ j => exact h4 j s' st' x' (by omega) (by simpa using hs) (by rw [show call + 1 + j = call + (j + 1) by omega]; exact hi)

/-- What the loop does, given what `finalize_solution` makes of an answer -/
theorem ipoptLoop_spec (fin : (Nat → ℝ) → Option ℝ → Option ℝ)
    (hfin : ∀ s st x, finalizeSolution term s (some (st, x)) = .ok ⟨st, x, fin x s.achieved⟩) : ∀ (solvers : List String) (call : Nat) (s : NlpState),
    accept s.status = false → solvers.Nodup → (∀ l, solvers.getLast? = some l → l = last) →
    (∃ i st x a, firstFrom ipopt P accept x0 call solvers i st x ∧ ipoptLoop ipopt P term accept exits last x0 call solvers s = .ok ⟨st, x, fin x a⟩) ∨
      ((∀ i st x, ¬ firstFrom ipopt P accept x0 call solvers i st x) ∧
        ((exits = true ∧ solvers ≠ [] ∧ ipoptLoop ipopt P term accept exits last x0 call solvers s = .exit) ∨
          ((exits = false ∨ solvers = []) ∧ ∃ s', ipoptLoop ipopt P term accept exits last x0 call solvers s = .ok s'))) := by
  intro solvers
  induction solvers with
  | nil =>
    intro call s _ _ _
    refine Or.inr ⟨?_, Or.inr ⟨Or.inr rfl, s, rfl⟩⟩
    rintro i st x ⟨⟨s, h, _⟩, _⟩
    simp at h
  | cons solver rest ih =>
    intro call s hs hnd hlast
    have hstep : ∀ s1 : NlpState, accept s1.status = false → finalizeSolution term { s with x := x0 } (ipopt call solver (P x0)) = .ok s1 →
        (∀ st' x', ipopt call solver (P x0) = some (st', x') → ¬ accept st' = true) →
        (∃ i st x a, firstFrom ipopt P accept x0 call (solver :: rest) i st x ∧
          ipoptLoop ipopt P term accept exits last x0 call (solver :: rest) s = .ok ⟨st, x, fin x a⟩) ∨
        ((∀ i st x, ¬ firstFrom ipopt P accept x0 call (solver :: rest) i st x) ∧
          ((exits = true ∧ solver :: rest ≠ [] ∧ ipoptLoop ipopt P term accept exits last x0 call (solver :: rest) s = .exit) ∨
            ((exits = false ∨ solver :: rest = []) ∧ ∃ s', ipoptLoop ipopt P term accept exits last x0 call (solver :: rest) s = .ok s'))) := by
      intro s1 h1 h2 h0
      have e : ipoptLoop ipopt P term accept exits last x0 call (solver :: rest) s =
          if solver = last ∧ exits then .exit else ipoptLoop ipopt P term accept exits last x0 (call + 1) rest s1 := by
        conv_lhs => unfold ipoptLoop
        rw [h2]
        change (if accept s1.status then _ else _) = _
        rw [h1, if_neg Bool.false_ne_true]
      have hno : (∀ i st x, ¬ firstFrom ipopt P accept x0 (call + 1) rest i st x) → ∀ i st x, ¬ firstFrom ipopt P accept x0 call (solver :: rest) i st x := by
        intro hn i st x hf
        cases i with
        | zero =>
          obtain ⟨⟨s', a1, a2⟩, a3, _⟩ := hf
          rw [List.getElem?_cons_zero, Option.some_inj] at a1
          subst a1
          exact h0 st x a2 a3
        | succ i => exact hn i st x (firstFrom_succ ipopt P accept x0 hf)
      by_cases hl : solver = last
      · have hrest : rest = [] := by
          by_contra hne
          have h3 : (solver :: rest).getLast? = rest.getLast? := by
            cases rest with
            | nil => exact absurd rfl hne
            | cons a t => simp [List.getLast?_cons]
          obtain ⟨l, hl'⟩ : ∃ l, rest.getLast? = some l := by
            cases h : rest.getLast? with
            | none => exact absurd (List.getLast?_eq_none_iff.mp h) hne
            | some l => exact ⟨l, rfl⟩
          have := hlast l (h3.trans hl')
          have hm : l ∈ rest := List.mem_of_getLast? hl'
          rw [this, ← hl] at hm
          exact (List.nodup_cons.mp hnd).1 hm
        subst hrest
        have hn := hno fun i st x hf => by obtain ⟨⟨s, h, _⟩, _⟩ := hf; simp at h
        cases hex : exits with
        | true =>
          refine Or.inr ⟨hn, Or.inl ⟨rfl, List.cons_ne_nil _ _, ?_⟩⟩
          subst hex
          rw [e, if_pos ⟨hl, rfl⟩]
        | false =>
          refine Or.inr ⟨hn, Or.inr ⟨Or.inl rfl, s1, ?_⟩⟩
          subst hex
          rw [e, if_neg (by simp)]
          rfl
      · rw [e, if_neg fun h => hl h.1]
        have hne : rest ≠ [] := by
          rintro rfl
          exact hl (hlast solver rfl)
        have hlast' : ∀ l, rest.getLast? = some l → l = last := by
          intro l h
          refine hlast l ?_
          cases rest with
          | nil => exact absurd rfl hne
          | cons a t => rw [← h]; simp [List.getLast?_cons]
        rcases ih (call + 1) s1 h1 (List.nodup_cons.mp hnd).2 hlast' with ⟨i, st, x, a, g1, g2⟩ | ⟨g1, g2⟩
        · exact Or.inl ⟨i + 1, st, x, a, firstFrom_cons ipopt P accept x0 g1 h0, g2⟩
        · refine Or.inr ⟨hno g1, ?_⟩
          rcases g2 with ⟨k1, k2, k3⟩ | ⟨k1, k2⟩
          · exact Or.inl ⟨k1, List.cons_ne_nil _ _, k3⟩
          · exact Or.inr ⟨Or.inl (k1.resolve_right hne), k2⟩
    cases hans : ipopt call solver (P x0) with
    | none =>
      refine hstep { s with x := x0 } hs ?_ ?_
      · rw [hans]; rfl
      · intro st' x' h; rw [hans] at h; cases h
    | some ans =>
      obtain ⟨st, x⟩ := ans
      cases hacc : accept st with
      | true =>
        refine Or.inl ⟨0, st, x, s.achieved, ⟨⟨solver, rfl, hans⟩, hacc, fun j _ _ _ hj => absurd hj (Nat.not_lt_zero _)⟩, ?_⟩
        unfold ipoptLoop
        rw [hans, hfin]
        change (if accept st then _ else _) = _
        rw [hacc]
        rfl
      | false =>
        refine hstep ⟨st, x, fin x s.achieved⟩ hacc ?_ ?_
        · rw [hans, hfin]
        · intro st' x' h
          rw [hans] at h
          cases h
          simp [hacc]

theorem firstFrom_zero (accepted : SolverReturn → Prop) (hacc : ∀ st, accept st = true ↔ accepted st) (solvers : List String) (i : Nat) (st : SolverReturn)
    (x : Nat → ℝ) : firstFrom ipopt P accept x0 0 solvers i st x ↔ ipopt.FirstAnswer (P x0) accepted solvers i st x := by
  unfold firstFrom Ipopt.FirstAnswer
  simp only [Nat.zero_add, hacc]

theorem firstAnswer_unique {ipopt : Ipopt} {P : Nlp ℝ} {accepted : SolverReturn → Prop} {solvers : List String} {i j : Nat} {st st' : SolverReturn} {x x' : Nat → ℝ}
    (h : ipopt.FirstAnswer P accepted solvers i st x) (h' : ipopt.FirstAnswer P accepted solvers j st' x') : i = j ∧ st = st' ∧ x = x' := by
  obtain ⟨⟨s, a1, a2⟩, a3, a4⟩ := h
  obtain ⟨⟨s', b1, b2⟩, b3, b4⟩ := h'
  have : i = j := by
    rcases Nat.lt_trichotomy i j with h | h | h
    · exact absurd a3 (b4 i s st x h a1 a2)
    · exact h
    · exact absurd b3 (a4 j s' st' x' h b1 b2)
  subst this
  rw [a1, Option.some_inj] at b1
  subst b1
  rw [a2, Option.some_inj] at b2
  cases b2
  exact ⟨rfl, rfl, rfl⟩

end Loop

theorem flowAccepts_iff (st : SolverReturn) : flowAccepts st = true ↔ st.Solved := by
  cases st <;> simp [flowAccepts, SolverReturn.Solved]

theorem solveQPAccepts_iff (st : SolverReturn) : solveQPAccepts st = true ↔ st.SolvedOrStopped := by
  cases st <;> simp [solveQPAccepts, SolverReturn.SolvedOrStopped, SolverReturn.Solved]

theorem containsDuplicates_iff : ∀ l : List String, containsDuplicates l = false ↔ l.Nodup
  | [] => by simp [containsDuplicates]
  | s :: rest => by
    unfold containsDuplicates
    rw [List.nodup_cons]
    by_cases h : rest.any (fun t => s = t) = true
    · rw [if_pos h]
      have : s ∈ rest := by simpa using h
      simp [this]
    · rw [if_neg h, containsDuplicates_iff rest]
      have : s ∉ rest := by simpa using h
      simp [this]

/-! ## Friction in discs -/

section Friction

variable {c : Nat}

/-- From a parabola that is not negative near its zero -/
theorem slope_nonneg {a q : ℝ} (h : ∀ t : ℝ, 0 ≤ t → t ≤ 1 → 0 ≤ t * a + t ^ 2 * q) : 0 ≤ a := by
  by_contra ha
  push Not at ha
  rcases le_or_gt q 0 with hq | hq
  · have := h 1 (by norm_num) (le_refl _)
    linarith
  · have ht : 0 < min 1 (-a / (2 * q)) := lt_min one_pos (div_pos (by linarith) (by linarith))
    have h1 := h _ ht.le (min_le_left _ _)
    have h2 : min 1 (-a / (2 * q)) * q ≤ -a / 2 := by
      calc min 1 (-a / (2 * q)) * q ≤ -a / (2 * q) * q := mul_le_mul_of_nonneg_right (min_le_right _ _) hq.le
        _ = -a / 2 := by field_simp
    have h3 : 0 ≤ min 1 (-a / (2 * q)) * (a + min 1 (-a / (2 * q)) * q) := by
      calc (0 : ℝ) ≤ _ := h1
        _ = _ := by ring
    have h4 := nonneg_of_mul_nonneg_right h3 ht
    linarith

/-- `d` in the two components of contact `i`, zero elsewhere -/
def pairAt (i : Fin c) (d : ℝ × ℝ) : Fin (2 * c) → ℝ := fun j => if (j : Nat) = 2 * i then d.1 else if (j : Nat) = 2 * i + 1 then d.2 else 0

theorem dot_pairAt (i : Fin c) (d : ℝ × ℝ) (w : Fin (2 * c) → ℝ) : w ⬝ᵥ pairAt i d = (pairOf w i).1 * d.1 + (pairOf w i).2 * d.2 := by
  have h0 : (⟨2 * (i : Nat), by omega⟩ : Fin (2 * c)) ≠ ⟨2 * (i : Nat) + 1, by omega⟩ := fun h => by have := congrArg Fin.val h; simp at this
  unfold dotProduct
  rw [← Finset.sum_subset (Finset.subset_univ {(⟨2 * (i : Nat), by omega⟩ : Fin (2 * c)), ⟨2 * (i : Nat) + 1, by omega⟩})]
  · rw [Finset.sum_pair h0]
    simp [pairAt, pairOf]
  · intro j _ hj
    rw [Finset.mem_insert, Finset.mem_singleton, not_or] at hj
    have h1 : ¬ (j : Nat) = 2 * i := fun h => hj.1 (Fin.ext h)
    have h2 : ¬ (j : Nat) = 2 * i + 1 := fun h => hj.2 (Fin.ext h)
    simp [pairAt, h1, h2]

theorem pairOf_add_pairAt (i k : Fin c) (d : ℝ × ℝ) (x : Fin (2 * c) → ℝ) (t : ℝ) : pairOf (x + t • pairAt i d) k =
    if k = i then ((pairOf x i).1 + t * d.1, (pairOf x i).2 + t * d.2) else pairOf x k := by
  by_cases h : k = i
  · subst h
    simp [pairOf, pairAt]
  · have h' : (k : Nat) ≠ i := fun hc => h (Fin.ext hc)
    have h1 : ¬ (2 * (k : Nat) = 2 * i) := by omega
    have h2 : ¬ (2 * (k : Nat) = 2 * i + 1) := by omega
    have h3 : ¬ (2 * (k : Nat) + 1 = 2 * i) := by omega
    have h4 : ¬ (2 * (k : Nat) + 1 = 2 * i + 1) := by omega
    rw [if_neg h]
    simp [pairOf, pairAt, h2, h3, h']

theorem convex_in_disc {p q : ℝ × ℝ} {R t : ℝ} (hp : pairSq p ≤ R) (hq : pairSq q ≤ R) (h0 : 0 ≤ t) (h1 : t ≤ 1) :
    pairSq (p.1 + t * (q.1 - p.1), p.2 + t * (q.2 - p.2)) ≤ R := by
  unfold pairSq at *
  dsimp only
  nlinarith [mul_nonneg (mul_nonneg h0 (sub_nonneg.mpr h1)) (add_nonneg (sq_nonneg (q.1 - p.1)) (sq_nonneg (q.2 - p.2))), mul_le_mul_of_nonneg_left hq h0,
    mul_le_mul_of_nonneg_left hp (sub_nonneg.mpr h1)]

/-- A minimizer over the discs: no impulse in the disc of a contact dissipates more -/
theorem minimizer_variation {Q : Matrix (Fin (2 * c)) (Fin (2 * c)) ℝ} (hs : Q.IsSymm) {A x : Fin (2 * c) → ℝ} {r : Fin c → ℝ}
    (h : Minimizes Q A (discs r) x) (i : Fin c) (q : ℝ × ℝ) (hq : pairSq q ≤ r i ^ 2) :
    0 ≤ (pairOf (Q *ᵥ x + A) i).1 * (q.1 - (pairOf x i).1) + (pairOf (Q *ᵥ x + A) i).2 * (q.2 - (pairOf x i).2) := by
  rw [← dot_pairAt i (q.1 - (pairOf x i).1, q.2 - (pairOf x i).2)]
  apply slope_nonneg (q := 1 / 2 * (pairAt i (q.1 - (pairOf x i).1, q.2 - (pairOf x i).2) ⬝ᵥ (Q *ᵥ pairAt i (q.1 - (pairOf x i).1, q.2 - (pairOf x i).2))))
  intro t h0 h1
  have hy : x + t • pairAt i (q.1 - (pairOf x i).1, q.2 - (pairOf x i).2) ∈ discs r := by
    intro k
    rw [pairOf_add_pairAt]
    by_cases hk : k = i
    · subst hk
      rw [if_pos rfl]
      exact convex_in_disc (h.1 k) hq h0 h1
    · rw [if_neg hk]
      exact h.1 k
  have := h.2 _ hy
  rw [quadratic_add Q hs] at this
  linarith

theorem pairSq_nonneg (p : ℝ × ℝ) : 0 ≤ pairSq p := add_nonneg (sq_nonneg _) (sq_nonneg _)

theorem minimizer_dissipates {Q : Matrix (Fin (2 * c)) (Fin (2 * c)) ℝ} (hs : Q.IsSymm) {A x : Fin (2 * c) → ℝ} {r : Fin c → ℝ} (hr : ∀ i, 0 ≤ r i)
    (h : Minimizes Q A (discs r) x) (i : Fin c) :
    MaximallyDissipative (r i) (√(pairSq (pairOf (Q *ᵥ x + A) i))) (pairOf x i) (pairOf (Q *ᵥ x + A) i) := by
  have hvar := minimizer_variation hs h i
  have hin : pairSq (pairOf x i) ≤ r i ^ 2 := h.1 i
  have hri := hr i
  generalize pairOf (Q *ᵥ x + A) i = w at *
  generalize pairOf x i = p at *
  generalize r i = R at *
  have hl := Real.sq_sqrt (pairSq_nonneg w)
  have hl0 := Real.sqrt_nonneg (pairSq w)
  generalize √(pairSq w) = l at *
  rcases hl0.eq_or_lt with h0 | h0
  · subst h0
    have hw : pairSq w = 0 := by linarith
    have w1 : w.1 = 0 := by unfold pairSq at hw; nlinarith [sq_nonneg w.1, sq_nonneg w.2]
    have w2 : w.2 = 0 := by unfold pairSq at hw; nlinarith [sq_nonneg w.1, sq_nonneg w.2]
    exact ⟨hin, by rw [hw, Real.sqrt_zero], Or.inl rfl, by rw [w1, w2]; simp⟩
  · have hq : pairSq (-(R / l) * w.1, -(R / l) * w.2) = R ^ 2 := by
      have : pairSq (-(R / l) * w.1, -(R / l) * w.2) = (R / l) ^ 2 * pairSq w := by unfold pairSq; ring
      rw [this, ← hl]
      field_simp
    have hv := hvar _ hq.le
    dsimp only at hv
    have e1 : w.1 * (-(R / l) * w.1 - p.1) + w.2 * (-(R / l) * w.2 - p.2) = -(R * l) - (w.1 * p.1 + w.2 * p.2) := by
      have : w.1 * (-(R / l) * w.1 - p.1) + w.2 * (-(R / l) * w.2 - p.2) = -(R / l) * pairSq w - (w.1 * p.1 + w.2 * p.2) := by unfold pairSq; ring
      rw [this, ← hl]
      field_simp
    rw [e1] at hv
    have hsum : (l * p.1 + R * w.1) ^ 2 + (l * p.2 + R * w.2) ^ 2 ≤ 0 := by
      have e2 : (l * p.1 + R * w.1) ^ 2 + (l * p.2 + R * w.2) ^ 2 = l ^ 2 * pairSq p + 2 * (l * R) * (w.1 * p.1 + w.2 * p.2) + R ^ 2 * pairSq w := by unfold pairSq; ring
      rw [e2, ← hl]
      have a1 : l ^ 2 * pairSq p ≤ l ^ 2 * R ^ 2 := mul_le_mul_of_nonneg_left hin (sq_nonneg l)
      have a2 : (l * R) * (w.1 * p.1 + w.2 * p.2) ≤ (l * R) * (-(R * l)) := mul_le_mul_of_nonneg_left (by linarith) (mul_nonneg h0.le hri)
      nlinarith
    have s1 : l * p.1 + R * w.1 = 0 := by nlinarith [sq_nonneg (l * p.1 + R * w.1), sq_nonneg (l * p.2 + R * w.2)]
    have s2 : l * p.2 + R * w.2 = 0 := by nlinarith [sq_nonneg (l * p.1 + R * w.1), sq_nonneg (l * p.2 + R * w.2)]
    refine ⟨hin, ?_, Or.inr ?_, by linarith, by linarith⟩
    · rw [← hl, Real.sqrt_sq h0.le]
    · have e3 : l ^ 2 * pairSq p = l ^ 2 * R ^ 2 := by
        have : l ^ 2 * pairSq p = (l * p.1) ^ 2 + (l * p.2) ^ 2 := by unfold pairSq; ring
        rw [this, show l * p.1 = -(R * w.1) by linarith, show l * p.2 = -(R * w.2) by linarith, hl]
        unfold pairSq; ring
      exact mul_left_cancel₀ (pow_ne_zero 2 h0.ne') e3

theorem convexOn_disc (i : Fin c) : ConvexOn ℝ Set.univ fun x : Fin (2 * c) → ℝ => pairSq (pairOf x i) := by
  refine ⟨convex_univ, fun x _ y _ a b ha hb hab => ?_⟩
  simp only [pairSq, pairOf, Pi.add_apply, Pi.smul_apply, smul_eq_mul]
  have hb' : b = 1 - a := by linarith
  subst hb'
  nlinarith [mul_nonneg (mul_nonneg ha hb) (sq_nonneg (x ⟨2 * i, by omega⟩ - y ⟨2 * i, by omega⟩)),
    mul_nonneg (mul_nonneg ha hb) (sq_nonneg (x ⟨2 * i + 1, by omega⟩ - y ⟨2 * i + 1, by omega⟩))]

theorem frictionMultipliers_eq (Q : Csc ℝ) (hQ : Q.Valid) (hc : Q.cols = 2 * c) (A beta : Nat → ℝ) : frictionMultipliers c Q A beta =
    .ok (List.ofFn fun i : Fin c => √(pairSq (pairOf (Q.toMatrix (2 * c) *ᵥ vec (2 * c) beta + vec (2 * c) A) i))) := by
  obtain ⟨y, hy, h⟩ := sparse_product Q hQ hc beta
  unfold frictionMultipliers
  rw [hy]
  change Outcome.ok _ = _
  rw [map_range_ofFn]
  congr 2
  funext i
  have h1 := h ⟨2 * i, by omega⟩
  have h2 := h ⟨2 * i + 1, by omega⟩
  dsimp only at h1 h2
  rw [h1, h2]
  simp [pairSq, pairOf, vec, sq]

end Friction

/-! ## QL -/

section QL

theorem byColumns_length (r c : Nat) (M : Nat → Nat → ℝ) : (byColumns r c M).length = r * c := by
  unfold byColumns
  induction c with
  | zero => simp
  | succ c ih => rw [List.range_succ, List.flatMap_append, List.length_append, ih]; simp; ring

theorem colEntry_byColumns (r c : Nat) (M : Nat → Nat → ℝ) (i j : Nat) (hi : i < r) (hj : j < c) : colEntry r (byColumns r c M) i j = M i j := by
  unfold colEntry
  induction c with
  | zero => omega
  | succ c ih =>
    have e : byColumns r (c + 1) M = byColumns r c M ++ (List.range r).map fun i => M i c := by
      unfold byColumns
      rw [List.range_succ, List.flatMap_append]
      simp
    have hl := byColumns_length r c M
    rw [e]
    rcases Nat.lt_or_ge j c with h | h
    · have hlt : j * r + i < (byColumns r c M).length := by
        rw [hl]
        calc j * r + i < j * r + r := by omega
          _ = (j + 1) * r := by ring
          _ ≤ c * r := Nat.mul_le_mul_right _ h
          _ = r * c := by ring
      have := ih h
      unfold List.getD at *
      rw [List.getElem?_append_left hlt]
      exact this
    · have hjc : j = c := by omega
      subst hjc
      unfold List.getD
      rw [List.getElem?_append_right (by rw [hl, mul_comm]; omega), hl, show j * r + i - r * j = i by rw [mul_comm]; omega]
      simp [hi]

end QL

end Scisim
