import Verif.Model.BoxBox3D
import Mathlib.Analysis.LocallyConvex.Separation
import Mathlib.Analysis.Convex.Combination
import Mathlib.Topology.Algebra.Module.FiniteDimension
import Mathlib.Analysis.Convex.Topology
import Mathlib.Tactic.LinearCombination
import Mathlib.Tactic.Linarith
import Mathlib.Tactic.FieldSimp
import Mathlib.Tactic.FinCases

/-! Clipping a convex polygon against the sides of a rectangle: lemmas for `intersectRectQuad`. -/

namespace Scisim

/-! ## Sign changes along a list -/

/-- `x` has the sign `s` -/
def HasSign (s : Bool) (x : ℝ) : Prop := if s then 0 < x else x < 0

theorem hasSign_not {s : Bool} {x : ℝ} (h : HasSign s x) : ¬HasSign (!s) x := by
  cases s <;> simp only [HasSign, Bool.not_true, Bool.not_false, if_true] at h ⊢ <;> simp at h ⊢ <;> linarith

open Classical in
/-- The length of the longest alternating subsequence that begins with the sign `s` -/
noncomputable def alt : Bool → List ℝ → Nat
  | _, [] => 0
  | s, x :: l => if HasSign s x then 1 + alt (!s) l else alt s l

theorem alt_cons_pos {s : Bool} {x : ℝ} {l : List ℝ} (h : HasSign s x) : alt s (x :: l) = 1 + alt (!s) l := by rw [alt, if_pos h]
theorem alt_cons_neg {s : Bool} {x : ℝ} {l : List ℝ} (h : ¬HasSign s x) : alt s (x :: l) = alt s l := by rw [alt, if_neg h]

theorem alt_le_not (s : Bool) (l : List ℝ) : alt s l ≤ 1 + alt (!s) l := by
  induction l with
  | nil => simp [alt]
  | cons x l ih =>
    by_cases h : HasSign s x
    · rw [alt_cons_pos h, alt_cons_neg (hasSign_not h)]
    · rw [alt_cons_neg h]
      by_cases h' : HasSign (!s) x
      · rw [alt_cons_pos h', Bool.not_not]; omega
      · rw [alt_cons_neg h']; exact ih

theorem alt_le_cons (s : Bool) (x : ℝ) (l : List ℝ) : alt s l ≤ alt s (x :: l) := by
  by_cases h : HasSign s x
  · rw [alt_cons_pos h]; exact alt_le_not s l
  · rw [alt_cons_neg h]

theorem alt_cons_mono {l l' : List ℝ} (h : ∀ s, alt s l ≤ alt s l') (x : ℝ) (s : Bool) : alt s (x :: l) ≤ alt s (x :: l') := by
  by_cases hx : HasSign s x
  · rw [alt_cons_pos hx, alt_cons_pos hx]; have := h (!s); omega
  · rw [alt_cons_neg hx, alt_cons_neg hx]; exact h s

theorem alt_sublist {l l' : List ℝ} (h : l.Sublist l') (s : Bool) : alt s l ≤ alt s l' := by
  induction h generalizing s with
  | slnil => exact le_rfl
  | cons x _ ih => exact le_trans (ih s) (alt_le_cons s x _)
  | cons_cons x _ ih => exact alt_cons_mono ih x s

/-- A number between two others may be left out between them. -/
theorem alt_between {x c y : ℝ} (hc : ∀ s, HasSign s c → HasSign s x ∨ HasSign s y) (s : Bool) (l : List ℝ) :
    alt s (x :: c :: y :: l) = alt s (x :: y :: l) := by
  by_cases hx : HasSign s x
  · rw [alt_cons_pos hx, alt_cons_pos hx]
    congr 1
    by_cases h : HasSign (!s) c
    · have hy : HasSign (!s) y := (hc _ h).resolve_left (hasSign_not hx)
      have hy' : ¬HasSign s y := by have := hasSign_not hy; rwa [Bool.not_not] at this
      rw [alt_cons_pos h, Bool.not_not, alt_cons_neg hy', alt_cons_pos hy, Bool.not_not]
    · rw [alt_cons_neg h]
  · rw [alt_cons_neg hx, alt_cons_neg hx]
    by_cases h : HasSign s c
    · have hy : HasSign s y := (hc _ h).resolve_left hx
      rw [alt_cons_pos h, alt_cons_pos hy, alt_cons_neg (hasSign_not hy)]
    · rw [alt_cons_neg h]

theorem alt_append_singleton (s : Bool) (l : List ℝ) (h : ℝ) :
    alt s (l ++ [h]) ≤ alt s l + 1 ∧ (alt s (l ++ [h]) = alt s l + 1 → HasSign (if alt s l % 2 = 0 then s else !s) h) := by
  induction l generalizing s with
  | nil =>
    simp only [List.nil_append, alt]
    split <;> simp [*]
  | cons x l ih =>
    rw [List.cons_append]
    by_cases hx : HasSign s x
    · rw [alt_cons_pos hx, alt_cons_pos hx]
      obtain ⟨h1, h2⟩ := ih (!s)
      refine ⟨by omega, fun he => ?_⟩
      have h3 := h2 (by omega)
      rcases Nat.mod_two_eq_zero_or_one (alt (!s) l) with h0 | h0
      · rw [if_pos h0] at h3
        rw [if_neg (by omega)]; exact h3
      · rw [if_neg (by omega), Bool.not_not] at h3
        rw [if_pos (by omega)]; exact h3
    · rw [alt_cons_neg hx, alt_cons_neg hx]; exact ih s

/-- At most three runs of signs, so that around the circle there are at most two changes of sign -/
def FewRuns (l : List ℝ) : Prop := ∀ s, alt s l ≤ 3

theorem FewRuns.close {h : ℝ} {t : List ℝ} (hl : FewRuns (h :: t)) (s : Bool) : alt s (h :: t ++ [h]) ≤ 3 := by
  rw [List.cons_append]
  by_cases hs : HasSign s h
  · rw [alt_cons_pos hs]
    have h1 := hl s
    rw [alt_cons_pos hs] at h1
    obtain ⟨h2, h3⟩ := alt_append_singleton (!s) t h
    by_contra hc
    have h4 : alt (!s) t = 2 := by omega
    have h5 := h3 (by omega)
    rw [h4] at h5
    exact hasSign_not hs h5
  · rw [alt_cons_neg hs]
    obtain ⟨h2, h3⟩ := alt_append_singleton s t h
    have h1 := hl s
    rw [alt_cons_neg hs] at h1
    by_contra hc
    have h4 : alt s t = 3 := by omega
    have h5 := h3 (by omega)
    rw [h4] at h5
    have h6 := hl (!s)
    have h5' : HasSign (!s) h := h5
    rw [alt_cons_pos h5', Bool.not_not] at h6
    omega

/-! ## Polygons -/

/-- An affine function on the plane -/
def aff (a b c : ℝ) (z : Pt2) : ℝ := a * z 0 + b * z 1 + c

/-- A polygon in convex position: every affine function changes sign at most twice around it -/
def ConvexPolygon (q : List Pt2) : Prop := ∀ a b c, FewRuns (q.map (aff a b c))

theorem ConvexPolygon.sublist {q r : List Pt2} (hq : ConvexPolygon q) (h : r.Sublist q) : ConvexPolygon r :=
  fun a b c s => le_trans (alt_sublist (h.map _) s) (hq a b c s)

theorem parallelogram_convex (x y z w : Pt2) (h : x + z = y + w) : ConvexPolygon [x, y, z, w] := by
  intro a b c s
  have h0 := congrFun h 0
  have h1 := congrFun h 1
  simp only [Pi.add_apply] at h0 h1
  have e : aff a b c x + aff a b c z = aff a b c y + aff a b c w := by simp only [aff]; linear_combination a * h0 + b * h1
  simp only [List.map_cons, List.map_nil]
  generalize aff a b c x = x' at e ⊢
  generalize aff a b c y = y' at e ⊢
  generalize aff a b c z = z' at e ⊢
  generalize aff a b c w = w' at e ⊢
  simp only [alt]
  cases s <;> simp only [HasSign, Bool.not_true, Bool.not_false, if_true, Bool.false_eq_true, if_false] <;>
    split_ifs <;> first | omega | (exfalso; linarith)

section Chop

variable (ins : Pt2 → Prop) (cr : Pt2 → Pt2 → Pt2)

open Classical in
/-- The point added on the edge from `p` to `next`, if any -/
noncomputable def edgePoint (p next : Pt2) : List Pt2 := if ins p ≠ ins next then [cr p next] else []

/-- The polygon with the crossing points added -/
noncomputable def refineEdges (last : Pt2) : List Pt2 → List Pt2
  | [] => []
  | p :: rest => p :: (edgePoint ins cr p (rest.headD last) ++ refineEdges last rest)

open Classical in
/-- The chopped polygon -/
noncomputable def chopped (last : Pt2) : List Pt2 → List Pt2
  | [] => []
  | p :: rest => (if ins p then [p] else []) ++ (edgePoint ins cr p (rest.headD last) ++ chopped last rest)

variable {ins cr}

theorem chopped_sublist (last : Pt2) (q : List Pt2) : (chopped ins cr last q).Sublist (refineEdges ins cr last q) := by
  induction q with
  | nil => exact List.Sublist.slnil
  | cons p rest ih =>
    rw [chopped, refineEdges]
    split
    · rw [List.singleton_append]
      exact List.Sublist.cons_cons p (List.Sublist.append (List.Sublist.refl (edgePoint ins cr p (rest.headD last))) ih)
    · rw [List.nil_append]
      exact List.Sublist.cons p (List.Sublist.append (List.Sublist.refl (edgePoint ins cr p (rest.headD last))) ih)

theorem sublist_refine (last : Pt2) (q : List Pt2) : q.Sublist (refineEdges ins cr last q) := by
  induction q with
  | nil => exact List.Sublist.slnil
  | cons p rest ih =>
    rw [refineEdges]
    exact List.Sublist.cons_cons p (ih.trans (List.sublist_append_right _ _))

theorem refine_append (last v : Pt2) (A B : List Pt2) :
    refineEdges ins cr last (A ++ v :: B) = refineEdges ins cr v A ++ refineEdges ins cr last (v :: B) := by
  induction A with
  | nil => rfl
  | cons p A ih =>
    rw [List.cons_append, refineEdges, ih]
    cases A with
    | nil => simp [refineEdges]
    | cons p' A => simp [refineEdges]

theorem edgePoint_cases (p next : Pt2) : edgePoint ins cr p next = [] ∨ edgePoint ins cr p next = [cr p next] := by
  unfold edgePoint; split <;> simp

theorem edgePoint_pos {p next : Pt2} (h : ins p ≠ ins next) : edgePoint ins cr p next = [cr p next] := if_pos h

theorem edgePoint_neg {p next : Pt2} (h : ins p = ins next) : edgePoint ins cr p next = [] := if_neg (fun hn => hn h)

theorem refine_runs (f : Pt2 → ℝ) (hf : ∀ p next, ins p ≠ ins next → ∀ s, HasSign s (f (cr p next)) → HasSign s (f p) ∨ HasSign s (f next)) (last : Pt2)
    (q : List Pt2) (s : Bool) : alt s ((refineEdges ins cr last q).map f) ≤ alt s ((q ++ [last]).map f) := by
  induction q generalizing s with
  | nil => simp [refineEdges, alt]
  | cons p rest ih =>
    rw [refineEdges, List.cons_append, List.map_cons, List.map_cons, List.map_append]
    unfold edgePoint
    split
    · next hc =>
      rw [List.map_cons, List.map_nil, List.singleton_append]
      cases rest with
      | nil =>
        simp only [refineEdges, List.map_nil, List.headD_nil, List.nil_append, List.map_cons]
        refine le_trans ?_ (le_of_eq (alt_between (hf _ _ hc) s []))
        exact alt_sublist (by simp) s
      | cons y rest =>
        have h1 : refineEdges ins cr last (y :: rest) = y :: (edgePoint ins cr y (rest.headD last) ++ refineEdges ins cr last rest) := rfl
        rw [List.headD_cons] at hc ⊢
        rw [h1, List.map_cons, alt_between (hf _ _ hc) s, ← List.map_cons, ← h1]
        exact alt_cons_mono ih _ s
    · rw [List.map_nil, List.nil_append]
      exact alt_cons_mono ih _ s

/-- There is a crossing point between a point inside and a point outside. -/
theorem cross_chain (last x : Pt2) (l : List Pt2) (h : ins x ≠ ins last) :
    ∃ p next, ins p ≠ ins next ∧ next ∈ l ++ [last] ∧ p ∈ x :: l ∧ [x, cr p next].Sublist (refineEdges ins cr last (x :: l)) ∧
      [cr p next].Sublist (chopped ins cr last (x :: l)) := by
  classical
  induction l generalizing x with
  | nil =>
    refine ⟨x, last, h, by simp, by simp, ?_, ?_⟩
    · rw [refineEdges, List.headD_nil, edgePoint_pos h]; exact List.Sublist.refl _
    · rw [chopped]
      rw [List.headD_nil, edgePoint_pos h, chopped, List.append_nil]
      exact List.sublist_append_right _ _
  | cons y l ih =>
    by_cases hy : ins x = ins y
    · obtain ⟨p, next, h1, h2, h3, h4, h5⟩ := ih y (by rw [← hy]; exact h)
      refine ⟨p, next, h1, by simp at h2 ⊢; tauto, by simp at h3 ⊢; tauto, ?_, ?_⟩
      · rw [refineEdges]
        refine List.Sublist.cons_cons x ?_
        exact ((List.sublist_cons_self y _).trans h4).trans (List.sublist_append_right _ _)
      · rw [chopped]
        exact h5.trans ((List.sublist_append_right _ _).trans (List.sublist_append_right _ _))
    · refine ⟨x, y, hy, by simp, by simp, ?_, ?_⟩
      · rw [refineEdges]
        refine List.Sublist.cons_cons x ?_
        rw [List.headD_cons, edgePoint_pos hy]
        exact List.sublist_append_left _ _
      · rw [chopped]
        rw [List.headD_cons, edgePoint_pos hy]
        exact (List.sublist_append_left _ _).trans (List.sublist_append_right _ _)

theorem chopped_append (last v : Pt2) (A B : List Pt2) :
    chopped ins cr last (A ++ v :: B) = chopped ins cr v A ++ chopped ins cr last (v :: B) := by
  induction A with
  | nil => rfl
  | cons p A ih =>
    rw [List.cons_append, chopped, ih]
    cases A with
    | nil => simp [chopped]
    | cons p' A => simp [chopped]

variable (ins cr) in
/-- A crossing point of the chopped polygon -/
def IsCrossing (q : List Pt2) (y : Pt2) : Prop := ∃ p next, ins p ≠ ins next ∧ y = cr p next ∧ y ∈ chopped ins cr (q.headD 0) q

theorem four_points_aux (A B1 B2 : List Pt2) (v w : Pt2) (h : ins v ≠ ins w) (q : List Pt2) (hq : q = A ++ v :: (B1 ++ w :: B2)) :
    ∃ y1 y2, IsCrossing ins cr q y1 ∧ IsCrossing ins cr q y2 ∧
      ([v, y1, w, y2].Sublist (refineEdges ins cr (q.headD 0) q) ∨ [y2, v, y1, w].Sublist (refineEdges ins cr (q.headD 0) q)) := by
  have hR : refineEdges ins cr (q.headD 0) q = refineEdges ins cr v A ++ (refineEdges ins cr w (v :: B1) ++ refineEdges ins cr (q.headD 0) (w :: B2)) := by
    conv_lhs => rw [show refineEdges ins cr (q.headD 0) q = refineEdges ins cr (q.headD 0) (A ++ v :: (B1 ++ w :: B2)) by rw [← hq]]
    rw [refine_append, ← List.cons_append, refine_append]
  have hC : chopped ins cr (q.headD 0) q = chopped ins cr v A ++ (chopped ins cr w (v :: B1) ++ chopped ins cr (q.headD 0) (w :: B2)) := by
    conv_lhs => rw [show chopped ins cr (q.headD 0) q = chopped ins cr (q.headD 0) (A ++ v :: (B1 ++ w :: B2)) by rw [← hq]]
    rw [chopped_append, ← List.cons_append, chopped_append]
  obtain ⟨p, next, h1, _, _, h4, h5⟩ := cross_chain (cr := cr) w v B1 h
  have hy1 : IsCrossing ins cr q (cr p next) := ⟨p, next, h1, rfl, by
    rw [hC, List.mem_append, List.mem_append]; exact Or.inr (Or.inl (List.singleton_sublist.mp h5))⟩
  by_cases hf : ins w ≠ ins (q.headD 0)
  · obtain ⟨p', next', h1', _, _, h4', h5'⟩ := cross_chain (cr := cr) (q.headD 0) w B2 hf
    refine ⟨_, _, hy1, ⟨p', next', h1', rfl, ?_⟩, Or.inl ?_⟩
    · rw [hC, List.mem_append, List.mem_append]; exact Or.inr (Or.inr (List.singleton_sublist.mp h5'))
    · rw [hR]
      exact (h4.append h4').trans (List.sublist_append_right _ _)
  · rw [not_not] at hf
    cases A with
    | nil =>
      rw [hq] at hf
      exact absurd hf.symm h
    | cons x A =>
      have hx : q.headD 0 = x := by rw [hq]; rfl
      obtain ⟨p', next', h1', _, _, h4', h5'⟩ := cross_chain (ins := ins) (cr := cr) v x A (by rw [← hx, ← hf]; exact h.symm)
      refine ⟨_, _, hy1, ⟨p', next', h1', rfl, ?_⟩, Or.inr ?_⟩
      · rw [hC, List.mem_append]; exact Or.inl (List.singleton_sublist.mp h5')
      · rw [hR]
        refine List.Sublist.append (l₁ := [cr p' next']) ((List.sublist_cons_self _ _).trans h4') (List.Sublist.append (l₁ := [v, cr p next]) h4 ?_)
        rw [refineEdges]
        simp

theorem four_points {q : List Pt2} {v w : Pt2} (hv : v ∈ q) (hw : w ∈ q) (h : ins v ≠ ins w) :
    ∃ x1 x2 y1 y2, (x1 = v ∨ x1 = w) ∧ (x2 = v ∨ x2 = w) ∧ IsCrossing ins cr q y1 ∧ IsCrossing ins cr q y2 ∧
      ([x1, y1, x2, y2].Sublist (refineEdges ins cr (q.headD 0) q) ∨ [y2, x1, y1, x2].Sublist (refineEdges ins cr (q.headD 0) q)) := by
  obtain ⟨A, B, hq⟩ := List.append_of_mem hv
  have hne : w ≠ v := fun e => h (by rw [e])
  have hw' : w ∈ A ∨ w ∈ B := by
    rw [hq, List.mem_append, List.mem_cons] at hw; tauto
  rcases hw' with hw' | hw'
  · obtain ⟨A1, A2, hA⟩ := List.append_of_mem hw'
    obtain ⟨y1, y2, h1, h2, h3⟩ := four_points_aux (cr := cr) A1 A2 B w v h.symm q (by rw [hq, hA]; simp)
    exact ⟨w, v, y1, y2, Or.inr rfl, Or.inl rfl, h1, h2, h3⟩
  · obtain ⟨B1, B2, hB⟩ := List.append_of_mem hw'
    obtain ⟨y1, y2, h1, h2, h3⟩ := four_points_aux (cr := cr) A B1 B2 v w h q (by rw [hq, hB])
    exact ⟨v, w, y1, y2, Or.inl rfl, Or.inr rfl, h1, h2, h3⟩

open Classical in
theorem chopped_length (f : Pt2 → ℝ) (last x : Pt2) (l : List Pt2) (h1 : ∀ y ∈ x :: l ++ [last], ins y → 0 < f y) (h2 : ∀ y ∈ x :: l ++ [last], ¬ins y → f y < 0) :
    (chopped ins cr last (x :: l)).length + 1 = ((x :: l).filter (fun y => decide (ins y))).length + alt (decide (ins x)) ((x :: l ++ [last]).map f) := by
  have hs : ∀ y ∈ x :: l ++ [last], HasSign (decide (ins y)) (f y) := by
    intro y hy
    by_cases h : ins y
    · simp [HasSign, h, h1 y hy h]
    · simp [HasSign, h, h2 y hy h]
  clear h1 h2
  induction l generalizing x with
  | nil =>
    have hx := hs x (by simp)
    have hl := hs last (by simp)
    rw [chopped, List.headD_nil, List.cons_append, List.map_cons, alt_cons_pos hx]
    simp only [List.nil_append, List.map_cons, List.map_nil, chopped, List.append_nil]
    by_cases hi : ins x = ins last
    · rw [edgePoint_neg hi]
      have : ¬HasSign (!decide (ins x)) (f last) := by
        rw [← show decide (ins x) = decide (ins last) by simp only [hi]] at hl
        exact hasSign_not hl
      rw [alt_cons_neg this]
      by_cases h : ins x <;> simp [h, alt]
    · rw [edgePoint_pos hi]
      have : HasSign (!decide (ins x)) (f last) := by
        rw [show (!decide (ins x)) = decide (ins last) by
          by_cases h : ins x <;> by_cases h' : ins last <;> simp [h, h'] at hi ⊢]
        exact hl
      rw [alt_cons_pos this]
      by_cases h : ins x <;> simp [h, alt]
  | cons y l ih =>
    have hx := hs x (by simp)
    have hy := hs y (by simp)
    have ih' := ih y (fun z hz => hs z (by simp at hz ⊢; tauto))
    rw [chopped, List.headD_cons, List.cons_append, List.map_cons, alt_cons_pos hx, List.length_append, List.length_append]
    have hfl : ((x :: y :: l).filter (fun y => decide (ins y))).length = (if ins x then [x] else []).length + ((y :: l).filter (fun y => decide (ins y))).length := by
      by_cases h : ins x <;> simp [h]; omega
    rw [hfl]
    by_cases hi : ins x = ins y
    · rw [edgePoint_neg hi]
      have e : decide (ins x) = decide (ins y) := by simp only [hi]
      have h3 : ¬HasSign (!decide (ins x)) (f y) := by rw [e]; exact hasSign_not hy
      rw [List.cons_append, List.map_cons, alt_cons_pos hy] at ih'
      rw [List.cons_append, List.map_cons, alt_cons_neg h3, e]
      simp only [List.length_nil]
      omega
    · rw [edgePoint_pos hi]
      have e : (!decide (ins x)) = decide (ins y) := by
        by_cases h : ins x <;> by_cases h' : ins y <;> simp [h, h'] at hi ⊢
      rw [e]
      simp only [List.length_singleton]
      omega

theorem chopped_all (last : Pt2) (q : List Pt2) (h : ∀ y ∈ q, ins y) (hl : ins last) : chopped ins cr last q = q := by
  classical
  induction q with
  | nil => rfl
  | cons x l ih =>
    have hx := h x (by simp)
    have hn : ins (l.headD last) := by
      cases l with
      | nil => exact hl
      | cons y l => exact h y (by simp)
    rw [chopped, if_pos hx, edgePoint_neg (propext ⟨fun _ => hn, fun _ => hx⟩), ih fun y hy => h y (by simp [hy])]
    rfl

end Chop

/-! ## One chop -/

section OneChop

variable (h : Pt2) (dir : Fin 2) (sign : ℝ)

/-- The strict inside of the chopping line -/
def Inside (p : Pt2) : Prop := sign * p dir < h dir

variable {h dir sign}

theorem crossing_between (hs : sign * sign = 1) {p next : Pt2} (hc : Inside h dir sign p ≠ Inside h dir sign next) :
    ∃ t : ℝ, 0 ≤ t ∧ t ≤ 1 ∧ ∀ k, chopCrossing h dir sign p next k = (1 - t) * p k + t * next k := by
  have hne : next dir - p dir ≠ 0 := by
    intro e
    apply hc
    unfold Inside
    rw [show next dir = p dir by linarith]
  have hcase : (sign * p dir < h dir ∧ h dir ≤ sign * next dir) ∨ (h dir ≤ sign * p dir ∧ sign * next dir < h dir) := by
    unfold Inside at hc
    by_cases h1 : sign * p dir < h dir <;> by_cases h2 : sign * next dir < h dir
    · simp [h1, h2] at hc
    · exact Or.inl ⟨h1, not_lt.mp h2⟩
    · exact Or.inr ⟨not_lt.mp h1, h2⟩
    · simp [h1, h2] at hc
  have e : (sign * h dir - p dir) / (next dir - p dir) = (h dir - sign * p dir) / (sign * next dir - sign * p dir) := by
    have : sign ≠ 0 := by rintro rfl; norm_num at hs
    rw [← mul_div_mul_left _ _ this]
    congr 1
    · linear_combination (h dir) * hs
    · ring
  refine ⟨(sign * h dir - p dir) / (next dir - p dir), ?_, ?_, fun k => ?_⟩
  · rw [e]
    rcases hcase with ⟨h1, h2⟩ | ⟨h1, h2⟩
    · exact div_nonneg (by linarith) (by linarith)
    · exact div_nonneg_of_nonpos (by linarith) (by linarith)
  · rw [e]
    rcases hcase with ⟨h1, h2⟩ | ⟨h1, h2⟩
    · rw [div_le_one (by linarith)]; linarith
    · rw [div_le_one_of_neg (by linarith)]; linarith
  · unfold chopCrossing
    split
    · next hk => subst hk; field_simp; ring
    · ring

theorem aff_between {p next y : Pt2} {t : ℝ} (h : ∀ k, y k = (1 - t) * p k + t * next k) (a b c : ℝ) :
    aff a b c y = (1 - t) * aff a b c p + t * aff a b c next := by
  simp only [aff, h]; ring

theorem sign_between {x y z t : ℝ} (h0 : 0 ≤ t) (h1 : t ≤ 1) (e : z = (1 - t) * x + t * y) (s : Bool) (hz : HasSign s z) : HasSign s x ∨ HasSign s y := by
  cases s
  · simp only [HasSign, Bool.false_eq_true, if_false] at hz ⊢
    by_contra hc
    push Not at hc
    nlinarith [mul_nonneg (sub_nonneg.mpr h1) hc.1, mul_nonneg h0 hc.2]
  · simp only [HasSign, if_true] at hz ⊢
    by_contra hc
    push Not at hc
    nlinarith [mul_nonneg (sub_nonneg.mpr h1) (neg_nonneg.mpr hc.1), mul_nonneg h0 (neg_nonneg.mpr hc.2)]

/-- The chopped polygon -/
noncomputable def chop1 (h : Pt2) (dir : Fin 2) (sign : ℝ) (q : List Pt2) : List Pt2 := chopped (Inside h dir sign) (chopCrossing h dir sign) (q.headD 0) q

theorem refined_runs (hs : sign * sign = 1) {q : List Pt2} (hq : ConvexPolygon q) (a b c : ℝ) (s : Bool) :
    alt s ((refineEdges (Inside h dir sign) (chopCrossing h dir sign) (q.headD 0) q).map (aff a b c)) ≤ 3 := by
  cases q with
  | nil => simp [refineEdges, alt]
  | cons x l =>
    refine le_trans (refine_runs (aff a b c) (fun p next hc s hz => ?_) _ _ s) ?_
    · obtain ⟨t, h0, h1, h2⟩ := crossing_between hs hc
      exact sign_between h0 h1 (aff_between h2 a b c) s hz
    · have := (hq a b c).close s
      simpa using this

theorem chop1_convex (hs : sign * sign = 1) {q : List Pt2} (hq : ConvexPolygon q) : ConvexPolygon (chop1 h dir sign q) := fun a b c s =>
  le_trans (alt_sublist ((chopped_sublist _ _).map _) s) (refined_runs hs hq a b c s)

theorem exists_gap (q : List Pt2) : ∃ h' < h dir, ∀ x ∈ q, sign * x dir < h dir → sign * x dir < h' := by
  induction q with
  | nil => exact ⟨h dir - 1, by linarith, by simp⟩
  | cons x q ih =>
    obtain ⟨h', h1, h2⟩ := ih
    by_cases hx : sign * x dir < h dir
    · refine ⟨max h' ((sign * x dir + h dir) / 2), by rw [max_lt_iff]; constructor <;> linarith, fun y hy hi => ?_⟩
      rcases List.mem_cons.mp hy with rfl | hy
      · exact lt_max_of_lt_right (by linarith)
      · exact lt_max_of_lt_left (h2 y hy hi)
    · refine ⟨h', h1, fun y hy hi => ?_⟩
      rcases List.mem_cons.mp hy with rfl | hy
      · exact absurd hi hx
      · exact h2 y hy hi

theorem chop1_length {q : List Pt2} (hq : ConvexPolygon q) : (chop1 h dir sign q).length ≤ q.length + 1 := by
  classical
  cases q with
  | nil => simp [chop1, chopped]
  | cons x l =>
    by_cases hall : ∀ y ∈ x :: l, Inside h dir sign y
    · unfold chop1
      rw [List.headD_cons, chopped_all _ _ hall (hall x (by simp))]
      omega
    · push Not at hall
      obtain ⟨o, ho, ho'⟩ := hall
      obtain ⟨h', h1, h2⟩ := exists_gap (h := h) (dir := dir) (sign := sign) (x :: l)
      obtain ⟨a, b, c, hf⟩ : ∃ a b c, ∀ z, aff a b c z = h' - sign * z dir := by
        fin_cases dir
        · exact ⟨-sign, 0, h', fun z => by simp [aff]; ring⟩
        · exact ⟨0, -sign, h', fun z => by simp [aff]; ring⟩
      have hm : ∀ y ∈ x :: l ++ [x], y ∈ x :: l := by intro y hy; simp at hy ⊢; tauto
      have hlen := chopped_length (ins := Inside h dir sign) (cr := chopCrossing h dir sign) (aff a b c) x x l
        (fun y hy hi => by rw [hf]; have := h2 y (hm y hy) hi; linarith)
        (fun y hy hi => by rw [hf]; have := not_lt.mp hi; linarith)
      have h3 := (hq a b c).close (decide (Inside h dir sign x))
      rw [← List.map_cons, show [aff a b c x] = [x].map (aff a b c) from rfl, ← List.map_append] at h3
      have h4 : ((x :: l).filter (fun y => decide (Inside h dir sign y))).length < (x :: l).length :=
        List.length_filter_lt_length_iff_exists.mpr ⟨o, ho, by simp [ho']⟩
      unfold chop1
      rw [List.headD_cons]
      omega

/-- What the chopped polygon consists of -/
theorem chop1_sound (hs : sign * sign = 1) {q : List Pt2} {y : Pt2} (hy : y ∈ chop1 h dir sign q) :
    y ∈ convexHull ℝ {x | x ∈ q} ∧ sign * y dir ≤ h dir := by
  classical
  have key : ∀ (last : Pt2) (l : List Pt2), y ∈ chopped (Inside h dir sign) (chopCrossing h dir sign) last l →
      (y ∈ l ∧ Inside h dir sign y) ∨ ∃ p ∈ l, ∃ next ∈ l ++ [last], Inside h dir sign p ≠ Inside h dir sign next ∧ y = chopCrossing h dir sign p next := by
    intro last l
    induction l with
    | nil => simp [chopped]
    | cons p rest ih =>
      intro hy
      rw [chopped, List.mem_append, List.mem_append] at hy
      rcases hy with hy | hy | hy
      · split at hy
        · next hp => rw [List.mem_singleton] at hy; subst hy; exact Or.inl ⟨by simp, hp⟩
        · simp at hy
      · by_cases hc : Inside h dir sign p = Inside h dir sign (rest.headD last)
        · rw [edgePoint_neg hc] at hy; simp at hy
        · rw [edgePoint_pos hc, List.mem_singleton] at hy
          refine Or.inr ⟨p, by simp, _, ?_, hc, hy⟩
          cases rest <;> simp
      · rcases ih hy with ⟨h1, h2⟩ | ⟨p', h1, n', h2, h3⟩
        · exact Or.inl ⟨by simp [h1], h2⟩
        · exact Or.inr ⟨p', by simp [h1], n', by simp at h2 ⊢; tauto, h3⟩
  rcases key _ _ hy with ⟨h1, h2⟩ | ⟨p, hp, next, hn, hc, rfl⟩
  · exact ⟨subset_convexHull ℝ _ h1, le_of_lt h2⟩
  · have hn' : next ∈ q := by
      rcases List.mem_append.mp hn with hn | hn
      · exact hn
      · rw [List.mem_singleton] at hn
        cases q with
        | nil => simp at hp
        | cons x l => rw [hn]; simp
    obtain ⟨t, h0, h1, h2⟩ := crossing_between hs hc
    refine ⟨?_, ?_⟩
    · have e : chopCrossing h dir sign p next = (1 - t) • p + t • next := by funext k; rw [h2 k]; rfl
      rw [e]
      exact convex_convexHull ℝ {x | x ∈ q} (subset_convexHull ℝ {x | x ∈ q} hp) (subset_convexHull ℝ {x | x ∈ q} hn') (by linarith) h0 (by ring)
    · have : chopCrossing h dir sign p next dir = sign * h dir := by simp [chopCrossing]
      rw [this, ← mul_assoc, hs, one_mul]

/-- An affine function that is positive at the crossing points is positive wherever the polygon meets the chopping line. -/
theorem cross_between (hs : sign * sign = 1) {q : List Pt2} (hq : ConvexPolygon q) {v w : Pt2} (hv : v ∈ q) (hw : w ∈ q) (hvi : Inside h dir sign v)
    (hwi : ¬Inside h dir sign w) (a b c : ℝ) (hg : ∀ y ∈ chop1 h dir sign q, 0 < aff a b c y) :
    0 ≤ (h dir - sign * v dir) * aff a b c w + (sign * w dir - h dir) * aff a b c v := by
  by_contra hN
  push Not at hN
  set N := (h dir - sign * v dir) * aff a b c w + (sign * w dir - h dir) * aff a b c v with hNdef
  have hvi' : sign * v dir < h dir := hvi
  have hwi' : h dir ≤ sign * w dir := not_lt.mp hwi
  obtain ⟨a', b', c', hv', hw', hy'⟩ : ∃ a' b' c', 0 < aff a' b' c' v ∧ 0 < aff a' b' c' w ∧
      ∀ y, IsCrossing (Inside h dir sign) (chopCrossing h dir sign) q y → aff a' b' c' y < 0 := by
    have hcd : ∀ y, IsCrossing (Inside h dir sign) (chopCrossing h dir sign) q y → 0 < aff a b c y ∧ y dir = sign * h dir := by
      rintro y ⟨p, next, hc, rfl, hm⟩
      exact ⟨hg _ hm, by simp [chopCrossing]⟩
    fin_cases dir
    · simp only [Fin.zero_eta, Fin.isValue] at *
      refine ⟨sign * b * (w 1 - v 1), -(sign * b * (w 0 - v 0)), sign * b * ((w 0 - v 0) * v 1 - (w 1 - v 1) * v 0) - N / 2, ?_, ?_, fun y hy => ?_⟩
      · simp only [aff]; linarith
      · simp only [aff]; linarith
      · obtain ⟨h1, h2⟩ := hcd y hy
        have h3 := mul_pos (show 0 < sign * (w 0 - v 0) by linarith) h1
        simp only [aff] at h3 hNdef ⊢
        rw [h2] at h3 ⊢
        rw [hNdef] at hN ⊢
        have e : sign * (w 0 - v 0) * (a * (sign * h 0) + b * y 1 + c) =
          (h 0 - sign * v 0) * (a * w 0 + b * w 1 + c) + (sign * w 0 - h 0) * (a * v 0 + b * v 1 + c) +
          sign * b * ((w 0 - v 0) * (y 1 - v 1) - (w 1 - v 1) * (sign * h 0 - v 0)) := by
          linear_combination (a * h 0 * (w 0 - v 0) - b * h 0 * (w 1 - v 1) * 0) * hs + (b * h 0 * (w 1 - v 1)) * hs
        rw [e] at h3
        linarith
    · simp only [Fin.mk_one, Fin.isValue] at *
      refine ⟨-(sign * a * (w 1 - v 1)), sign * a * (w 0 - v 0), sign * a * ((w 1 - v 1) * v 0 - (w 0 - v 0) * v 1) - N / 2, ?_, ?_, fun y hy => ?_⟩
      · simp only [aff]; linarith
      · simp only [aff]; linarith
      · obtain ⟨h1, h2⟩ := hcd y hy
        have h3 := mul_pos (show 0 < sign * (w 1 - v 1) by linarith) h1
        simp only [aff] at h3 hNdef ⊢
        rw [h2] at h3 ⊢
        rw [hNdef] at hN ⊢
        have e : sign * (w 1 - v 1) * (a * y 0 + b * (sign * h 1) + c) =
          (h 1 - sign * v 1) * (a * w 0 + b * w 1 + c) + (sign * w 1 - h 1) * (a * v 0 + b * v 1 + c) +
          sign * a * ((w 1 - v 1) * (y 0 - v 0) - (w 0 - v 0) * (sign * h 1 - v 1)) := by
          linear_combination (b * h 1 * (w 1 - v 1)) * hs + (a * h 1 * (w 0 - v 0)) * hs
        rw [e] at h3
        linarith
  obtain ⟨x1, x2, y1, y2, hx1, hx2, hy1, hy2, hsub⟩ := four_points (cr := chopCrossing h dir sign) hv hw
    (show Inside h dir sign v ≠ Inside h dir sign w by simp [hvi, hwi])
  have p1 : 0 < aff a' b' c' x1 := by rcases hx1 with rfl | rfl <;> assumption
  have p2 : 0 < aff a' b' c' x2 := by rcases hx2 with rfl | rfl <;> assumption
  have n1 := hy' y1 hy1
  have n2 := hy' y2 hy2
  rcases hsub with hsub | hsub
  · have h1 := alt_sublist (hsub.map (aff a' b' c')) true
    have h2 := refined_runs (h := h) (dir := dir) hs hq a' b' c' true
    have h3 : alt true ([x1, y1, x2, y2].map (aff a' b' c')) = 4 := by simp [alt, HasSign, p1, p2, n1, n2]
    omega
  · have h1 := alt_sublist (hsub.map (aff a' b' c')) false
    have h2 := refined_runs (h := h) (dir := dir) hs hq a' b' c' false
    have h3 : alt false ([y2, x1, y1, x2].map (aff a' b' c')) = 4 := by simp [alt, HasSign, p1, p2, n1, n2]
    omega

/-- The part of the polygon strictly inside the chopping line is not lost. -/
theorem chop1_complete (hs : sign * sign = 1) {q : List Pt2} (hq : ConvexPolygon q) {z : Pt2} (hz : z ∈ convexHull ℝ {x | x ∈ q}) (hi : sign * z dir < h dir) :
    z ∈ convexHull ℝ {x | x ∈ chop1 h dir sign q} := by
  by_contra hn
  have hfin : {x | x ∈ chop1 h dir sign q}.Finite := List.finite_toSet _
  obtain ⟨f, u, hfz, hfr⟩ := geometric_hahn_banach_point_closed (convex_convexHull ℝ _) (hfin.isClosed_convexHull ℝ) hn
  have hlin : ∀ x : Pt2, aff (f ![1, 0]) (f ![0, 1]) (-u) x = f x - u := by
    intro x
    have e : x = x 0 • (![1, 0] : Pt2) + x 1 • (![0, 1] : Pt2) := by
      funext k; fin_cases k <;> simp
    conv_rhs => rw [e, map_add, map_smul, map_smul]
    simp only [aff, smul_eq_mul]; ring
  set g := aff (f ![1, 0]) (f ![0, 1]) (-u) with hgdef
  have hg : ∀ y ∈ chop1 h dir sign q, 0 < g y := fun y hy => by
    rw [hlin]; have := hfr y (subset_convexHull ℝ {x | x ∈ chop1 h dir sign q} hy); linarith
  have hgz : g z < 0 := by rw [hlin]; linarith
  -- half-planes that contain the polygon contain its hull
  have hhull : ∀ a b c : ℝ, (∀ x ∈ q, 0 ≤ aff a b c x) → 0 ≤ aff a b c z := by
    intro a b c hx
    have hconv : Convex ℝ {x : Pt2 | 0 ≤ aff a b c x} := by
      intro x hx y hy s t hs ht hst
      have e : aff a b c (s • x + t • y) = s * aff a b c x + t * aff a b c y := by
        simp only [aff, Pi.add_apply, Pi.smul_apply, smul_eq_mul]
        linear_combination (-c) * hst
      simp only [Set.mem_ofPred_eq] at hx hy ⊢
      rw [e]; positivity
    exact convexHull_min (fun x hxq => hx x hxq) hconv hz
  obtain ⟨a1, b1, c1, hd⟩ : ∃ a b c, ∀ x, aff a b c x = sign * x dir - h dir := by
    fin_cases dir
    · exact ⟨sign, 0, -h 0, fun z => by simp [aff]; ring⟩
    · exact ⟨0, sign, -h 1, fun z => by simp [aff]; ring⟩
  have hne : {v | v ∈ q ∧ Inside h dir sign v}.Nonempty := by
    by_contra hc
    rw [Set.not_nonempty_iff_eq_empty, Set.eq_empty_iff_forall_notMem] at hc
    have := hhull a1 b1 c1 fun x hx => by
      rw [hd]
      have : ¬Inside h dir sign x := fun hx' => hc x ⟨hx, hx'⟩
      have := not_lt.mp this
      linarith
    rw [hd] at this
    linarith
  have hfin2 : {v | v ∈ q ∧ Inside h dir sign v}.Finite := (List.finite_toSet q).subset fun x hx => hx.1
  obtain ⟨v, ⟨hv, hvi⟩, hmin⟩ := Set.exists_min_image _ (fun x => g x / (h dir - sign * x dir)) hfin2 hne
  have hvi' : 0 < h dir - sign * v dir := by have : sign * v dir < h dir := hvi; linarith
  have hvg : 0 < g v := by
    apply hg
    have : ∀ (last : Pt2) (l : List Pt2), v ∈ l → v ∈ chopped (Inside h dir sign) (chopCrossing h dir sign) last l := by
      intro last l
      induction l with
      | nil => simp
      | cons p rest ih =>
        intro hm
        rw [chopped, List.mem_append, List.mem_append]
        rcases List.mem_cons.mp hm with rfl | hm
        · exact Or.inl (by rw [if_pos hvi]; simp)
        · exact Or.inr (Or.inr (ih hm))
    exact this _ _ hv
  set μ := g v / (h dir - sign * v dir) with hμ
  have hμ0 : 0 ≤ μ := div_nonneg hvg.le hvi'.le
  have hμv : μ * (h dir - sign * v dir) = g v := div_mul_cancel₀ _ hvi'.ne'
  have hcomb : ∀ x, aff (f ![1, 0] + μ * a1) (f ![0, 1] + μ * b1) (-u + μ * c1) x = g x + μ * (sign * x dir - h dir) := by
    intro x; rw [← hd, hgdef]; simp only [aff]; ring
  have := hhull _ _ _ fun x hx => by
    rw [hcomb]
    by_cases hxi : Inside h dir sign x
    · have h1 := hmin x ⟨hx, hxi⟩
      have h2 : 0 < h dir - sign * x dir := by have : sign * x dir < h dir := hxi; linarith
      rw [le_div_iff₀ h2] at h1
      linarith
    · have h1 := cross_between hs hq hv hx hvi hxi _ _ _ hg
      rw [← hgdef, ← hμv] at h1
      have h2 : 0 ≤ (h dir - sign * v dir) * (g x + μ * (sign * x dir - h dir)) := by linarith
      exact nonneg_of_mul_nonneg_right h2 hvi'
  rw [hcomb] at this
  have : μ * (sign * z dir - h dir) ≤ 0 := mul_nonpos_of_nonneg_of_nonpos hμ0 (by linarith)
  linarith

theorem pushPoint_eq {r : List Pt2} (hr : r.length ≤ 7) (p : Pt2) : pushPoint r p = (r ++ [p], decide (r.length = 7)) := by
  unfold pushPoint
  congr 1
  generalize r.length = n at hr
  interval_cases n <;> decide

/-- The loop writes the chopped polygon, as far as there is room. -/
theorem chopLoop_eq (first : Pt2) (q r : List Pt2) (hr : r.length ≤ 7) :
    chopLoop h dir sign first q r =
      ((r ++ chopped (Inside h dir sign) (chopCrossing h dir sign) first q).take 8,
        decide (8 ≤ (r ++ chopped (Inside h dir sign) (chopCrossing h dir sign) first q).length)) := by
  classical
  induction q generalizing r with
  | nil =>
    simp only [chopLoop, chopped, List.append_nil]
    rw [List.take_of_length_le (by omega)]
    simp; omega
  | cons p rest ih =>
    rw [chopLoop, chopped]
    have key : ∀ r' : List Pt2, r'.length ≤ 7 →
        (let cross := if (sign * p dir < h dir) ≠ (sign * (rest.headD first) dir < h dir) then pushPoint r' (chopCrossing h dir sign p (rest.headD first)) else (r', false)
          if cross.2 then cross else chopLoop h dir sign first rest cross.1) =
        ((r' ++ (edgePoint (Inside h dir sign) (chopCrossing h dir sign) p (rest.headD first) ++ chopped (Inside h dir sign) (chopCrossing h dir sign) first rest)).take 8,
        decide (8 ≤ (r' ++ (edgePoint (Inside h dir sign) (chopCrossing h dir sign) p (rest.headD first) ++ chopped (Inside h dir sign) (chopCrossing h dir sign) first rest)).length)) := by
      intro r' hr'
      by_cases hc : Inside h dir sign p = Inside h dir sign (rest.headD first)
      · rw [edgePoint_neg hc]
        have hc' : ¬(sign * p dir < h dir) ≠ (sign * (rest.headD first) dir < h dir) := fun hn => hn hc
        simp only [if_neg hc', List.nil_append, Bool.false_eq_true, if_false]
        exact ih r' hr'
      · rw [edgePoint_pos hc]
        have hc' : (sign * p dir < h dir) ≠ (sign * (rest.headD first) dir < h dir) := hc
        simp only [if_pos hc', pushPoint_eq hr']
        by_cases h7 : r'.length = 7
        · simp only [h7, decide_true, if_true, ← List.append_assoc]
          rw [List.take_append_of_le_length (by simp [h7]), List.take_of_length_le (by simp [h7])]
          simp [h7]; omega
        · simp only [h7, decide_false, Bool.false_eq_true, if_false, ← List.append_assoc]
          exact ih _ (by simp; omega)
    by_cases hp : sign * p dir < h dir
    · have hp' : Inside h dir sign p := hp
      simp only [if_pos hp, if_pos hp', pushPoint_eq hr, ← List.append_assoc]
      by_cases h7 : r.length = 7
      · simp only [h7, decide_true, if_true]
        rw [List.append_assoc, List.take_append_of_le_length (by simp [h7]), List.take_of_length_le (by simp [h7])]
        simp [h7]; omega
      · have h := key (r ++ [p]) (by simp; omega)
        simp only [h7, decide_false, Bool.false_eq_true, if_false]
        simp only [← List.append_assoc] at h
        exact h
    · have hp' : ¬Inside h dir sign p := hp
      simp only [if_neg hp, if_neg hp', List.nil_append, Bool.false_eq_true, if_false]
      exact key r hr

end OneChop

/-! ## The whole clipping -/

theorem chopAll_spec (h : Pt2) (todo : List (Fin 2 × ℝ)) (hs : ∀ t ∈ todo, t.2 * t.2 = 1) (q : List Pt2) (hq : ConvexPolygon q)
    (hl : q.length + todo.length ≤ 8) :
    (∀ y ∈ chopAll h todo q, y ∈ convexHull ℝ {x | x ∈ q} ∧ ∀ t ∈ todo, t.2 * y t.1 ≤ h t.1) ∧
    (∀ z ∈ convexHull ℝ {x | x ∈ q}, (∀ t ∈ todo, t.2 * z t.1 < h t.1) → z ∈ convexHull ℝ {x | x ∈ chopAll h todo q}) ∧
    (chopAll h todo q).length ≤ q.length + todo.length := by
  induction todo generalizing q with
  | nil => exact ⟨fun y hy => ⟨subset_convexHull ℝ {x | x ∈ q} hy, by simp⟩, fun z hz _ => hz, by simp [chopAll]⟩
  | cons t todo ih =>
    obtain ⟨dir, sign⟩ := t
    have hs1 : sign * sign = 1 := hs (dir, sign) (by simp)
    have hlen := chop1_length (h := h) (dir := dir) (sign := sign) hq
    simp only [List.length_cons] at hl
    have e : chopAll h ((dir, sign) :: todo) q = chopAll h todo (chop1 h dir sign q) := by
      rw [chopAll, chopLoop_eq _ _ _ (by simp)]
      simp only [List.nil_append]
      change (if decide (8 ≤ (chop1 h dir sign q).length) = true then (chop1 h dir sign q).take 8 else chopAll h todo ((chop1 h dir sign q).take 8)) = _
      rw [List.take_of_length_le (by omega)]
      split
      · next h8 =>
        rw [decide_eq_true_eq] at h8
        have : todo = [] := List.eq_nil_of_length_eq_zero (by omega)
        rw [this]; rfl
      · rfl
    rw [e]
    obtain ⟨i1, i2, i3⟩ := ih (fun t ht => hs t (by simp [ht])) _ (chop1_convex (h := h) (dir := dir) hs1 hq) (by omega)
    have hsub : convexHull ℝ {x | x ∈ chop1 h dir sign q} ⊆ convexHull ℝ {x | x ∈ q} ∩ {y | sign * y dir ≤ h dir} := by
      apply convexHull_min
      · intro y hy
        exact chop1_sound hs1 hy
      · apply Convex.inter (convex_convexHull ℝ _)
        intro x hx y hy s t hs ht hst
        simp only [Set.mem_ofPred_eq, Pi.add_apply, Pi.smul_apply, smul_eq_mul] at hx hy ⊢
        have h1 := mul_le_mul_of_nonneg_left hx hs
        have h2 := mul_le_mul_of_nonneg_left hy ht
        have h3 : s * h dir + t * h dir = h dir := by rw [← add_mul, hst, one_mul]
        linarith
    refine ⟨fun y hy => ?_, fun z hz hi => ?_, by simp only [List.length_cons]; omega⟩
    · obtain ⟨j1, j2⟩ := i1 y hy
      refine ⟨(hsub j1).1, fun t ht => ?_⟩
      rcases List.mem_cons.mp ht with rfl | ht
      · exact (hsub j1).2
      · exact j2 t ht
    · exact i2 z (chop1_complete hs1 hq hz (hi (dir, sign) (by simp))) fun t ht => hi t (by simp [ht])

/-- `intersectRectQuad` on a parallelogram: its points are in the parallelogram and in the rectangle, and what the two have in common strictly inside the
rectangle is in their convex hull. -/
theorem intersectRectQuad_spec (h : Pt2) (x y z w : Pt2) (hp : x + z = y + w) :
    (∀ r ∈ intersectRectQuad h [x, y, z, w], r ∈ convexHull ℝ {p | p ∈ [x, y, z, w]} ∧ ∀ k, |r k| ≤ h k) ∧
    (∀ r ∈ convexHull ℝ {p | p ∈ [x, y, z, w]}, (∀ k, |r k| < h k) → r ∈ convexHull ℝ {p | p ∈ intersectRectQuad h [x, y, z, w]}) ∧
    (intersectRectQuad h [x, y, z, w]).length ≤ 8 := by
  obtain ⟨h1, h2, h3⟩ := chopAll_spec h [(0, -1), (0, 1), (1, -1), (1, 1)] (by simp) _ (parallelogram_convex x y z w hp) (by simp)
  refine ⟨fun r hr => ⟨(h1 r hr).1, fun k => ?_⟩, fun r hr hk => h2 r hr ?_, h3⟩
  · have h4 := (h1 r hr).2
    fin_cases k
    · have a := h4 (0, -1) (by simp)
      have b := h4 (0, 1) (by simp)
      simp only [neg_mul, one_mul] at a b
      exact abs_le.mpr ⟨by simp; linarith, b⟩
    · have a := h4 (1, -1) (by simp)
      have b := h4 (1, 1) (by simp)
      simp only [neg_mul, one_mul] at a b
      exact abs_le.mpr ⟨by simp; linarith, b⟩
  · have a := abs_lt.mp (hk 0)
    have b := abs_lt.mp (hk 1)
    intro t ht
    simp only [List.mem_cons, List.not_mem_nil, or_false] at ht
    rcases ht with rfl | rfl | rfl | rfl <;> simp <;> linarith [a.1, a.2, b.1, b.2]

end Scisim
