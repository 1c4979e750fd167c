import Verif.Spec.Edits
/-!
# Lemmas on editing states
-/

namespace Scisim

namespace Arr
variable {α : Type}

theorem get_set (a : Arr α) (i k : Nat) (x : α) : (a.set i x).get k = if k = i then x else a.get k := rfl
theorem size_set (a : Arr α) (i : Nat) (x : α) : (a.set i x).size = a.size := rfl
theorem size_copy3 (a : Arr α) (t f : Nat) : (a.copy3 t f).size = a.size := rfl

theorem get_copy3 (a : Arr α) (t f k : Nat) (h : t = f ∨ t + 3 ≤ f) :
    (a.copy3 t f).get k = if k = t then a.get f else if k = t + 1 then a.get (f + 1) else if k = t + 2 then a.get (f + 2) else a.get k := by
  unfold copy3
  simp only [get_set]
  grind

theorem toList_set (a : Arr α) (n i : Nat) (x : α) (h : n ≤ i) : (List.range n).map (a.set i x).get = (List.range n).map a.get := by
  apply List.map_congr_left
  intro k hk
  rw [List.mem_range] at hk
  rw [get_set, if_neg (by omega)]

end Arr

/-! ## Positions -/

theorem zipIdx_range' {α : Type} (f : Nat → α) (m k : Nat) : ((List.range' k m).map f).zipIdx k = (List.range' k m).map fun i => (f i, i) := by
  induction m generalizing k with
  | zero => rfl
  | succ m ih =>
    rw [List.range'_succ]
    simp only [List.map_cons, List.zipIdx_cons]
    rw [ih]

theorem withoutPositions_range {α : Type} (f : Nat → α) (n : Nat) (pos : List Nat) :
    withoutPositions ((List.range n).map f) pos = ((List.range n).filter fun i => decide (i ∉ pos)).map f := by
  unfold withoutPositions
  rw [List.range_eq_range', zipIdx_range', List.filter_map, List.map_map]
  rfl

namespace RbStore
variable {S G : Type}

/-! ## Deleting bodies -/

theorem markBodies_ok [HasNaN S] (is : List Nat) : ∀ q : Arr S, (∀ i ∈ is, 3 * i < q.size) →
    ∃ q', markBodies q is = .ok q' ∧ q'.size = q.size ∧ (∀ k, (∀ i ∈ is, k ≠ 3 * i) → q'.get k = q.get k) ∧
      (∀ i ∈ is, HasNaN.isNaN (q'.get (3 * i)) = true) := by
  induction is with
  | nil => intro q _; exact ⟨q, rfl, rfl, fun _ _ => rfl, fun _ h => by cases h⟩
  | cons j js ih =>
    intro q hq
    obtain ⟨q', h1, h2, h3, h4⟩ := ih (q.set (3 * j) HasNaN.nan) (fun i hi => hq i (List.mem_cons_of_mem _ hi))
    refine ⟨q', ?_, h2, ?_, ?_⟩
    · rw [markBodies, if_pos (hq j List.mem_cons_self)]; exact h1
    · intro k hk
      rw [h3 k (fun i hi => hk i (List.mem_cons_of_mem _ hi)), Arr.get_set, if_neg (hk j List.mem_cons_self)]
    · intro i hi
      by_cases hj : i ∈ js
      · exact h4 i hj
      · rcases List.mem_cons.mp hi with rfl | h
        · have : q'.get (3 * i) = (q.set (3 * i) HasNaN.nan).get (3 * i) := by
            apply h3
            intro i' hi' e
            have : i' = i := by omega
            subst this
            exact hj hi'
          rw [this, Arr.get_set, if_pos rfl]
          exact HasNaN.isNaN_nan
        · exact absurd h hj

/-- a body is kept if its first coordinate is a number -/
def keepBody [HasNaN S] (q : Arr S) (i : Nat) : Bool := !HasNaN.isNaN (q.get (3 * i))

theorem skipMarked_spec [HasNaN S] (q : Arr S) (n : Nat) : ∀ k f, n - f = k → f ≤ n →
    f ≤ skipMarked q n f ∧ skipMarked q n f ≤ n ∧ (skipMarked q n f < n → keepBody q (skipMarked q n f) = true) ∧
      (List.range' f (n - f)).filter (keepBody q) = (List.range' (skipMarked q n f) (n - skipMarked q n f)).filter (keepBody q) := by
  intro k
  induction k with
  | zero =>
    intro f hk hf
    have : ¬ f < n := by omega
    unfold skipMarked
    rw [dif_neg this]
    exact ⟨Nat.le_refl _, hf, fun h => absurd h this, rfl⟩
  | succ k ih =>
    intro f hk hf
    have hlt : f < n := by omega
    unfold skipMarked
    rw [dif_pos hlt]
    by_cases h : HasNaN.isNaN (q.get (3 * f)) = true
    · rw [if_pos h]
      obtain ⟨h1, h2, h3, h4⟩ := ih (f + 1) (by omega) (by omega)
      refine ⟨by omega, h2, h3, ?_⟩
      rw [← h4]
      have e : n - f = (n - (f + 1)) + 1 := by omega
      rw [e, List.range'_succ, List.filter_cons_of_neg]
      unfold keepBody
      rw [h]
      simp
    · rw [if_neg h]
      refine ⟨Nat.le_refl _, hf, fun _ => ?_, rfl⟩
      unfold keepBody
      simp only [Bool.not_eq_true] at h
      rw [h]
      rfl

theorem body_copyBody (s : RbStore S G) (t f i : Nat) (h : t ≤ f) : (copyBody s t f).body i = if i = t then s.body f else s.body i := by
  have h3 : 3 * t = 3 * f ∨ 3 * t + 3 ≤ 3 * f := by omega
  by_cases hi : i = t
  · subst hi
    rw [if_pos rfl]
    unfold body copyBody
    simp only [Arr.get_copy3 _ _ _ _ h3, Arr.get_set, if_pos]
    have a1 : ¬ 3 * i + 1 = 3 * i := by omega
    have a2 : ¬ 3 * i + 2 = 3 * i := by omega
    have a3 : ¬ 3 * i + 2 = 3 * i + 1 := by omega
    simp only [if_neg a1, if_neg a2, if_neg a3]
  · rw [if_neg hi]
    unfold body copyBody
    simp only [Arr.get_copy3 _ _ _ _ h3, Arr.get_set, if_neg hi]
    have : ∀ a < 3, ∀ b < 3, ¬ 3 * i + a = 3 * t + b := by intro a _ b _; omega
    have b00 := this 0 (by omega) 0 (by omega)
    have b01 := this 0 (by omega) 1 (by omega)
    have b02 := this 0 (by omega) 2 (by omega)
    have b10 := this 1 (by omega) 0 (by omega)
    have b11 := this 1 (by omega) 1 (by omega)
    have b12 := this 1 (by omega) 2 (by omega)
    have b20 := this 2 (by omega) 0 (by omega)
    have b21 := this 2 (by omega) 1 (by omega)
    have b22 := this 2 (by omega) 2 (by omega)
    simp only [Nat.add_zero] at b00 b01 b02 b10 b20
    simp only [if_neg b00, if_neg b01, if_neg b02, if_neg b10, if_neg b11, if_neg b12, if_neg b20, if_neg b21, if_neg b22]

/-- the part of the state that compaction does not touch -/
structure SameShape (s s' : RbStore S G) : Prop where
  q : s'.q.size = s.q.size
  v : s'.v.size = s.v.size
  M : s'.M.size = s.M.size
  Minv : s'.Minv.size = s.Minv.size
  fixed : s'.fixed.size = s.fixed.size
  geoIdx : s'.geoIdx.size = s.geoIdx.size
  geo : s'.geo = s.geo

theorem compactBodies_spec [HasNaN S] (n : Nat) : ∀ k (s : RbStore S G) t f, n - f = k → t ≤ f → f ≤ n →
    (List.range (compactBodies n s t f).2).map (compactBodies n s t f).1.body =
      (List.range t).map s.body ++ ((List.range' f (n - f)).filter (keepBody s.q)).map s.body ∧
    (List.range (compactBodies n s t f).2).map (compactBodies n s t f).1.geoIdx.get =
      (List.range t).map s.geoIdx.get ++ ((List.range' f (n - f)).filter (keepBody s.q)).map s.geoIdx.get ∧
    SameShape s (compactBodies n s t f).1 := by
  intro k
  induction k using Nat.strongRecOn with
  | _ k ih =>
    intro s t f hk htf hfn
    unfold compactBodies
    obtain ⟨h1, h2, h3, h4⟩ := skipMarked_spec s.q n _ f rfl hfn
    by_cases hlt : f < n
    · rw [dif_pos hlt]
      rw [h4]
      by_cases he : skipMarked s.q n f = n
      · rw [if_pos he, he, Nat.sub_self]
        simp only [List.range'_zero, List.filter_nil, List.map_nil, List.append_nil]
        exact ⟨trivial, trivial, ⟨rfl, rfl, rfl, rfl, rfl, rfl, rfl⟩⟩
      · rw [if_neg he]
        generalize hg : skipMarked s.q n f = g at *
        have hgn : g < n := by omega
        obtain ⟨i1, i2, i3⟩ := ih (n - (g + 1)) (by omega) (copyBody s t g) (t + 1) (g + 1) rfl (by omega) (by omega)
        have htg : t ≤ g := by omega
        have e : n - g = (n - (g + 1)) + 1 := by omega
        have hkeep : (List.range' (g + 1) (n - (g + 1))).filter (keepBody (copyBody s t g).q) = (List.range' (g + 1) (n - (g + 1))).filter (keepBody s.q) := by
          apply List.filter_congr
          intro i hi
          rw [List.mem_range'_1] at hi
          unfold keepBody
          have : (copyBody s t g).q.get (3 * i) = s.q.get (3 * i) := by
            unfold copyBody
            simp only
            rw [Arr.get_copy3 _ _ _ _ (by omega), if_neg (by omega), if_neg (by omega), if_neg (by omega)]
          rw [this]
        rw [i1, i2, hkeep, e, List.range'_succ, List.filter_cons_of_pos (h3 hgn)]
        refine ⟨?_, ?_, ⟨i3.q, i3.v, i3.M, i3.Minv, i3.fixed, i3.geoIdx, i3.geo⟩⟩
        · rw [List.range_succ, List.map_append, List.append_assoc]
          congr 1
          · apply List.map_congr_left
            intro i hi
            rw [List.mem_range] at hi
            rw [body_copyBody _ _ _ _ htg, if_neg (by omega)]
          · simp only [List.map_cons, List.map_nil, List.singleton_append]
            rw [body_copyBody _ _ _ _ htg, if_pos rfl]
            congr 1
            apply List.map_congr_left
            intro i hi
            rw [List.mem_filter, List.mem_range'_1] at hi
            rw [body_copyBody _ _ _ _ htg, if_neg (by omega)]
        · rw [List.range_succ, List.map_append, List.append_assoc]
          have eg : ∀ i, (copyBody s t g).geoIdx.get i = if i = t then s.geoIdx.get g else s.geoIdx.get i := fun i => rfl
          congr 1
          · apply List.map_congr_left
            intro i hi
            rw [List.mem_range] at hi
            rw [eg, if_neg (by omega)]
          · simp only [List.map_cons, List.map_nil, List.singleton_append]
            rw [eg, if_pos rfl]
            congr 1
            apply List.map_congr_left
            intro i hi
            rw [List.mem_filter, List.mem_range'_1] at hi
            rw [eg, if_neg (by omega)]
    · rw [dif_neg hlt]
      have : n - f = 0 := by omega
      rw [this]
      simp only [List.range'_zero, List.filter_nil, List.map_nil, List.append_nil]
      exact ⟨trivial, trivial, ⟨rfl, rfl, rfl, rfl, rfl, rfl, rfl⟩⟩

/-- what `removeBodies` does, also for bodies whose position is not a number -/
theorem removeBodies_spec [HasNaN S] (s : RbStore S G) (hs : s.Consistent) (is : List Nat) (hne : is ≠ []) (hr : ∀ i ∈ is, i < s.nbodies) :
    ∃ s', s.removeBodies is = .ok s' ∧
      s'.bodies = ((List.range s.nbodies).filter fun i => decide (i ∉ is) && keepBody s.q i).map s.body ∧
      s'.geoIdx.toList = ((List.range s.nbodies).filter fun i => decide (i ∉ is) && keepBody s.q i).map s.geoIdx.get ∧
      s'.geo = s.geo ∧ s'.q.size % 3 = 0 ∧ s'.v.size = s'.q.size ∧ s'.M.size = s'.q.size ∧ s'.Minv.size = s'.q.size ∧
      s'.fixed.size = s'.q.size / 3 ∧ s'.geoIdx.size = s'.q.size / 3 := by
  have hn : s.nbodies = s.q.size / 3 := rfl
  have hq3 := hs.q
  obtain ⟨q', m1, m2, m3, m4⟩ := markBodies_ok is s.q (fun i hi => by have := hr i hi; omega)
  have hlen : ¬ is.length = 0 := by intro h; exact hne (List.length_eq_zero_iff.mp h)
  unfold removeBodies
  rw [if_neg hlen, m1]
  simp only [Outcome.bind]
  have hnb : ({ s with q := q' } : RbStore S G).nbodies = s.nbodies := by unfold nbodies; simp only [m2]
  rw [hnb]
  obtain ⟨c1, c2, c3⟩ := compactBodies_spec s.nbodies (s.nbodies - 0) ({ s with q := q' } : RbStore S G) 0 0 rfl (Nat.le_refl _) (Nat.zero_le _)
  simp only [List.range_zero, List.map_nil, List.nil_append, Nat.sub_zero, ← List.range_eq_range'] at c1 c2
  generalize hR : compactBodies s.nbodies ({ s with q := q' } : RbStore S G) 0 0 = R at *
  have hfil : (List.range s.nbodies).filter (keepBody q') = (List.range s.nbodies).filter fun i => decide (i ∉ is) && keepBody s.q i := by
    apply List.filter_congr
    intro i _
    by_cases hi : i ∈ is
    · have : keepBody q' i = false := by unfold keepBody; rw [m4 i hi]; rfl
      rw [this]
      simp [hi]
    · have : q'.get (3 * i) = s.q.get (3 * i) := by
        apply m3
        intro j hj e
        have : i = j := by omega
        subst this
        exact hi hj
      unfold keepBody
      rw [this]
      simp [hi]
  refine ⟨_, rfl, ?_, ?_, c3.geo, ?_, rfl, rfl, rfl, ?_, ?_⟩
  · unfold bodies
    simp only [Arr.resize]
    rw [Nat.mul_div_cancel_left _ (by omega)]
    have : (List.range R.2).map R.1.body = ((List.range s.nbodies).filter fun i => decide (i ∉ is) && keepBody s.q i).map s.body := by
      rw [c1, hfil]
      apply List.map_congr_left
      intro i hi
      rw [List.mem_filter, Bool.and_eq_true, decide_eq_true_eq] at hi
      have hi' : i ∉ is := hi.2.1
      have e : ∀ a < 3, q'.get (3 * i + a) = s.q.get (3 * i + a) := by
        intro a ha
        apply m3
        intro j hj e
        have : i = j := by omega
        subst this
        exact hi' hj
      have e0 := e 0 (by omega)
      have e1 := e 1 (by omega)
      have e2 := e 2 (by omega)
      simp only [Nat.add_zero] at e0
      unfold body
      simp only [e0, e1, e2]
    rw [← this]
    rfl
  · simp only [Arr.toList, Arr.resize]
    rw [c2, hfil]
  · simp only [Arr.resize]; omega
  · simp only [Arr.resize]; omega
  · simp only [Arr.resize]; omega

/-! ## Deleting geometry -/

theorem markGeometry_ok (is : List Nat) : ∀ g : Arr (Option G), (∀ i ∈ is, i < g.size) →
    ∃ g', markGeometry g is = .ok g' ∧ g'.size = g.size ∧ ∀ k, g'.get k = if k ∈ is then none else g.get k := by
  induction is with
  | nil => intro g _; exact ⟨g, rfl, rfl, fun k => by simp⟩
  | cons j js ih =>
    intro g hg
    obtain ⟨g', h1, h2, h3⟩ := ih (g.set j none) (fun i hi => hg i (List.mem_cons_of_mem _ hi))
    refine ⟨g', ?_, h2, ?_⟩
    · rw [markGeometry, if_pos (hg j List.mem_cons_self)]; exact h1
    · intro k
      rw [h3 k, Arr.get_set]
      by_cases hk : k ∈ js
      · rw [if_pos hk, if_pos (List.mem_cons_of_mem _ hk)]
      · rw [if_neg hk]
        by_cases hj : k = j
        · subst hj; rw [if_pos rfl, if_pos List.mem_cons_self]
        · rw [if_neg hj, if_neg]
          rintro hm
          rcases List.mem_cons.mp hm with h | h
          · exact hj h
          · exact hk h

theorem skipNull_spec (g : Arr (Option G)) (n : Nat) : ∀ k f, n - f = k → f ≤ n →
    f ≤ skipNull g n f ∧ skipNull g n f ≤ n ∧ (skipNull g n f < n → (g.get (skipNull g n f)).isSome = true) ∧
      (∀ i, f ≤ i → i < skipNull g n f → g.get i = none) ∧
      (List.range' f (n - f)).filter (fun i => (g.get i).isSome) = (List.range' (skipNull g n f) (n - skipNull g n f)).filter fun i => (g.get i).isSome := by
  intro k
  induction k with
  | zero =>
    intro f hk hf
    have : ¬ f < n := by omega
    unfold skipNull
    rw [dif_neg this]
    exact ⟨Nat.le_refl _, hf, fun h => absurd h this, fun i h1 h2 => absurd h2 (by omega), rfl⟩
  | succ k ih =>
    intro f hk hf
    have hlt : f < n := by omega
    unfold skipNull
    rw [dif_pos hlt]
    by_cases h : (g.get f).isNone = true
    · rw [if_pos h]
      obtain ⟨h1, h2, h3, h4, h5⟩ := ih (f + 1) (by omega) (by omega)
      rw [Option.isNone_iff_eq_none] at h
      refine ⟨by omega, h2, h3, ?_, ?_⟩
      · intro i hi1 hi2
        by_cases e : i = f
        · subst e; exact h
        · exact h4 i (by omega) hi2
      · rw [← h5]
        have e : n - f = (n - (f + 1)) + 1 := by omega
        rw [e, List.range'_succ, List.filter_cons_of_neg]
        rw [h]
        simp
    · rw [if_neg h]
      refine ⟨Nat.le_refl _, hf, fun _ => ?_, fun i h1 h2 => absurd h2 (by omega), rfl⟩
      cases hg : g.get f with
      | none => rw [hg] at h; exact absurd rfl h
      | some x => rfl

theorem get_moveGeo (g : Arr (Option G)) (t f k : Nat) : (moveGeo g t f).get k = if k = t then g.get f else if k = f then none else g.get k := rfl

theorem compactGeometry_spec (n : Nat) : ∀ k (g : Arr (Option G)) (m : Arr Nat) t f, n - f = k → t ≤ f → f ≤ n →
    (List.range (compactGeometry n g m t f).2.2).map (compactGeometry n g m t f).1.get =
      (List.range t).map g.get ++ ((List.range' f (n - f)).filter fun i => (g.get i).isSome).map g.get ∧
    (∀ i, (i < f ∨ n ≤ i ∨ g.get i = none) → (compactGeometry n g m t f).2.1.get i = m.get i) ∧
    (∀ i, f ≤ i → i < n → (g.get i).isSome = true →
      (compactGeometry n g m t f).2.1.get i = t + ((List.range' f (i - f)).filter fun j => (g.get j).isSome).length ∧
      (compactGeometry n g m t f).2.1.get i < (compactGeometry n g m t f).2.2) ∧
    t ≤ (compactGeometry n g m t f).2.2 := by
  intro k
  induction k using Nat.strongRecOn with
  | _ k ih =>
    intro g m t f hk htf hfn
    unfold compactGeometry
    obtain ⟨h1, h2, h3, h4, h5⟩ := skipNull_spec g n _ f rfl hfn
    by_cases hlt : f < n
    · rw [dif_pos hlt]
      by_cases he : skipNull g n f = n
      · rw [if_pos he]
        rw [h5, he, Nat.sub_self]
        simp only [List.range'_zero, List.filter_nil, List.map_nil, List.append_nil]
        refine ⟨trivial, fun _ _ => trivial, ?_, Nat.le_refl _⟩
        intro i hi1 hi2 hi3
        rw [h4 i hi1 (by omega)] at hi3
        cases hi3
      · rw [if_neg he]
        rw [h5]
        generalize hg : skipNull g n f = p at *
        have hpn : p < n := by omega
        have htp : t ≤ p := by omega
        obtain ⟨i1, i2, i3, i4⟩ := ih (n - (p + 1)) (by omega) (moveGeo g t p) (m.set p t) (t + 1) (p + 1) rfl (by omega) (by omega)
        have e : n - p = (n - (p + 1)) + 1 := by omega
        have hsome : ∀ i, p + 1 ≤ i → (moveGeo g t p).get i = g.get i := by
          intro i hi
          rw [get_moveGeo, if_neg (by omega), if_neg (by omega)]
        have hfil : ∀ c, (List.range' (p + 1) c).filter (fun i => ((moveGeo g t p).get i).isSome) = (List.range' (p + 1) c).filter fun i => (g.get i).isSome := by
          intro c
          apply List.filter_congr
          intro i hi
          rw [List.mem_range'_1] at hi
          rw [hsome i hi.1]
        refine ⟨?_, ?_, ?_, by omega⟩
        · rw [i1, hfil, e, List.range'_succ, List.filter_cons_of_pos (p := fun i => (g.get i).isSome) (h3 hpn), List.range_succ, List.map_append, List.append_assoc]
          congr 1
          · apply List.map_congr_left
            intro i hi
            rw [List.mem_range] at hi
            rw [get_moveGeo, if_neg (by omega), if_neg (by omega)]
          · simp only [List.map_cons, List.map_nil, List.singleton_append]
            rw [get_moveGeo, if_pos rfl]
            congr 1
            apply List.map_congr_left
            intro i hi
            rw [List.mem_filter, List.mem_range'_1] at hi
            exact hsome i hi.1.1
        · intro i hi
          have hip : i ≠ p := by
            rintro rfl
            have := h3 hpn
            rcases hi with hi | hi | hi
            · omega
            · omega
            · rw [hi] at this; cases this
          by_cases hcase : i < p + 1 ∨ n ≤ i
          · rw [i2 i (by omega), Arr.get_set, if_neg hip]
          · have hgi : g.get i = none := by
              rcases hi with hi | hi | hi
              · omega
              · omega
              · exact hi
            rw [i2 i (Or.inr (Or.inr (by rw [hsome i (by omega)]; exact hgi))), Arr.get_set, if_neg hip]
        · intro i hi1 hi2 hi3
          have hpi : p ≤ i := by
            rcases Nat.lt_or_ge i p with hc | hc
            · rw [h4 i hi1 hc] at hi3
              cases hi3
            · exact hc
          have hpre : (List.range' f (i - f)).filter (fun j => (g.get j).isSome) = (List.range' p (i - p)).filter fun j => (g.get j).isSome := by
            have e1 : List.range' f (i - f) = List.range' f (p - f) ++ List.range' p (i - p) := by
              have : i - f = (p - f) + (i - p) := by omega
              rw [this, ← List.range'_append_1]
              congr 2
              omega
            rw [e1, List.filter_append]
            have : (List.range' f (p - f)).filter (fun j => (g.get j).isSome) = [] := by
              rw [List.filter_eq_nil_iff]
              intro j hj
              rw [List.mem_range'_1] at hj
              rw [h4 j hj.1 (by omega)]
              simp
            rw [this, List.nil_append]
          rw [hpre]
          by_cases hip : i = p
          · subst hip
            rw [i2 i (by omega), Arr.get_set, if_pos rfl, Nat.sub_self]
            exact ⟨rfl, by omega⟩
          · obtain ⟨j1, j2⟩ := i3 i (by omega) hi2 (by rw [hsome i (by omega)]; exact hi3)
            refine ⟨?_, j2⟩
            rw [j1, hfil]
            have e2 : i - p = (i - (p + 1)) + 1 := by omega
            rw [e2, List.range'_succ, List.filter_cons_of_pos (p := fun i => (g.get i).isSome) (h3 hpn), List.length_cons]
            omega
    · rw [dif_neg hlt]
      have : n - f = 0 := by omega
      rw [this]
      simp only [List.range'_zero, List.filter_nil, List.map_nil, List.append_nil]
      refine ⟨trivial, fun _ _ => trivial, ?_, Nat.le_refl _⟩
      intro i hi1 hi2
      omega

end RbStore

end Scisim
