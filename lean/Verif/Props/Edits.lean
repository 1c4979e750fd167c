import Mathlib.Tactic.Linarith
import Mathlib.Tactic.FieldSimp
import Verif.Lemmas.Edits
/-!
# C41, C42, C43: editing the state
-/

namespace Scisim

variable {S G : Type}

namespace RbStore

theorem mem_bodies (s : RbStore S G) (b : BodyView S G) : b ∈ s.bodies ↔ ∃ i < s.nbodies, s.body i = b := by
  unfold bodies nbodies
  simp [List.mem_map, List.mem_range]

theorem length_bodies (s : RbStore S G) : s.bodies.length = s.nbodies := by
  unfold bodies nbodies; simp

theorem bodies_getElem (s : RbStore S G) (i : Nat) : s.bodies[i]? = if i < s.nbodies then some (s.body i) else none := by
  unfold bodies nbodies
  by_cases h : i < s.q.size / 3
  · rw [if_pos h, List.getElem?_map, List.getElem?_range h]; rfl
  · rw [if_neg h, List.getElem?_eq_none]; simpa using h

theorem toList_getElem {α : Type} (a : Arr α) (i : Nat) : a.toList[i]? = if i < a.size then some (a.get i) else none := by
  unfold Arr.toList
  by_cases h : i < a.size
  · rw [if_pos h, List.getElem?_map, List.getElem?_range h]; rfl
  · rw [if_neg h, List.getElem?_eq_none]; simpa using h

end RbStore

open RbStore

/-- **C41.** Removing any set of bodies leaves exactly the other bodies, in their original order, each with its own configuration, velocity, masses, fixed
flag and geometry (all of them fields of `BodyView`); the geometry instances stay as they are. -/
theorem C41_delete [HasNaN S] (s : RbStore S G) (hs : s.Consistent) (hnum : ∀ b ∈ s.bodies, HasNaN.isNaN b.x = false) (is : List Nat)
    (hr : ∀ i ∈ is, i < s.bodies.length) :
    ∃ s', s.removeBodies is = .ok s' ∧ s'.bodies = withoutPositions s.bodies is ∧ s'.geoIdx.toList = withoutPositions s.geoIdx.toList is ∧
      s'.geometries = s.geometries ∧ s'.Consistent := by
  rw [length_bodies] at hr
  by_cases hne : is = []
  · subst hne
    refine ⟨s, rfl, ?_, ?_, rfl, hs⟩
    · unfold RbStore.bodies
      rw [withoutPositions_range]
      congr 1
      symm
      rw [List.filter_eq_self]
      intro a _
      simp
    · unfold Arr.toList
      rw [withoutPositions_range]
      congr 1
      symm
      rw [List.filter_eq_self]
      intro a _
      simp
  · obtain ⟨s', h1, h2, h3, h4, h5, h6, h7, h8, h9, h10⟩ := removeBodies_spec s hs is hne hr
    have hfil : ((List.range s.nbodies).filter fun i => decide (i ∉ is) && keepBody s.q i) = (List.range s.nbodies).filter fun i => decide (i ∉ is) := by
      apply List.filter_congr
      intro i hi
      rw [List.mem_range] at hi
      have := hnum _ ((mem_bodies s _).mpr ⟨i, hi, rfl⟩)
      have hk : keepBody s.q i = true := by
        unfold keepBody
        have e : s.q.get (3 * i) = (s.body i).x := rfl
        rw [e, this]; rfl
      rw [hk, Bool.and_true]
    rw [hfil] at h2 h3
    refine ⟨s', h1, ?_, ?_, ?_, ⟨h5, h6, h7, h8, h9, h10, ?_, ?_⟩⟩
    · rw [h2]; unfold RbStore.bodies; rw [withoutPositions_range]; rfl
    · rw [h3]; unfold Arr.toList; rw [withoutPositions_range, hs.geoIdx]; rfl
    · unfold RbStore.geometries; rw [h4]
    · intro i hi
      have e := toList_getElem s'.geoIdx i
      rw [h10, if_pos hi, h3] at e
      have hm := List.mem_of_getElem? e
      rw [List.mem_map] at hm
      obtain ⟨j, hj, ej⟩ := hm
      rw [List.mem_filter, List.mem_range] at hj
      rw [← ej, h4]
      exact hs.inRange j hj.1
    · intro g hg; rw [h4] at hg ⊢; exact hs.present g hg

/-- **C41, arguments.** `delete_bodies` ends the program if an index does not exist, and otherwise does what `removeBodies` does. -/
theorem C41_script [HasNaN S] (s : RbStore S G) (is : List Nat) :
    s.scriptDeleteBodies is = if ∀ i ∈ is, i < s.bodies.length then s.removeBodies is else .exit := by
  rw [length_bodies]
  unfold scriptDeleteBodies
  by_cases h : ∀ i ∈ is, i < s.nbodies
  · rw [if_pos h, if_neg]
    rw [List.any_eq_true]
    rintro ⟨i, hi, hd⟩
    rw [decide_eq_true_eq] at hd
    have := h i hi
    omega
  · rw [if_neg h, if_pos]
    rw [List.any_eq_true]
    simp only [not_forall, Nat.not_lt] at h
    obtain ⟨i, hi, hd⟩ := h
    exact ⟨i, hi, decide_eq_true hd⟩

/-- **C41, a caveat.** A body whose horizontal position is not a number is deleted too, whichever bodies were asked for. -/
theorem C41_nan_deleted [HasNaN S] (s : RbStore S G) (hs : s.Consistent) (is : List Nat) (hne : is ≠ []) (hr : ∀ i ∈ is, i < s.bodies.length) :
    ∃ s', s.removeBodies is = .ok s' ∧ ∀ b ∈ s'.bodies, HasNaN.isNaN b.x = false := by
  rw [length_bodies] at hr
  obtain ⟨s', h1, h2, -⟩ := removeBodies_spec s hs is hne hr
  refine ⟨s', h1, ?_⟩
  rw [h2]
  intro b hb
  rw [List.mem_map] at hb
  obtain ⟨i, hi, rfl⟩ := hb
  rw [List.mem_filter, Bool.and_eq_true] at hi
  have := hi.2.2
  unfold keepBody at this
  rw [Bool.not_eq_true'] at this
  exact this

/-! ## Geometry -/

theorem removeGeometry_spec (junk : Nat → Nat) (s : RbStore S G) (hs : s.Consistent) (is : List Nat) (hr : ∀ i ∈ is, i < s.geo.size) :
    ∃ s', s.removeGeometry junk is = .ok s' ∧ s'.geometries = withoutPositions s.geometries is ∧
      s'.q = s.q ∧ s'.v = s.v ∧ s'.M = s.M ∧ s'.Minv = s.Minv ∧ s'.fixed = s.fixed ∧ s'.geoIdx.size = s.geoIdx.size ∧
      (∀ b, s.geoIdx.get b < s.geo.size → s.geoIdx.get b ∉ is →
        s'.geoIdx.get b = ((List.range (s.geoIdx.get b)).filter fun i => decide (i ∉ is)).length ∧ s'.geoIdx.get b < s'.geo.size ∧
        s'.geo.get (s'.geoIdx.get b) = s.geo.get (s.geoIdx.get b)) ∧
      (is ≠ [] → ∀ b, s.geoIdx.get b ∈ is → s'.geoIdx.get b = junk (s.geoIdx.get b)) := by
  by_cases hne : is = []
  · subst hne
    refine ⟨s, rfl, ?_, rfl, rfl, rfl, rfl, rfl, rfl, ?_, fun h => absurd rfl h⟩
    · unfold RbStore.geometries Arr.toList
      rw [withoutPositions_range]
      congr 1
      symm
      rw [List.filter_eq_self]
      intro a _
      simp
    · intro b hb _
      refine ⟨?_, hb, rfl⟩
      rw [List.filter_eq_self.mpr]
      · simp
      · intro a _; simp
  · have hlen : ¬ is.length = 0 := by intro h; exact hne (List.length_eq_zero_iff.mp h)
    obtain ⟨g', m1, m2, m3⟩ := markGeometry_ok is s.geo hr
    unfold removeGeometry
    rw [if_neg hlen, m1]
    simp only [Outcome.bind, m2]
    obtain ⟨c1, c2, c3, -⟩ := compactGeometry_spec s.geo.size (s.geo.size - 0) g' ⟨s.geo.size, junk⟩ 0 0 rfl (Nat.le_refl _) (Nat.zero_le _)
    simp only [List.range_zero, List.map_nil, List.nil_append, Nat.sub_zero, ← List.range_eq_range', Nat.zero_add] at c1 c3
    generalize compactGeometry s.geo.size g' ⟨s.geo.size, junk⟩ 0 0 = R at *
    have hsome : ∀ i, i < s.geo.size → ((g'.get i).isSome = decide (i ∉ is)) := by
      intro i hi
      rw [m3 i]
      by_cases h : i ∈ is
      · rw [if_pos h]; simp [h]
      · rw [if_neg h, hs.present i hi]; simp [h]
    have hfil : ∀ k, k ≤ s.geo.size → ((List.range k).filter fun i => (g'.get i).isSome) = (List.range k).filter fun i => decide (i ∉ is) := by
      intro k hk
      apply List.filter_congr
      intro i hi
      rw [List.mem_range] at hi
      exact hsome i (by omega)
    have hval : ((List.range s.geo.size).filter fun i => decide (i ∉ is)).map g'.get = ((List.range s.geo.size).filter fun i => decide (i ∉ is)).map s.geo.get := by
      apply List.map_congr_left
      intro i hi
      rw [List.mem_filter, decide_eq_true_eq] at hi
      rw [m3 i, if_neg hi.2]
    rw [hfil _ (Nat.le_refl _), hval] at c1
    refine ⟨_, rfl, ?_, rfl, rfl, rfl, rfl, rfl, rfl, ?_, ?_⟩
    · unfold RbStore.geometries Arr.toList
      rw [withoutPositions_range, ← c1]
      rfl
    · intro b hb hnot
      obtain ⟨d1, d2⟩ := c3 (s.geoIdx.get b) (Nat.zero_le _) hb (by rw [hsome _ hb]; simp [hnot])
      rw [hfil _ (by omega)] at d1
      refine ⟨d1, d2, ?_⟩
      simp only [Arr.resize]
      -- the entry of the compacted list at this place
      have e := congrArg (fun l => l[R.2.1.get (s.geoIdx.get b)]?) c1
      simp only [List.getElem?_map] at e
      rw [List.getElem?_range d2] at e
      have hsplit : (List.range s.geo.size).filter (fun i => decide (i ∉ is)) =
          (List.range (s.geoIdx.get b)).filter (fun i => decide (i ∉ is)) ++
            s.geoIdx.get b :: (List.range' (s.geoIdx.get b + 1) (s.geo.size - (s.geoIdx.get b + 1))).filter fun i => decide (i ∉ is) := by
        have e1 : List.range s.geo.size = List.range (s.geoIdx.get b) ++ s.geoIdx.get b :: List.range' (s.geoIdx.get b + 1) (s.geo.size - (s.geoIdx.get b + 1)) := by
          have e2 : s.geo.size = s.geoIdx.get b + ((s.geo.size - (s.geoIdx.get b + 1)) + 1) := by omega
          conv_lhs => rw [e2]
          rw [List.range_eq_range', ← List.range'_append_1, ← List.range_eq_range', Nat.zero_add, List.range'_succ]
        rw [e1, List.filter_append, List.filter_cons_of_pos (by simp [hnot])]
      rw [hsplit, d1, List.getElem?_append_right (Nat.le_refl _), Nat.sub_self, List.getElem?_cons_zero] at e
      simp only [Option.map_some, Option.some.injEq] at e
      rw [← d1] at e
      exact e
    · intro _ b hb
      exact c2 _ (Or.inr (Or.inr (by rw [m3, if_pos hb])))

/-- **C42.** Removing any set of geometry instances leaves exactly the other instances in their original order, and leaves every body whose geometry was not
removed as it was, referring to the same geometry as before; its index is in range. -/
theorem C42_delete (junk : Nat → Nat) (s : RbStore S G) (hs : s.Consistent) (is : List Nat) (hr : ∀ i ∈ is, i < s.geometries.length) :
    ∃ s', s.removeGeometry junk is = .ok s' ∧ s'.geometries = withoutPositions s.geometries is ∧ s'.bodies.length = s.bodies.length ∧
      ∀ b < s.bodies.length, s.geoIdx.get b ∉ is → s'.bodies[b]? = s.bodies[b]? ∧ s'.geoIdx.get b < s'.geometries.length := by
  have hgl : ∀ t : RbStore S G, t.geometries.length = t.geo.size := by intro t; unfold RbStore.geometries Arr.toList; simp
  rw [hgl] at hr
  obtain ⟨s', h1, h2, hq, hv, hM, hMi, hf, hsz, h3, -⟩ := removeGeometry_spec junk s hs is hr
  have hn : s'.nbodies = s.nbodies := by unfold nbodies; rw [hq]
  refine ⟨s', h1, h2, by rw [length_bodies, length_bodies, hn], ?_⟩
  intro b hb hnot
  rw [length_bodies] at hb
  obtain ⟨d1, d2, d3⟩ := h3 b (hs.inRange b hb) hnot
  rw [hgl]
  refine ⟨?_, d2⟩
  rw [bodies_getElem, bodies_getElem, hn, if_pos hb, if_pos hb]
  unfold RbStore.body
  rw [d3, hq, hv, hM, hMi, hf]

/-- **C42, references that go away.** If no body uses a removed geometry, all bodies and the state as a whole stay in order. -/
theorem C42_unused (junk : Nat → Nat) (s : RbStore S G) (hs : s.Consistent) (is : List Nat) (hr : ∀ i ∈ is, i < s.geometries.length)
    (hun : ∀ b < s.bodies.length, s.geoIdx.get b ∉ is) :
    ∃ s', s.removeGeometry junk is = .ok s' ∧ s'.bodies = s.bodies ∧ s'.Consistent ∧
      s'.geoIdx.toList = s.geoIdx.toList.map fun u => ((List.range u).filter fun i => decide (i ∉ is)).length := by
  have hgl : ∀ t : RbStore S G, t.geometries.length = t.geo.size := by intro t; unfold RbStore.geometries Arr.toList; simp
  have hr' := hr
  rw [hgl] at hr'
  obtain ⟨s', h1, h2, hq, hv, hM, hMi, hf, hsz, h3, -⟩ := removeGeometry_spec junk s hs is hr'
  have hn : s'.nbodies = s.nbodies := by unfold nbodies; rw [hq]
  rw [length_bodies] at hun
  refine ⟨s', h1, ?_, ⟨?_, ?_, ?_, ?_, ?_, ?_, ?_, ?_⟩, ?_⟩
  · unfold RbStore.bodies
    have : s'.q.size / 3 = s.q.size / 3 := by rw [hq]
    rw [this]
    apply List.map_congr_left
    intro b hb
    rw [List.mem_range] at hb
    obtain ⟨d1, d2, d3⟩ := h3 b (hs.inRange b hb) (hun b hb)
    unfold RbStore.body
    rw [d3, hq, hv, hM, hMi, hf]
  · rw [hq]; exact hs.q
  · rw [hq, hv]; exact hs.v
  · rw [hq, hM]; exact hs.M
  · rw [hq, hMi]; exact hs.Minv
  · rw [hq, hf]; exact hs.fixed
  · rw [hq, hsz]; exact hs.geoIdx
  · intro b hb
    rw [hq] at hb
    exact (h3 b (hs.inRange b hb) (hun b hb)).2.1
  · intro g hg
    have e := toList_getElem s'.geo g
    rw [if_pos hg] at e
    have hm := List.mem_of_getElem? e
    have h2' : s'.geo.toList = withoutPositions ((List.range s.geo.size).map s.geo.get) is := h2
    rw [h2', withoutPositions_range, List.mem_map] at hm
    obtain ⟨j, hj, ej⟩ := hm
    rw [List.mem_filter, List.mem_range] at hj
    rw [← ej]
    exact hs.present j hj.1
  · unfold Arr.toList
    rw [hsz, List.map_map]
    apply List.map_congr_left
    intro b hb
    rw [List.mem_range, hs.geoIdx] at hb
    exact (h3 b (hs.inRange b hb) (hun b hb)).1

/-- **C42, a caveat.** A body whose geometry was removed ends up with whatever the uninitialised memory of the index table held. -/
theorem C42_dangling (junk : Nat → Nat) (s : RbStore S G) (hs : s.Consistent) (is : List Nat) (hne : is ≠ []) (hr : ∀ i ∈ is, i < s.geometries.length) :
    ∃ s', s.removeGeometry junk is = .ok s' ∧ ∀ b, s.geoIdx.get b ∈ is → s'.geoIdx.get b = junk (s.geoIdx.get b) := by
  have hgl : s.geometries.length = s.geo.size := by unfold RbStore.geometries Arr.toList; simp
  rw [hgl] at hr
  obtain ⟨s', h1, -, -, -, -, -, -, -, -, h4⟩ := removeGeometry_spec junk s hs is hr
  exact ⟨s', h1, h4 hne⟩

/-! ## Adding -/

theorem get_append3 (x : Arr S) (n : Nat) (a b c : S) (k : Nat) :
    (append3 x n a b c).get k = if k = 3 * n + 2 then c else if k = 3 * n + 1 then b else if k = 3 * n then a else x.get k := rfl

/-- **C43.** Adding a body leaves all others as they were and appends one with the requested state and the mass and inertia of its geometry; its inverse
masses are the inverses of its masses. -/
theorem C43_add_body [One S] [Div S] (massInertia : G → S → S × S) (s : RbStore S G) (hs : s.Consistent) (x y theta vx vy omega rho : S) (gi : Nat)
    (fixed : Bool) (g : G) (hg : s.geometries[gi]? = some (some g)) :
    ∃ s', s.addBody massInertia x y theta vx vy omega rho gi fixed = .ok s' ∧
      s'.bodies = s.bodies ++ [{ x := x, y := y, theta := theta, vx := vx, vy := vy, omega := omega
                                 mass := ((massInertia g rho).1, (massInertia g rho).1, (massInertia g rho).2)
                                 invMass := (1 / (massInertia g rho).1, 1 / (massInertia g rho).1, 1 / (massInertia g rho).2)
                                 fixed := fixed, geometry := some g }] ∧
      s'.geoIdx.toList = s.geoIdx.toList ++ [gi] ∧ s'.geometries = s.geometries ∧ s'.Consistent := by
  have hgg : gi < s.geo.size ∧ s.geo.get gi = some g := by
    have := toList_getElem s.geo gi
    unfold RbStore.geometries at hg
    rw [this] at hg
    by_cases h : gi < s.geo.size
    · rw [if_pos h, Option.some.injEq] at hg; exact ⟨h, hg⟩
    · rw [if_neg h] at hg; cases hg
  have hq3 := hs.q
  have hn : s.nbodies = s.q.size / 3 := rfl
  have hlt : ¬ s.geo.size ≤ gi := Nat.not_le.mpr hgg.1
  have hres : s.addBody massInertia x y theta vx vy omega rho gi fixed = .ok
      { s with
        q := append3 s.q s.nbodies x y theta
        v := append3 s.v s.nbodies vx vy omega
        geoIdx := (s.geoIdx.resize (s.nbodies + 1)).set s.nbodies gi
        fixed := s.fixed.pushBack fixed
        M := RbStore.extendDiagonal s.M s.nbodies (massInertia g rho).1 (massInertia g rho).1 (massInertia g rho).2
        Minv := RbStore.extendDiagonal s.Minv s.nbodies (1 / (massInertia g rho).1) (1 / (massInertia g rho).1) (1 / (massInertia g rho).2) } := by
    unfold addBody
    rw [if_neg hlt, hgg.2]
  refine ⟨_, hres, ?_, ?_, ?_, ?_⟩
  · unfold RbStore.bodies
    have e : (append3 s.q s.nbodies x y theta).size / 3 = s.q.size / 3 + 1 := by
      show 3 * (s.nbodies + 1) / 3 = _
      omega
    simp only [e]
    rw [List.range_succ, List.map_append]
    congr 1
    · apply List.map_congr_left
      intro i hi
      rw [List.mem_range] at hi
      unfold RbStore.body
      have a0 : ∀ a < 3, ∀ z : S, ∀ z1 z2 : S, ∀ X : Arr S, (append3 X s.nbodies z z1 z2).get (3 * i + a) = X.get (3 * i + a) := by
        intro a ha z z1 z2 X
        rw [get_append3, if_neg (by omega), if_neg (by omega), if_neg (by omega)]
      have d0 : ∀ a < 3, ∀ z : S, ∀ z1 z2 : S, ∀ X : Arr S, (RbStore.extendDiagonal X s.nbodies z z1 z2).get (3 * i + a) = X.get (3 * i + a) := by
        intro a ha z z1 z2 X
        show (if 3 * i + a < 3 * s.nbodies then _ else _) = _
        rw [if_pos (by omega)]
      have f0 : (s.fixed.pushBack fixed).get i = s.fixed.get i := by
        show (if i = s.fixed.size then _ else _) = _
        rw [if_neg (by rw [hs.fixed]; omega)]
      have g0 : ((s.geoIdx.resize (s.nbodies + 1)).set s.nbodies gi).get i = s.geoIdx.get i := by
        rw [Arr.get_set, if_neg (by omega)]; rfl
      have z0 : ∀ X : Arr S, ∀ z z1 z2 : S, (append3 X s.nbodies z z1 z2).get (3 * i) = X.get (3 * i) := fun X z z1 z2 => a0 0 (by omega) z z1 z2 X
      have z1 : ∀ X : Arr S, ∀ z z1 z2 : S, (RbStore.extendDiagonal X s.nbodies z z1 z2).get (3 * i) = X.get (3 * i) := fun X z z1 z2 => d0 0 (by omega) z z1 z2 X
      simp only [z0, z1, a0 1 (by omega), a0 2 (by omega), d0 1 (by omega), d0 2 (by omega), f0, g0]
    · simp only [List.map_cons, List.map_nil, List.cons.injEq, and_true]
      rw [← hn]
      unfold RbStore.body
      have f0 : (s.fixed.pushBack fixed).get s.nbodies = fixed := by
        show (if s.nbodies = s.fixed.size then _ else _) = _
        rw [if_pos (by rw [hs.fixed, hn])]
      have g0 : ((s.geoIdx.resize (s.nbodies + 1)).set s.nbodies gi).get s.nbodies = gi := by
        rw [Arr.get_set, if_pos rfl]
      have q0 : ∀ X : Arr S, ∀ z z1 z2 : S, (append3 X s.nbodies z z1 z2).get (3 * s.nbodies) = z := by
        intro X z z1 z2; rw [get_append3, if_neg (by omega), if_neg (by omega), if_pos rfl]
      have q1 : ∀ X : Arr S, ∀ z z1 z2 : S, (append3 X s.nbodies z z1 z2).get (3 * s.nbodies + 1) = z1 := by
        intro X z z1 z2; rw [get_append3, if_neg (by omega), if_pos rfl]
      have q2 : ∀ X : Arr S, ∀ z z1 z2 : S, (append3 X s.nbodies z z1 z2).get (3 * s.nbodies + 2) = z2 := by
        intro X z z1 z2; rw [get_append3, if_pos rfl]
      have d0 : ∀ X : Arr S, ∀ z z1 z2 : S, (RbStore.extendDiagonal X s.nbodies z z1 z2).get (3 * s.nbodies) = z := by
        intro X z z1 z2
        show (if 3 * s.nbodies < 3 * s.nbodies then _ else if 3 * s.nbodies = 3 * s.nbodies then _ else _) = _
        rw [if_neg (by omega), if_pos rfl]
      have d1 : ∀ X : Arr S, ∀ z z1 z2 : S, (RbStore.extendDiagonal X s.nbodies z z1 z2).get (3 * s.nbodies + 1) = z1 := by
        intro X z z1 z2
        show (if 3 * s.nbodies + 1 < 3 * s.nbodies then _ else if 3 * s.nbodies + 1 = 3 * s.nbodies then _ else if 3 * s.nbodies + 1 = 3 * s.nbodies + 1 then _ else _) = _
        rw [if_neg (by omega), if_neg (by omega), if_pos rfl]
      have d2 : ∀ X : Arr S, ∀ z z1 z2 : S, (RbStore.extendDiagonal X s.nbodies z z1 z2).get (3 * s.nbodies + 2) = z2 := by
        intro X z z1 z2
        show (if 3 * s.nbodies + 2 < 3 * s.nbodies then _ else if 3 * s.nbodies + 2 = 3 * s.nbodies then _ else if 3 * s.nbodies + 2 = 3 * s.nbodies + 1 then _ else _) = _
        rw [if_neg (by omega), if_neg (by omega), if_neg (by omega)]
      simp only [q0, q1, q2, d0, d1, d2, f0, g0, hgg.2]
  · unfold Arr.toList
    have e : ((s.geoIdx.resize (s.nbodies + 1)).set s.nbodies gi).size = s.geoIdx.size + 1 := by
      show s.nbodies + 1 = _
      rw [hs.geoIdx, hn]
    simp only [e]
    rw [List.range_succ, List.map_append]
    congr 1
    · apply List.map_congr_left
      intro i hi
      rw [List.mem_range, hs.geoIdx] at hi
      rw [Arr.get_set, if_neg (by omega)]; rfl
    · simp only [List.map_cons, List.map_nil, List.cons.injEq, and_true]
      rw [hs.geoIdx, ← hn, Arr.get_set, if_pos rfl]
  · rfl
  · have e : (append3 s.q s.nbodies x y theta).size = 3 * (s.nbodies + 1) := rfl
    refine ⟨?_, rfl, rfl, rfl, ?_, ?_, ?_, hs.present⟩
    · simp only [e]; omega
    · simp only [e]
      show s.fixed.size + 1 = _
      rw [hs.fixed]; omega
    · simp only [e]
      show s.nbodies + 1 = _
      omega
    · simp only [e]
      intro i hi
      show ((s.geoIdx.resize (s.nbodies + 1)).set s.nbodies gi).get i < s.geo.size
      rw [Arr.get_set]
      by_cases h : i = s.nbodies
      · rw [if_pos h]; exact hgg.1
      · rw [if_neg h]; exact hs.inRange i (by omega)

/-- **C43, balls.** Adding a ball leaves all others as they were and appends one with the requested state. -/
theorem C43_add_ball [One S] [Div S] (s : BallStore S) (hs : s.Consistent) (x y vx vy r m : S) (fixed : Bool) :
    (s.pushBallBack x y vx vy r m fixed).balls =
        s.balls ++ [{ x := x, y := y, vx := vx, vy := vy, r := r, mass := (m, m), invMass := (1 / m, 1 / m), fixed := fixed }] ∧
      (s.pushBallBack x y vx vy r m fixed).Consistent := by
  have hq2 := hs.q
  have hn : s.nballs = s.q.size / 2 := rfl
  have ga : ∀ (X : Arr S) (a b : S) k, (BallStore.append2 X s.nballs a b).get k = if k = 2 * s.nballs + 1 then b else if k = 2 * s.nballs then a else X.get k :=
    fun _ _ _ _ => rfl
  have gd : ∀ (X : Arr S) (a b : S) k, (BallStore.extendDiagonal X s.nballs a b).get k = if k < 2 * s.nballs then X.get k else if k = 2 * s.nballs then a else b :=
    fun _ _ _ _ => rfl
  have gf : ∀ k, (s.fixed.pushBack fixed).get k = if k = s.nballs then fixed else s.fixed.get k := by
    intro k
    show (if k = s.fixed.size then _ else _) = _
    rw [hs.fixed, ← hn]
  have gr : ∀ k, ((s.r.resize (s.nballs + 1)).set s.nballs r).get k = if k = s.nballs then r else s.r.get k := fun _ => rfl
  constructor
  · unfold BallStore.balls
    have e : (s.pushBallBack x y vx vy r m fixed).q.size / 2 = s.q.size / 2 + 1 := by
      show 2 * (s.nballs + 1) / 2 = _
      omega
    rw [e, List.range_succ, List.map_append]
    congr 1
    · apply List.map_congr_left
      intro i hi
      rw [List.mem_range] at hi
      unfold BallStore.ball BallStore.pushBallBack
      have c1 : ¬ 2 * i = 2 * s.nballs + 1 := by omega
      have c2 : ¬ 2 * i = 2 * s.nballs := by omega
      have c3 : ¬ 2 * i + 1 = 2 * s.nballs + 1 := by omega
      have c4 : ¬ 2 * i + 1 = 2 * s.nballs := by omega
      have c5 : 2 * i < 2 * s.nballs := by omega
      have c6 : 2 * i + 1 < 2 * s.nballs := by omega
      have c7 : ¬ i = s.nballs := by omega
      simp only [ga, gd, gf, gr, if_neg c1, if_neg c2, if_neg c3, if_neg c4, if_pos c5, if_pos c6, if_neg c7]
    · simp only [List.map_cons, List.map_nil, List.cons.injEq, and_true]
      rw [← hn]
      unfold BallStore.ball BallStore.pushBallBack
      have c1 : ¬ 2 * s.nballs = 2 * s.nballs + 1 := by omega
      have c5 : ¬ 2 * s.nballs < 2 * s.nballs := by omega
      have c6 : ¬ 2 * s.nballs + 1 < 2 * s.nballs := by omega
      have c7 : ¬ 2 * s.nballs + 1 = 2 * s.nballs := by omega
      simp only [ga, gd, gf, gr, if_neg c1, if_neg c5, if_neg c6, if_neg c7, if_true]
  · have e : (s.pushBallBack x y vx vy r m fixed).q.size = 2 * (s.nballs + 1) := rfl
    refine ⟨?_, rfl, ?_, ?_, rfl, rfl⟩
    · rw [e]; omega
    · rw [e]; show s.nballs + 1 = _; omega
    · rw [e]; show s.fixed.size + 1 = _; rw [hs.fixed]; omega

/-- **C43, scripts.** `insertBall` ends the program for a radius or mass that is not positive or a flag other than 0 and 1, and otherwise adds the ball. -/
theorem C43_insert_ball [One S] [Div S] [Zero S] [LE S] [DecidableLE S] (s : BallStore S) (hs : s.Consistent) (x y vx vy r m : S) (fixed : Int) :
    if r ≤ 0 ∨ m ≤ 0 ∨ (fixed ≠ 0 ∧ fixed ≠ 1) then s.scriptInsertBall x y vx vy r m fixed = .exit
    else ∃ s', s.scriptInsertBall x y vx vy r m fixed = .ok s' ∧ s'.Consistent ∧
      s'.balls = s.balls ++ [{ x := x, y := y, vx := vx, vy := vy, r := r, mass := (m, m), invMass := (1 / m, 1 / m), fixed := decide (fixed = 1) }] := by
  unfold BallStore.scriptInsertBall
  by_cases h1 : r ≤ 0
  · rw [if_pos (Or.inl h1), if_pos h1]
  · by_cases h2 : m ≤ 0
    · rw [if_pos (Or.inr (Or.inl h2)), if_neg h1, if_pos h2]
    · by_cases h3 : fixed ≠ 0 ∧ fixed ≠ 1
      · rw [if_pos (Or.inr (Or.inr h3)), if_neg h1, if_neg h2, if_pos h3]
      · rw [if_neg (by rintro (h | h | h); exacts [h1 h, h2 h, h3 h]), if_neg h1, if_neg h2, if_neg h3]
        have hd : decide (fixed ≠ 0) = decide (fixed = 1) := by
          rw [decide_eq_decide]
          omega
        refine ⟨_, rfl, ?_, ?_⟩
        · exact (C43_add_ball s hs x y vx vy r m _).2
        · rw [hd]; exact (C43_add_ball s hs x y vx vy r m _).1

/-- an edit that is acceptable does what it means -/
theorem edit_step [HasNaN S] [One S] [Div S] [Zero S] [LE S] [DecidableLE S] (junk : Nat → Nat) (circle : S → G) (massInertia : G → S → S × S)
    (s : RbStore S G) (w w' : World S G) (hw : s.Holds w) (op : EditOp S) (ops : List (EditOp S)) (h : w.step circle massInertia op = some w') :
    ∃ s', RbStore.edit junk circle massInertia (op :: ops) s = RbStore.edit junk circle massInertia ops s' ∧ s'.Holds w' := by
  obtain ⟨hs, hb, hu, hg, hnum⟩ := hw
  have hgl : s.geometries.length = s.geo.size := by unfold RbStore.geometries Arr.toList; simp
  cases op with
  | addCircle r =>
    simp only [World.step] at h
    by_cases hr : r ≤ 0
    · rw [if_pos hr] at h; cases h
    · rw [if_neg hr, Option.some.injEq] at h
      subst h
      refine ⟨s.addGeometry (circle r), ?_, ?_⟩
      · rw [RbStore.edit, RbStore.scriptAddCircle, if_neg hr]; rfl
      · have hgeo : ∀ k, (s.addGeometry (circle r)).geo.get k = if k = s.geo.size then some (circle r) else s.geo.get k := fun _ => rfl
        have hbb : (s.addGeometry (circle r)).bodies = s.bodies := by
          unfold RbStore.bodies
          apply List.map_congr_left
          intro i hi
          have hi' : i < s.q.size / 3 := List.mem_range.mp hi
          have := hs.inRange i hi'
          unfold RbStore.body
          have e : (s.addGeometry (circle r)).geo.get ((s.addGeometry (circle r)).geoIdx.get i) = s.geo.get (s.geoIdx.get i) := by
            have hne : s.geoIdx.get i ≠ s.geo.size := by omega
            show (if s.geoIdx.get i = s.geo.size then some (circle r) else s.geo.get (s.geoIdx.get i)) = _
            rw [if_neg hne]
          rw [e]
          rfl
        refine ⟨⟨hs.q, hs.v, hs.M, hs.Minv, hs.fixed, hs.geoIdx, ?_, ?_⟩, ?_, hu, ?_, ?_⟩
        · intro i hi
          have := hs.inRange i hi
          show s.geoIdx.get i < s.geo.size + 1
          omega
        · intro g hg'
          rw [hgeo]
          by_cases e : g = s.geo.size
          · rw [if_pos e]; rfl
          · rw [if_neg e]
            have : g < s.geo.size + 1 := hg'
            exact hs.present g (by omega)
        · rw [hbb]; exact hb
        · show (s.addGeometry (circle r)).geo.toList = _
          rw [List.map_append]
          show (s.addGeometry (circle r)).geo.toList = w.geometries.map some ++ [some (circle r)]
          rw [← hg]
          unfold RbStore.geometries Arr.toList
          show (List.range (s.geo.size + 1)).map _ = _
          rw [List.range_succ, List.map_append]
          congr 1
          · apply List.map_congr_left
            intro i hi
            rw [List.mem_range] at hi
            rw [hgeo, if_neg (by omega)]
          · simp only [List.map_cons, List.map_nil]
            rw [hgeo, if_pos rfl]
        · rw [hbb]; exact hnum
  | addBody x y theta vx vy omega rho g f =>
    simp only [World.step] at h
    by_cases hbad : rho ≤ 0 ∨ g < 0 ∨ (f ≠ 0 ∧ f ≠ 1) ∨ HasNaN.isNaN x = true
    · rw [if_pos hbad] at h; cases h
    · rw [if_neg hbad] at h
      have n1 : ¬ rho ≤ 0 := fun e => hbad (Or.inl e)
      have n2 : ¬ g < 0 := fun e => hbad (Or.inr (Or.inl e))
      have n3 : ¬ (f ≠ 0 ∧ f ≠ 1) := fun e => hbad (Or.inr (Or.inr (Or.inl e)))
      have n4 : ¬ HasNaN.isNaN x = true := fun e => hbad (Or.inr (Or.inr (Or.inr e)))
      cases hgeo : w.geometries[g.toNat]? with
      | none => rw [hgeo] at h; cases h
      | some geo =>
        rw [hgeo] at h
        simp only [Option.some.injEq] at h
        subst h
        have hgs : s.geometries[g.toNat]? = some (some geo) := by rw [hg, List.getElem?_map, hgeo]; rfl
        have hlt : g.toNat < s.geo.size := by
          rw [← hgl]
          exact (List.getElem?_eq_some_iff.mp hgs).1
        obtain ⟨s', a1, a2, a3, a4, a5⟩ := C43_add_body massInertia s hs x y theta vx vy omega rho g.toNat (decide (f = 1)) geo hgs
        refine ⟨s', ?_, ⟨a5, ?_, ?_, ?_, ?_⟩⟩
        · rw [RbStore.edit, RbStore.scriptAddBody, if_neg n1, if_neg (by omega), if_neg n3, a1]; rfl
        · rw [a2, hb]
        · rw [a3, hu]
        · rw [a4, hg]
        · rw [a2]
          intro b hb'
          rcases List.mem_append.mp hb' with h' | h'
          · exact hnum b h'
          · rw [List.mem_singleton] at h'
            subst h'
            simpa using n4
  | deleteBodies is =>
    simp only [World.step] at h
    by_cases hr : ∀ i ∈ is, i < w.bodies.length
    · rw [if_pos hr, Option.some.injEq] at h
      subst h
      have hr' : ∀ i ∈ is, i < s.bodies.length := by rw [hb]; exact hr
      obtain ⟨s', a1, a2, a3, a4, a5⟩ := C41_delete s hs hnum is hr'
      refine ⟨s', ?_, ⟨a5, ?_, ?_, ?_, ?_⟩⟩
      · rw [RbStore.edit, C41_script, if_pos hr', a1]; rfl
      · rw [a2, hb]
      · rw [a3, hu]
      · rw [a4, hg]
      · rw [a2]
        intro b hb'
        unfold withoutPositions at hb'
        rw [List.mem_map] at hb'
        obtain ⟨p, hp, rfl⟩ := hb'
        exact hnum _ (List.fst_mem_of_mem_zipIdx (List.mem_of_mem_filter hp))
    · rw [if_neg hr] at h; cases h
  | deleteGeometry is =>
    simp only [World.step] at h
    by_cases hr : (∀ i ∈ is, i < w.geometries.length) ∧ ∀ u ∈ w.uses, u ∉ is
    · rw [if_pos hr, Option.some.injEq] at h
      subst h
      have hwl : w.geometries.length = s.geo.size := by rw [← hgl, hg, List.length_map]
      have hr' : ∀ i ∈ is, i < s.geometries.length := by rw [hgl, ← hwl]; exact hr.1
      have hun : ∀ b < s.bodies.length, s.geoIdx.get b ∉ is := by
        intro b hb'
        rw [length_bodies] at hb'
        apply hr.2
        rw [← hu]
        unfold Arr.toList
        rw [List.mem_map]
        refine ⟨b, ?_, rfl⟩
        rw [List.mem_range, hs.geoIdx]
        exact hb'
      obtain ⟨s', a1, a2, a3, a4⟩ := C42_unused junk s hs is hr' hun
      obtain ⟨s'', b1, b2, -⟩ := C42_delete junk s hs is hr'
      rw [a1, Outcome.ok.injEq] at b1
      subst b1
      refine ⟨s', ?_, ⟨a3, ?_, ?_, ?_, ?_⟩⟩
      · rw [RbStore.edit, RbStore.scriptDeleteGeometry, if_neg, a1]; rfl
        rw [List.any_eq_true]
        rintro ⟨i, hi, hd⟩
        rw [decide_eq_true_eq] at hd
        have := hr' i hi
        omega
      · rw [a2, hb]
      · rw [a4, hu]
      · rw [b2, hg]
        unfold withoutPositions
        rw [List.zipIdx_map, List.filter_map, List.map_map, List.map_map]
        rfl
      · rw [a2]; exact hnum
    · rw [if_neg hr] at h; cases h

/-- **C41, C42 and C43 together.** Any sequence of edits by a script has the effect it is meant to have: as long as the arguments are acceptable, the state
holds exactly the bodies and geometries obtained by carrying out the edits on lists. -/
theorem C43_history [HasNaN S] [One S] [Div S] [Zero S] [LE S] [DecidableLE S] (junk : Nat → Nat) (circle : S → G) (massInertia : G → S → S × S)
    (ops : List (EditOp S)) (s : RbStore S G) (w w' : World S G) (hw : s.Holds w) (h : World.run circle massInertia ops w = some w') :
    ∃ s', RbStore.edit junk circle massInertia ops s = .ok s' ∧ s'.Holds w' := by
  induction ops generalizing s w with
  | nil =>
    simp only [World.run, Option.some.injEq] at h
    subst h
    exact ⟨s, rfl, hw⟩
  | cons op ops ih =>
    simp only [World.run, Option.bind_eq_some_iff] at h
    obtain ⟨w1, h1, h2⟩ := h
    obtain ⟨s1, e1, hs1⟩ := edit_step junk circle massInertia s w w1 hw op ops h1
    rw [e1]
    exact ih s1 w1 hs1 h2

/-- the inverse masses of a body are the inverses of its masses -/
def BodyView.Inverse [One S] [Div S] (b : BodyView S G) : Prop :=
  b.invMass.1 = 1 / b.mass.1 ∧ b.invMass.2.1 = 1 / b.mass.2.1 ∧ b.invMass.2.2 = 1 / b.mass.2.2

/-- **C43, masses.** Through any sequence of edits the inverse mass matrix stays the inverse of the mass matrix, entry by entry. -/
theorem C43_inverse [HasNaN S] [One S] [Div S] [Zero S] [LE S] [DecidableLE S] (junk : Nat → Nat) (circle : S → G) (massInertia : G → S → S × S)
    (ops : List (EditOp S)) (s : RbStore S G) (w w' : World S G) (hw : s.Holds w) (h : World.run circle massInertia ops w = some w')
    (hinv : ∀ b ∈ s.bodies, b.Inverse) :
    ∃ s', RbStore.edit junk circle massInertia ops s = .ok s' ∧ ∀ b ∈ s'.bodies, b.Inverse := by
  obtain ⟨s', h1, h2⟩ := C43_history junk circle massInertia ops s w w' hw h
  refine ⟨s', h1, ?_⟩
  rw [h2.bodies]
  rw [hw.bodies] at hinv
  clear h1 h2 hw
  induction ops generalizing w with
  | nil =>
    simp only [World.run, Option.some.injEq] at h
    subst h
    exact hinv
  | cons op ops ih =>
    simp only [World.run, Option.bind_eq_some_iff] at h
    obtain ⟨w1, h1, h2⟩ := h
    apply ih w1 h2
    cases op with
    | addCircle r =>
      simp only [World.step] at h1
      by_cases hr : r ≤ 0
      · rw [if_pos hr] at h1; cases h1
      · rw [if_neg hr, Option.some.injEq] at h1; subst h1; exact hinv
    | addBody x y theta vx vy omega rho g f =>
      simp only [World.step] at h1
      by_cases hbad : rho ≤ 0 ∨ g < 0 ∨ (f ≠ 0 ∧ f ≠ 1) ∨ HasNaN.isNaN x = true
      · rw [if_pos hbad] at h1; cases h1
      · rw [if_neg hbad] at h1
        cases hgeo : w.geometries[g.toNat]? with
        | none => rw [hgeo] at h1; cases h1
        | some geo =>
          rw [hgeo] at h1
          simp only [Option.some.injEq] at h1
          subst h1
          intro b hb
          rcases List.mem_append.mp hb with h' | h'
          · exact hinv b h'
          · rw [List.mem_singleton] at h'
            subst h'
            exact ⟨rfl, rfl, rfl⟩
    | deleteBodies is =>
      simp only [World.step] at h1
      by_cases hr : ∀ i ∈ is, i < w.bodies.length
      · rw [if_pos hr, Option.some.injEq] at h1
        subst h1
        intro b hb'
        unfold withoutPositions at hb'
        rw [List.mem_map] at hb'
        obtain ⟨p, hp, rfl⟩ := hb'
        exact hinv _ (List.fst_mem_of_mem_zipIdx (List.mem_of_mem_filter hp))
      · rw [if_neg hr] at h1; cases h1
    | deleteGeometry is =>
      simp only [World.step] at h1
      by_cases hr : (∀ i ∈ is, i < w.geometries.length) ∧ ∀ u ∈ w.uses, u ∉ is
      · rw [if_pos hr, Option.some.injEq] at h1; subst h1; exact hinv
      · rw [if_neg hr] at h1; cases h1

/-! ## Cases that meet the hypotheses -/

/-- rational numbers and a not-a-number, for the examples -/
abbrev ExScalar := Option Rat
instance : HasNaN ExScalar := ⟨none, Option.isNone, rfl⟩
instance : One ExScalar := ⟨some 1⟩
instance : Zero ExScalar := ⟨some 0⟩
instance : Div ExScalar := ⟨fun a b => a.bind fun x => b.bind fun y => if y = 0 then none else some (x / y)⟩
instance : LE ExScalar := ⟨fun a b => match a, b with | some x, some y => x ≤ y | _, _ => False⟩
instance : DecidableLE ExScalar := fun a b => match a, b with
  | some x, some y => inferInstanceAs (Decidable (x ≤ y))
  | some _, none => isFalse id
  | none, _ => isFalse id

/-- the empty simulation -/
def exEmpty : RbStore ExScalar ExScalar := ⟨⟨0, fun _ => none⟩, ⟨0, fun _ => none⟩, ⟨0, fun _ => none⟩, ⟨0, fun _ => none⟩, ⟨0, fun _ => false⟩, ⟨0, fun _ => 0⟩, ⟨0, fun _ => none⟩⟩

/-- geometries are radii; mass `3 rho r`, inertia `rho r` -/
def exMass (r rho : ExScalar) : ExScalar × ExScalar :=
  match r, rho with
  | some r, some rho => (some (3 * rho * r), some (rho * r))
  | _, _ => (none, none)

/-- two geometries, three bodies, then the middle body and the first geometry are deleted -/
def exOps : List (EditOp ExScalar) :=
  [.addCircle (some 1), .addCircle (some 2), .addBody (some 1) (some 2) (some 3) (some 4) (some 5) (some 6) (some 1) 1 0,
   .addBody (some 7) (some 2) (some 3) (some 4) (some 5) (some 6) (some 1) 0 1, .addBody (some 8) (some 2) (some 3) (some 4) (some 5) (some 6) (some 2) 1 1,
   .deleteBodies [1], .deleteGeometry [0]]

/-- the script has a meaning ... -/
example : ((World.run (G := ExScalar) id exMass exOps ⟨[], [], []⟩).map fun w => (w.bodies.map (·.x), w.uses, w.geometries)) =
    some ([some 1, some 8], [0, 0], [some 2]) := by decide +kernel

/-- ... and the empty simulation holds the empty world -/
example : exEmpty.Holds ⟨[], [], []⟩ := by
  refine ⟨⟨rfl, rfl, rfl, rfl, rfl, rfl, ?_, ?_⟩, rfl, rfl, rfl, ?_⟩
  · intro i hi; exact absurd hi (Nat.not_lt_zero _)
  · intro i hi; exact absurd hi (Nat.not_lt_zero _)
  · intro b hb; cases hb

/-- a ball with a position, a radius and a mass -/
example : (⟨⟨2, fun _ => (1 : Rat)⟩, ⟨2, fun _ => 1⟩, ⟨1, fun _ => 1⟩, ⟨1, fun _ => true⟩, ⟨2, fun _ => 2⟩, ⟨2, fun _ => 1 / 2⟩⟩ : BallStore Rat).Consistent :=
  ⟨rfl, rfl, rfl, rfl, rfl, rfl⟩

end Scisim
