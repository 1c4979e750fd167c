import Verif.Spec.PythonRefs
/-!
# Lemmas on references
-/

namespace Scisim
namespace PythonRefs

theorem newRef_ok (o : Option Obj) (m : Mem) (hr : m.running = true) :
    ∃ m', newRef o m = .ok o m' ∧ m'.running = true ∧ ∀ x, m'.refs x = m.refs x + [o].count (some x) := by
  unfold newRef
  rw [if_pos hr]
  cases o with
  | none => exact ⟨m, rfl, hr, by simp⟩
  | some o =>
    refine ⟨_, rfl, hr, fun x => ?_⟩
    by_cases h : x = o
    · subst h; simp
    · simp [Function.update_of_ne h, Ne.symm h]

theorem xdecref_ok (o : Option Obj) (m : Mem) (hr : m.running = true) (h : ∀ x, [o].count (some x) ≤ m.refs x) :
    ∃ m', xdecref o m = .ok () m' ∧ m'.running = true ∧ ∀ x, m'.refs x + [o].count (some x) = m.refs x := by
  unfold xdecref
  cases o with
  | none => exact ⟨m, rfl, hr, by simp⟩
  | some o =>
    have ho := h o
    simp only [List.count_singleton_self] at ho
    refine ⟨_, if_pos ⟨hr, ho⟩, hr, fun x => ?_⟩
    by_cases hx : x = o
    · subst hx; simp; omega
    · simp [Function.update_of_ne hx, Ne.symm hx]

theorem swapObj_eq (a b : Option Obj) (m : Mem) : swapObj a b m = .ok (b, a) m := rfl

/-- Constructing takes references, and loses one to the module. -/
theorem loadFunction_ok (attr : Option (Obj × Bool)) (m : Mem) (hr : m.running = true) :
    (∃ m', loadFunction attr none m = .exit m') ∨
    ∃ m', loadFunction attr none m = .ok (attr.map (·.1)) m' ∧ m'.running = true ∧ ∀ x, m'.refs x = m.refs x + [attr.map (·.1)].count (some x) := by
  obtain ⟨m1, e1, r1, c1⟩ := newRef_ok (attr.map (·.1)) m hr
  unfold loadFunction
  rw [e1]
  simp only [Res.bind, swapObj_eq, xdecref]
  split_ifs with h
  · exact Or.inl ⟨_, rfl⟩
  · exact Or.inr ⟨m1, rfl, r1, c1⟩

theorem loadModule_ok (l : Load) (m : Mem) (hr : m.running = true) :
    (∃ m', loadModule l none m = .exit m') ∨
    ∃ m' r, l.reloaded = some r ∧ loadModule l none m = .ok l.imported m' ∧ m'.running = true ∧ ∀ x, m'.refs x = m.refs x + [l.imported].count (some x) + [r].count x := by
  unfold loadModule
  by_cases h1 : l.insertPath = false
  · rw [if_pos h1]; exact Or.inl ⟨_, rfl⟩
  rw [if_neg h1]
  obtain ⟨m1, e1, k1, c1⟩ := newRef_ok l.imported m hr
  rw [e1]
  simp only [Res.bind, moveAssign, xdecref, Bool.false_eq_true, if_false]
  by_cases h2 : l.imported = none
  · rw [if_pos h2]; exact Or.inl ⟨_, rfl⟩
  rw [if_neg h2]
  obtain ⟨m2, e2, k2, c2⟩ := newRef_ok l.reloaded m1 k1
  rw [e2]
  simp only
  split_ifs with h3 h4
  · exact Or.inl ⟨_, rfl⟩
  · exact Or.inl ⟨_, rfl⟩
  · obtain ⟨r, hrr⟩ := Option.ne_none_iff_exists'.mp h3
    refine Or.inr ⟨m2, r, hrr, rfl, k2, fun x => ?_⟩
    rw [c2, c1, hrr]
    simp [List.count_singleton]

theorem construct_ok (l : Option Load) (m : Mem) (hr : m.running = true) :
    (∃ m', Scripting.construct l m = .exit m') ∨
    ∃ s m', Scripting.construct l m = .ok s m' ∧ m'.running = true ∧ ∀ x, m'.refs x = m.refs x + s.objects.count (some x) + (modulesLoaded [.openScene l]).count x := by
  cases l with
  | none => exact Or.inr ⟨_, m, rfl, hr, by simp [Scripting.objects, Scripting.empty, modulesLoaded]⟩
  | some l =>
    unfold Scripting.construct
    simp only
    rcases loadModule_ok l m hr with ⟨m', e⟩ | ⟨m0, r, hrr, e0, r0, c0⟩
    · rw [e]; exact Or.inl ⟨_, rfl⟩
    rw [e0]; simp only [Res.bind]
    rcases loadFunction_ok l.startOfSim m0 r0 with ⟨m', e⟩ | ⟨m1, e1, r1, c1⟩
    · rw [e]; exact Or.inl ⟨_, rfl⟩
    rw [e1]; simp only
    rcases loadFunction_ok l.endOfSim m1 r1 with ⟨m', e⟩ | ⟨m2, e2, r2, c2⟩
    · rw [e]; exact Or.inl ⟨_, rfl⟩
    rw [e2]; simp only
    rcases loadFunction_ok l.startOfStep m2 r2 with ⟨m', e⟩ | ⟨m3, e3, r3, c3⟩
    · rw [e]; exact Or.inl ⟨_, rfl⟩
    rw [e3]; simp only
    rcases loadFunction_ok l.endOfStep m3 r3 with ⟨m', e⟩ | ⟨m4, e4, r4, c4⟩
    · rw [e]; exact Or.inl ⟨_, rfl⟩
    rw [e4]; simp only
    rcases loadFunction_ok l.friction m4 r4 with ⟨m', e⟩ | ⟨m5, e5, r5, c5⟩
    · rw [e]; exact Or.inl ⟨_, rfl⟩
    rw [e5]; simp only
    rcases loadFunction_ok l.restitution m5 r5 with ⟨m', e⟩ | ⟨m6, e6, r6, c6⟩
    · rw [e]; exact Or.inl ⟨_, rfl⟩
    rw [e6]
    refine Or.inr ⟨_, m6, rfl, r6, fun x => ?_⟩
    rw [c6, c5, c4, c3, c2, c1, c0]
    simp only [Scripting.objects, modulesLoaded, List.filterMap_cons, List.filterMap_nil, hrr, List.count_cons, List.count_nil]
    omega

theorem swap_eq (a b : Scripting) (m : Mem) : Scripting.swap a b m = .ok (b, a) m := rfl

theorem destroy_ok (s : Scripting) (m : Mem) (hr : m.running = true) (h : ∀ x, s.objects.count (some x) ≤ m.refs x) :
    ∃ m', s.destroy m = .ok () m' ∧ m'.running = true ∧ ∀ x, m'.refs x + s.objects.count (some x) = m.refs x := by
  simp only [Scripting.objects, List.count_cons, List.count_nil] at h
  unfold Scripting.destroy
  obtain ⟨m1, e1, r1, c1⟩ := xdecref_ok s.restitution m hr fun x => by have := h x; simp only [List.count_cons, List.count_nil]; omega
  simp only [List.count_cons, List.count_nil] at c1
  rw [e1]; simp only [Res.bind]
  obtain ⟨m2, e2, r2, c2⟩ := xdecref_ok s.friction m1 r1 fun x => by have := h x; have := c1 x; simp only [List.count_cons, List.count_nil]; omega
  simp only [List.count_cons, List.count_nil] at c2
  rw [e2]; simp only
  obtain ⟨m3, e3, r3, c3⟩ := xdecref_ok s.endOfStep m2 r2 fun x => by have := h x; have := c1 x; have := c2 x; simp only [List.count_cons, List.count_nil]; omega
  simp only [List.count_cons, List.count_nil] at c3
  rw [e3]; simp only
  obtain ⟨m4, e4, r4, c4⟩ := xdecref_ok s.startOfStep m3 r3 fun x => by have := h x; have := c1 x; have := c2 x; have := c3 x; simp only [List.count_cons, List.count_nil]; omega
  simp only [List.count_cons, List.count_nil] at c4
  rw [e4]; simp only
  obtain ⟨m5, e5, r5, c5⟩ := xdecref_ok s.endOfSim m4 r4 fun x => by
    have := h x; have := c1 x; have := c2 x; have := c3 x; have := c4 x; simp only [List.count_cons, List.count_nil]; omega
  simp only [List.count_cons, List.count_nil] at c5
  rw [e5]; simp only
  obtain ⟨m6, e6, r6, c6⟩ := xdecref_ok s.startOfSim m5 r5 fun x => by
    have := h x; have := c1 x; have := c2 x; have := c3 x; have := c4 x; have := c5 x; simp only [List.count_cons, List.count_nil]; omega
  simp only [List.count_cons, List.count_nil] at c6
  rw [e6]; simp only
  obtain ⟨m7, e7, r7, c7⟩ := xdecref_ok s.module m6 r6 fun x => by
    have := h x; have := c1 x; have := c2 x; have := c3 x; have := c4 x; have := c5 x; have := c6 x; simp only [List.count_cons, List.count_nil]; omega
  simp only [List.count_cons, List.count_nil] at c7
  refine ⟨m7, e7, r7, fun x => ?_⟩
  have := c1 x; have := c2 x; have := c3 x; have := c4 x; have := c5 x; have := c6 x; have := c7 x
  simp only [Scripting.objects, List.count_cons, List.count_nil]
  omega

theorem function_mem (s : Scripting) (w : Which) : s.function w ∈ s.objects := by
  cases w <;> simp [Scripting.function, Scripting.objects]

theorem callback_ok (s : Scripting) (w : Which) (v : Option Obj) (m : Mem) (hr : m.running = true) (h : ∀ x, s.objects.count (some x) ≤ m.refs x) :
    (∃ m', s.callback w v m = .exit m') ∨ ∃ m', s.callback w v m = .ok () m' ∧ m'.running = true ∧ ∀ x, m'.refs x = m.refs x := by
  unfold Scripting.callback
  split_ifs with hn
  · exact Or.inr ⟨m, rfl, hr, fun _ => rfl⟩
  cases hf : s.function w with
  | none => exact Or.inr ⟨m, rfl, hr, fun _ => rfl⟩
  | some f =>
    have hpos : 0 < m.refs f := Nat.lt_of_lt_of_le (List.count_pos_iff.mpr (hf ▸ function_mem s w)) (h f)
    simp only [hpos, if_true]
    obtain ⟨m1, e1, r1, c1⟩ := newRef_ok v m hr
    rw [e1]
    simp only [Res.bind]
    split_ifs with hv
    · exact Or.inl ⟨_, rfl⟩
    · obtain ⟨m2, e2, r2, c2⟩ := xdecref_ok v m1 r1 fun x => by rw [c1]; omega
      exact Or.inr ⟨m2, e2, r2, fun x => by have := c1 x; have := c2 x; omega⟩

theorem step_ok (e : Event) (lost : List Obj) (s : Scripting) (m : Mem) (hr : m.running = true) (h : Owned lost s m) :
    (∃ m', step e s m = .exit m') ∨ ∃ s' m', step e s m = .ok s' m' ∧ m'.running = true ∧ Owned (modulesLoaded [e] ++ lost) s' m' := by
  cases e with
  | openScene l =>
    unfold step
    simp only
    rcases construct_ok l m hr with ⟨m', e⟩ | ⟨new, m1, e1, r1, c1⟩
    · rw [e]; exact Or.inl ⟨_, rfl⟩
    rw [e1]
    simp only [Res.bind, swap_eq]
    obtain ⟨m2, e2, r2, c2⟩ := destroy_ok s m1 r1 fun x => by rw [c1, h x]; omega
    rw [e2]
    refine Or.inr ⟨new, m2, rfl, r2, fun x => ?_⟩
    have := c1 x; have := c2 x; have := h x
    rw [List.count_append]
    omega
  | callback w v =>
    unfold step
    simp only
    rcases callback_ok s w v m hr (fun x => by rw [h x]; omega) with ⟨m', e⟩ | ⟨m1, e1, r1, c1⟩
    · rw [e]; exact Or.inl ⟨_, rfl⟩
    rw [e1]
    exact Or.inr ⟨s, m1, rfl, r1, fun x => by rw [c1, h x]; simp [modulesLoaded]⟩

theorem modulesLoaded_cons (e : Event) (es : List Event) : modulesLoaded (e :: es) = modulesLoaded [e] ++ modulesLoaded es := by
  unfold modulesLoaded
  rw [← List.filterMap_append]
  rfl

theorem run_ok (es : List Event) : ∀ (lost : List Obj) (s : Scripting) (m : Mem), m.running = true → Owned lost s m →
    (∃ s' m', run es s m = .exited s' m') ∨ ∃ s' m', run es s m = .returned s' m' ∧ m'.running = true ∧ Owned (modulesLoaded es ++ lost) s' m' := by
  induction es with
  | nil => intro lost s m hr h; exact Or.inr ⟨s, m, rfl, hr, by simpa [modulesLoaded] using h⟩
  | cons e es ih =>
    intro lost s m hr h
    unfold run
    rcases step_ok e lost s m hr h with ⟨m', e1⟩ | ⟨s1, m1, e1, r1, h1⟩
    · rw [e1]; exact Or.inl ⟨_, _, rfl⟩
    rw [e1]
    rcases ih _ s1 m1 r1 h1 with hx | ⟨s2, m2, e2, r2, h2⟩
    · exact Or.inl hx
    · refine Or.inr ⟨s2, m2, e2, r2, fun x => ?_⟩
      rw [h2 x, modulesLoaded_cons e es]
      simp only [List.count_append]
      omega

theorem owned_start : Owned [] Scripting.empty Mem.start := fun o => by simp [Mem.start, Scripting.objects, Scripting.empty]

/-- Giving back anything after the end is undefined. -/
theorem destroy_final (s : Scripting) (m : Mem) (hr : m.running = false) (h : ∃ o, some o ∈ s.objects) : s.destroy m = .ub := by
  have step : ∀ o : Option Obj, xdecref o m = .ub ∨ (o = none ∧ xdecref o m = .ok () m) := by
    intro o
    cases o with
    | none => exact Or.inr ⟨rfl, rfl⟩
    | some o => left; simp [xdecref, hr]
  obtain ⟨o, ho⟩ := h
  unfold Scripting.destroy
  simp only [Scripting.objects, List.mem_cons, List.not_mem_nil, or_false] at ho
  rcases step s.restitution with e | ⟨n1, e⟩ <;> rw [e] <;> simp only [Res.bind]
  rcases step s.friction with e | ⟨n2, e⟩ <;> rw [e] <;> simp only
  rcases step s.endOfStep with e | ⟨n3, e⟩ <;> rw [e] <;> simp only
  rcases step s.startOfStep with e | ⟨n4, e⟩ <;> rw [e] <;> simp only
  rcases step s.endOfSim with e | ⟨n5, e⟩ <;> rw [e] <;> simp only
  rcases step s.startOfSim with e | ⟨n6, e⟩ <;> rw [e] <;> simp only
  rcases step s.module with e | ⟨n7, e⟩
  · exact e
  · rw [n1, n2, n3, n4, n5, n6, n7] at ho
    simp at ho

theorem destroy_empty (s : Scripting) (m : Mem) (h : ∀ o, some o ∉ s.objects) : s.destroy m = .ok () m := by
  simp only [Scripting.objects, List.mem_cons, List.not_mem_nil, or_false, not_or] at h
  have e : ∀ x : Option Obj, (∀ o, some o ≠ x) → xdecref x m = .ok () m := by
    intro x hx
    cases x with
    | none => rfl
    | some o => exact absurd rfl (hx o)
  unfold Scripting.destroy
  rw [e s.restitution fun o => (h o).2.2.2.2.2.2]; simp only [Res.bind]
  rw [e s.friction fun o => (h o).2.2.2.2.2.1]; simp only
  rw [e s.endOfStep fun o => (h o).2.2.2.2.1]; simp only
  rw [e s.startOfStep fun o => (h o).2.2.2.1]; simp only
  rw [e s.endOfSim fun o => (h o).2.2.1]; simp only
  rw [e s.startOfSim fun o => (h o).2.1]; simp only
  exact e s.module fun o => (h o).1

end PythonRefs
end Scisim
