import Verif.Lemmas.OperatorCopies
/-!
# C93: copies of operators

A clone of an operator, and an operator or solver constructed from others, is the operator that was asked for, with all its parts and parameters, in memory of its own.
-/

namespace Scisim.OperatorCopies

/-- A clone of an impact operator is the same operator, to any depth of nesting. It shares no object with the original, which stays as it is, as does all other memory, and both write the same bytes to a file. The
process ends instead exactly if a list of linear solvers for Ipopt in it is empty, has duplicates, or names an unknown solver. -/
theorem C93_clone (m : Mem) (a : ℕ) (op : ImpactOp) (l : List ℕ) (hw : m.Wf) (h : Holds m a op l) :
    (Good op → ∃ a' m' l', cloneImpact a m = .ok (a', m') ∧ m'.Wf ∧ Holds m' a' op l' ∧ Holds m' a op l ∧ l.Disjoint l' ∧ Fresh m l' ∧ SameBut l' m m' ∧ write a' m' = write a m) ∧
    (¬ Good op → cloneImpact a m = .exit) := by
  refine ⟨fun hg => ?_, (cloneImpact_spec op m a l hw h).2⟩
  obtain ⟨⟨a', m'⟩, e, hm⟩ := (cloneImpact_spec op m a l hw h).1 hg
  have hk := hm.keeps (framed_impact op) hw h
  obtain ⟨l', hw', hh, hf, _, hs⟩ := hm
  refine ⟨a', m', l', e, hw', hh, hk, fun x hx hx' => ?_, hf, hs, ?_⟩
  · have := hw x (h.live x hx); have := hf x hx'; omega
  · show writeAux m'.next a' m' = writeAux m.next a m
    rw [writeAux_spec op _ m' a' l' (hh.depth_next hw') hh, writeAux_spec op _ m a l (h.depth_next hw) h]

/-- The same for friction operators -/
theorem C93_clone_friction (m : Mem) (a : ℕ) (f : FrictionOp) (hw : m.Wf) (h : HoldsFriction m a f) :
    (GoodFriction f → ∃ a' m', cloneFriction a m = .ok (a', m') ∧ m'.Wf ∧ HoldsFriction m' a' f ∧ HoldsFriction m' a f ∧ a' ≠ a ∧ Fresh m [a'] ∧ SameBut [a'] m m') ∧
    (¬ GoodFriction f → cloneFriction a m = .exit) := by
  refine ⟨fun hg => ?_, (cloneFriction_spec hw h).2⟩
  obtain ⟨⟨a', m'⟩, e, l', hw', ⟨hh, hl⟩, hf, _, hs⟩ := (cloneFriction_spec hw h).1 hg
  simp only at hl; subst hl
  have hne : a' ≠ a := by rintro rfl; have := hw a' h.live; have := hf a' (by simp); omega
  exact ⟨a', m', e, hw', hh, h.frame (hs a (by simpa using hne.symm)), hne, hf, hs⟩

/-- Destroying an operator destroys exactly the objects it owns, each once. Any operator that shares none of them stays as it is. -/
theorem C93_delete (m : Mem) (a b : ℕ) (op p : ImpactOp) (l l' : List ℕ) (hw : m.Wf) (h : Holds m a op l) (h' : Holds m b p l') (hd : l.Disjoint l') :
    ∃ m', delete a m = .ok m' ∧ m'.Wf ∧ (∀ x ∈ l, m'.objs x = none) ∧ SameBut l m m' ∧ Holds m' b p l' :=
  ⟨m.without l, delete_spec hw h, without_wf hw l, fun x hx => by simp [Mem.without, hx], fun x hx => by simp [Mem.without, hx],
    h'.frame fun x hx => by simp only [Mem.without]; exact if_neg fun hc => hd hc hx⟩

/-- Written to a file, an operator in memory gives the bytes that belong to its description. -/
theorem C93_write (m : Mem) (a : ℕ) (op : ImpactOp) (l : List ℕ) (hw : m.Wf) (h : Holds m a op l) : write a m = serImpactOp op :=
  writeAux_spec op _ m a l (h.depth_next hw) h

/-- The parsers' way of constructing an operator, from temporary parts, gives the operator that was asked for. The temporary parts are gone, nothing that was in memory before has changed, and destroying the operator
leaves memory as it was before. The process ends instead exactly if a list of linear solvers is not acceptable. -/
theorem C93_parse (op : ImpactOp) (m : Mem) (hw : m.Wf) (hop : Whole op) :
    (Good op → ∃ a m' l, parseImpact op m = .ok (a, m') ∧ m'.Wf ∧ Holds m' a op l ∧ Fresh m l ∧ SameBut l m m' ∧ ∃ m'', delete a m' = .ok m'' ∧ m''.objs = m.objs) ∧
    (¬ Good op → parseImpact op m = .exit) := by
  refine ⟨fun hg => ?_, (parseImpact_spec op m hw hop).2⟩
  obtain ⟨⟨a, m'⟩, e, l, hw', hh, hf, _, hs⟩ := (parseImpact_spec op m hw hop).1 hg
  exact ⟨a, m', l, e, hw', hh, hf, hs, _, delete_spec hw' hh, without_objs hw hf hs⟩

/-- The same for a friction solver with its two operators: they outlive the temporary ones they were copied from, and share nothing. -/
theorem C93_solver (i : ImpactOp) (f : FrictionOp) (m : Mem) (hw : m.Wf) (hi : Whole i) (hf : f ≠ .null) :
    (Good i ∧ GoodFriction f → ∃ s m' l, parseSolver i f m = .ok (s, m') ∧ m'.Wf ∧ Holds m' s.impact i l ∧ HoldsFriction m' s.friction f ∧ s.friction ∉ l ∧ Fresh m (s.friction :: l) ∧
      SameBut (s.friction :: l) m m' ∧ ∃ m'', deleteSolver s m' = .ok m'' ∧ m''.objs = m.objs) ∧
    (¬ (Good i ∧ GoodFriction f) → parseSolver i f m = .exit) := by
  refine ⟨fun hg => ?_, (parseSolver_spec i f hw hi hf).2⟩
  obtain ⟨⟨s, m'⟩, e, l, hw', hh, hfr, _, hs⟩ := (parseSolver_spec i f hw hi hf).1 hg
  have hd := deleteSolver_spec hw' hh
  obtain ⟨l', h1, h2, h3, rfl⟩ := hh
  exact ⟨s, m', l', e, hw', h1, h2, h3, hfr, hs, _, hd, without_objs hw hfr hs⟩

/-! ## Instances -/

/-- Generalised restitution from a nested operator and Ipopt -/
def sample : ImpactOp := .grr (.gr ⟨1⟩ (.lcpAPGD ⟨2⟩ 3)) (.lcpIpopt [ascii "ma27", ascii "mumps"] ⟨4⟩)

theorem start_wf : Mem.start.Wf := fun _ h => absurd rfl h

theorem good_sample : Good sample ∧ Whole sample := by
  refine ⟨⟨trivial, by decide, by decide +kernel, ?_⟩, trivial, trivial⟩
  intro s hs
  simp only [List.mem_cons, List.not_mem_nil, or_false] at hs
  rcases hs with rfl | rfl <;> simp

/-- The hypotheses of `C93_parse` and `C93_clone` are met by a nested operator in memory. -/
example : ∃ a m l, parseImpact sample Mem.start = .ok (a, m) ∧ m.Wf ∧ Holds m a sample l ∧ Good sample ∧ 1 < l.length := by
  obtain ⟨a, m, l, e, hw, h, _⟩ := (C93_parse sample Mem.start start_wf good_sample.2).1 good_sample.1
  refine ⟨a, m, l, e, hw, h, good_sample.1, ?_⟩
  have := h.depth_le
  simp only [sample, depth] at this
  omega

/-- The parts of the operator that were temporary are destroyed: of eight objects made, four are left. -/
example : (match parseImpact sample Mem.start with
    | .ok (_, m) => (m.next, ((List.range m.next).filter fun x => (m.objs x).isSome).length)
    | _ => (0, 0)) = (8, 4) := by decide +kernel

/-- A friction solver -/
example : ∃ s m', parseSolver sample (.linearMDPQL 4 ⟨1⟩) Mem.start = .ok (s, m') ∧ HoldsFriction m' s.friction (.linearMDPQL 4 ⟨1⟩) := by
  obtain ⟨s, m', _, e, _, _, h, _⟩ := (C93_solver sample (.linearMDPQL 4 ⟨1⟩) Mem.start start_wf good_sample.2 (by decide)).1 ⟨good_sample.1, trivial⟩
  exact ⟨s, m', e, h⟩

/-- An operator read from a file may hold a list of solvers that was never checked: a copy of it would end the process. Nothing in the program copies such an operator. -/
example : ∃ (m : Mem) (a : ℕ), m.Wf ∧ Holds m a (.gr ⟨1⟩ (.lcpIpopt [] ⟨2⟩)) [1, 0] ∧ a = 1 ∧ cloneImpact a m = .exit := by
  let m : Mem := (Mem.start.push (.lcpIpopt [] ⟨2⟩)).push (.gr ⟨1⟩ 0)
  have hw : m.Wf := push_wf (push_wf start_wf _) _
  have h : Holds m 1 (.gr ⟨1⟩ (.lcpIpopt [] ⟨2⟩)) [1, 0] := .gr (by rfl) (.lcpIpopt (by rfl)) (by decide)
  exact ⟨m, 1, hw, h, rfl, (C93_clone m 1 _ _ hw h).2 fun hg => hg.1 rfl⟩

end Scisim.OperatorCopies
