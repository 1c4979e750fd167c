import Verif.Lemmas.Copies
/-!
# C91: a copy of a simulation is the same simulation, and another one

Histories of any length, with any number of simulations of each kind: what the code does with pointers is what it would do with plain values (`Spec.run`), no pointer is used after its object is gone or
freed twice, and no object is lost.
-/

namespace Scisim.Copies

open Spec

variable {σ : Type → Type} {c : Class σ}

/-- For each of the three kinds of simulation -/
theorem values (hc : Lawful c) (ops : List (Op σ)) (v : Values σ) (h : Spec.run c (fun _ => none) ops = some v) :
    ∃ w, run c (World.start σ) ops = .ok w ∧ LookLike c w v ∧ NoLeak c w := by
  have := run_spec hc ops (inv_start (c := c))
  rw [h] at this
  obtain ⟨w, e, hi⟩ := this
  exact ⟨w, e, lookLike_iff.mpr hi.looks, hi.noLeak⟩

/-- **C91**, discs: whatever is created, copied, assigned (also to itself), swapped, changed and destroyed, in whatever order, all simulations look like values to which the same was done, every object in
memory belongs to one that still exists, and nothing undefined happens -/
theorem C91_ball2d (ops : List (Op Ball2DState)) (v : Values Ball2DState) (h : Spec.run ball2d (fun _ => none) ops = some v) :
    ∃ w, run ball2d (World.start _) ops = .ok w ∧ LookLike ball2d w v ∧ NoLeak ball2d w :=
  values lawful_ball2d ops v h

/-- **C91**, rigid bodies in the plane -/
theorem C91_rb2d (ops : List (Op RigidBody2DState)) (v : Values RigidBody2DState) (h : Spec.run rigidBody2d (fun _ => none) ops = some v) :
    ∃ w, run rigidBody2d (World.start _) ops = .ok w ∧ LookLike rigidBody2d w v ∧ NoLeak rigidBody2d w :=
  values lawful_rigidBody2d ops v h

/-- **C91**, rigid bodies in space -/
theorem C91_rb3d (ops : List (Op RigidBody3DState)) (v : Values RigidBody3DState) (h : Spec.run rigidBody3d (fun _ => none) ops = some v) :
    ∃ w, run rigidBody3d (World.start _) ops = .ok w ∧ LookLike rigidBody3d w v ∧ NoLeak rigidBody3d w :=
  values lawful_rigidBody3d ops v h

/-- For each of the three kinds: nothing undefined happens in any history, with or without sense -/
theorem defined (hc : Lawful c) (ops : List (Op σ)) : run c (World.start σ) ops ≠ .ub := by
  have := run_spec hc ops (inv_start (c := c))
  cases h : Spec.run c (fun _ => none) ops with
  | none =>
    rw [h] at this
    rw [show run c (World.start σ) ops = .fail from this]
    simp
  | some v =>
    rw [h] at this
    obtain ⟨w, e, _⟩ := this
    rw [e]
    simp

/-- **C91**: no pointer is used or freed after its object is gone, and no null pointer is used -/
theorem C91_defined : (∀ ops, run ball2d (World.start _) ops ≠ .ub) ∧ (∀ ops, run rigidBody2d (World.start _) ops ≠ .ub) ∧ ∀ ops, run rigidBody3d (World.start _) ops ≠ .ub :=
  ⟨defined lawful_ball2d, defined lawful_rigidBody2d, defined lawful_rigidBody3d⟩

/-- For each of the three kinds: the simulation `i` is backed up in `k`, anything is done except to `k`, and `i` is set back -/
theorem reset (hc : Lawful c) (before during : List (Op σ)) (i k : ℕ) (backup : Op σ) (hback : backup = .copy k i ∨ backup = .assign k i) (hk : ∀ op ∈ during, ¬ Changes k op) (w : World σ)
    (h : run c (World.start σ) (before ++ [backup] ++ during ++ [.assign i k]) = .ok w) :
    ∃ w0 x0 x y, run c (World.start σ) before = .ok w0 ∧ w0.sims i = some x0 ∧ w.sims i = some x ∧ Looks c w0.mem x0 y ∧ Looks c w.mem x y := by
  have hall := run_spec hc (before ++ [backup] ++ during ++ [.assign i k]) (inv_start (c := c))
  cases hv : Spec.run c (fun _ => none) (before ++ [backup] ++ during ++ [.assign i k]) with
  | none =>
    rw [hv] at hall
    rw [show run c (World.start σ) _ = .fail from hall] at h
    cases h
  | some v =>
    rw [hv] at hall
    obtain ⟨w', e, hi⟩ := hall
    rw [h] at e
    cases e
    simp only [spec_run_append, Option.bind_eq_some_iff] at hv
    obtain ⟨v3, ⟨v2, ⟨v1, hv1, hv2⟩, hv3⟩, hv4⟩ := hv
    have hbef := run_spec hc before (inv_start (c := c))
    rw [hv1] at hbef
    obtain ⟨w0, e0, hi0⟩ := hbef
    -- the values
    have hv2k : ∃ y, v1 i = some y ∧ v2 k = some y := by
      simp only [Spec.run, Option.bind_eq_some_iff, Option.some.injEq] at hv2
      obtain ⟨u, hu, rfl⟩ := hv2
      rcases hback with rfl | rfl
      · simp only [Spec.step] at hu
        split_ifs at hu
        obtain ⟨y, hy, hu⟩ := Option.map_eq_some_iff.mp hu
        exact ⟨y, hy, by rw [← hu, Function.update_self]⟩
      · simp only [Spec.step, Option.bind_eq_some_iff] at hu
        obtain ⟨_, _, hu⟩ := hu
        obtain ⟨y, hy, hu⟩ := Option.map_eq_some_iff.mp hu
        exact ⟨y, hy, by rw [← hu, Function.update_self]⟩
    obtain ⟨y, hy1, hy2⟩ := hv2k
    have hy3 : v3 k = some y := (spec_run_same hk hv3).trans hy2
    have hy4 : v i = some y := by
      simp only [Spec.run, Option.bind_eq_some_iff, Option.some.injEq] at hv4
      obtain ⟨u, hu, rfl⟩ := hv4
      simp only [Spec.step, Option.bind_eq_some_iff] at hu
      obtain ⟨_, _, hu⟩ := hu
      obtain ⟨y', hy', hu⟩ := Option.map_eq_some_iff.mp hu
      rw [hy3] at hy'
      cases hy'
      rw [← hu, Function.update_self]
    have h0 := hi0.looks i
    have h1 := hi.looks i
    rw [hy1] at h0
    rw [hy4] at h1
    cases hx0 : w0.sims i with
    | none => rw [hx0] at h0; exact h0.elim
    | some x0 =>
      cases hx : w.sims i with
      | none => rw [hx] at h1; exact h1.elim
      | some x =>
        rw [hx0] at h0
        rw [hx] at h1
        exact ⟨w0, x0, x, y, e0, hx0, rfl, h0, h1⟩

/-- **C91**, reset, discs: a simulation that is backed up, used in any way and set back looks as it did, however often this was done before -/
theorem C91_reset_ball2d (before during : List (Op Ball2DState)) (i k : ℕ) (backup : Op Ball2DState) (hback : backup = .copy k i ∨ backup = .assign k i) (hk : ∀ op ∈ during, ¬ Changes k op)
    (w : World Ball2DState) (h : run ball2d (World.start _) (before ++ [backup] ++ during ++ [.assign i k]) = .ok w) :
    ∃ w0 x0 x y, run ball2d (World.start _) before = .ok w0 ∧ w0.sims i = some x0 ∧ w.sims i = some x ∧ Looks ball2d w0.mem x0 y ∧ Looks ball2d w.mem x y :=
  reset lawful_ball2d before during i k backup hback hk w h

/-- **C91**, reset, rigid bodies in the plane -/
theorem C91_reset_rb2d (before during : List (Op RigidBody2DState)) (i k : ℕ) (backup : Op RigidBody2DState) (hback : backup = .copy k i ∨ backup = .assign k i) (hk : ∀ op ∈ during, ¬ Changes k op)
    (w : World RigidBody2DState) (h : run rigidBody2d (World.start _) (before ++ [backup] ++ during ++ [.assign i k]) = .ok w) :
    ∃ w0 x0 x y, run rigidBody2d (World.start _) before = .ok w0 ∧ w0.sims i = some x0 ∧ w.sims i = some x ∧ Looks rigidBody2d w0.mem x0 y ∧ Looks rigidBody2d w.mem x y :=
  reset lawful_rigidBody2d before during i k backup hback hk w h

/-- **C91**, reset, rigid bodies in space -/
theorem C91_reset_rb3d (before during : List (Op RigidBody3DState)) (i k : ℕ) (backup : Op RigidBody3DState) (hback : backup = .copy k i ∨ backup = .assign k i) (hk : ∀ op ∈ during, ¬ Changes k op)
    (w : World RigidBody3DState) (h : run rigidBody3d (World.start _) (before ++ [backup] ++ during ++ [.assign i k]) = .ok w) :
    ∃ w0 x0 x y, run rigidBody3d (World.start _) before = .ok w0 ∧ w0.sims i = some x0 ∧ w.sims i = some x ∧ Looks rigidBody3d w0.mem x0 y ∧ Looks rigidBody3d w.mem x y :=
  reset lawful_rigidBody3d before during i k backup hback hk w h

/-- **C91**: what two simulations look like determines all that is in them: if both look like the same value, all members stored by value agree and the forces and shapes are equal one by one -/
theorem C91_members : (∀ x y : Ball2DState Obj, ball2d.plain x = ball2d.plain y → ball2d.geometry x = ball2d.geometry y → ball2d.forces x = ball2d.forces y → x = y) ∧
    (∀ x y : RigidBody2DState Obj, rigidBody2d.plain x = rigidBody2d.plain y → rigidBody2d.geometry x = rigidBody2d.geometry y → rigidBody2d.forces x = rigidBody2d.forces y → x = y) ∧
    ∀ x y : RigidBody3DState Obj, rigidBody3d.plain x = rigidBody3d.plain y → rigidBody3d.geometry x = rigidBody3d.geometry y → rigidBody3d.forces x = rigidBody3d.forces y → x = y := by
  refine ⟨fun x y h1 h2 h3 => ?_, fun x y h1 h2 h3 => ?_, fun x y h1 h2 h3 => ?_⟩
  · rw [← lawful_ball2d.make_parts x, ← lawful_ball2d.make_parts y, h1, h2, h3]
  · rw [← lawful_rigidBody2d.make_parts x, ← lawful_rigidBody2d.make_parts y, h1, h2, h3]
  · rw [← lawful_rigidBody3d.make_parts x, ← lawful_rigidBody3d.make_parts y, h1, h2, h3]

/-- A history that makes sense: a body with a staple and gravity, backed up, with the staple changed, a force added, the first force removed, the position changed, assigned to itself, and set back -/
def demo : List (Op RigidBody3DState) :=
  [.create 0, .add 0 .geometry (.staple ⟨3, 2, 1, [[1]]⟩), .add 0 .forces (.gravity3d [0, -10, 0]), .edit 0 (fun s => { s with nbodies := 1, q := [1, 2, 3] })] ++ [.copy 1 0] ++
  [.change 0 .geometry 0 (fun _ => .sphere 7), .add 0 .forces (.gravity3d [1, 0, 0]), .remove 0 .forces 0, .edit 0 (fun s => { s with q := [9] }), .assign 0 0] ++ [.assign 0 1]

/-- The history makes sense, and in the end simulation 0 has its staple, its force and its position again -/
example : ((Spec.run rigidBody3d (fun _ => none) demo).bind fun v => (v 0).map fun x => (x.state.nbodies, x.state.q, x.state.geometry, x.state.forces)) =
    some (1, [1, 2, 3], [.staple ⟨3, 2, 1, [[1]]⟩], [.gravity3d [0, -10, 0]]) := by
  decide +kernel

/-- Before it is set back it is different, and its backup is not -/
example : ((Spec.run rigidBody3d (fun _ => none) demo.dropLast).bind fun v => (v 0).map fun x => (x.state.q, x.state.geometry, x.state.forces)) = some ([9], [.sphere 7], [.gravity3d [1, 0, 0]]) ∧
    ((Spec.run rigidBody3d (fun _ => none) demo.dropLast).bind fun v => (v 1).map fun x => (x.state.q, x.state.geometry, x.state.forces)) =
      some ([1, 2, 3], [.staple ⟨3, 2, 1, [[1]]⟩], [.gravity3d [0, -10, 0]]) := by
  decide +kernel

/-- `C91_rb3d` and `C91_reset_rb3d` apply to it -/
example : ∃ w v, run rigidBody3d (World.start _) demo = .ok w ∧ Spec.run rigidBody3d (fun _ => none) demo = some v ∧ LookLike rigidBody3d w v := by
  cases h : Spec.run rigidBody3d (fun _ => none) demo with
  | none =>
    have : (Spec.run rigidBody3d (fun _ => none) demo).isSome = true := by decide +kernel
    rw [h] at this
    cases this
  | some v =>
    obtain ⟨w, h1, h2, _⟩ := C91_rb3d demo v h
    exact ⟨w, v, h1, rfl, h2⟩

/-- The operations between are no changes of the backup -/
example : ∀ op ∈ [(.change 0 .geometry 0 (fun _ => .sphere 7) : Op RigidBody3DState), .remove 0 .forces 0, .assign 0 0, .swap 0 2], ¬ Changes 1 op := by
  intro op h
  simp only [List.mem_cons, List.not_mem_nil, or_false] at h
  rcases h with rfl | rfl | rfl | rfl <;> simp [Changes]

end Scisim.Copies
