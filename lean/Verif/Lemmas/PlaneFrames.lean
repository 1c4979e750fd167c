import Mathlib.Tactic.FieldSimp
import Mathlib.Tactic.Linarith
import Mathlib.Tactic.Positivity
import Verif.Spec.PlaneFrames
/-! # Lemmas on normals of planes and axes of cylinders -/

namespace Scisim.PlaneFrames
open Scisim.Scripting

theorem normSq_pos {n : V2 ℝ} (h : n.x ≠ 0 ∨ n.y ≠ 0) : 0 < n.normSq := by
  have e : n.normSq = n.x * n.x + n.y * n.y := rfl
  rw [e]
  rcases h with h | h
  · have := mul_self_pos.mpr h; nlinarith [mul_self_nonneg n.y]
  · have := mul_self_pos.mpr h; nlinarith [mul_self_nonneg n.x]

theorem normalized_unit {n : V2 ℝ} (h : 0 < n.normSq) : n.normalized.x ^ 2 + n.normalized.y ^ 2 = 1 ∧ Along n n.normalized := by
  have hs : 0 < Real.sqrt n.normSq := Real.sqrt_pos.mpr h
  have hq : Real.sqrt n.normSq ^ 2 = n.x * n.x + n.y * n.y := Real.sq_sqrt h.le
  have ex : n.normalized.x = 1 / Real.sqrt n.normSq * n.x := by unfold V2.normalized; rw [if_pos h]; rfl
  have ey : n.normalized.y = 1 / Real.sqrt n.normSq * n.y := by unfold V2.normalized; rw [if_pos h]; rfl
  refine ⟨?_, Real.sqrt n.normSq, hs, ?_, ?_⟩
  · rw [ex, ey]; field_simp; rw [hq]; ring
  · rw [ex]; field_simp
  · rw [ey]; field_simp

theorem unit3_unit {a : Triple ℝ} (h : 0 < normSq3 a) : (unit3 a).x ^ 2 + (unit3 a).y ^ 2 + (unit3 a).z ^ 2 = 1 := by
  have hs : 0 < Real.sqrt (normSq3 a) := Real.sqrt_pos.mpr h
  have hq : Real.sqrt (normSq3 a) ^ 2 = a.x * a.x + a.y * a.y + a.z * a.z := Real.sq_sqrt h.le
  unfold unit3; rw [if_pos h]; simp only
  field_simp; rw [hq]; ring

theorem normSq3_pos {a : Triple ℝ} (h : a.x ≠ 0 ∨ a.y ≠ 0 ∨ a.z ≠ 0) : 0 < normSq3 a := by
  unfold normSq3
  rcases h with h | h | h <;> have := mul_self_pos.mpr h <;> nlinarith [mul_self_nonneg a.x, mul_self_nonneg a.y, mul_self_nonneg a.z]

theorem unit3_along {a : Triple ℝ} (h : 0 < normSq3 a) : Along3 a (unit3 a) := by
  have hs : 0 < Real.sqrt (normSq3 a) := Real.sqrt_pos.mpr h
  refine ⟨Real.sqrt (normSq3 a), hs, ?_⟩
  unfold unit3; rw [if_pos h]
  exact ⟨(mul_div_cancel₀ _ hs.ne').symm, (mul_div_cancel₀ _ hs.ne').symm, (mul_div_cancel₀ _ hs.ne').symm⟩

theorem isUnit_pos {a : Triple ℝ} (h : isUnit a = true) : 0 < normSq3 a := by
  unfold isUnit at h
  rw [decide_eq_true_eq] at h
  by_contra hc
  rw [Real.sqrt_eq_zero'.mpr (not_lt.mp hc)] at h
  norm_num at h

theorem modifyElement_mem {α : Type} {l l' : List α} {i : Int} {f : α → α} (h : modifyElement l i f = .ok l') {b : α} (hb : b ∈ l') : b ∈ l ∨ ∃ a ∈ l, b = f a := by
  obtain ⟨a, e, h⟩ := Outcome.bind_ok_iff.mp h
  simp only [Outcome.ok.injEq] at h; subst h
  have ha : a ∈ l := by
    unfold element at e
    split at e
    · cases e
    · cases hg : l[asUnsigned i]? with
      | none => rw [hg] at e; cases e
      | some c =>
        rw [hg] at e
        simp only [deref, Outcome.ok.injEq] at e; subst e
        exact List.mem_of_getElem? hg
  rcases List.mem_or_eq_of_mem_set hb with h | h
  · exact Or.inl h
  · exact Or.inr ⟨a, ha, h⟩

theorem eraseElement_mem {α : Type} {l l' : List α} {i : Int} (h : eraseElement l i = .ok l') {b : α} (hb : b ∈ l') : b ∈ l := by
  obtain ⟨a, e, h⟩ := Outcome.bind_ok_iff.mp h
  simp only [Outcome.ok.injEq] at h; subst h
  exact List.mem_of_mem_eraseIdx hb

theorem state_ok {W : Type} {m : Machine W ℝ} {w : W} (h : m.state = .ok w) : w = m.world := by
  unfold Machine.state at h
  split at h
  · simp only [Outcome.ok.injEq] at h; exact h.symm
  · cases h

theorem calls_induct {W O : Type} {f : O → Machine W ℝ → Outcome (Reply ℝ × Machine W ℝ)} (P : O → Prop) (I : Machine W ℝ → Prop)
    (hs : ∀ o m r, P o → I m → f o m = .ok r → I r.2) : ∀ os m m', (∀ o ∈ os, P o) → I m → calls f os m = .ok m' → I m' := by
  intro os
  induction os with
  | nil => intro m m' _ hi h; simp only [calls, Outcome.ok.injEq] at h; subst h; exact hi
  | cons o os ih =>
    intro m m' hp hi h
    obtain ⟨r, e, hh⟩ := Outcome.bind_ok_iff.mp h
    exact ih r.2 m' (fun o' ho => hp o' (List.mem_cons_of_mem _ ho)) (hs o m r (hp o List.mem_cons_self) hi e) hh

section
variable {G : Type} [HasNaN ℝ]

theorem bodyCall_framed (junk : Nat → Nat) (circle : ℝ → G) (massInertia : G → ℝ → ℝ × ℝ) (o : BodyCall ℝ) (m : Machine (BodyWorld ℝ G) ℝ) (r) (ho : Proper o)
    (hi : ∀ p ∈ m.world.planes, Framed p) (h : bodyCall V2.normalized junk circle massInertia o m = .ok r) : ∀ p ∈ r.2.world.planes, Framed p := by
  cases o with
  | numStaticPlanes => obtain ⟨w, e, h⟩ := Outcome.bind_ok_iff.mp h; cases h; exact hi
  | numBodies => obtain ⟨w, e, h⟩ := Outcome.bind_ok_iff.mp h; cases h; exact hi
  | numGeometryInstances => obtain ⟨w, e, h⟩ := Outcome.bind_ok_iff.mp h; cases h; exact hi
  | setStaticPlanePosition i x y =>
    obtain ⟨w, e, h⟩ := Outcome.bind_ok_iff.mp h
    obtain ⟨l, e2, h⟩ := Outcome.bind_ok_iff.mp h
    cases h; cases state_ok e
    intro p hp
    rcases modifyElement_mem e2 hp with h | ⟨a, ha, rfl⟩
    · exact hi p h
    · exact hi a ha
  | setStaticPlaneVelocity i x y =>
    obtain ⟨w, e, h⟩ := Outcome.bind_ok_iff.mp h
    obtain ⟨l, e2, h⟩ := Outcome.bind_ok_iff.mp h
    cases h; cases state_ok e
    intro p hp
    rcases modifyElement_mem e2 hp with h | ⟨a, ha, rfl⟩
    · exact hi p h
    · exact hi a ha
  | setStaticPlaneAngularVelocity i w0 =>
    obtain ⟨w, e, h⟩ := Outcome.bind_ok_iff.mp h
    obtain ⟨l, e2, h⟩ := Outcome.bind_ok_iff.mp h
    cases h; cases state_ok e
    intro p hp
    rcases modifyElement_mem e2 hp with h | ⟨a, ha, rfl⟩
    · exact hi p h
    · exact hi a ha
  | setStaticPlaneNormal i x y =>
    obtain ⟨w, e, h⟩ := Outcome.bind_ok_iff.mp h
    obtain ⟨l, e2, h⟩ := Outcome.bind_ok_iff.mp h
    cases h; cases state_ok e
    intro p hp
    rcases modifyElement_mem e2 hp with h | ⟨a, ha, rfl⟩
    · exact hi p h
    · exact ⟨(normalized_unit (normSq_pos (n := ⟨x, y⟩) ho)).1, rfl⟩
  | deleteStaticPlane i =>
    obtain ⟨w, e, h⟩ := Outcome.bind_ok_iff.mp h
    obtain ⟨l, e2, h⟩ := Outcome.bind_ok_iff.mp h
    cases h; cases state_ok e
    intro p hp
    exact hi p (eraseElement_mem e2 hp)
  | addCircleGeometry a =>
    obtain ⟨b, e, h⟩ := Outcome.bind_ok_iff.mp h
    obtain ⟨w, e2, h⟩ := Outcome.bind_ok_iff.mp h
    cases h; cases state_ok e2; exact hi
  | addBody x y theta vx vy omega rho g f =>
    simp only [bodyCall] at h
    split at h
    · cases h
    · obtain ⟨w, e, h⟩ := Outcome.bind_ok_iff.mp h
      obtain ⟨b, e2, h⟩ := Outcome.bind_ok_iff.mp h
      cases h; cases state_ok e; exact hi
  | deleteBodies is =>
    obtain ⟨w, e, h⟩ := Outcome.bind_ok_iff.mp h
    obtain ⟨b, e2, h⟩ := Outcome.bind_ok_iff.mp h
    cases h; cases state_ok e; exact hi
  | deleteGeometry is =>
    obtain ⟨w, e, h⟩ := Outcome.bind_ok_iff.mp h
    obtain ⟨b, e2, h⟩ := Outcome.bind_ok_iff.mp h
    cases h; cases state_ok e; exact hi

end

theorem spaceCall_unit {Q : Type} (o : SpaceCall ℝ) (m : Machine (SpaceWorld ℝ Q) ℝ) (r) (hi : ∀ c ∈ m.world.cylinders, UnitAxis c) (h : spaceCall isUnit unit3 o m = .ok r) :
    ∀ c ∈ r.2.world.cylinders, UnitAxis c := by
  cases o with
  | numStaticPlanes => obtain ⟨w, e, h⟩ := Outcome.bind_ok_iff.mp h; cases h; exact hi
  | numStaticCylinders => obtain ⟨w, e, h⟩ := Outcome.bind_ok_iff.mp h; cases h; exact hi
  | numForces => obtain ⟨w, e, h⟩ := Outcome.bind_ok_iff.mp h; cases h; exact hi
  | setStaticPlanePosition i x =>
    obtain ⟨w, e, h⟩ := Outcome.bind_ok_iff.mp h
    obtain ⟨l, e2, h⟩ := Outcome.bind_ok_iff.mp h
    cases h; cases state_ok e; exact hi
  | setStaticPlaneVelocity i x =>
    obtain ⟨w, e, h⟩ := Outcome.bind_ok_iff.mp h
    obtain ⟨l, e2, h⟩ := Outcome.bind_ok_iff.mp h
    cases h; cases state_ok e; exact hi
  | forceType i =>
    obtain ⟨w, e, h⟩ := Outcome.bind_ok_iff.mp h
    obtain ⟨l, e2, h⟩ := Outcome.bind_ok_iff.mp h
    cases h; exact hi
  | setGravityForce i g =>
    obtain ⟨w, e, h⟩ := Outcome.bind_ok_iff.mp h
    obtain ⟨l, e2, h⟩ := Outcome.bind_ok_iff.mp h
    cases h; cases state_ok e; exact hi
  | setInitialIterate n =>
    simp only [spaceCall] at h
    split at h
    · cases h; exact hi
    · cases h
  | setStaticCylinderAngularVelocity i omega =>
    obtain ⟨w, e, h⟩ := Outcome.bind_ok_iff.mp h
    obtain ⟨l, e2, h⟩ := Outcome.bind_ok_iff.mp h
    cases h; cases state_ok e
    intro c hc
    rcases modifyElement_mem e2 hc with h | ⟨a, ha, rfl⟩
    · exact hi c h
    · exact hi a ha
  | setStaticCylinderOrientation i axis theta =>
    obtain ⟨w, e, h⟩ := Outcome.bind_ok_iff.mp h
    split at h
    · cases h
    · split at h
      · cases h
      · next hu =>
        obtain ⟨c, e2, h⟩ := Outcome.bind_ok_iff.mp h
        cases h; cases state_ok e
        intro b hb
        rcases List.mem_or_eq_of_mem_set hb with h | h
        · exact hi b h
        · subst h; exact unit3_unit (isUnit_pos (by simpa using hu))

theorem modifyElement_map {α β : Type} (g : α → β) {l l' : List α} {i : Int} {f : α → α} (h : modifyElement l i f = .ok l') (hf : ∀ a, g (f a) = g a) : l'.map g = l.map g := by
  obtain ⟨a, e, h⟩ := Outcome.bind_ok_iff.mp h
  simp only [Outcome.ok.injEq] at h; subst h
  have ha : l[asUnsigned i]? = some a := by
    unfold element at e
    split at e
    · cases e
    · cases hg : l[asUnsigned i]? with
      | none => rw [hg] at e; cases e
      | some c => rw [hg] at e; simp only [deref, Outcome.ok.injEq] at e; subst e; rfl
  obtain ⟨hl, hv⟩ := List.getElem?_eq_some_iff.mp ha
  rw [List.map_set, hf, ← hv]
  exact List.ext_getElem (by simp) fun n h1 h2 => by
    rw [List.getElem_set]; split
    · next h => subst h; simp
    · rfl

theorem spaceCall_keeps {Q : Type} (o : SpaceCall ℝ) (m : Machine (SpaceWorld ℝ Q) ℝ) (r) (h : spaceCall isUnit unit3 o m = .ok r) :
    r.2.world.planes.map (·.R) = m.world.planes.map (·.R) ∧ r.2.world.cylinders.map (fun c => (c.x, c.v, c.r)) = m.world.cylinders.map (fun c => (c.x, c.v, c.r)) := by
  cases o with
  | numStaticPlanes => obtain ⟨w, e, h⟩ := Outcome.bind_ok_iff.mp h; cases h; exact ⟨rfl, rfl⟩
  | numStaticCylinders => obtain ⟨w, e, h⟩ := Outcome.bind_ok_iff.mp h; cases h; exact ⟨rfl, rfl⟩
  | numForces => obtain ⟨w, e, h⟩ := Outcome.bind_ok_iff.mp h; cases h; exact ⟨rfl, rfl⟩
  | setStaticPlanePosition i x =>
    obtain ⟨w, e, h⟩ := Outcome.bind_ok_iff.mp h
    obtain ⟨l, e2, h⟩ := Outcome.bind_ok_iff.mp h
    cases h; cases state_ok e; exact ⟨modifyElement_map _ e2 fun _ => rfl, rfl⟩
  | setStaticPlaneVelocity i x =>
    obtain ⟨w, e, h⟩ := Outcome.bind_ok_iff.mp h
    obtain ⟨l, e2, h⟩ := Outcome.bind_ok_iff.mp h
    cases h; cases state_ok e; exact ⟨modifyElement_map _ e2 fun _ => rfl, rfl⟩
  | forceType i =>
    obtain ⟨w, e, h⟩ := Outcome.bind_ok_iff.mp h
    obtain ⟨l, e2, h⟩ := Outcome.bind_ok_iff.mp h
    cases h; exact ⟨rfl, rfl⟩
  | setGravityForce i g =>
    obtain ⟨w, e, h⟩ := Outcome.bind_ok_iff.mp h
    obtain ⟨l, e2, h⟩ := Outcome.bind_ok_iff.mp h
    cases h; cases state_ok e; exact ⟨rfl, rfl⟩
  | setInitialIterate n =>
    simp only [spaceCall] at h
    split at h
    · cases h; exact ⟨rfl, rfl⟩
    · cases h
  | setStaticCylinderAngularVelocity i omega =>
    obtain ⟨w, e, h⟩ := Outcome.bind_ok_iff.mp h
    obtain ⟨l, e2, h⟩ := Outcome.bind_ok_iff.mp h
    cases h; cases state_ok e
    exact ⟨rfl, modifyElement_map _ e2 fun _ => rfl⟩
  | setStaticCylinderOrientation i axis theta =>
    obtain ⟨w, e, h⟩ := Outcome.bind_ok_iff.mp h
    split at h
    · cases h
    · next hl =>
      split at h
      · cases h
      · obtain ⟨c, e2, h⟩ := Outcome.bind_ok_iff.mp h
        cases h; cases state_ok e
        refine ⟨rfl, modifyElement_map (i := i) (f := fun c => { c with n := unit3 axis, theta := theta }) _ ?_ (fun _ => rfl)⟩
        unfold modifyElement element
        rw [if_neg hl, e2]; rfl

end Scisim.PlaneFrames
