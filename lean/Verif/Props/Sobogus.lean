import Mathlib.Tactic.FinCases
import Mathlib.Tactic.IntervalCases
import Mathlib.Tactic.Linarith
import Verif.Lemmas.Sobogus4
/-!
# C54: what the So-bogus friction solver does to the system
-/

namespace Scisim

open Matrix Sobogus

variable {K : Type} {k : Kind}

theorem Sobogus.toOut [CommRing K] [DecidableEq K] [LT K] [DecidableLT K] {junk : K} {lib : Library K k} {x : Input K k} {out : Output K k}
    (hw : x.WellFormed) (h : solve junk lib x = .ok out) : ∃ ltg p r0, Core lib x ltg p r0 out := by
  obtain ⟨ltg, p, r0, out', h', hc⟩ := solve_core junk lib x hw
  rw [h] at h'
  obtain rfl := Outcome.ok.inj h'
  exact ⟨ltg, p, r0, hc⟩

/-- **C54, no accident.** Whenever sizes and indices fit together, the solver returns, whatever the library does. -/
theorem C54_total [CommRing K] [DecidableEq K] [LT K] [DecidableLT K] (junk : K) (lib : Library K k) (x : Input K k) (hw : x.WellFormed) :
    ∃ out, solve junk lib x = .ok out ∧
      out.vout.size = x.v0.size ∧ out.f.size = x.f.size ∧ out.alpha.size = x.alpha.size ∧ out.beta.size = x.beta.size := by
  obtain ⟨ltg, p, r0, out, h, hc⟩ := solve_core junk lib x hw
  exact ⟨out, h, hc.sizes.2.2.2, hc.sizes.1, hc.sizes.2.1, hc.sizes.2.2.1⟩

/-- **C54, the contacts are left as they were.** The contacts are renumbered during the call; afterwards they refer to the same bodies as before. -/
theorem C54_contacts_restored [CommRing K] [DecidableEq K] [LT K] [DecidableLT K] (junk : K) (lib : Library K k) (x : Input K k) (hw : x.WellFormed)
    (out : Output K k) (h : solve junk lib x = .ok out) : out.active = x.active := by
  obtain ⟨ltg, p, r0, hc⟩ := toOut hw h
  exact hc.active

theorem Sobogus.Core.not_mem [CommRing K] [DecidableEq K] [LT K] [DecidableLT K] {lib : Library K k} {x : Input K k} {ltg : List Nat} {p : Primal K k}
    {r0 : DVec K} {out : Output K k} (hc : Core lib x ltg p r0 out) {b : Nat} (h : ∀ c ∈ x.active, ¬ c.Touches b) : b ∉ ltg := fun hm => by
  obtain ⟨-, c, hm, ht⟩ := (hc.ltgOk.mem b).mp hm
  exact h c hm ht

/-- **C54, bodies without contacts.** A body no contact acts on keeps its velocity and gets no friction, whatever the library does. -/
theorem C54_untouched [CommRing K] [DecidableEq K] [LT K] [DecidableLT K] (junk : K) (lib : Library K k) (x : Input K k) (hw : x.WellFormed)
    (out : Output K k) (h : solve junk lib x = .ok out) (b : Nat) (hb : b < x.nbodies) (hnone : ∀ c ∈ x.active, ¬ c.Touches b) :
    bodyVel k x.nbodies out.vout b = bodyVel k x.nbodies x.v0 b ∧ bodyVel k x.nbodies out.f b = 0 := by
  obtain ⟨ltg, p, r0, hc⟩ := toOut hw h
  exact ⟨hc.vOut b hb (hc.not_mem hnone), hc.fOut b hb (hc.not_mem hnone)⟩

/-- In an orthonormal basis the coordinates of the world impulse are those the library gave. -/
theorem Sobogus.coords [CommRing K] {E : Matrix (Fin k.amb) (Fin k.amb) K} (hE : Eᵀ * E = 1) (r : Fin k.amb → K) (s : Fin k.amb)
    (row : Fin k.dof → K) (hrow : ∀ i, row (k.tr i) = E i s) : ∑ i : Fin k.amb, (E *ᵥ r) i * row (k.tr i) = r s := by
  have h : (Eᵀ *ᵥ (E *ᵥ r)) s = r s := by rw [Matrix.mulVec_mulVec, hE, Matrix.one_mulVec]
  rw [← h]
  simp only [Matrix.mulVec, dotProduct, Matrix.transpose_apply, hrow]
  exact Finset.sum_congr rfl fun i _ => mul_comm _ _

theorem Sobogus.Core.impulse [CommRing K] [DecidableEq K] [LT K] [DecidableLT K] {lib : Library K k} {x : Input K k} {ltg : List Nat} {p : Primal K k}
    {r0 : DVec K} {out : Output K k} (hc : Core lib x ltg p r0 out) (hok : x.ContactsOk) (hfr : k = .rigidBodies3D ∨ lib.Frictionless)
    {i : Nat} (hi : i < x.active.length) :
    out.impulse i = fun s : Fin k.amb => (lib.gaussSeidel p r0 x.tol x.maxIters x.evalEvery).2 (k.amb * i + s) := by
  have hi' : i < p.ncontacts := by rw [hc.nc]; exact hi
  have hci : x.active[i]? = some x.active[i] := List.getElem?_eq_getElem hi
  funext s
  refine Fin.cases ?_ (fun t => ?_) s
  · rw [Output.impulse, Fin.cons_zero, hc.alpha i hi', hc.row i _ hci]
    exact coords (hok.orthonormal i hi) _ 0 _ fun j => hok.hA i _ hci 0 j
  · rw [Output.impulse, Fin.cons_succ, hc.beta i hi' t]
    split
    · rename_i hcond
      rcases hfr with hfr | hfr
      · exact absurd hfr hcond.1
      · exact (hfr p r0 _ _ _ i hi' hcond.2 t).symm
    · rw [hc.row i _ hci]
      exact coords (hok.orthonormal i hi) _ t.succ _ fun j => hok.hA i _ hci t.succ j

theorem Sobogus.Core.impulseOn_row [CommRing K] [DecidableEq K] [LT K] [DecidableLT K] {lib : Library K k} {x : Input K k} {ltg : List Nat}
    {p : Primal K k} {r0 : DVec K} {out : Output K k} (hc : Core lib x ltg p r0 out) (hw : x.WellFormed) {i : Nat} {c : Contact K k}
    (hci : x.active[i]? = some c) (r : Fin k.amb → K) {l : Nat} (hl : l < ltg.length) :
    impulseOn (p.row i).HA (p.row i).HB (p.row i).objA (p.row i).objB r l =
      impulseOn (x.hA i c) (x.hB i c) c.body0 c.body1 r (ltg.getD l 0) := by
  have hm : c ∈ x.active := List.mem_of_getElem? hci
  have m0 : c.body0 ∈ ltg := (hc.ltgOk.mem _).mpr ⟨hw.body0 c hm, c, hm, .inl rfl⟩
  rw [hc.row i c hci]
  simp only [impulseOn]
  have e0 : (loc ltg c.body0 = l) ↔ c.body0 = ltg.getD l 0 :=
    ⟨fun h => by rw [← h, getD_loc m0], fun h => by rw [h, loc_getD hc.ltgOk.nodup hl]⟩
  have e1 : (c.body1.map (loc ltg) = some l) ↔ c.body1 = some (ltg.getD l 0) := by
    cases hb : c.body1 with
    | none => simp
    | some b =>
      have m1 : b ∈ ltg := (hc.ltgOk.mem _).mpr ⟨(hw.body1 c hm b hb).1, c, hm, .inr hb⟩
      simp only [Option.map_some, Option.some.injEq]
      exact ⟨fun h => by rw [← h, getD_loc m1], fun h => by rw [h, loc_getD hc.ltgOk.nodup hl]⟩
  simp only [e0, e1]

theorem Sobogus.sumContacts_untouched [CommRing K] {x : Input K k} {b : Nat} (hnone : ∀ c ∈ x.active, ¬ c.Touches b) (r : Nat → Fin k.amb → K) :
    x.sumContacts (fun i c => impulseOn (x.hA i c) (x.hB i c) c.body0 c.body1 (r i) b) = 0 := by
  refine Finset.sum_eq_zero fun i hi => ?_
  have hi' := Finset.mem_range.mp hi
  rw [List.getElem?_eq_getElem hi']
  have h := hnone x.active[i] (List.getElem_mem hi')
  simp only [Contact.Touches, not_or] at h
  simp [impulseOn, h.1, h.2]

/-- **C54, momentum balance.** Every body's momentum changes by exactly the sum of the impulses reported for its contacts: a contact gives the impulse
with normal part `alpha` and tangential parts `beta` to its first body and the opposite one to its second.  The library's iteration is arbitrary; that it
inverts mass blocks and returns no friction where the friction coefficient is zero is assumed (the latter in 2D only). -/
theorem C54_momentum [CommRing K] [DecidableEq K] [LT K] [DecidableLT K] (junk : K) (lib : Library K k) (x : Input K k) (hw : x.WellFormed)
    (hok : x.ContactsOk) (hM : ∀ b < x.nbodies, IsUnit (bodyMass k x.nbodies x.M b)) (hinv : lib.InvertsMass)
    (hfr : k = .rigidBodies3D ∨ lib.Frictionless) (out : Output K k) (h : solve junk lib x = .ok out) (b : Nat) (hb : b < x.nbodies) :
    bodyMass k x.nbodies x.M b *ᵥ (bodyVel k x.nbodies out.vout b - bodyVel k x.nbodies x.v0 b) =
      x.sumContacts fun i c => impulseOn (x.hA i c) (x.hB i c) c.body0 c.body1 (out.impulse i) b := by
  obtain ⟨ltg, p, r0, hc⟩ := toOut hw h
  by_cases hbm : b ∈ ltg
  · have hl := loc_lt hbm
    have hg := getD_loc hbm
    set l := loc ltg b
    have hv := hc.vIn l hl
    have hMl := hc.M l hl
    have hf := hc.f l hl
    rw [hg] at hv hMl hf
    rw [Matrix.mulVec_sub, hv, ← hMl, Matrix.mulVec_mulVec, hinv p l (by rw [hc.nb]; exact hl) (by rw [hMl]; exact hM b hb), Matrix.one_mulVec]
    funext j
    rw [Pi.sub_apply, hf, ← hMl]
    simp only [sub_neg_eq_add, add_sub_cancel_right]
    rw [Input.sumContacts, hc.nc]
    refine congrFun (Finset.sum_congr rfl fun i hi => ?_) j
    have hi' := Finset.mem_range.mp hi
    have hci : x.active[i]? = some x.active[i] := List.getElem?_eq_getElem hi'
    rw [hc.impulseOn_row hw hci _ hl, hci, Option.elim_some, hc.impulse hok hfr hi', hg]
  · have hnone : ∀ c ∈ x.active, ¬ c.Touches b := fun c hm ht => hbm ((hc.ltgOk.mem b).mpr ⟨hb, c, hm, ht⟩)
    rw [hc.vOut b hb hbm, sub_self, Matrix.mulVec_zero, sumContacts_untouched hnone]

/-- **C54, what is reported as friction.** `f` holds for every body the sum of the tangential parts of the impulses of its contacts. -/
theorem C54_friction [CommRing K] [DecidableEq K] [LT K] [DecidableLT K] (junk : K) (lib : Library K k) (x : Input K k) (hw : x.WellFormed)
    (hok : x.ContactsOk) (out : Output K k) (h : solve junk lib x = .ok out) (b : Nat) (hb : b < x.nbodies) :
    bodyVel k x.nbodies out.f b = x.sumContacts fun i c => impulseOn (x.hA i c) (x.hB i c) c.body0 c.body1 (out.friction i) b := by
  obtain ⟨ltg, p, r0, hc⟩ := toOut hw h
  by_cases hbm : b ∈ ltg
  · have hl := loc_lt hbm
    have hg := getD_loc hbm
    set l := loc ltg b
    funext j
    have hf := hc.fIn l hl j
    rw [hg] at hf
    rw [hf, hc.nc, Input.sumContacts, Finset.sum_apply]
    refine Finset.sum_congr rfl fun i hi => ?_
    have hi' := Finset.mem_range.mp hi
    have hci : x.active[i]? = some x.active[i] := List.getElem?_eq_getElem hi'
    have hrow := hc.impulseOn_row hw hci (out.friction i) hl
    rw [hg] at hrow
    rw [hci, Option.elim_some, ← hrow, impulseOn, Pi.sub_apply, sub_eq_add_neg, hc.row i _ hci]
    congr 1
    · split
      · simp only [Matrix.mulVec, dotProduct, Matrix.transpose_apply, Output.friction, Fin.sum_univ_succ, Fin.cons_zero, Fin.cons_succ, mul_zero, zero_add]
        exact Finset.sum_congr rfl fun t _ => mul_comm _ _
      · rfl
    · split
      · rename_i hsome
        have hne : x.active[i].body1 ≠ none := fun hn => by simp [hn] at hsome
        simp only [Matrix.mulVec, dotProduct, Matrix.transpose_apply, Output.friction, Fin.sum_univ_succ, Fin.cons_zero, Fin.cons_succ, mul_zero, zero_add]
        congr 1
        refine Finset.sum_congr rfl fun t _ => ?_
        split
        · rename_i hj
          have e : j = k.tr ⟨j, hj⟩ := rfl
          rw [e, hok.hA i _ hci, hok.hB i _ hci hne, mul_comm]
        · exact mul_comm _ _
      · simp
  · have hnone : ∀ c ∈ x.active, ¬ c.Touches b := fun c hm ht => hbm ((hc.ltgOk.mem b).mpr ⟨hb, c, hm, ht⟩)
    rw [hc.fOut b hb hbm, sumContacts_untouched hnone]

/-- **C54, the contact law holds for the system.** If the library solves its problems for a contact law, then whenever the solver reports success, the law
holds at every contact for the velocities and impulses it returns: for the relative velocity of the bodies after the impact plus what is prescribed
(restitution, moving objects, the caller's terms), and the impulse `alpha`, `beta`. -/
theorem C54_contact_law [CommRing K] [DecidableEq K] [LT K] [DecidableLT K] (junk : K) (lib : Library K k) (x : Input K k) (hw : x.WellFormed)
    (hok : x.ContactsOk) (hM : ∀ b < x.nbodies, IsUnit (bodyMass k x.nbodies x.M b)) (hinv : lib.InvertsMass)
    (hfr : k = .rigidBodies3D ∨ lib.Frictionless) (Law : K → (Fin k.amb → K) → (Fin k.amb → K) → Prop) (hlaw : lib.Solves Law)
    (out : Output K k) (h : solve junk lib x = .ok out) (hs : out.succeeded = true) (i : Nat) (c : Contact K k) (hci : x.active[i]? = some c) :
    Law (x.mu.val i) (relativeVelocity (x.hA i c) (x.hB i c) c.body0 c.body1 (bodyVel k x.nbodies out.vout) + x.prescribed i c) (out.impulse i) := by
  obtain ⟨ltg, p, r0, hc⟩ := toOut hw h
  have hi : i < x.active.length := (List.getElem?_eq_some_iff.mp hci).1
  rw [hc.succeeded, decide_eq_true_eq] at hs
  have key := hlaw p r0 x.tol x.maxIters x.evalEvery (fun l => bodyVel k x.nbodies out.vout (ltg.getD l 0)) hs (by
    intro l hl j
    rw [hc.nb] at hl
    have hg : ltg.getD l 0 < x.nbodies := hc.ltgOk.lt hl
    rw [hc.vIn l hl, Matrix.mulVec_mulVec, hinv p l (by rw [hc.nb]; exact hl) (by rw [hc.M l hl]; exact hM _ hg), Matrix.one_mulVec]
    simp) i (by rw [hc.nc]; exact hi)
  rw [hc.impulse hok hfr hi]
  rw [hc.mu] at key
  convert key using 1
  rw [hc.row i c hci]
  have hm : c ∈ x.active := List.mem_of_getElem? hci
  have m0 : c.body0 ∈ ltg := (hc.ltgOk.mem _).mpr ⟨hw.body0 c hm, c, hm, .inl rfl⟩
  simp only [Matrix.mulVec_mulVec, hok.orthonormal i hi, Matrix.one_mulVec]
  congr 1
  simp only [relativeVelocity, getD_loc m0]
  congr 1
  cases hb : c.body1 with
  | none => rfl
  | some b =>
    have m1 : b ∈ ltg := (hc.ltgOk.mem _).mpr ⟨(hw.body1 c hm b hb).1, c, hm, .inr hb⟩
    simp only [Option.map_some, Option.elim_some, getD_loc m1]

/-- **C54, success means the library's error is below the tolerance.** -/
theorem C54_succeeded [CommRing K] [DecidableEq K] [LT K] [DecidableLT K] (junk : K) (lib : Library K k) (x : Input K k) (hw : x.WellFormed)
    (out : Output K k) (h : solve junk lib x = .ok out) : out.succeeded = true ↔ out.error < x.tol := by
  obtain ⟨ltg, p, r0, hc⟩ := toOut hw h
  rw [hc.succeeded, hc.error, decide_eq_true_eq]

/-- **C54, it must not be called without contacts.** With no contact the number of friction samples per contact is a division by zero. -/
theorem C54_no_contacts [CommRing K] [DecidableEq K] [LT K] [DecidableLT K] (junk : K) (lib : Library K k) (x : Input K k) (hne : x.active = []) :
    solve junk lib x = .ub := by
  simp [solve, buildLtg, markPresent, kinematicRelVel, hne, Outcome.bind]

/-! ## A case: of three balls the first and the last collide and bounce

The balls have mass 2. Ball 0 moves with velocity (-1, 0), ball 2 with (1, 0), ball 1 somewhere else; the normal of the contact is (1, 0), the coefficient
of restitution 1/2. -/

namespace Sobogus.Case

def vec (l : List ℚ) : DVec ℚ := ⟨l.length, fun i => l.getD i 0⟩

/-- The contact: ball 0 on ball 2 -/
def contact : Contact ℚ .balls2D where
  body0 := 0
  body1 := some 2
  nDotV w := w.v0 0 - w.other.elim 0 fun o => o.2 0
  hMat _ E := (Matrix.of fun s (j : Fin 2) => E j s, Matrix.of fun s (j : Fin 2) => E j s)
  kinVel _ := ![0, 0]

def input : Input ℚ .balls2D where
  nbodies := 3
  M := vec [2, 2, 2, 2, 2, 2]
  CoR := vec [1 / 2]
  mu := vec [1]
  q0 := vec [1, 0, 7, 7, -1, 0]
  v0 := vec [-1, 0, 5, 8, 1, 0]
  active := [contact]
  bases := ⟨2, fun i j => if i.val = j then 1 else 0⟩
  nrelExtra := vec []
  drelExtra := vec []
  maxIters := 10
  evalEvery := 1
  tol := 1
  f := vec [9, 9, 9, 9, 9, 9]
  alpha := vec [0]
  beta := vec [0]

/-- The contact law: no interpenetration, no adhesion, no impulse on separating bodies; Coulomb's bound, and sliding friction against the velocity -/
def Coulomb (mu : ℚ) (u r : Fin 2 → ℚ) : Prop :=
  0 ≤ u 0 ∧ 0 ≤ r 0 ∧ u 0 * r 0 = 0 ∧ |r 1| ≤ mu * r 0 ∧ (u 1 ≠ 0 → r 1 * |u 1| = - mu * r 0 * u 1)

def entries (A : Matrix (Fin 2) (Fin 2) ℚ) : List ℚ := [A 0 0, A 0 1, A 1 0, A 1 1]

/-- The problem this library can solve -/
def Known (p : Primal ℚ .balls2D) : Prop :=
  p.nbodies = 2 ∧ p.ncontacts = 1 ∧ p.mu.val 0 = 1 ∧ entries (p.M 0) = [2, 0, 0, 2] ∧ entries (p.M 1) = [2, 0, 0, 2] ∧
  (List.range 4).map p.f.val = [2, 0, -2, 0] ∧
  (p.row 0).objA = 0 ∧ (p.row 0).objB = some 1 ∧ entries (p.row 0).HA = [1, 0, 0, 1] ∧ entries (p.row 0).HB = [1, 0, 0, 1] ∧
  entries (p.row 0).E = [1, 0, 0, 1] ∧ [(p.row 0).w (0 : Fin 2), (p.row 0).w (1 : Fin 2)] = [-1, 0]

instance (p : Primal ℚ .balls2D) : Decidable (Known p) := by unfold Known; infer_instance

theorem eq_of_entries {A : Matrix (Fin 2) (Fin 2) ℚ} {a b c d : ℚ} (h : entries A = [a, b, c, d]) : A = !![a, b; c, d] := by
  simp only [entries, List.cons.injEq, and_true] at h
  obtain ⟨h0, h1, h2, h3⟩ := h
  ext i j
  fin_cases i <;> fin_cases j <;> assumption

/-- A library that gives up on all other problems -/
def lib : Library ℚ .balls2D where
  gaussSeidel p _ tol _ _ := if Known p ∧ 0 < tol then (0, fun i => if i = 0 then 3 else 0) else (tol, fun _ => 0)
  mInv p b := (p.M b).det⁻¹ • (p.M b).adjugate

theorem wellFormed : input.WellFormed where
  some_contact := by simp [input]
  body0 := by simp [input, contact]
  body1 := by simp [input, contact]
  v0 := rfl
  q0 := rfl
  M := rfl
  isotropic := by
    intro b hb
    have hb : b < 3 := hb
    interval_cases b <;> rfl
  CoR := rfl
  mu := rfl
  alpha := rfl
  beta := rfl
  f := rfl
  bases := rfl
  nrelExtra := .inl rfl
  drelExtra := .inl rfl

theorem contactsOk : input.ContactsOk where
  orthonormal := by
    intro i hi
    have hi : i < 1 := hi
    obtain rfl : i = 0 := by omega
    have e : input.basis 0 = (1 : Matrix (Fin 2) (Fin 2) ℚ) := by
      ext a b
      change Fin 2 at a b
      fin_cases a <;> fin_cases b <;> rfl
    rw [e]
    exact (by simp : ((1 : Matrix (Fin 2) (Fin 2) ℚ)ᵀ * 1) = 1)
  hA := by
    intro i c hc s j
    cases i with
    | zero => obtain rfl := Option.some.inj hc; rfl
    | succ i => simp [input] at hc
  hB := by
    intro i c hc _ s j
    cases i with
    | zero => obtain rfl := Option.some.inj hc; rfl
    | succ i => simp [input] at hc

theorem isUnit (b : Nat) (hb : b < input.nbodies) : IsUnit (bodyMass .balls2D input.nbodies input.M b) := by
  have hb : b < 3 := hb
  have e : bodyMass .balls2D input.nbodies input.M b = (!![2, 0; 0, 2] : Matrix (Fin 2) (Fin 2) ℚ) := by interval_cases b <;> rfl
  rw [e]
  have : IsUnit (!![2, 0; 0, 2] : Matrix (Fin 2) (Fin 2) ℚ) := by
    rw [Matrix.isUnit_iff_isUnit_det, Matrix.det_fin_two_of]; norm_num
  exact this

theorem invertsMass : lib.InvertsMass := by
  intro p b _ h
  have hd : (p.M b).det ≠ 0 := ((Matrix.isUnit_iff_isUnit_det _).mp h).ne_zero
  show p.M b * ((p.M b).det⁻¹ • (p.M b).adjugate) = 1
  rw [Matrix.mul_smul, Matrix.mul_adjugate, smul_smul, inv_mul_cancel₀ hd, one_smul]

theorem frictionless : lib.Frictionless := by
  intro p r tol m e c hc hmu s
  show (if Known p ∧ 0 < tol then ((0 : ℚ), fun i => if i = 0 then (3 : ℚ) else 0) else (tol, fun _ => 0)).2 _ = 0
  split
  · simp
  · rfl

theorem solves : lib.Solves Coulomb := by
  intro p r tol m e V herr
  have hg : lib.gaussSeidel p r tol m e = if Known p ∧ 0 < tol then ((0 : ℚ), fun i => if i = 0 then (3 : ℚ) else 0) else (tol, fun _ => 0) := rfl
  rw [hg] at herr ⊢
  by_cases hk : Known p ∧ 0 < tol
  · rw [if_pos hk]
    obtain ⟨⟨nb, nc, hmu, M0, M1, f, oA, oB, HA, HB, E, w⟩, -⟩ := hk
    intro rOf heq c hc
    rw [nc] at hc
    obtain rfl : c = 0 := by omega
    have M0 := eq_of_entries M0
    have M1 := eq_of_entries M1
    have HA := eq_of_entries HA
    have HB := eq_of_entries HB
    have E := eq_of_entries E
    simp only [List.range, List.range.loop, List.map_cons, List.map_nil, List.cons.injEq, and_true] at f w
    rw [nb, nc] at heq
    have key : ∀ (V0 V1 : Fin 2 → ℚ) (w : Fin 2 → ℚ),
        (∀ j : Fin 2, (!![2, 0; 0, 2] *ᵥ V0) j + (if j = 0 then 2 else 0) = ((!![1, 0; 0, 1] : Matrix (Fin 2) (Fin 2) ℚ)ᵀ *ᵥ ![3, 0]) j) →
        (∀ j : Fin 2, (!![2, 0; 0, 2] *ᵥ V1) j + (if j = 0 then -2 else 0) = - ((!![1, 0; 0, 1] : Matrix (Fin 2) (Fin 2) ℚ)ᵀ *ᵥ ![3, 0]) j) →
        w 0 = -1 → w 1 = 0 →
        Coulomb 1 (!![1, 0; 0, 1] *ᵥ V0 - !![1, 0; 0, 1] *ᵥ V1 + (!![1, 0; 0, 1] : Matrix (Fin 2) (Fin 2) ℚ)ᵀ *ᵥ w) ![3, 0] := by
      intro V0 V1 w h0 h1 w0 w1
      have h00 := h0 0
      have h01 := h0 1
      have h10 := h1 0
      have h11 := h1 1
      simp [Matrix.mulVec, dotProduct, Fin.sum_univ_two, Matrix.transpose_apply] at h00 h01 h10 h11
      refine ⟨?_, ?_, ?_, ?_, ?_⟩ <;> simp [Matrix.mulVec, dotProduct, Fin.sum_univ_two, Matrix.transpose_apply, w0, w1, h01, h11]
      all_goals linarith
    have r0 : rOf 0 = (![3, 0] : Fin 2 → ℚ) := by
      funext s
      change Fin 2 at s
      fin_cases s <;> rfl
    have h0 := heq 0 (by omega)
    have h1 := heq 1 (by omega)
    simp only [Finset.sum_range_one, impulseOn, oA, oB, if_true, Option.some.injEq, zero_ne_one, one_ne_zero, if_false, sub_zero, zero_sub] at h0 h1
    have res := key (V 0) (V 1) (p.row 0).w (by
        intro j
        have := h0 j
        rw [M0, HA, r0] at this
        refine Eq.trans (congrArg₂ (· + ·) rfl ?_) this
        fin_cases j
        · exact f.1.symm
        · exact f.2.1.symm) (by
        intro j
        have := h1 j
        rw [M1, HB, r0] at this
        refine Eq.trans (congrArg₂ (· + ·) rfl ?_) this
        fin_cases j
        · exact f.2.2.1.symm
        · exact f.2.2.2.symm) w.1 w.2
    rw [hmu, HA, HB, E, oA, oB, r0]
    exact res
  · rw [if_neg hk] at herr
    exact absurd herr (lt_irrefl _)

end Sobogus.Case

/-- The hypotheses of all theorems are met; the balls bounce, the third one is left alone, and the contact law holds with an impulse. -/
example : ∃ out, solve 0 Sobogus.Case.lib Sobogus.Case.input = .ok out ∧ out.succeeded = true ∧
    (List.range 6).map out.vout.val = [1 / 2, 0, 5, 8, -1 / 2, 0] ∧ out.alpha.val 0 = 3 ∧ out.beta.val 0 = 0 := by
  have h := C54_total 0 Sobogus.Case.lib Sobogus.Case.input Sobogus.Case.wellFormed
  obtain ⟨out, h, -⟩ := h
  refine ⟨out, h, ?_⟩
  have e : (match solve 0 Sobogus.Case.lib Sobogus.Case.input with
    | .ok o => decide (o.succeeded = true ∧ (List.range 6).map o.vout.val = [1 / 2, 0, 5, 8, -1 / 2, 0] ∧ o.alpha.val 0 = 3 ∧ o.beta.val 0 = 0)
    | _ => false) = true := by decide +kernel
  rw [h] at e
  exact of_decide_eq_true e

/-- The contact law and the momentum balance hold for what it returns. -/
example : ∃ out, solve 0 Sobogus.Case.lib Sobogus.Case.input = .ok out ∧
    (out.succeeded = true → Sobogus.Case.Coulomb 1
      (relativeVelocity (Sobogus.Case.input.hA 0 Sobogus.Case.contact) (Sobogus.Case.input.hB 0 Sobogus.Case.contact) 0 (some 2)
        (bodyVel .balls2D 3 out.vout) + Sobogus.Case.input.prescribed 0 Sobogus.Case.contact) (out.impulse 0)) ∧
    ∀ b < 3, bodyMass .balls2D 3 Sobogus.Case.input.M b *ᵥ (bodyVel .balls2D 3 out.vout b - bodyVel .balls2D 3 Sobogus.Case.input.v0 b) =
      Sobogus.Case.input.sumContacts fun i c =>
        impulseOn (Sobogus.Case.input.hA i c) (Sobogus.Case.input.hB i c) c.body0 c.body1 (out.impulse i) b := by
  obtain ⟨out, h, -⟩ := C54_total 0 Sobogus.Case.lib Sobogus.Case.input Sobogus.Case.wellFormed
  refine ⟨out, h, fun hs => ?_, fun b hb => ?_⟩
  · exact C54_contact_law 0 _ _ Sobogus.Case.wellFormed Sobogus.Case.contactsOk Sobogus.Case.isUnit Sobogus.Case.invertsMass
      (.inr Sobogus.Case.frictionless) Sobogus.Case.Coulomb Sobogus.Case.solves out h hs 0 Sobogus.Case.contact rfl
  · exact C54_momentum 0 _ _ Sobogus.Case.wellFormed Sobogus.Case.contactsOk Sobogus.Case.isUnit Sobogus.Case.invertsMass
      (.inr Sobogus.Case.frictionless) out h b hb

end Scisim
