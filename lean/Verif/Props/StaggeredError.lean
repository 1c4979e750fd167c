import Verif.Lemmas.StaggeredError
import Verif.Props.Staggered
import Verif.Props.Sobogus
/-!
# C92: the error by which staggered projections judges its solution
-/

namespace Scisim
namespace Sobogus

open Matrix

variable {K : Type} {k : Kind}

/-- **C92, no undefined behaviour.** With sizes that fit together the error is computed without leaving an array. -/
theorem C92_total [CommRing K] (junk : K) (eval : Primal K k → (Nat → K) → K) (x : Input K k) (hw : x.WellFormed) (hn : x.nrelExtra.size = 0)
    (hd : x.drelExtra.size = 0) :
    ∃ p, errorProblem junk x = .ok p ∧ ∀ alpha beta : DVec K, alpha.size = x.active.length → beta.size = k.tan * x.active.length →
      ∃ e, sobogusError eval p x.bases alpha beta = .ok e := by
  obtain ⟨p, hp, -⟩ := errorProblem_spec junk x hw hn hd
  refine ⟨p, hp, fun alpha beta ha hb => ?_⟩
  obtain ⟨r, hr, -⟩ := contactForces_spec x alpha beta hw ha hb
  exact ⟨_, by simp only [sobogusError, hr, Outcome.bind]; rfl⟩

/-- **C92, the error.** If the library measures by how much a problem violates the contact law, then the error of impulses `alpha`, `beta` is at most `tol`
exactly when every contact of the whole system satisfies the law up to `tol`, where the bodies move as momentum conservation with the mass matrix of the
system dictates. -/
theorem C92_measure [CommRing K] [LE K] (junk : K) (eval : Primal K k → (Nat → K) → K) (Law : K → K → (Fin k.amb → K) → (Fin k.amb → K) → Prop)
    (hE : Measures eval Law) (x : Input K k) (hw : x.WellFormed) (hn : x.nrelExtra.size = 0) (hd : x.drelExtra.size = 0)
    (horth : ∀ i, i < x.active.length → (x.basis i)ᵀ * x.basis i = 1) (hmass : ∀ b < x.nbodies, IsUnit (bodyMass k x.nbodies x.M b))
    (p : Primal K k) (hp : errorProblem junk x = .ok p) (alpha beta : DVec K) (ha : alpha.size = x.active.length)
    (hb : beta.size = k.tan * x.active.length) (e : K) (he : sobogusError eval p x.bases alpha beta = .ok e) (V : Nat → Fin k.dof → K)
    (hV : x.MovesWith alpha beta V) (tol : K) (htol : 0 ≤ tol) : e ≤ tol ↔ x.Obeys Law tol alpha beta V := by
  obtain ⟨p', hp', hI⟩ := errorProblem_spec junk x hw hn hd
  obtain rfl : p = p' := by rw [hp] at hp'; exact Outcome.ok.inj hp'
  obtain ⟨r, hr, hrv⟩ := contactForces_spec x alpha beta hw ha hb
  simp only [sobogusError, hr, Outcome.bind] at he
  obtain rfl := Outcome.ok.inj he
  have hloc : ∀ i c, x.active[i]? = some c → (fun s : Fin k.amb => (toLocal p r).val (k.amb * i + s)) = impulseOf alpha beta i := by
    intro i c hc
    have hi := (List.getElem?_eq_some_iff.mp hc).1
    funext s
    rw [toLocal_val, hI.row i c hc]
    simp only
    rw [show (fun j : Fin k.amb => r.val (k.amb * i + j)) = x.basis i *ᵥ impulseOf alpha beta i from funext fun j => hrv i hi j, Matrix.mulVec_mulVec,
      horth i hi, Matrix.one_mulVec]
  have hsum : ∀ b, ∀ g : Nat → (Fin k.amb → K), (∀ i c, x.active[i]? = some c → g i = impulseOf alpha beta i) →
      (∑ c ∈ Finset.range p.ncontacts, impulseOn (p.row c).HA (p.row c).HB (p.row c).objA (p.row c).objB (g c) b) =
      x.sumContacts fun i c => impulseOn (x.hA i c) (x.hB i c) c.body0 c.body1 (impulseOf alpha beta i) b := by
    intro b g hg
    rw [hI.nc]
    refine Finset.sum_congr rfl fun i hi => ?_
    have hi := Finset.mem_range.mp hi
    have hc : x.active[i]? = some x.active[i] := List.getElem?_eq_getElem hi
    rw [hc, hI.row i _ hc, hg i _ hc]
    rfl
  rw [hE p (toLocal p r).val tol V htol (fun b hb => by rw [hI.nb] at hb; rw [hI.M b hb]; exact hmass b hb) (fun i hi => by
    rw [hI.nc] at hi
    have hc : x.active[i]? = some x.active[i] := List.getElem?_eq_getElem hi
    have hm : x.active[i] ∈ x.active := List.getElem_mem hi
    rw [hI.row i _ hc, hI.nb]
    exact ⟨hw.body0 _ hm, fun b hb => (hw.body1 _ hm b hb).1⟩) (fun b hb' j => by
    rw [hI.nb] at hb'
    rw [hsum b _ hloc, hI.M b hb', hI.f b hb', hV b hb']
    simp only [Pi.add_apply]
    ring)]
  constructor
  · intro h i c hc
    have hi := (List.getElem?_eq_some_iff.mp hc).1
    have h := h i (by rw [hI.nc]; exact hi)
    beta_reduce at h
    rw [hloc i c hc, hI.row i c hc, hI.mu] at h
    simp only [Matrix.mulVec_mulVec, horth i hi, Matrix.one_mulVec] at h
    exact h
  · intro h i hi
    rw [hI.nc] at hi
    have hc : x.active[i]? = some x.active[i] := List.getElem?_eq_getElem hi
    have h := h i _ hc
    beta_reduce
    rw [hloc i _ hc, hI.row i _ hc, hI.mu]
    simp only [Matrix.mulVec_mulVec, horth i hi, Matrix.one_mulVec]
    exact h

/-- A vector of the model from one of `StaggeredProjections::solve` -/
noncomputable def ofFin {n : Nat} (a : Fin n → ℝ) : DVec ℝ := ⟨n, fun i => if h : i < n then a ⟨i, h⟩ else 0⟩

/-- The matrices, velocities and errors of a run of staggered projections are those of the system `x`. -/
structure SetUpFor {k : Kind} (x : Input ℝ k) (eval : Primal ℝ k → (Nat → ℝ) → ℝ) (q : Primal ℝ k)
    (p : SPProblem (Fin x.nbodies × Fin k.dof) x.active.length (k.tan * x.active.length)) : Prop where
  /-- `Minv` is the inverse of the mass matrix -/
  Minv : ∀ (w : Fin x.nbodies × Fin k.dof → ℝ) (b : Fin x.nbodies),
    (bodyMass k x.nbodies x.M b *ᵥ fun j => (p.Minv *ᵥ w) (b, j)) = fun j => w (b, j)
  v0 : ∀ b j, p.v0 (b, j) = bodyVel k x.nbodies x.v0 b j
  /-- column `i` of `N` is what a normal impulse of one unit does -/
  N : ∀ (i : Fin x.active.length) b j,
    p.N (b, j) i = impulseOn (x.hA i x.active[i]) (x.hB i x.active[i]) x.active[i].body0 x.active[i].body1 (Pi.single 0 1) b j
  /-- the columns of `D` are what tangential impulses of one unit do -/
  D : ∀ (i : Fin x.active.length) (s : Fin k.tan) b j, p.D (b, j) ⟨k.tan * i + s, flat_lt i.2 s.2⟩ =
    impulseOn (x.hA i x.active[i]) (x.hB i x.active[i]) x.active[i].body0 x.active[i].body1 (Pi.single s.succ 1) b j
  error : ∀ alpha beta, ∃ e, sobogusError eval q x.bases (ofFin alpha) (ofFin beta) = .ok e ∧ p.errorOf alpha beta = .fin e

theorem impulseOn_eq_sum {k : Kind} (HA HB : Matrix (Fin k.amb) (Fin k.dof) ℝ) (a : Nat) (b : Option Nat) (r : Fin k.amb → ℝ) (o : Nat) (j : Fin k.dof) :
    impulseOn HA HB a b r o j = ∑ s, r s * impulseOn HA HB a b (Pi.single s 1) o j := by
  have hlin : ∀ H : Matrix (Fin k.amb) (Fin k.dof) ℝ, (Hᵀ *ᵥ r) j = ∑ s, r s * (Hᵀ *ᵥ Pi.single s 1) j := fun H => by
    simp only [Matrix.mulVec_single_one, Matrix.col_apply]
    simp only [Matrix.mulVec, dotProduct]
    exact Finset.sum_congr rfl fun s _ => mul_comm _ _
  simp only [impulseOn, Pi.sub_apply, mul_sub, Finset.sum_sub_distrib]
  congr 1
  · split
    · exact hlin HA
    · simp
  · split
    · exact hlin HB
    · simp

/-- **C92, success.** Staggered projections reports success exactly when the velocities it hands back, together with the impulses it hands back, satisfy
the contact law up to the tolerance at every contact. -/
theorem C92_staggered {k : Kind} (junk : ℝ) (eval : Primal ℝ k → (Nat → ℝ) → ℝ) (Law : ℝ → ℝ → (Fin k.amb → ℝ) → (Fin k.amb → ℝ) → Prop)
    (hE : Measures eval Law) (x : Input ℝ k) (hw : x.WellFormed) (hn : x.nrelExtra.size = 0) (hd : x.drelExtra.size = 0)
    (horth : ∀ i, i < x.active.length → (x.basis i)ᵀ * x.basis i = 1) (hmass : ∀ b < x.nbodies, IsUnit (bodyMass k x.nbodies x.M b))
    (q : Primal ℝ k) (hq : errorProblem junk x = .ok q) (p : SPProblem (Fin x.nbodies × Fin k.dof) x.active.length (k.tan * x.active.length))
    (hp : SetUpFor x eval q p) (maxIters : Nat) (tol : ℝ) (htol : 0 ≤ tol) (f0 : Fin x.nbodies × Fin k.dof → ℝ) (alpha0 : Fin x.active.length → ℝ)
    (beta0 : Fin (k.tan * x.active.length) → ℝ) (r : SPResult (Fin x.nbodies × Fin k.dof) x.active.length (k.tan * x.active.length))
    (h : spSolve p [] [] maxIters (.fin tol) f0 alpha0 beta0 = .ok r) :
    r.succeeded ↔ x.Obeys Law tol (ofFin r.alpha) (ofFin r.beta) fun b j => if hb : b < x.nbodies then r.vout (⟨b, hb⟩, j) else 0 := by
  obtain ⟨-, -, -, hv, herr, hsucc⟩ := C38_staggered p maxIters (.fin tol) f0 alpha0 beta0 r h
  obtain ⟨e, he, hee⟩ := hp.error r.alpha r.beta
  have hmove : x.MovesWith (ofFin r.alpha) (ofFin r.beta) fun b j => if hb : b < x.nbodies then r.vout (⟨b, hb⟩, j) else 0 := by
    intro b hb
    have e1 : (fun j : Fin k.dof => if hb : b < x.nbodies then r.vout (⟨b, hb⟩, j) else 0) =
        bodyVel k x.nbodies x.v0 b + fun j => (p.Minv *ᵥ (p.N *ᵥ r.alpha + p.D *ᵥ r.beta)) (⟨b, hb⟩, j) := by
      funext j
      rw [dif_pos hb, hv, Pi.add_apply, Pi.add_apply, hp.v0]
    beta_reduce
    rw [e1, Matrix.mulVec_add, hp.Minv _ ⟨b, hb⟩]
    congr 1
    funext j
    rw [Pi.add_apply, Input.sumContacts, Finset.sum_apply, Finset.sum_range]
    have hD : (p.D *ᵥ r.beta) (⟨b, hb⟩, j) = ∑ i : Fin x.active.length, ∑ s : Fin k.tan,
        p.D (⟨b, hb⟩, j) ⟨k.tan * i + s, flat_lt i.2 s.2⟩ * r.beta ⟨k.tan * i + s, flat_lt i.2 s.2⟩ := by
      rw [← Finset.sum_product', Finset.univ_product_univ]
      refine (Fintype.sum_equiv (finProdFinEquiv.trans (finCongr (Nat.mul_comm _ _))) _ _ fun a => ?_).symm
      have ea : (finProdFinEquiv.trans (finCongr (Nat.mul_comm x.active.length k.tan))) a = ⟨k.tan * a.1 + a.2, flat_lt a.1.2 a.2.2⟩ :=
        Fin.ext (by simp [finProdFinEquiv, Nat.add_comm])
      rw [ea]
    rw [hD, Matrix.mulVec, dotProduct, ← Finset.sum_add_distrib]
    refine Finset.sum_congr rfl fun i _ => ?_
    rw [List.getElem?_eq_getElem i.2]
    simp only [Option.elim_some]
    rw [impulseOn_eq_sum, Fin.sum_univ_succ, hp.N]
    simp only [impulseOf, Fin.cons_zero, Fin.cons_succ, ofFin, dif_pos i.2]
    congr 1
    · exact mul_comm _ _
    · refine Finset.sum_congr rfl fun s _ => ?_
      rw [hp.D, dif_pos (flat_lt i.2 s.2)]
      exact mul_comm _ _
  rw [← C92_measure junk eval Law hE x hw hn hd horth hmass q hq (ofFin r.alpha) (ofFin r.beta) rfl rfl e he _ hmove tol htol, hsucc, herr, hee]
  rfl

/-! ## Such a library exists -/

/-- The velocities of a problem -/
noncomputable def velocityOf [Field K] (p : Primal K k) (r : Nat → K) (b : Nat) : Fin k.dof → K :=
  (p.M b)⁻¹ *ᵥ fun j => (∑ c ∈ Finset.range p.ncontacts, impulseOn (p.row c).HA (p.row c).HB (p.row c).objA (p.row c).objB
    (fun s : Fin k.amb => r (k.amb * c + s)) b) j - p.f.val (k.dof * b + j)

/-- The largest violation of all contacts, for any way of measuring the violation of one -/
noncomputable def largest [Field K] [LinearOrder K] (viol : K → (Fin k.amb → K) → (Fin k.amb → K) → K) (p : Primal K k) (r : Nat → K) : K :=
  (Finset.range p.ncontacts).fold max 0 fun c =>
    viol (p.mu.val c) (relativeVelocity (p.row c).HA (p.row c).HB (p.row c).objA (p.row c).objB (velocityOf p r) + (p.row c).Eᵀ *ᵥ (p.row c).w)
      fun s : Fin k.amb => r (k.amb * c + s)

/-- A library that computes the largest violation keeps the promise. -/
theorem measures_largest [Field K] [LinearOrder K] (viol : K → (Fin k.amb → K) → (Fin k.amb → K) → K) :
    Measures (largest viol) fun tol mu u r => viol mu u r ≤ tol := by
  intro p r tol V htol hM hobj rOf hV
  have hvel : ∀ b < p.nbodies, velocityOf p r b = V b := fun b hb => by
    have e : (fun j => (∑ c ∈ Finset.range p.ncontacts, impulseOn (p.row c).HA (p.row c).HB (p.row c).objA (p.row c).objB (rOf c) b) j
        - p.f.val (k.dof * b + j)) = p.M b *ᵥ V b := funext fun j => by rw [← hV b hb j, add_sub_cancel_right]
    change (p.M b)⁻¹ *ᵥ (fun j => (∑ c ∈ Finset.range p.ncontacts, impulseOn (p.row c).HA (p.row c).HB (p.row c).objA (p.row c).objB (rOf c) b) j
        - p.f.val (k.dof * b + j)) = V b
    rw [e, Matrix.mulVec_mulVec, Matrix.nonsing_inv_mul _ ((Matrix.isUnit_iff_isUnit_det _).mp (hM b hb)), Matrix.one_mulVec]
  have hu : ∀ c < p.ncontacts, relativeVelocity (p.row c).HA (p.row c).HB (p.row c).objA (p.row c).objB (velocityOf p r) =
      relativeVelocity (p.row c).HA (p.row c).HB (p.row c).objA (p.row c).objB V := fun c hc => by
    obtain ⟨ha, hb⟩ := hobj c hc
    simp only [relativeVelocity, hvel _ ha]
    cases ho : (p.row c).objB with
    | none => rfl
    | some b => simp only [Option.elim_some, hvel _ (hb b ho)]
  unfold largest
  rw [Finset.fold_max_le]
  constructor
  · rintro ⟨-, h⟩ c hc
    have := h c (Finset.mem_range.mpr hc)
    rw [hu c hc] at this
    exact this
  · intro h
    refine ⟨htol, fun c hc => ?_⟩
    have hc := Finset.mem_range.mp hc
    rw [hu c hc]
    exact h c hc

instance (k : Kind) : NeZero k.tan := ⟨by cases k <;> decide⟩

/-- The value computed, or NaN -/
noncomputable def valueOf : Outcome ℝ → XR
  | .ok e => .fin e
  | _ => .nan

/-- The run of staggered projections for a system, with any operators -/
noncomputable def runFor {k : Kind} (x : Input ℝ k) (eval : Primal ℝ k → (Nat → ℝ) → ℝ) (q : Primal ℝ k)
    (impact : Nat → (Fin x.nbodies × Fin k.dof → ℝ) → (Fin x.active.length → ℝ) → Outcome (Fin x.active.length → ℝ))
    (friction : Nat → (Fin x.nbodies × Fin k.dof → ℝ) → (Fin x.active.length → ℝ) → (Fin (k.tan * x.active.length) → ℝ) →
      Outcome (Fin (k.tan * x.active.length) → ℝ)) (warmAlpha warmBeta : Bool) :
    SPProblem (Fin x.nbodies × Fin k.dof) x.active.length (k.tan * x.active.length) where
  Minv := Matrix.of fun a a' => if a.1 = a'.1 then (bodyMass k x.nbodies x.M a.1)⁻¹ a.2 a'.2 else 0
  N := Matrix.of fun a i => impulseOn (x.hA i x.active[i]) (x.hB i x.active[i]) x.active[i].body0 x.active[i].body1 (Pi.single 0 1) a.1 a.2
  D := Matrix.of fun a m =>
    let i : Fin x.active.length := ⟨m / k.tan, Nat.div_lt_of_lt_mul m.2⟩
    impulseOn (x.hA i x.active[i]) (x.hB i x.active[i]) x.active[i].body0 x.active[i].body1 (Pi.single (Fin.ofNat k.tan m).succ 1) a.1 a.2
  v0 a := bodyVel k x.nbodies x.v0 a.1 a.2
  impact := impact
  friction := friction
  errorOf alpha beta := valueOf (sobogusError eval q x.bases (ofFin alpha) (ofFin beta))
  warmAlpha := warmAlpha
  warmBeta := warmBeta

/-- Every well-formed system with invertible masses has a run of staggered projections as `C92_staggered` speaks about, whatever the operators are. -/
theorem setUpFor_runFor {k : Kind} (junk : ℝ) (eval : Primal ℝ k → (Nat → ℝ) → ℝ) (x : Input ℝ k) (hw : x.WellFormed) (hn : x.nrelExtra.size = 0)
    (hd : x.drelExtra.size = 0) (hmass : ∀ b < x.nbodies, IsUnit (bodyMass k x.nbodies x.M b)) (q : Primal ℝ k) (hq : errorProblem junk x = .ok q)
    (impact friction) (warmAlpha warmBeta : Bool) : SetUpFor x eval q (runFor x eval q impact friction warmAlpha warmBeta) where
  Minv w b := by
    have e : (fun j => ((runFor x eval q impact friction warmAlpha warmBeta).Minv *ᵥ w) (b, j)) = (bodyMass k x.nbodies x.M b)⁻¹ *ᵥ fun j => w (b, j) := by
      funext j
      simp only [runFor, Matrix.mulVec, dotProduct, Matrix.of_apply, Fintype.sum_prod_type]
      rw [Finset.sum_eq_single b (fun b' _ hb' => by simp [Ne.symm hb']) (by simp)]
      simp
    rw [e, Matrix.mulVec_mulVec, Matrix.mul_nonsing_inv _ ((Matrix.isUnit_iff_isUnit_det _).mp (hmass b b.2)), Matrix.one_mulVec]
  v0 b j := rfl
  N i b j := rfl
  D i s b j := by
    have e1 : (k.tan * i.val + s.val) / k.tan = i.val := flat_div i.val s
    have e2 : Fin.ofNat k.tan (k.tan * i.val + s.val) = s := flat_ofNat i.val s
    simp only [runFor, Matrix.of_apply, e1, e2]
  error alpha beta := by
    obtain ⟨q', hq', ht⟩ := C92_total junk eval x hw hn hd
    obtain rfl : q = q' := by rw [hq] at hq'; exact Outcome.ok.inj hq'
    obtain ⟨e, he⟩ := ht (ofFin alpha) (ofFin beta) rfl rfl
    exact ⟨e, he, by simp only [runFor, he, valueOf]⟩

namespace Case

/-- Violation of the contact law: of complementarity in the normal direction, of Coulomb's bound and of the rule that sliding friction opposes motion -/
def violation (mu : ℚ) (u r : Fin 2 → ℚ) : ℚ :=
  max |min (u 0) (r 0)| (max (|r 1| - mu * r 0) |r 1 * |u 1| + mu * r 0 * u 1|)

/-- After the collision of the balls 0 and 2 -/
def after : Nat → Fin 2 → ℚ
  | 0 => ![1 / 2, 0]
  | 1 => ![5, 8]
  | _ => ![-1 / 2, 0]

theorem movesWith : input.MovesWith (vec [3]) (vec [0]) after := by
  intro b hb
  have hb : b < 3 := hb
  funext j
  change Fin 2 at j
  interval_cases b <;> fin_cases j <;> decide +kernel

/-- The exact solution has error zero. Half the impulse does not: the balls would still approach each other, taking restitution into account. -/
example : ∃ p, errorProblem 0 input = .ok p ∧
    (∃ e, sobogusError (largest violation) p input.bases (vec [3]) (vec [0]) = .ok e ∧ e ≤ 0) ∧
    ∃ e, sobogusError (largest violation) p input.bases (vec [3 / 2]) (vec [0]) = .ok e ∧ ¬ e ≤ 0 := by
  obtain ⟨p, hp, ht⟩ := C92_total 0 (largest violation) input wellFormed rfl rfl
  refine ⟨p, hp, ?_, ?_⟩
  · obtain ⟨e, he⟩ := ht (vec [3]) (vec [0]) rfl rfl
    refine ⟨e, he, (C92_measure 0 _ _ (measures_largest violation) input wellFormed rfl rfl contactsOk.orthonormal isUnit p hp _ _ rfl rfl e he after movesWith 0
      le_rfl).mpr ?_⟩
    intro i c hc
    cases i with
    | zero => obtain rfl := Option.some.inj hc; decide +kernel
    | succ i => simp [input] at hc
  · obtain ⟨e, he⟩ := ht (vec [3 / 2]) (vec [0]) rfl rfl
    let slow : Nat → Fin 2 → ℚ := fun b => if b = 0 then ![-1 / 4, 0] else if b = 1 then ![5, 8] else ![1 / 4, 0]
    have hmove : input.MovesWith (vec [3 / 2]) (vec [0]) slow := by
      intro b hb
      have hb : b < 3 := hb
      funext j
      change Fin 2 at j
      interval_cases b <;> fin_cases j <;> decide +kernel
    refine ⟨e, he, fun h => ?_⟩
    have := (C92_measure 0 _ _ (measures_largest violation) input wellFormed rfl rfl contactsOk.orthonormal isUnit p hp _ _ rfl rfl e he slow hmove 0
      le_rfl).mp h 0 contact rfl
    exact absurd this (by decide +kernel)

end Case
end Sobogus
end Scisim
