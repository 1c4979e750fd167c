import Verif.Lemmas.Sobogus3
/-!
# More lemmas about the So-bogus wrapper: the whole call
-/

namespace Scisim
namespace Sobogus

open Matrix

variable {K : Type} {k : Kind}

/-- What a call does, in terms of the problem passed to the library -/
structure Core [CommRing K] [DecidableEq K] [LT K] [DecidableLT K] (lib : Library K k) (x : Input K k) (ltg : List Nat) (p : Primal K k) (r0 : DVec K)
    (out : Output K k) : Prop where
  ltgOk : LtgOk x.nbodies x.active ltg
  nb : p.nbodies = ltg.length
  nc : p.ncontacts = x.active.length
  mu : p.mu = x.mu
  M : ∀ l < ltg.length, p.M l = bodyMass k x.nbodies x.M (ltg.getD l 0)
  f : ∀ l < ltg.length, ∀ i : Fin k.dof, p.f.val (k.dof * l + i) =
    - (bodyMass k x.nbodies x.M (ltg.getD l 0) *ᵥ bodyVel k x.nbodies x.v0 (ltg.getD l 0)) i
  row : ∀ i c, x.active[i]? = some c →
    p.row i = ⟨x.basis i, x.basis i *ᵥ x.prescribed i c, loc ltg c.body0, c.body1.map (loc ltg), x.hA i c, x.hB i c⟩
  active : out.active = x.active
  sizes : out.f.size = x.f.size ∧ out.alpha.size = x.alpha.size ∧ out.beta.size = x.beta.size ∧ out.vout.size = x.v0.size
  succeeded : out.succeeded = decide ((lib.gaussSeidel p r0 x.tol x.maxIters x.evalEvery).1 < x.tol)
  error : out.error = (lib.gaussSeidel p r0 x.tol x.maxIters x.evalEvery).1
  alpha : ∀ c < p.ncontacts, out.alpha.val c = ∑ i : Fin k.amb,
    ((p.row c).E *ᵥ fun j : Fin k.amb => (lib.gaussSeidel p r0 x.tol x.maxIters x.evalEvery).2 (k.amb * c + j)) i * (p.row c).HA 0 (k.tr i)
  beta : ∀ c < p.ncontacts, ∀ t : Fin k.tan, out.beta.val (k.tan * c + t) =
    if k ≠ .rigidBodies3D ∧ p.mu.val c = 0 then 0 else ∑ i : Fin k.amb,
      ((p.row c).E *ᵥ fun j : Fin k.amb => (lib.gaussSeidel p r0 x.tol x.maxIters x.evalEvery).2 (k.amb * c + j)) i * (p.row c).HA t.succ (k.tr i)
  vIn : ∀ l < ltg.length, bodyVel k x.nbodies out.vout (ltg.getD l 0) = lib.mInv p l *ᵥ fun j : Fin k.dof =>
    (∑ c ∈ Finset.range p.ncontacts, impulseOn (p.row c).HA (p.row c).HB (p.row c).objA (p.row c).objB
      (fun s : Fin k.amb => (lib.gaussSeidel p r0 x.tol x.maxIters x.evalEvery).2 (k.amb * c + s)) l) j - p.f.val (k.dof * l + j)
  vOut : ∀ b < x.nbodies, b ∉ ltg → bodyVel k x.nbodies out.vout b = bodyVel k x.nbodies x.v0 b
  fIn : ∀ l < ltg.length, ∀ j : Fin k.dof, bodyVel k x.nbodies out.f (ltg.getD l 0) j = ∑ c ∈ Finset.range p.ncontacts,
    ((if (p.row c).objA = l then ∑ t : Fin k.tan, out.beta.val (k.tan * c + t) * (p.row c).HA t.succ j else 0) +
      if (p.row c).objB = some l then
        - ∑ t : Fin k.tan, out.beta.val (k.tan * c + t) * (if j.val < k.amb then (p.row c).HA t.succ j else (p.row c).HB t.succ j) else 0)
  fOut : ∀ b < x.nbodies, b ∉ ltg → bodyVel k x.nbodies out.f b = 0

theorem solve_core [CommRing K] [DecidableEq K] [LT K] [DecidableLT K] (junk : K) (lib : Library K k) (x : Input K k) (hw : x.WellFormed) :
    ∃ ltg p r0 out, solve junk lib x = .ok out ∧ Core lib x ltg p r0 out := by
  have h1 : ∀ c ∈ x.active, ∀ b, c.body1 = some b → b < x.nbodies := fun c hc b hb => (hw.body1 c hc b hb).1
  obtain ⟨ltg, hltg, hl⟩ := buildLtg_spec x.active hw.body0 h1
  obtain ⟨nr, dr, hrel, hnrs, hdrs, hrelv⟩ := kinematicRelVel_spec (B := x.bases) (nrel := DVec.alloc junk x.alpha.size)
    (drel := DVec.alloc junk x.beta.size) hw.some_contact hw.q0 hw.v0 hw.bases hw.alpha hw.beta hw.body0 h1
  obtain ⟨nrel, hnrel, hns, hnv⟩ := addExtra_spec (e := x.nrelExtra) hnrs hw.nrelExtra
  obtain ⟨drel, hdrel, hds, hdv⟩ := addExtra_spec (e := x.drelExtra) hdrs hw.drelExtra
  have hremap := remap_local hl hw.body0 h1
  obtain ⟨masses, hmass, hms, hmv⟩ := extractMass_spec hl junk x.M hw.M hw.isotropic
  obtain ⟨q, hq, hqs, hqv⟩ := extractQ_spec hl junk x.q0 hw.q0
  obtain ⟨v, hv, hvs, hvv⟩ := extractV_spec hl junk x.v0 hw.v0
  have hview : ∀ c ∈ x.active, (c.local ltg).view q v = .ok (x.viewOf c) := fun c hc => local_view hl hqs hvs hqv hvv hw.body0 h1 c hc
  obtain ⟨f, hf, hfs, hfv⟩ := fIn_spec (N := x.nbodies) (M := x.M) junk (fun l => ltg.getD l 0) hvs hms hmv
    (fun l h => hw.isotropic _ (hl.lt h))
  obtain ⟨rows, hrows, hrowv⟩ := mkRows_spec hview hw.bases hw.CoR hns hds
  have hnb : masses.size / (k.dof * k.dof) = ltg.length := by
    rw [hms]; exact Nat.mul_div_cancel_left _ (Nat.mul_pos (dof_pos k) (dof_pos k))
  let p : Primal K k := ⟨ltg.length, fun b => Matrix.of fun i j => masses.val (k.dof * k.dof * b + (k.dof * j + i)), f, x.active.length, x.mu, rows⟩
  have hsetup : setUp junk (x.active.map (Contact.local ltg)) x.bases masses q v x.CoR x.mu nrel drel = .ok p := by
    simp only [setUp, hnb, hf, hrows, Outcome.bind, List.length_map]
    rfl
  have hrow : ∀ i c, x.active[i]? = some c →
      p.row i = ⟨x.basis i, x.basis i *ᵥ x.prescribed i c, loc ltg c.body0, c.body1.map (loc ltg), x.hA i c, x.hB i c⟩ := by
    intro i c hc
    obtain ⟨e1, e2⟩ := hrelv i c hc
    change rows i = _
    rw [hrowv i c hc, rowOf]
    congr 2
    unfold Input.prescribed
    congr 1
    · rw [hnv, e1]
      simp only [dotProduct, Matrix.col_apply, Input.basis, Matrix.of_apply, Input.viewOf, Fin.val_zero, Nat.add_zero]
      ring
    · funext s
      rw [hdv, e2]
      simp only [dotProduct, Matrix.col_apply, Input.basis, Matrix.of_apply, Input.viewOf, Fin.val_succ]
  have hcon : ∀ i < p.ncontacts, ∃ c, x.active[i]? = some c ∧ c ∈ x.active := fun i hi =>
    ⟨x.active[i]'hi, List.getElem?_eq_getElem hi, List.getElem_mem hi⟩
  have hA : ∀ i < p.ncontacts, (p.row i).objA < p.nbodies := fun i hi => by
    obtain ⟨c, hc, hm⟩ := hcon i hi
    rw [hrow i c hc]
    exact loc_lt ((hl.mem _).mpr ⟨hw.body0 c hm, c, hm, .inl rfl⟩)
  have hB : ∀ i < p.ncontacts, ∀ o, (p.row i).objB = some o → o < p.nbodies := fun i hi o ho => by
    obtain ⟨c, hc, hm⟩ := hcon i hi
    rw [hrow i c hc] at ho
    obtain ⟨b, hb, rfl⟩ := Option.map_eq_some_iff.mp ho
    exact loc_lt ((hl.mem _).mpr ⟨h1 c hm b hb, c, hm, .inr hb⟩)
  obtain ⟨r, hr, hrs⟩ := warmStart_spec junk p x.alpha x.beta hw.alpha hw.beta
  set G := lib.gaussSeidel p (toLocal p r) x.tol x.maxIters x.evalEvery with hG
  let rl : DVec K := ⟨(toLocal p r).size, G.2⟩
  obtain ⟨fl, α, β, hext, hfls, hαs, hβs, hαv, hβv, hflv⟩ := extractImpulses_spec p (toWorld p rl) ⟨k.dof * ltg.length, fun _ => 0⟩ x.alpha x.beta
    hrs rfl hw.alpha hw.beta hw.mu hA hB
  obtain ⟨vl, hvl, hvls, hvlv⟩ := reorder_spec junk p.nbodies (outVelocity lib p rl) rfl
  obtain ⟨vout, hvout, hvos, hvin, hvun⟩ := scatter_spec hl vl x.v0 hvls hw.v0
  obtain ⟨fo, hfo, hfos, hfin, hfun⟩ := scatter_spec hl fl ⟨x.f.size, fun _ => 0⟩ hfls hw.f
  have hback := remap_back hl hw.body0 h1
  have hbetaOf : ∀ c < p.ncontacts, ∀ t : Fin k.tan, betaOf p (toWorld p rl) c t = β.val (k.tan * c + t) := fun c hc t => (hβv c hc t).symm
  refine ⟨ltg, p, toLocal p r, ⟨fo, α, β, vout, decide (G.1 < x.tol), G.1, x.active⟩, ?_, ?_⟩
  · simp only [solve, hltg, hrel, hnrel, hdrel, hremap, hmass, hq, hv, hsetup, Outcome.bind]
    simp only [solveLocal, hr, Outcome.bind, interfaceSolve, ← hG]
    rw [show (⟨(toLocal p r).size, G.2⟩ : DVec K) = rl from rfl, hext]
    simp only
    rw [hvl]
    simp only [hvout, hfo, hback]
  · refine ⟨hl, rfl, rfl, rfl, fun l h => ?_, fun l h i => ?_, hrow, rfl, ⟨hfos, hαs, hβs, hvos⟩, rfl, rfl, fun c hc => ?_, fun c hc t => ?_,
      fun l h => ?_, hvun, fun l h j => ?_, fun b hb hbn => ?_⟩
    · ext i j; exact hmv l h i j
    · change f.val _ = _
      rw [hfv l h i, hvv l h]
    · rw [show (⟨fo, α, β, vout, decide (G.1 < x.tol), G.1, x.active⟩ : Output K k).alpha.val c = α.val c from rfl, hαv c hc]
      refine Finset.sum_congr rfl fun i _ => ?_
      rw [toWorld_val]
    · rw [show (⟨fo, α, β, vout, decide (G.1 < x.tol), G.1, x.active⟩ : Output K k).beta.val (k.tan * c + t) = β.val (k.tan * c + t) from rfl, hβv c hc t, betaOf]
      simp only [toWorld_val]
      rfl
    · change bodyVel k x.nbodies vout _ = _
      rw [hvin l h]
      funext j
      rw [show ltg.length = p.nbodies from rfl, hvlv l h j, outVelocity_val]
      simp only [hTransposeMul_eq]
      rfl
    · change bodyVel k x.nbodies fo _ j = _
      rw [hfin l h, bodyVel_eq, hflv l h j, zero_add]
      refine Finset.sum_congr rfl fun c hc => ?_
      have hc' := Finset.mem_range.mp hc
      simp only [hbetaOf c hc']
    · change bodyVel k x.nbodies fo b = 0
      rw [hfun b hb hbn]
      funext j
      rw [bodyVel_eq]
      rfl

end Sobogus
end Scisim
