import Verif.Lemmas.Sobogus2
/-!
# More lemmas about the So-bogus wrapper: the call and its results
-/

namespace Scisim
namespace Sobogus

open Matrix

variable {K : Type} {k : Kind}

/-! ## The rows of the problem -/

/-- What row `i` of the problem is -/
def rowOf [CommRing K] (x : Input K k) (ltg : List Nat) (nrel drel : DVec K) (i : Nat) (c : Contact K k) : Row K k :=
  ⟨x.basis i, x.basis i *ᵥ Fin.cons (x.CoR.val i * c.nDotV (x.viewOf c) + nrel.val i) (fun s : Fin k.tan => drel.val (k.tan * i + s)),
    loc ltg c.body0, c.body1.map (loc ltg), x.hA i c, x.hB i c⟩

theorem mkRows_spec [CommRing K] {x : Input K k} {ltg : List Nat} {q v nrel drel : DVec K}
    (hview : ∀ c ∈ x.active, (c.local ltg).view q v = .ok (x.viewOf c)) (hB : x.bases.cols = k.amb * x.active.length)
    (hC : x.CoR.size = x.active.length) (hn : nrel.size = x.active.length) (hd : drel.size = k.tan * x.active.length) :
    ∃ rows, mkRows x.bases q v x.CoR nrel drel (x.active.map (Contact.local ltg)) = .ok rows ∧
      ∀ i c, x.active[i]? = some c → rows i = rowOf x ltg nrel drel i c := by
  have key := loop_inv (n := (x.active.map (Contact.local ltg)).length)
    (s := (fun _ => ⟨fun _ _ => 0, fun _ => 0, 0, none, fun _ _ => 0, fun _ _ => 0⟩ : Nat → Row K k))
    (body := fun c rows =>
      match (x.active.map (Contact.local ltg))[c]? with
      | none => .ub
      | some con => (mkRow x.bases q v x.CoR nrel drel c con).bind fun r => .ok (Function.update rows c r))
    (fun m rows => ∀ i < m, ∀ c, x.active[i]? = some c → rows i = rowOf x ltg nrel drel i c) (by omega) (by
      intro m hm rows hrows
      rw [List.length_map] at hm
      have hmem : x.active[m] ∈ x.active := List.getElem_mem hm
      have e : (x.active.map (Contact.local ltg))[m]? = some (x.active[m].local ltg) := by simp [List.getElem?_eq_getElem hm]
      have hrow : mkRow x.bases q v x.CoR nrel drel m (x.active[m].local ltg) = .ok (rowOf x ltg nrel drel m x.active[m]) := by
        have hb : k.amb * m + k.amb ≤ x.bases.cols := by
          rw [hB]
          calc k.amb * m + k.amb = k.amb * (m + 1) := by ring
            _ ≤ k.amb * x.active.length := Nat.mul_le_mul_left _ hm
        simp only [mkRow, Bases.block, if_pos hb, Outcome.bind, DVec.get_ok (show m < x.CoR.size by omega), DVec.get_ok (show m < nrel.size by omega)]
        rw [DVec.block_ok fun s => by rw [hd]; exact flat_lt hm s.2]
        simp only [forcingTerm, hview _ hmem, Outcome.bind, rowOf]
        congr 2
        funext a
        simp only [Matrix.mulVec, dotProduct, Fin.sum_univ_succ, Fin.cons_zero, Fin.cons_succ]
        rfl
      simp only [e, hrow, Outcome.bind]
      refine ⟨_, rfl, fun i hi c hc => ?_⟩
      rcases Nat.lt_succ_iff_lt_or_eq.mp hi with hi | rfl
      · rw [Function.update_of_ne (by omega)]; exact hrows i hi c hc
      · rw [List.getElem?_eq_getElem hm] at hc
        obtain rfl := Option.some.inj hc
        simp)
  obtain ⟨rows, hok, hrows⟩ := key
  refine ⟨rows, hok, fun i c hc => hrows i ?_ c hc⟩
  rw [List.length_map]
  exact (List.getElem?_eq_some_iff.mp hc).1

/-! ## Warm start, impulses, reordering -/

theorem warmStart_spec [CommRing K] (junk : K) (p : Primal K k) (alpha beta : DVec K) (ha : alpha.size = p.ncontacts)
    (hb : beta.size = k.tan * p.ncontacts) : ∃ r, warmStart junk p alpha beta = .ok r ∧ r.size = k.amb * p.ncontacts := by
  obtain ⟨r, hr, hsz, -⟩ := loop_setBlock (fun c (i : Fin k.amb) => k.amb * c + i)
    (fun c (i : Fin k.amb) => alpha.val c * (p.row c).HA 0 (k.tr i) + ∑ s : Fin k.tan, beta.val (k.tan * c + s) * (p.row c).HA s.succ (k.tr i))
    p.ncontacts (DVec.alloc junk (k.amb * p.ncontacts))
    (fun c r => (alpha.get c).bind fun a => (beta.block fun s : Fin k.tan => k.tan * c + s).bind fun b =>
      r.setBlock (fun i : Fin k.amb => k.amb * c + i) fun i =>
        a * (p.row c).HA 0 (k.tr i) + ∑ s : Fin k.tan, b s * (p.row c).HA s.succ (k.tr i))
    (fun c hc s _ => by
      simp only [DVec.get_ok (show c < alpha.size by omega), Outcome.bind]
      rw [DVec.block_ok fun s => by rw [hb]; exact flat_lt hc s.2])
    (fun c hc i => flat_lt hc i.2)
    (fun i hi i' hi' c c' h => by
      obtain ⟨h1, h2⟩ := flat_inj c.2 c'.2 h
      exact ⟨h1, Fin.ext h2⟩)
  exact ⟨r, hr, hsz⟩

theorem addBlock_spec [CommRing K] {n : Nat} (f : DVec K) (hf : f.size = k.dof * n) {a : Nat} (ha : a < n) (b : Fin k.dof → K) :
    ∃ f', addBlock f (fun j : Fin k.dof => k.vIdx n a j) b = .ok f' ∧ f'.size = f.size ∧
      ∀ l < n, ∀ j : Fin k.dof, f'.val (k.vIdx n l j) = f.val (k.vIdx n l j) + if a = l then b j else 0 := by
  have hlt : ∀ j : Fin k.dof, k.vIdx n a j < f.size := fun j => by rw [hf]; exact vIdx_lt k ha j.2
  obtain ⟨f', hf', hsz, hin, hout⟩ := setBlock_spec f (fun j : Fin k.dof => k.vIdx n a j) (fun i => f.val (k.vIdx n a i) + b i) hlt
    (fun c c' h => Fin.ext (vIdx_inj k ha ha c.2 c'.2 h).2)
  refine ⟨f', by simp only [addBlock]; rw [DVec.block_ok hlt]; exact hf', hsz, fun l hl j => ?_⟩
  by_cases h : a = l
  · subst h; rw [hin j, if_pos rfl]
  · rw [if_neg h, add_zero, hout]
    intro c hc
    exact h (vIdx_inj k ha hl c.2 j.2 hc).1

/-- The tangential impulses extracted -/
def betaOf [CommRing K] [DecidableEq K] (p : Primal K k) (r : DVec K) (c : Nat) (t : Fin k.tan) : K :=
  if k ≠ .rigidBodies3D ∧ p.mu.val c = 0 then 0 else ∑ i : Fin k.amb, r.val (k.amb * c + i) * (p.row c).HA t.succ (k.tr i)

theorem extractImpulses_spec [CommRing K] [DecidableEq K] (p : Primal K k) (r f alpha beta : DVec K) (hr : r.size = k.amb * p.ncontacts)
    (hf : f.size = k.dof * p.nbodies) (ha : alpha.size = p.ncontacts) (hb : beta.size = k.tan * p.ncontacts) (hm : p.mu.size = p.ncontacts)
    (hA : ∀ c < p.ncontacts, (p.row c).objA < p.nbodies) (hB : ∀ c < p.ncontacts, ∀ o, (p.row c).objB = some o → o < p.nbodies) :
    ∃ f' α β, extractImpulses p r f alpha beta = .ok (f', α, β) ∧ f'.size = f.size ∧ α.size = alpha.size ∧ β.size = beta.size ∧
      (∀ c < p.ncontacts, α.val c = ∑ i : Fin k.amb, r.val (k.amb * c + i) * (p.row c).HA 0 (k.tr i)) ∧
      (∀ c < p.ncontacts, ∀ t : Fin k.tan, β.val (k.tan * c + t) = betaOf p r c t) ∧
      ∀ l < p.nbodies, ∀ j : Fin k.dof, f'.val (k.vIdx p.nbodies l j) = f.val (k.vIdx p.nbodies l j) + ∑ c ∈ Finset.range p.ncontacts,
        ((if (p.row c).objA = l then ∑ t, betaOf p r c t * (p.row c).HA t.succ j else 0) +
          if (p.row c).objB = some l then
            - ∑ t : Fin k.tan, betaOf p r c t * (if j.val < k.amb then (p.row c).HA t.succ j else (p.row c).HB t.succ j) else 0) := by
  have key := loop_inv (n := p.ncontacts) (s := (f, alpha, beta)) (body := fun c (s : DVec K × DVec K × DVec K) =>
    let row := p.row c
    (r.block fun i : Fin k.amb => k.amb * c + i).bind fun rc =>
    (s.2.1.set c (∑ i, rc i * row.HA 0 (k.tr i))).bind fun alpha =>
    (p.mu.get c).bind fun m =>
    let b : Fin k.tan → K := fun t => if k ≠ .rigidBodies3D ∧ m = 0 then 0 else ∑ i, rc i * row.HA t.succ (k.tr i)
    (s.2.2.setBlock (fun t : Fin k.tan => k.tan * c + t) b).bind fun beta =>
    (addBlock s.1 (fun j : Fin k.dof => k.vIdx p.nbodies row.objA j) fun j => ∑ t : Fin k.tan, b t * row.HA t.succ j).bind fun f =>
    (match row.objB with
      | none => Outcome.ok f
      | some o => addBlock f (fun j : Fin k.dof => k.vIdx p.nbodies o j) fun j =>
          - ∑ t : Fin k.tan, b t * (if j.val < k.amb then row.HA t.succ j else row.HB t.succ j)).bind fun f =>
    .ok (f, alpha, beta))
    (fun m s => s.1.size = f.size ∧ s.2.1.size = alpha.size ∧ s.2.2.size = beta.size ∧
      (∀ c < m, s.2.1.val c = ∑ i : Fin k.amb, r.val (k.amb * c + i) * (p.row c).HA 0 (k.tr i)) ∧
      (∀ c < m, ∀ t : Fin k.tan, s.2.2.val (k.tan * c + t) = betaOf p r c t) ∧
      ∀ l < p.nbodies, ∀ j : Fin k.dof, s.1.val (k.vIdx p.nbodies l j) = f.val (k.vIdx p.nbodies l j) + ∑ c ∈ Finset.range m,
        ((if (p.row c).objA = l then ∑ t, betaOf p r c t * (p.row c).HA t.succ j else 0) +
          if (p.row c).objB = some l then
            - ∑ t : Fin k.tan, betaOf p r c t * (if j.val < k.amb then (p.row c).HA t.succ j else (p.row c).HB t.succ j) else 0))
    ⟨rfl, rfl, rfl, by omega, by omega, by simp⟩ (by
      rintro m hm' ⟨f1, α, β⟩ ⟨hs1, hs2, hs3, h1, h2, h3⟩
      simp only at hs1 hs2 hs3 h1 h2 h3 ⊢
      rw [DVec.block_ok fun i => by rw [hr]; exact flat_lt hm' i.2]
      simp only [Outcome.bind, DVec.set_ok (x := α) _ (show m < α.size by omega), DVec.get_ok (show m < p.mu.size by omega)]
      obtain ⟨β', hβ', hβs, hβin, hβout⟩ := setBlock_spec β (fun t : Fin k.tan => k.tan * m + t) (betaOf p r m)
        (fun t => by rw [hs3, hb]; exact flat_lt hm' t.2) (fun t t' h => Fin.ext (flat_inj t.2 t'.2 h).2)
      have hbeta : (fun t : Fin k.tan => if k ≠ .rigidBodies3D ∧ p.mu.val m = 0 then (0 : K) else
          ∑ i : Fin k.amb, r.val (k.amb * m + i) * (p.row m).HA t.succ (k.tr i)) = betaOf p r m := rfl
      simp only [hbeta]
      have hbeta' : ∀ t : Fin k.tan, (if k ≠ .rigidBodies3D ∧ p.mu.val m = 0 then (0 : K) else
          ∑ i : Fin k.amb, r.val (k.amb * m + i) * (p.row m).HA t.succ (k.tr i)) = betaOf p r m t := fun _ => rfl
      simp only [hbeta']
      rw [hβ']
      simp only
      obtain ⟨f2, hf2, hf2s, hf2v⟩ := addBlock_spec f1 (by rw [hs1, hf]) (hA m hm') fun j => ∑ t, betaOf p r m t * (p.row m).HA t.succ j
      rw [hf2]
      simp only
      have hlast : ∃ f3, (match (p.row m).objB with
          | none => Outcome.ok f2
          | some o => addBlock f2 (fun j : Fin k.dof => k.vIdx p.nbodies o j) fun j =>
            - ∑ t : Fin k.tan, betaOf p r m t * (if j.val < k.amb then (p.row m).HA t.succ j else (p.row m).HB t.succ j)) = .ok f3 ∧
          f3.size = f2.size ∧ ∀ l < p.nbodies, ∀ j : Fin k.dof, f3.val (k.vIdx p.nbodies l j) = f2.val (k.vIdx p.nbodies l j) +
            if (p.row m).objB = some l then
              - ∑ t : Fin k.tan, betaOf p r m t * (if j.val < k.amb then (p.row m).HA t.succ j else (p.row m).HB t.succ j) else 0 := by
        cases ho : (p.row m).objB with
        | none => exact ⟨f2, rfl, rfl, by simp⟩
        | some o =>
          obtain ⟨f3, hf3, hf3s, hf3v⟩ := addBlock_spec f2 (by rw [hf2s, hs1, hf]) (hB m hm' o ho) fun j =>
            - ∑ t : Fin k.tan, betaOf p r m t * (if j.val < k.amb then (p.row m).HA t.succ j else (p.row m).HB t.succ j)
          refine ⟨f3, hf3, hf3s, fun l hl j => ?_⟩
          rw [hf3v l hl j]
          simp
      obtain ⟨f3, hf3, hf3s, hf3v⟩ := hlast
      rw [hf3]
      refine ⟨_, rfl, by simp only; rw [hf3s, hf2s, hs1], hs2, by simp only; rw [hβs, hs3], fun c hc => ?_, fun c hc t => ?_, fun l hl j => ?_⟩
      · rcases Nat.lt_succ_iff_lt_or_eq.mp hc with hc | rfl
        · simp only [Function.update_of_ne (show c ≠ m by omega)]
          exact h1 c hc
        · simp
      · rcases Nat.lt_succ_iff_lt_or_eq.mp hc with hc | rfl
        · simp only
          rw [hβout _ fun t' h => by have := (flat_inj t'.2 t.2 h).1; omega]
          exact h2 c hc t
        · exact hβin t
      · simp only
        rw [hf3v l hl j, hf2v l hl j, h3 l hl j, Finset.sum_range_succ]
        ring)
  obtain ⟨⟨f', α, β⟩, hok, h⟩ := key
  exact ⟨f', α, β, hok, h⟩

theorem reorder_spec [CommRing K] (junk : K) (n : Nat) (v : DVec K) (hv : v.size = k.dof * n) :
    ∃ y, reorder junk k n v = .ok y ∧ y.size = k.dof * n ∧ ∀ l < n, ∀ j : Fin k.dof, bodyVel k n y l j = v.val (k.dof * l + j) := by
  obtain ⟨y, hy, hsz, hin, -⟩ := loop_setBlock (fun b (c : Fin k.dof) => k.vIdx n b c) (fun b (c : Fin k.dof) => v.val (k.dof * b + c)) n
    (DVec.alloc junk v.size)
    (fun b out => (v.block fun c : Fin k.dof => k.dof * b + c).bind fun x => out.setBlock (fun c : Fin k.dof => k.vIdx n b c) x)
    (fun b hb s _ => by rw [DVec.block_ok fun c => by rw [hv]; exact flat_lt hb c.2]; rfl)
    (fun b hb c => by simp only [DVec.alloc, hv]; exact vIdx_lt k hb c.2)
    (fun i hi i' hi' c c' h => by
      obtain ⟨h1, h2⟩ := vIdx_inj k hi hi' c.2 c'.2 h
      exact ⟨h1, Fin.ext h2⟩)
  exact ⟨y, hy, by rw [hsz]; exact hv, fun l hl j => by rw [bodyVel_eq, hin l hl]⟩

theorem flat_div {d : Nat} [NeZero d] (c : Nat) (i : Fin d) : (d * c + i) / d = c := by
  rw [Nat.mul_add_div (NeZero.pos d), Nat.div_eq_of_lt i.2, Nat.add_zero]

theorem flat_ofNat {d : Nat} [NeZero d] (c : Nat) (i : Fin d) : Fin.ofNat d (d * c + i) = i := by
  apply Fin.ext
  simp [Fin.ofNat, Nat.mod_eq_of_lt i.2]

theorem toWorld_val [CommRing K] (p : Primal K k) (r : DVec K) (c : Nat) (i : Fin k.amb) :
    (toWorld p r).val (k.amb * c + i) = ((p.row c).E *ᵥ fun j : Fin k.amb => r.val (k.amb * c + j)) i := by
  simp only [toWorld, flat_div c i, flat_ofNat c i, Matrix.mulVec, dotProduct]

theorem hTransposeMul_eq [CommRing K] (p : Primal K k) (r : DVec K) (b : Nat) (j : Fin k.dof) :
    hTransposeMul p r b j = (∑ c ∈ Finset.range p.ncontacts,
      impulseOn (p.row c).HA (p.row c).HB (p.row c).objA (p.row c).objB (fun s : Fin k.amb => r.val (k.amb * c + s)) b) j := by
  rw [Finset.sum_apply]
  refine Finset.sum_congr rfl fun c _ => ?_
  simp only [impulseOn, Pi.sub_apply]
  rw [sub_eq_add_neg]
  congr 1
  · split
    · simp [Matrix.mulVec, dotProduct, Matrix.transpose_apply]
    · rfl
  · split
    · simp [Matrix.mulVec, dotProduct, Matrix.transpose_apply]
    · simp

theorem outVelocity_val [CommRing K] (lib : Library K k) (p : Primal K k) (r : DVec K) (b : Nat) (i : Fin k.dof) :
    (outVelocity lib p r).val (k.dof * b + i) =
      (lib.mInv p b *ᵥ fun j : Fin k.dof => hTransposeMul p r b j - p.f.val (k.dof * b + j)) i := by
  simp only [outVelocity, flat_div b i, flat_ofNat b i, Matrix.mulVec, dotProduct]

end Sobogus
end Scisim
