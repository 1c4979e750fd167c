import Verif.Lemmas.Sobogus4
import Verif.Spec.StaggeredError
/-!
# Lemmas about the error of staggered projections
-/

namespace Scisim
namespace Sobogus

open Matrix

variable {K : Type} {k : Kind}

theorem flattenMass_spec [Zero K] {n : Nat} (junk : K) (M : DVec K) (hM : M.size = massSize k n) (hiso : ∀ b < n, IsotropicMass k M b) :
    ∃ m, flattenMass junk k (k.dof * n) M = .ok m ∧ m.size = k.dof * k.dof * n ∧
      ∀ l < n, ∀ i j : Fin k.dof, m.val (k.dof * k.dof * l + (k.dof * j + i)) = bodyMass k n M l i j := by
  have hn : k.dof * n / k.dof = n := Nat.mul_div_cancel_left n (dof_pos k)
  have hA : ∀ l, ∃ A, l < n → massBlock k n M l = .ok A ∧ ∀ i j, A i j = bodyMass k n M l i j := fun l => by
    by_cases h : l < n
    · obtain ⟨A, hA⟩ := massBlock_ok hM h (hiso _ h)
      exact ⟨A, fun _ => hA⟩
    · exact ⟨fun _ _ => 0, fun h' => absurd h' h⟩
  choose A hA using hA
  obtain ⟨m, hm, hsz, hin, -⟩ := loop_setBlock (fun l (e : Fin (k.dof * k.dof)) => k.dof * k.dof * l + e)
    (fun l e => A l e.modNat e.divNat) n (DVec.alloc junk (k.dof * k.dof * n))
    (fun l masses => (massBlock k n M l).bind fun A =>
      masses.setBlock (fun e : Fin (k.dof * k.dof) => k.dof * k.dof * l + e) fun e => A e.modNat e.divNat)
    (fun l hl' s _ => by simp only [Outcome.bind, (hA l hl').1])
    (fun l hl' c => flat_lt hl' c.2)
    (fun i hi i' hi' c c' h => by
      obtain ⟨h1, h2⟩ := flat_inj c.2 c'.2 h
      exact ⟨h1, Fin.ext h2⟩)
  refine ⟨m, by simp only [flattenMass, hn]; exact hm, hsz, fun l hl' i j => ?_⟩
  have h := hin l hl' ⟨k.dof * j + i, flat_lt j.2 i.2⟩
  rw [h, ← (hA l hl').2]
  congr 1
  · exact Fin.ext (by simp [Fin.modNat, Nat.mod_eq_of_lt i.2])
  · exact Fin.ext (by simp [Fin.divNat, Nat.mul_add_div (dof_pos k), Nat.div_eq_of_lt i.2])

theorem loc_range {n b : Nat} (h : b < n) : loc (List.range n) b = b := by
  have hm : b ∈ List.range n := List.mem_range.mpr h
  have := getD_loc hm
  rwa [List.getD_eq_getElem?_getD, List.getElem?_range (by simpa using loc_lt hm), Option.getD_some] at this

theorem local_range {n : Nat} {c : Contact K k} (h0 : c.body0 < n) (h1 : ∀ b, c.body1 = some b → b < n) : c.local (List.range n) = c := by
  cases hb : c.body1 with
  | none => cases c; simp_all [Contact.local, loc_range]
  | some b => have := h1 b hb; cases c; simp_all [Contact.local, loc_range]

/-- What the problem is -/
structure IsProblem [CommRing K] (x : Input K k) (p : Primal K k) : Prop where
  nb : p.nbodies = x.nbodies
  nc : p.ncontacts = x.active.length
  mu : p.mu = x.mu
  M : ∀ l < x.nbodies, p.M l = bodyMass k x.nbodies x.M l
  f : ∀ l < x.nbodies, ∀ i : Fin k.dof, p.f.val (k.dof * l + i) = - (bodyMass k x.nbodies x.M l *ᵥ bodyVel k x.nbodies x.v0 l) i
  row : ∀ i c, x.active[i]? = some c → p.row i = ⟨x.basis i, x.basis i *ᵥ x.prescribed i c, c.body0, c.body1, x.hA i c, x.hB i c⟩

theorem errorProblem_spec [CommRing K] (junk : K) (x : Input K k) (hw : x.WellFormed) (hn : x.nrelExtra.size = 0) (hd : x.drelExtra.size = 0) :
    ∃ p, errorProblem junk x = .ok p ∧ IsProblem x p := by
  have h1 : ∀ c ∈ x.active, ∀ b, c.body1 = some b → b < x.nbodies := fun c hc b hb => (hw.body1 c hc b hb).1
  obtain ⟨nr, dr, hrel, hnrs, hdrs, hrelv⟩ := kinematicRelVel_spec (B := x.bases) (nrel := DVec.alloc junk x.alpha.size)
    (drel := DVec.alloc junk x.beta.size) hw.some_contact hw.q0 hw.v0 hw.bases hw.alpha hw.beta hw.body0 h1
  obtain ⟨masses, hmass, hms, hmv⟩ := flattenMass_spec junk x.M hw.M hw.isotropic
  have hmap : x.active.map (Contact.local (List.range x.nbodies)) = x.active := by
    conv_rhs => rw [← List.map_id x.active]
    exact List.map_congr_left fun c hc => local_range (hw.body0 c hc) (h1 c hc)
  have hview : ∀ c ∈ x.active, (c.local (List.range x.nbodies)).view x.q0 x.v0 = .ok (x.viewOf c) := fun c hc => by
    rw [local_range (hw.body0 c hc) (h1 c hc)]
    exact view_ok hw.q0 hw.v0 c (hw.body0 c hc) (h1 c hc)
  obtain ⟨f, hf, hfs, hfv⟩ := fIn_spec (N := x.nbodies) (M := x.M) junk (fun l => l) hw.v0 hms hmv (fun l h => hw.isotropic _ h)
  obtain ⟨rows, hrows, hrowv⟩ := mkRows_spec hview hw.bases hw.CoR hnrs hdrs
  rw [hmap] at hrows
  have hnb : masses.size / (k.dof * k.dof) = x.nbodies := by
    rw [hms]; exact Nat.mul_div_cancel_left _ (Nat.mul_pos (dof_pos k) (dof_pos k))
  refine ⟨⟨x.nbodies, fun b => Matrix.of fun i j => masses.val (k.dof * k.dof * b + (k.dof * j + i)), f, x.active.length, x.mu, rows⟩, ?_, rfl, rfl, rfl,
    fun l h => ?_, hfv, fun i c hc => ?_⟩
  · simp only [errorProblem, hrel, hmass, Outcome.bind, setUp, hnb, hf, hrows]
  · ext i j; exact hmv l h i j
  · obtain ⟨e1, e2⟩ := hrelv i c hc
    have hmem := List.mem_of_getElem? hc
    change rows i = _
    rw [hrowv i c hc, rowOf, loc_range (hw.body0 c hmem)]
    have hb1 : c.body1.map (loc (List.range x.nbodies)) = c.body1 := by
      cases hb : c.body1 with
      | none => rfl
      | some b => simp [loc_range (h1 c hmem b hb)]
    rw [hb1]
    congr 2
    unfold Input.prescribed
    congr 1
    · rw [e1]
      simp only [dotProduct, Matrix.col_apply, Input.basis, Matrix.of_apply, Input.viewOf, Fin.val_zero, Nat.add_zero, extra, hn, if_true]
      ring
    · funext s
      rw [e2]
      simp only [dotProduct, Matrix.col_apply, Input.basis, Matrix.of_apply, Input.viewOf, Fin.val_succ, extra, hd, if_true, add_zero]

theorem addAmb_spec [CommRing K] {n : Nat} (f : DVec K) (hf : f.size = k.amb * n) {a : Nat} (ha : a < n) (b : Fin k.amb → K) :
    ∃ f', addBlock f (fun j : Fin k.amb => k.amb * a + j) b = .ok f' ∧ f'.size = f.size ∧
      ∀ l < n, ∀ j : Fin k.amb, f'.val (k.amb * l + j) = f.val (k.amb * l + j) + if a = l then b j else 0 := by
  have hlt : ∀ j : Fin k.amb, k.amb * a + j < f.size := fun j => by rw [hf]; exact flat_lt ha j.2
  obtain ⟨f', hf', hsz, hin, hout⟩ := setBlock_spec f (fun j : Fin k.amb => k.amb * a + j) (fun i => f.val (k.amb * a + i) + b i) hlt
    (fun c c' h => Fin.ext (flat_inj c.2 c'.2 h).2)
  refine ⟨f', by simp only [addBlock]; rw [DVec.block_ok hlt]; exact hf', hsz, fun l hl j => ?_⟩
  by_cases h : a = l
  · subst h; rw [hin j, if_pos rfl]
  · rw [if_neg h, add_zero, hout]
    intro c hc
    exact h (flat_inj c.2 j.2 hc).1

theorem contactForce_spec [CommRing K] {n : Nat} (x : Input K k) (alpha beta r : DVec K) (hB : x.bases.cols = k.amb * n) (ha : alpha.size = n)
    (hb : beta.size = k.tan * n) (hr : r.size = k.amb * n) {c : Nat} (hc : c < n) :
    ∃ r', contactForce x.bases alpha beta k.tan c r = .ok r' ∧ r'.size = r.size ∧
      ∀ l < n, ∀ j : Fin k.amb, r'.val (k.amb * l + j) = r.val (k.amb * l + j) + if c = l then (x.basis c *ᵥ impulseOf alpha beta c) j else 0 := by
  have hblk : (k.tan + 1) * c + k.amb ≤ x.bases.cols := by
    rw [hB]
    calc (k.tan + 1) * c + k.amb = k.amb * (c + 1) := by simp only [Kind.amb]; ring
      _ ≤ k.amb * n := Nat.mul_le_mul_left _ hc
  obtain ⟨r1, hr1, hs1, hv1⟩ := addAmb_spec r hr hc fun i => alpha.val c * x.basis c i 0
  have key := loop_inv (n := k.tan) (s := r1) (body := fun s (r : DVec K) =>
      (beta.get (k.tan * c + s)).bind fun b =>
      (basisCol (x.basis c) (s + 1)).bind fun t =>
      addBlock r (fun i : Fin k.amb => k.amb * c + i) fun i => b * t i)
    (fun m s => s.size = r.size ∧ ∀ l < n, ∀ j : Fin k.amb, s.val (k.amb * l + j) = r1.val (k.amb * l + j) +
      if c = l then ∑ t : Fin k.tan, (if t.val < m then beta.val (k.tan * c + t) * x.basis c j t.succ else 0) else 0)
    ⟨hs1, fun l hl j => by simp⟩ (by
      intro m hm s ⟨hs, hv⟩
      have hcol : m + 1 < k.amb := by simp only [Kind.amb]; omega
      obtain ⟨s', hs', hss, hsv⟩ := addAmb_spec s (by rw [hs, hr]) hc fun i => beta.val (k.tan * c + m) * x.basis c i ⟨m + 1, hcol⟩
      refine ⟨s', ?_, by rw [hss, hs], fun l hl j => ?_⟩
      · simp only [DVec.get_ok (show k.tan * c + m < beta.size by rw [hb]; exact flat_lt hc hm), basisCol, dif_pos hcol, Outcome.bind]
        exact hs'
      · rw [hsv l hl j, hv l hl j, add_assoc]
        congr 1
        by_cases hcl : c = l
        · simp only [if_pos hcl]
          have hsplit : ∀ t : Fin k.tan, (if t.val < m + 1 then beta.val (k.tan * c + t) * x.basis c j t.succ else 0) =
              (if t.val < m then beta.val (k.tan * c + t) * x.basis c j t.succ else 0) +
                if t = ⟨m, hm⟩ then beta.val (k.tan * c + m) * x.basis c j ⟨m + 1, hcol⟩ else 0 := by
            intro t
            by_cases ht : t = ⟨m, hm⟩
            · subst ht; simp [Fin.succ]
            · have ht' : t.val ≠ m := fun h => ht (Fin.ext h)
              simp only [if_neg ht, add_zero]
              by_cases h : t.val < m
              · rw [if_pos h, if_pos (by omega)]
              · rw [if_neg h, if_neg (by omega)]
          rw [Finset.sum_congr rfl fun t _ => hsplit t, Finset.sum_add_distrib]
          simp
        · simp only [if_neg hcl, add_zero])
  obtain ⟨r2, hr2, hs2, hv2⟩ := key
  refine ⟨r2, ?_, hs2, fun l hl j => ?_⟩
  · simp only [contactForce, Bases.blockAt, if_pos hblk, Outcome.bind, DVec.get_ok (show c < alpha.size by omega)]
    have e : (Matrix.of fun (a i : Fin k.amb) => x.bases.val a ((k.tan + 1) * c + i)) = x.basis c := rfl
    simp only [e] at *
    rw [hr1]
    exact hr2
  · rw [hv2 l hl j, hv1 l hl j, add_assoc]
    congr 1
    by_cases hcl : c = l
    · simp only [if_pos hcl, impulseOf, Matrix.mulVec, dotProduct]
      rw [Fin.sum_univ_succ]
      simp only [Fin.cons_zero, Fin.cons_succ]
      rw [mul_comm]
      congr 1
      refine Finset.sum_congr rfl fun t _ => ?_
      rw [if_pos t.2, mul_comm]
    · simp only [if_neg hcl, add_zero]

theorem contactForces_spec [CommRing K] (x : Input K k) (alpha beta : DVec K) (hw : x.WellFormed) (ha : alpha.size = x.active.length)
    (hb : beta.size = k.tan * x.active.length) :
    ∃ r, contactForces x.bases alpha beta = .ok r ∧
      ∀ l < x.active.length, ∀ j : Fin k.amb, r.val (k.amb * l + j) = (x.basis l *ᵥ impulseOf alpha beta l) j := by
  have hpos : 0 < x.active.length := List.length_pos_of_ne_nil hw.some_contact
  have hper : beta.size / alpha.size = k.tan := by rw [hb, ha]; exact Nat.mul_div_cancel _ hpos
  have key := loop_inv (n := x.active.length) (s := (⟨k.amb * x.active.length, fun _ => 0⟩ : DVec K))
    (body := contactForce x.bases alpha beta k.tan)
    (fun m r => r.size = k.amb * x.active.length ∧
      ∀ l < x.active.length, ∀ j : Fin k.amb, r.val (k.amb * l + j) = if l < m then (x.basis l *ᵥ impulseOf alpha beta l) j else 0)
    ⟨rfl, fun l hl j => by simp⟩ (by
      intro m hm r ⟨hs, hv⟩
      obtain ⟨r', hr', hs', hv'⟩ := contactForce_spec x alpha beta r hw.bases ha hb hs hm
      refine ⟨r', hr', by rw [hs', hs], fun l hl j => ?_⟩
      rw [hv' l hl j, hv l hl j]
      by_cases h : m = l
      · subst h; simp
      · rw [if_neg h, add_zero]
        by_cases h' : l < m
        · rw [if_pos h', if_pos (by omega)]
        · rw [if_neg h', if_neg (by omega)])
  obtain ⟨r, hr, -, hv⟩ := key
  refine ⟨r, by simp only [contactForces, ha, show ¬ x.active.length = 0 by omega, if_false]; rw [← ha, hper, ha]; exact hr, fun l hl j => ?_⟩
  rw [hv l hl j, if_pos hl]

theorem toLocal_val [CommRing K] (p : Primal K k) (r : DVec K) (c : Nat) (i : Fin k.amb) :
    (toLocal p r).val (k.amb * c + i) = ((p.row c).Eᵀ *ᵥ fun j : Fin k.amb => r.val (k.amb * c + j)) i := by
  simp only [toLocal, flat_div c i, flat_ofNat c i, Matrix.mulVec, dotProduct, Matrix.transpose_apply]

end Sobogus
end Scisim
