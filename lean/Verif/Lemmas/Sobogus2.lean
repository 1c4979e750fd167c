import Verif.Lemmas.Sobogus
/-!
# More lemmas about the So-bogus wrapper: cutting out and setting up
-/

namespace Scisim
namespace Sobogus

open Matrix

variable {K : Type} {k : Kind}

/-! ## Cutting out -/

theorem LtgOk.lt {n : Nat} {active : List (Contact K k)} {ltg : List Nat} (hl : LtgOk n active ltg) {l : Nat} (h : l < ltg.length) : ltg.getD l 0 < n :=
  ((hl.mem _).mp (getD_mem h)).1

theorem extractQ_spec {n : Nat} {active : List (Contact K k)} {ltg : List Nat} (hl : LtgOk n active ltg) (junk : K) (q0 : DVec K)
    (hq : q0.size = k.qdof * n) :
    ∃ q, extractQ junk k n ltg q0 = .ok q ∧ q.size = k.qdof * ltg.length ∧
      ∀ l < ltg.length, bodyPos k ltg.length q l = bodyPos k n q0 (ltg.getD l 0) := by
  obtain ⟨q, hq', hsz, hin, -⟩ := loop_setBlock (fun l (c : Fin k.qdof) => k.qIdx ltg.length l c)
    (fun l (c : Fin k.qdof) => q0.val (k.qIdx n (ltg.getD l 0) c)) ltg.length (DVec.alloc junk (k.qdof * ltg.length))
    (fun l out => (ltgGet ltg l).bind fun g => (q0.block fun c : Fin k.qdof => k.qIdx n g c).bind fun b =>
      out.setBlock (fun c : Fin k.qdof => k.qIdx ltg.length l c) b)
    (fun l hl' s _ => by
      simp only [ltgGet_ok hl', Outcome.bind]
      rw [DVec.block_ok fun c => by rw [hq]; exact qIdx_lt k (hl.lt hl') c.2])
    (fun l hl' c => qIdx_lt k hl' c.2)
    (fun i hi i' hi' c c' h => by
      obtain ⟨h1, h2⟩ := qIdx_inj k hi hi' c.2 c'.2 h
      exact ⟨h1, Fin.ext h2⟩)
  refine ⟨q, hq', hsz, fun l hl' => funext fun c => ?_⟩
  rw [bodyPos_eq, bodyPos_eq, hin l hl']

theorem extractV_spec {n : Nat} {active : List (Contact K k)} {ltg : List Nat} (hl : LtgOk n active ltg) (junk : K) (v0 : DVec K)
    (hv : v0.size = k.dof * n) :
    ∃ v, extractV junk k n ltg v0 = .ok v ∧ v.size = k.dof * ltg.length ∧
      ∀ l < ltg.length, bodyVel k ltg.length v l = bodyVel k n v0 (ltg.getD l 0) := by
  obtain ⟨v, hv', hsz, hin, -⟩ := loop_setBlock (fun l (c : Fin k.dof) => k.vIdx ltg.length l c)
    (fun l (c : Fin k.dof) => v0.val (k.vIdx n (ltg.getD l 0) c)) ltg.length (DVec.alloc junk (k.dof * ltg.length))
    (fun l out => (ltgGet ltg l).bind fun g => (v0.block fun c : Fin k.dof => k.vIdx n g c).bind fun b =>
      out.setBlock (fun c : Fin k.dof => k.vIdx ltg.length l c) b)
    (fun l hl' s _ => by
      simp only [ltgGet_ok hl', Outcome.bind]
      rw [DVec.block_ok fun c => by rw [hv]; exact vIdx_lt k (hl.lt hl') c.2])
    (fun l hl' c => vIdx_lt k hl' c.2)
    (fun i hi i' hi' c c' h => by
      obtain ⟨h1, h2⟩ := vIdx_inj k hi hi' c.2 c'.2 h
      exact ⟨h1, Fin.ext h2⟩)
  refine ⟨v, hv', hsz, fun l hl' => funext fun c => ?_⟩
  rw [bodyVel_eq, bodyVel_eq, hin l hl']

theorem scatter_spec {n : Nat} {active : List (Contact K k)} {ltg : List Nat} (hl : LtgOk n active ltg) (x out : DVec K)
    (hx : x.size = k.dof * ltg.length) (ho : out.size = k.dof * n) :
    ∃ y, scatter k n ltg x out = .ok y ∧ y.size = out.size ∧
      (∀ l < ltg.length, bodyVel k n y (ltg.getD l 0) = bodyVel k ltg.length x l) ∧
      ∀ g < n, g ∉ ltg → bodyVel k n y g = bodyVel k n out g := by
  obtain ⟨y, hy, hsz, hin, hout⟩ := loop_setBlock (fun l (c : Fin k.dof) => k.vIdx n (ltg.getD l 0) c)
    (fun l (c : Fin k.dof) => x.val (k.vIdx ltg.length l c)) ltg.length out
    (fun l out => (ltgGet ltg l).bind fun g => (x.block fun c : Fin k.dof => k.vIdx ltg.length l c).bind fun b =>
      out.setBlock (fun c : Fin k.dof => k.vIdx n g c) b)
    (fun l hl' s _ => by
      simp only [ltgGet_ok hl', Outcome.bind]
      rw [DVec.block_ok fun c => by rw [hx]; exact vIdx_lt k hl' c.2])
    (fun l hl' c => by rw [ho]; exact vIdx_lt k (hl.lt hl') c.2)
    (fun i hi i' hi' c c' h => by
      obtain ⟨h1, h2⟩ := vIdx_inj k (hl.lt hi) (hl.lt hi') c.2 c'.2 h
      refine ⟨?_, Fin.ext h2⟩
      rw [← loc_getD hl.nodup hi, h1, loc_getD hl.nodup hi'])
  refine ⟨y, hy, hsz, fun l hl' => funext fun c => ?_, fun g hg hgn => funext fun c => ?_⟩
  · rw [bodyVel_eq, bodyVel_eq, hin l hl']
  · rw [bodyVel_eq, bodyVel_eq, hout]
    intro i hi c' h
    have := (vIdx_inj k (hl.lt hi) hg c'.2 c.2 h).1
    exact hgn (this ▸ getD_mem hi)

theorem massBlock_ok [Zero K] {n : Nat} {M : DVec K} (hM : M.size = massSize k n) {g : Nat} (hg : g < n) (hi : IsotropicMass k M g) :
    ∃ A, massBlock k n M g = .ok A ∧ ∀ i j, A i j = bodyMass k n M g i j := by
  cases k
  · simp only [massSize] at hM
    refine ⟨_, by simp only [massBlock, DVec.get_ok (show 2 * g + 0 < M.size by omega), Outcome.bind]; rfl, fun i j => ?_⟩
    simp only [IsotropicMass] at hi
    change Fin 2 at i j
    fin_cases i <;> fin_cases j <;> first | rfl | exact hi.symm
  · simp only [massSize] at hM
    refine ⟨_, by simp only [massBlock, DVec.get_ok (show 3 * g + 0 < M.size by omega), DVec.get_ok (show 3 * g + 1 < M.size by omega),
      DVec.get_ok (show 3 * g + 2 < M.size by omega), Outcome.bind]; rfl, fun i j => ?_⟩
    change Fin 3 at i j
    fin_cases i <;> fin_cases j <;> rfl
  · simp only [massSize] at hM
    refine ⟨_, by
      simp only [massBlock]
      rw [DVec.block_ok fun c => by have := c.2; omega, Outcome.bind, DVec.block_ok fun c => by have := c.2; omega, Outcome.bind]
      rfl, fun i j => ?_⟩
    change Fin 6 at i j
    fin_cases i <;> fin_cases j <;> rfl

theorem extractMass_spec [Zero K] {n : Nat} {active : List (Contact K k)} {ltg : List Nat} (hl : LtgOk n active ltg) (junk : K) (M : DVec K)
    (hM : M.size = massSize k n) (hiso : ∀ b < n, IsotropicMass k M b) :
    ∃ m, extractMass junk k n ltg M = .ok m ∧ m.size = k.dof * k.dof * ltg.length ∧
      ∀ l < ltg.length, ∀ i j : Fin k.dof, m.val (k.dof * k.dof * l + (k.dof * j + i)) = bodyMass k n M (ltg.getD l 0) i j := by
  have hA : ∀ l, ∃ A, l < ltg.length → massBlock k n M (ltg.getD l 0) = .ok A ∧ ∀ i j, A i j = bodyMass k n M (ltg.getD l 0) i j := fun l => by
    by_cases h : l < ltg.length
    · obtain ⟨A, hA⟩ := massBlock_ok hM (hl.lt h) (hiso _ (hl.lt h))
      exact ⟨A, fun _ => hA⟩
    · exact ⟨fun _ _ => 0, fun h' => absurd h' h⟩
  choose A hA using hA
  obtain ⟨m, hm, hsz, hin, -⟩ := loop_setBlock (fun l (e : Fin (k.dof * k.dof)) => k.dof * k.dof * l + e)
    (fun l e => A l e.modNat e.divNat) ltg.length (DVec.alloc junk (k.dof * k.dof * ltg.length))
    (fun l masses => (ltgGet ltg l).bind fun g => (massBlock k n M g).bind fun A =>
      masses.setBlock (fun e : Fin (k.dof * k.dof) => k.dof * k.dof * l + e) fun e => A e.modNat e.divNat)
    (fun l hl' s _ => by simp only [ltgGet_ok hl', Outcome.bind, (hA l hl').1])
    (fun l hl' c => flat_lt hl' c.2)
    (fun i hi i' hi' c c' h => by
      obtain ⟨h1, h2⟩ := flat_inj c.2 c'.2 h
      exact ⟨h1, Fin.ext h2⟩)
  refine ⟨m, hm, hsz, fun l hl' i j => ?_⟩
  have h := hin l hl' ⟨k.dof * j + i, flat_lt j.2 i.2⟩
  rw [h, ← (hA l hl').2]
  congr 1
  · exact Fin.ext (by simp [Fin.modNat, Nat.mod_eq_of_lt i.2])
  · exact Fin.ext (by simp [Fin.divNat, Nat.mul_add_div (dof_pos k), Nat.div_eq_of_lt i.2])

/-! ## Momenta -/

theorem negMomentum_ok [CommRing K] {n N : Nat} {masses v M : DVec K} {b g : Nat} (hb : b < n) (hv : v.size = k.dof * n)
    (hm : masses.size = k.dof * k.dof * n) (hA : ∀ i j : Fin k.dof, masses.val (k.dof * k.dof * b + (k.dof * j + i)) = bodyMass k N M g i j)
    (hiso : IsotropicMass k M g) :
    ∃ p, negMomentum k n masses v b = .ok p ∧ ∀ i, p i = - (bodyMass k N M g *ᵥ bodyVel k n v b) i := by
  cases k
  · simp only [Kind.dof] at hv hm hA
    have h0 := hA (0 : Fin 2) (0 : Fin 2)
    simp only [IsotropicMass] at hiso
    simp [bodyMass] at h0
    refine ⟨_, by
      simp only [negMomentum, DVec.get_ok (show 4 * b < masses.size by omega), Outcome.bind]
      rw [DVec.block_ok fun c => by have := c.2; omega]
      rfl, fun i => ?_⟩
    have e : (bodyMass .balls2D N M g *ᵥ bodyVel .balls2D n v b) =
      ((!![M.val (2 * g), 0; 0, M.val (2 * g + 1)] : Matrix (Fin 2) (Fin 2) K) *ᵥ ![v.val (2 * b), v.val (2 * b + 1)] : Fin 2 → K) := rfl
    rw [e]
    change Fin 2 at i
    fin_cases i <;> simp [h0, hiso, Matrix.mulVec, dotProduct, Fin.sum_univ_two]
  · simp only [Kind.dof] at hv hm hA
    have h0 := hA (0 : Fin 3) (0 : Fin 3)
    have h8 := hA (2 : Fin 3) (2 : Fin 3)
    simp only [IsotropicMass] at hiso
    simp [bodyMass] at h0 h8
    refine ⟨_, by
      simp only [negMomentum, DVec.get_ok (show 9 * b + 0 < masses.size by omega), DVec.get_ok (show 9 * b + 8 < masses.size by omega), Outcome.bind]
      rw [DVec.block_ok fun c => by have := c.2; omega]
      rfl, fun i => ?_⟩
    have e : (bodyMass .rigidBody2D N M g *ᵥ bodyVel .rigidBody2D n v b) =
      ((!![M.val (3 * g), 0, 0; 0, M.val (3 * g + 1), 0; 0, 0, M.val (3 * g + 2)] : Matrix (Fin 3) (Fin 3) K) *ᵥ
        ![v.val (3 * b), v.val (3 * b + 1), v.val (3 * b + 2)] : Fin 3 → K) := rfl
    rw [e]
    change Fin 3 at i
    fin_cases i <;> simp [h0, h8, hiso, Matrix.mulVec, dotProduct, Fin.sum_univ_three]
  · simp only [Kind.dof] at hv hm hA
    refine ⟨_, by
      simp only [negMomentum]
      rw [DVec.block_ok fun c => by have := c.2; omega, Outcome.bind, DVec.block_ok fun c => by have := c.2; omega, Outcome.bind,
        DVec.block_ok fun c => by have := c.2; omega, Outcome.bind]
      rfl, fun i => ?_⟩
    change Fin 6 at i
    simp only [Matrix.mulVec, dotProduct]
    congr 1
    refine Finset.sum_congr rfl fun j _ => ?_
    have h := hA i j
    have e : (36 * b + ((⟨6 * (j : Fin 6).val + i, by omega⟩ : Fin 36) : Nat)) = 6 * 6 * b + (6 * j + i) := by simp
    rw [← h]
    simp only [e]
    congr 1
    change Fin 6 at j
    fin_cases j <;> rfl

theorem fIn_spec [CommRing K] {n N : Nat} (junk : K) {masses v M : DVec K} (G : Nat → Nat) (hv : v.size = k.dof * n)
    (hm : masses.size = k.dof * k.dof * n)
    (hA : ∀ l < n, ∀ i j : Fin k.dof, masses.val (k.dof * k.dof * l + (k.dof * j + i)) = bodyMass k N M (G l) i j)
    (hiso : ∀ l < n, IsotropicMass k M (G l)) :
    ∃ f, fIn junk k n masses v = .ok f ∧ f.size = k.dof * n ∧
      ∀ l < n, ∀ i : Fin k.dof, f.val (k.dof * l + i) = - (bodyMass k N M (G l) *ᵥ bodyVel k n v l) i := by
  have hp : ∀ l, ∃ p, l < n → negMomentum k n masses v l = .ok p ∧ ∀ i, p i = - (bodyMass k N M (G l) *ᵥ bodyVel k n v l) i := fun l => by
    by_cases h : l < n
    · obtain ⟨p, hp⟩ := negMomentum_ok h hv hm (hA l h) (hiso l h)
      exact ⟨p, fun _ => hp⟩
    · exact ⟨fun _ => 0, fun h' => absurd h' h⟩
  choose p hp using hp
  obtain ⟨f, hf, hsz, hin, -⟩ := loop_setBlock (fun l (c : Fin k.dof) => k.dof * l + c) p n (DVec.alloc junk (k.dof * n))
    (fun b f => (negMomentum k n masses v b).bind fun p => f.setBlock (fun c : Fin k.dof => k.dof * b + c) p)
    (fun l hl' s _ => by simp only [(hp l hl').1, Outcome.bind])
    (fun l hl' c => flat_lt hl' c.2)
    (fun i hi i' hi' c c' h => by
      obtain ⟨h1, h2⟩ := flat_inj c.2 c'.2 h
      exact ⟨h1, Fin.ext h2⟩)
  exact ⟨f, hf, hsz, fun l hl' i => by rw [hin l hl', (hp l hl').2]⟩

/-! ## What contacts see -/

theorem view_ok {n : Nat} {q v : DVec K} (hq : q.size = k.qdof * n) (hv : v.size = k.dof * n) (c : Contact K k) (h0 : c.body0 < n)
    (h1 : ∀ b, c.body1 = some b → b < n) :
    c.view q v = .ok ⟨bodyPos k n q c.body0, bodyVel k n v c.body0, c.body1.map fun b => (bodyPos k n q b, bodyVel k n v b)⟩ := by
  have hq' : q.size / k.qdof = n := by rw [hq]; exact Nat.mul_div_cancel_left n (by cases k <;> decide)
  have hv' : v.size / k.dof = n := by rw [hv]; exact Nat.mul_div_cancel_left n (dof_pos k)
  have eP : ∀ b, (fun c : Fin k.qdof => q.val (k.qIdx n b c)) = bodyPos k n q b := fun b => funext fun c => (bodyPos_eq n q b c).symm
  have eV : ∀ b, (fun c : Fin k.dof => v.val (k.vIdx n b c)) = bodyVel k n v b := fun b => funext fun c => (bodyVel_eq n v b c).symm
  simp only [Contact.view, hq', hv']
  rw [DVec.block_ok fun i => by rw [hq]; exact qIdx_lt k h0 i.2, Outcome.bind, DVec.block_ok fun i => by rw [hv]; exact vIdx_lt k h0 i.2, Outcome.bind]
  cases hb : c.body1 with
  | none => simp [eP, eV]
  | some b =>
    have hb' := h1 b hb
    simp only
    rw [DVec.block_ok fun i => by rw [hq]; exact qIdx_lt k hb' i.2, Outcome.bind, DVec.block_ok fun i => by rw [hv]; exact vIdx_lt k hb' i.2, Outcome.bind]
    simp [eP, eV]

theorem local_view {n : Nat} {active : List (Contact K k)} {ltg : List Nat} (hl : LtgOk n active ltg) {q v q0 v0 : DVec K}
    (hq : q.size = k.qdof * ltg.length) (hv : v.size = k.dof * ltg.length)
    (eq : ∀ l < ltg.length, bodyPos k ltg.length q l = bodyPos k n q0 (ltg.getD l 0))
    (ev : ∀ l < ltg.length, bodyVel k ltg.length v l = bodyVel k n v0 (ltg.getD l 0))
    (h0 : ∀ c ∈ active, c.body0 < n) (h1 : ∀ c ∈ active, ∀ b, c.body1 = some b → b < n) (c : Contact K k) (hc : c ∈ active) :
    (c.local ltg).view q v =
      .ok ⟨bodyPos k n q0 c.body0, bodyVel k n v0 c.body0, c.body1.map fun b => (bodyPos k n q0 b, bodyVel k n v0 b)⟩ := by
  have m0 : c.body0 ∈ ltg := (hl.mem _).mpr ⟨h0 c hc, c, hc, .inl rfl⟩
  have m1 : ∀ b, c.body1 = some b → b ∈ ltg := fun b hb => (hl.mem _).mpr ⟨h1 c hc b hb, c, hc, .inr hb⟩
  rw [view_ok hq hv _ (by exact loc_lt m0) (by
    intro b hb
    simp only [Contact.local, Option.map_eq_some_iff] at hb
    obtain ⟨b', hb', rfl⟩ := hb
    exact loc_lt (m1 b' hb'))]
  simp only [Contact.local, eq _ (loc_lt m0), ev _ (loc_lt m0), getD_loc m0]
  congr 2
  cases hb : c.body1 with
  | none => rfl
  | some b => simp only [Option.map_some, eq _ (loc_lt (m1 b hb)), ev _ (loc_lt (m1 b hb)), getD_loc (m1 b hb)]

/-! ## Kinematic velocities -/

theorem kinematicRelVel_spec [CommRing K] {n : Nat} {q v : DVec K} {active : List (Contact K k)} {B : Bases K k} {nrel drel : DVec K}
    (hne : active ≠ []) (hq : q.size = k.qdof * n) (hv : v.size = k.dof * n) (hB : B.cols = k.amb * active.length)
    (hnr : nrel.size = active.length) (hdr : drel.size = k.tan * active.length)
    (h0 : ∀ c ∈ active, c.body0 < n) (h1 : ∀ c ∈ active, ∀ b, c.body1 = some b → b < n) :
    ∃ nr dr, kinematicRelVel q v active B nrel drel = .ok (nr, dr) ∧ nr.size = active.length ∧ dr.size = k.tan * active.length ∧
      ∀ i con, active[i]? = some con →
        let w : View K k := ⟨bodyPos k n q con.body0, bodyVel k n v con.body0, con.body1.map fun b => (bodyPos k n q b, bodyVel k n v b)⟩
        nr.val i = - (con.kinVel w ⬝ᵥ fun a => B.val a (k.amb * i)) ∧
        ∀ s : Fin k.tan, dr.val (k.tan * i + s) = - (con.kinVel w ⬝ᵥ fun a => B.val a (k.amb * i + (s + 1))) := by
  have hpos : 0 < active.length := List.length_pos_of_ne_nil hne
  have hper : drel.size / active.length = k.tan := by rw [hdr]; exact Nat.mul_div_cancel _ hpos
  simp only [kinematicRelVel, hper, show ¬ active.length = 0 by omega, if_false]
  have key := loop_inv (n := active.length) (s := (nrel, drel)) (body := fun c (s : DVec K × DVec K) =>
      match active[c]? with
      | none => .ub
      | some con =>
        (con.view q v).bind fun w =>
        (B.col ((k.tan + 1) * c)).bind fun n =>
        (s.1.set c (- dotF (con.kinVel w) n)).bind fun nrel =>
        (loopTo (fun j (drel : DVec K) =>
          (B.col ((k.tan + 1) * c + j + 1)).bind fun t => drel.set (k.tan * c + j) (- dotF (con.kinVel w) t)) k.tan s.2).bind fun drel =>
        .ok (nrel, drel))
    (fun m s => s.1.size = active.length ∧ s.2.size = k.tan * active.length ∧ ∀ i < m, ∀ con, active[i]? = some con →
        let w : View K k := ⟨bodyPos k n q con.body0, bodyVel k n v con.body0, con.body1.map fun b => (bodyPos k n q b, bodyVel k n v b)⟩
        s.1.val i = - (con.kinVel w ⬝ᵥ fun a => B.val a (k.amb * i)) ∧
        ∀ t : Fin k.tan, s.2.val (k.tan * i + t) = - (con.kinVel w ⬝ᵥ fun a => B.val a (k.amb * i + (t + 1))))
    ⟨hnr, hdr, by omega⟩ (by
      rintro m hm ⟨nr, dr⟩ ⟨hs1, hs2, hin⟩
      simp only at hs1 hs2
      have hcon : active[m] ∈ active := List.getElem_mem hm
      simp only [List.getElem?_eq_getElem hm]
      rw [view_ok hq hv _ (h0 _ hcon) (h1 _ hcon), Outcome.bind]
      set w : View K k := ⟨bodyPos k n q active[m].body0, bodyVel k n v active[m].body0, active[m].body1.map fun b => (bodyPos k n q b, bodyVel k n v b)⟩
        with hw
      have hcol : ∀ j ≤ k.tan, (k.tan + 1) * m + j < B.cols := fun j hj => by rw [hB]; exact flat_lt hm (by omega)
      have hcol0 := hcol 0 (Nat.zero_le _)
      simp only [Nat.add_zero] at hcol0
      simp only [Bases.col, hcol0, if_true, Outcome.bind]
      rw [DVec.set_ok _ (by rw [hs1]; exact hm), ]
      obtain ⟨dr', hdr', hds, hdin, hdout⟩ := loop_setBlock (d := 1) (fun j _ => k.tan * m + j)
        (fun j _ => - dotF (active[m].kinVel w) fun a => B.val a ((k.tan + 1) * m + j + 1)) k.tan dr
        (fun j drel => Outcome.bind (if (k.tan + 1) * m + j + 1 < B.cols then Outcome.ok fun i => B.val i ((k.tan + 1) * m + j + 1) else Outcome.ub)
          fun t => drel.set (k.tan * m + j) (- dotF (active[m].kinVel w) t))
        (fun j hj s hs => by
          have := hcol (j + 1) hj
          rw [show (k.tan + 1) * m + (j + 1) = (k.tan + 1) * m + j + 1 by ring] at this
          simp only [this, if_true, Outcome.bind, DVec.setBlock, List.ofFn_succ, List.ofFn_zero, DVec.setMany]
          have hlt : k.tan * m + j < s.size := by rw [hs, hs2]; exact flat_lt hm hj
          simp [DVec.set_ok _ hlt])
        (fun j hj _ => by rw [hs2]; exact flat_lt hm hj)
        (fun j hj j' hj' c c' h => ⟨by omega, Subsingleton.elim _ _⟩)
      simp only [Outcome.bind] at hdr' ⊢
      rw [hdr']
      refine ⟨_, rfl, hs1, by rw [hds, hs2], fun i hi con hcon' => ?_⟩
      rcases Nat.lt_succ_iff_lt_or_eq.mp hi with hi | rfl
      · obtain ⟨e1, e2⟩ := hin i hi con hcon'
        refine ⟨?_, fun t => ?_⟩
        · simp only [Function.update_of_ne (show i ≠ m by omega)]
          exact e1
        · rw [hdout _ fun j hj _ h => by have := (flat_inj hj t.2 h).1; omega]
          exact e2 t
      · rw [List.getElem?_eq_getElem hm] at hcon'
        obtain rfl := Option.some.inj hcon'
        refine ⟨by simp [dotF, dotProduct, hw, Kind.amb], fun t => ?_⟩
        rw [hdin t t.2 0]
        simp only [dotF, dotProduct, hw, Kind.amb]
        rfl)
  obtain ⟨⟨nr, dr⟩, hok, hs1, hs2, hin⟩ := key
  refine ⟨nr, dr, hok, hs1, hs2, fun i con hcon => hin i ?_ con hcon⟩
  exact (List.getElem?_eq_some_iff.mp hcon).1

theorem addExtra_spec [CommRing K] {x e : DVec K} {n : Nat} (hx : x.size = n) (he : e.size = 0 ∨ e.size = n) :
    ∃ y, addExtra x e = .ok y ∧ y.size = n ∧ ∀ i, y.val i = x.val i + extra e i := by
  unfold addExtra
  split
  · exact ⟨x, rfl, hx, fun i => by simp [extra, *]⟩
  · rename_i h
    have : e.size = x.size := by rcases he with he | he <;> simp_all
    rw [if_pos this]
    exact ⟨_, rfl, hx, fun i => by simp only [extra, if_neg h]⟩

end Sobogus
end Scisim
