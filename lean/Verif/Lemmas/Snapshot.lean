import Verif.Spec.Snapshot
import Verif.Lemmas.Codec
import Verif.Lemmas.ImpulseCache
/-!
# Snapshot lemmas
-/

namespace Scisim

/-! ### Early exits while reading -/

def Exits {α : Type} (d : Dec α) (bs : Bytes) : Prop := ∀ rest, d (bs ++ rest) = .exit

theorem Exits.bind_left {α β : Type} {d : Dec α} {f : α → Dec β} {as : Bytes} (h : Exits d as) (bs : Bytes) :
    Exits (d >>= f) (as ++ bs) := by
  intro rest
  show (d (as ++ bs ++ rest)).bind _ = _
  rw [List.append_assoc, h]
  rfl

theorem Exits.bind_left' {α β : Type} {d : Dec α} {f : α → Dec β} {as : Bytes} (h : Exits d as) :
    Exits (d >>= f) as := by
  have := Exits.bind_left (f := f) h []
  rwa [List.append_nil] at this

theorem Exits.bind_right {α β : Type} {d : Dec α} {f : α → Dec β} {as bs : Bytes} {a : α}
    (h1 : Reads d as a) (h2 : Exits (f a) bs) : Exits (d >>= f) (as ++ bs) := by
  intro rest
  show (d (as ++ bs ++ rest)).bind _ = _
  rw [List.append_assoc, h1]
  exact h2 rest

theorem Exits.exit {α : Type} (bs : Bytes) : Exits (Dec.exit : Dec α) bs := fun _ => rfl

theorem exits_many {α : Type} {ser : α → Bytes} {d : Dec α} (bad : α → Prop) (xs : List α)
    (hgood : ∀ x ∈ xs, ¬ bad x → Reads d (ser x) x) (hbad : ∀ x ∈ xs, bad x → Exits d (ser x))
    (h : ∃ x ∈ xs, bad x) : Exits (deMany d xs.length) (xs.flatMap ser) := by
  induction xs with
  | nil => obtain ⟨x, hx, _⟩ := h; simp at hx
  | cons x xs ih =>
    simp only [List.flatMap_cons, List.length_cons, deMany]
    by_cases hx : bad x
    · exact Exits.bind_left (hbad x (by simp) hx) _
    · refine Exits.bind_right (hgood x (by simp) hx) (Exits.bind_left' (ih ?_ ?_ ?_))
      · exact fun y hy => hgood y (by simp [hy])
      · exact fun y hy => hbad y (by simp [hy])
      · obtain ⟨y, hy, hb⟩ := h
        rcases List.mem_cons.mp hy with rfl | hy
        · exact absurd hb hx
        · exact ⟨y, hy, hb⟩

theorem exits_vec {α : Type} {ser : α → Bytes} {d : Dec α} (bad : α → Prop) (xs : List α)
    (hl : xs.length < 18446744073709551616)
    (hgood : ∀ x ∈ xs, ¬ bad x → Reads d (ser x) x) (hbad : ∀ x ∈ xs, bad x → Exits d (ser x))
    (h : ∃ x ∈ xs, bad x) : Exits (deVec d) (serVec ser xs) :=
  Exits.bind_right (reads_len _ hl) (exits_many bad xs hgood hbad h)

theorem Reads.bind_run {α β : Type} {d : Dec α} {as : Bytes} {a : α} (h1 : Reads d as a) (f : α → Dec β) (rest : Bytes) :
    (d >>= f) (as ++ rest) = f a rest := by
  show (d (as ++ rest)).bind _ = _
  rw [h1]; rfl

theorem Reads.ite_pos {α : Type} {p : Prop} [Decidable p] {a b : Dec α} {bs : Bytes} {x : α} (hp : p)
    (h : Reads a bs x) : Reads (if p then a else b) bs x := by rw [if_pos hp]; exact h

theorem Reads.ite_neg {α : Type} {p : Prop} [Decidable p] {a b : Dec α} {bs : Bytes} {x : α} (hp : ¬ p)
    (h : Reads b bs x) : Reads (if p then a else b) bs x := by rw [if_neg hp]; exact h

/-- Reading one of the fixed names. -/
theorem reads_name (s : String) (h : (ascii s).length < 18446744073709551616 := by decide) :
    Reads deStr (serStr (ascii s)) (ascii s) := reads_str _ h

/-! ### 2D balls -/

namespace Ball2D

theorem reads_drum (d : Drum) : Reads deDrum (serDrum d) d :=
  Reads.bind (reads_v2 _) (Reads.bind_nil (reads_pod _) (Reads.pure _))

theorem reads_plane (p : Plane) : Reads dePlane (serPlane p) p :=
  Reads.bind (reads_v2 _) (Reads.bind (reads_v2 _) (Reads.bind (reads_v2 _) (Reads.bind_nil (reads_v2 _) (Reads.pure _))))

theorem reads_portal (p : Portal) : Reads dePortal (serPortal p) p :=
  Reads.bind (reads_plane _) (Reads.bind (reads_plane _) (Reads.bind (reads_pod _) (Reads.bind (reads_pod _)
    (Reads.bind_nil (reads_pod _) (Reads.pure _)))))

theorem reads_force (f : Force) (h : ¬ f.isPenalty) : Reads deForce (serForce f) f := by
  cases f with
  | penalty k p => exact absurd trivial h
  | gravity g =>
    exact Reads.bind (reads_name _) (Reads.ite_pos rfl (Reads.bind_nil (reads_v2 _) (Reads.pure _)))

theorem exits_force (f : Force) (h : f.isPenalty) : Exits deForce (serForce f) := by
  cases f with
  | gravity g => exact absurd h (by simp [Force.isPenalty])
  | penalty k p =>
    refine Exits.bind_right (reads_name _) ?_
    rw [if_neg (by decide)]
    exact Exits.exit _

theorem reads_state (s : State) (h : s.Fits) (hp : ∀ f ∈ s.forces, ¬ f.isPenalty) :
    Reads deState (serState s) s :=
  Reads.bind (reads_vecX _ h.q) <| Reads.bind (reads_vecX _ h.v) <| Reads.bind (reads_vecX _ h.r) <|
  Reads.bind (reads_vecBool _ h.fixed) <| Reads.bind (reads_sparse _ h.M) <| Reads.bind (reads_sparse _ h.Minv) <|
  Reads.bind (reads_vec _ h.drums fun d _ => reads_drum d) <| Reads.bind (reads_vec _ h.planes fun p _ => reads_plane p) <|
  Reads.bind (reads_vec _ h.portals fun p _ => reads_portal p) <|
  Reads.bind_nil (reads_vec _ h.forces fun f hf => reads_force f (hp f hf)) (Reads.pure _)

theorem exits_state (s : State) (h : s.Fits) (hp : ∃ f ∈ s.forces, f.isPenalty) : Exits deState (serState s) :=
  Exits.bind_right (reads_vecX _ h.q) <| Exits.bind_right (reads_vecX _ h.v) <| Exits.bind_right (reads_vecX _ h.r) <|
  Exits.bind_right (reads_vecBool _ h.fixed) <| Exits.bind_right (reads_sparse _ h.M) <|
  Exits.bind_right (reads_sparse _ h.Minv) <|
  Exits.bind_right (reads_vec _ h.drums fun d _ => reads_drum d) <|
  Exits.bind_right (reads_vec _ h.planes fun p _ => reads_plane p) <|
  Exits.bind_right (reads_vec _ h.portals fun p _ => reads_portal p) <|
  Exits.bind_left' (exits_vec Force.isPenalty _ h.forces (fun f _ hf => reads_force f hf)
    (fun f _ hf => exits_force f hf) hp)

end Ball2D

/-! ### 2D rigid bodies -/

namespace RB2D

theorem reads_plane (p : Plane) : Reads dePlane (serPlane p) p :=
  Reads.bind (reads_v2 _) (Reads.bind (reads_v2 _) (Reads.bind (reads_v2 _) (Reads.bind (reads_v2 _)
    (Reads.bind_nil (reads_pod _) (Reads.pure _)))))

theorem reads_portal (p : Portal) : Reads dePortal (serPortal p) p :=
  Reads.bind (reads_plane _) (Reads.bind (reads_plane _) (Reads.bind (reads_pod _) (Reads.bind (reads_pod _)
    (Reads.bind_nil (reads_pod _) (Reads.pure _)))))

theorem reads_geo (g : Geo) : Reads deGeo (serGeo g) g := by
  cases g with
  | circle r => exact Reads.bind (reads_pod (0 : Int32)) (Reads.ite_pos rfl (Reads.bind_nil (reads_pod _) (Reads.pure _)))
  | box r =>
    exact Reads.bind (reads_pod (1 : Int32)) (Reads.ite_neg (by decide)
      (Reads.ite_pos rfl (Reads.bind_nil (reads_v2 _) (Reads.pure _))))

theorem reads_force (f : Force) : Reads deForce (serForce f) f :=
  Reads.bind (reads_pod (0 : Int32)) (Reads.ite_pos rfl (Reads.bind_nil (reads_v2 _) (Reads.pure _)))

theorem reads_state (s : State) (h : s.Fits) : Reads deState (serState s) s :=
  Reads.bind (reads_vecX _ h.q) <| Reads.bind (reads_vecX _ h.v) <|
  Reads.bind (reads_sparse _ h.M) <| Reads.bind (reads_sparse _ h.Minv) <| Reads.bind (reads_vecBool _ h.fixed) <|
  Reads.bind (reads_vecX _ h.geoIdx) <|
  Reads.bind (reads_vec _ h.geometry fun g _ => reads_geo g) <| Reads.bind (reads_vec _ h.forces fun f _ => reads_force f) <|
  Reads.bind (reads_vec _ h.planes fun p _ => reads_plane p) <|
  Reads.bind_nil (reads_vec _ h.portals fun p _ => reads_portal p) (Reads.pure _)

end RB2D

/-! ### Solver configurations -/

def ImpactOp.depth : ImpactOp → Nat
  | .gr _ inner => inner.depth + 1
  | .grr e i => max e.depth i.depth + 1
  | _ => 1

theorem serImpactOp_savable (op : ImpactOp) (h : op.Savable) : ∃ bs, serImpactOp op = .ok bs := by
  induction op with
  | gr tol inner ih =>
    obtain ⟨bs, hb⟩ := ih h
    exact ⟨_, by simp only [serImpactOp, andThen, hb]; rfl⟩
  | grr e i ihe ihi =>
    obtain ⟨bs, hb⟩ := ihe h.1
    obtain ⟨cs, hc⟩ := ihi h.2
    exact ⟨_, by simp only [serImpactOp, andThen, hb, hc]; rfl⟩
  | jacobi => exact absurd h (by simp [ImpactOp.Savable])
  | lcpQLVP => exact absurd h (by simp [ImpactOp.Savable])
  | _ => exact ⟨_, rfl⟩

theorem serImpactOp_unsavable (op : ImpactOp) (h : ¬ op.Savable) : serImpactOp op = .exit := by
  induction op with
  | gr tol inner ih =>
    simp only [serImpactOp, andThen, ih h]; rfl
  | grr e i ihe ihi =>
    by_cases he : e.Savable
    · obtain ⟨bs, hb⟩ := serImpactOp_savable e he
      simp only [serImpactOp, andThen, hb, ihi fun hi => h ⟨he, hi⟩]; rfl
    · simp only [serImpactOp, andThen, ihe he]; rfl
  | jacobi => rfl
  | lcpQLVP => rfl
  | _ => exact absurd trivial h

theorem serLen_length (n : Nat) : (serLen n).length = 8 := encLE_length 8 n

theorem serImpactOp_depth_le (op : ImpactOp) (bs : Bytes) (h : serImpactOp op = .ok bs) : op.depth ≤ bs.length := by
  induction op generalizing bs with
  | gr tol inner ih =>
    cases hi : serImpactOp inner <;> simp only [serImpactOp, andThen, hi, Outcome.bind] at h <;> try contradiction
    rename_i cs
    have := ih cs hi
    cases h
    simp only [ImpactOp.depth, List.length_append, serStr, serLen_length]; omega
  | grr e i ihe ihi =>
    cases he : serImpactOp e <;> simp only [serImpactOp, andThen, he, Outcome.bind] at h <;> try contradiction
    cases hi : serImpactOp i <;> simp only [hi] at h <;> try contradiction
    rename_i cs ds
    have h1 := ihe cs he
    have h2 := ihi ds hi
    cases h
    simp only [ImpactOp.depth, List.length_append, serStr, serLen_length]; omega
  | jacobi => simp [serImpactOp] at h
  | lcpQLVP => simp [serImpactOp] at h
  | _ =>
    cases h
    simp only [ImpactOp.depth, List.length_append, serStr, serLen_length]; omega

theorem reads_impactOpAux (b : Build) (op : ImpactOp) (bs : Bytes) (n : Nat) (h : serImpactOp op = .ok bs)
    (ha : op.Available b) (hn : op.depth ≤ n) : Reads (deImpactOpAux b n) bs op := by
  induction op generalizing bs n with
  | gr tol inner ih =>
    cases hi : serImpactOp inner <;> simp only [serImpactOp, andThen, hi, Outcome.bind] at h <;> try contradiction
    rename_i cs
    obtain ⟨n, rfl⟩ : ∃ m, n = m + 1 := ⟨n - 1, by simp only [ImpactOp.depth] at hn; omega⟩
    cases h
    rw [List.append_assoc]
    exact Reads.bind (reads_name _) (Reads.ite_pos rfl (Reads.bind (reads_pod _)
      (Reads.bind_nil (ih cs n hi ha (by simp only [ImpactOp.depth] at hn; omega)) (Reads.pure _))))
  | grr e i ihe ihi =>
    cases he : serImpactOp e <;> simp only [serImpactOp, andThen, he, Outcome.bind] at h <;> try contradiction
    cases hi : serImpactOp i <;> simp only [hi] at h <;> try contradiction
    rename_i cs ds
    obtain ⟨n, rfl⟩ : ∃ m, n = m + 1 := ⟨n - 1, by simp only [ImpactOp.depth] at hn; omega⟩
    cases h
    exact Reads.bind (reads_name _) (Reads.ite_neg (by decide) (Reads.ite_pos rfl
      (Reads.bind (ihe cs n he ha.1 (by simp only [ImpactOp.depth] at hn; omega))
        (Reads.bind_nil (ihi ds n hi ha.2 (by simp only [ImpactOp.depth] at hn; omega)) (Reads.pure _)))))
  | jacobi => simp [serImpactOp] at h
  | lcpQLVP => simp [serImpactOp] at h
  | null =>
    obtain ⟨n, rfl⟩ : ∃ m, n = m + 1 := ⟨n - 1, by simp only [ImpactOp.depth] at hn; omega⟩
    cases h
    exact Reads.bind_nil (reads_name _) (Reads.ite_neg (by decide) (Reads.ite_neg (by decide) (Reads.ite_neg (by decide)
      (Reads.ite_neg (fun h => absurd h.2 (by decide)) (Reads.ite_neg (fun h => absurd h.2 (by decide))
      (Reads.ite_neg (by decide) (Reads.ite_pos rfl (Reads.pure _))))))))
  | gaussSeidel tol =>
    obtain ⟨n, rfl⟩ : ∃ m, n = m + 1 := ⟨n - 1, by simp only [ImpactOp.depth] at hn; omega⟩
    cases h
    exact Reads.bind (reads_name _) (Reads.ite_neg (by decide) (Reads.ite_neg (by decide)
      (Reads.ite_pos rfl (Reads.bind_nil (reads_pod _) (Reads.pure _)))))
  | lcpQL tol =>
    obtain ⟨n, rfl⟩ : ∃ m, n = m + 1 := ⟨n - 1, by simp only [ImpactOp.depth] at hn; omega⟩
    cases h
    exact Reads.bind (reads_name _) (Reads.ite_neg (by decide) (Reads.ite_neg (by decide) (Reads.ite_neg (by decide)
      (Reads.ite_pos ⟨ha, rfl⟩ (Reads.bind_nil (reads_pod _) (Reads.pure _))))))
  | lcpIpopt ss tol =>
    obtain ⟨n, rfl⟩ : ∃ m, n = m + 1 := ⟨n - 1, by simp only [ImpactOp.depth] at hn; omega⟩
    cases h
    exact Reads.bind (reads_name _) (Reads.ite_neg (by decide) (Reads.ite_neg (by decide) (Reads.ite_neg (by decide)
      (Reads.ite_neg (fun h => absurd h.2 (by decide)) (Reads.ite_pos ⟨ha.1, rfl⟩
      (Reads.bind (reads_strs _ ha.2.1 ha.2.2) (Reads.bind_nil (reads_pod _) (Reads.pure _))))))))
  | lcpAPGD tol k =>
    obtain ⟨n, rfl⟩ : ∃ m, n = m + 1 := ⟨n - 1, by simp only [ImpactOp.depth] at hn; omega⟩
    cases h
    exact Reads.bind (reads_name _) (Reads.ite_neg (by decide) (Reads.ite_neg (by decide) (Reads.ite_neg (by decide)
      (Reads.ite_neg (fun h => absurd h.2 (by decide)) (Reads.ite_neg (fun h => absurd h.2 (by decide))
      (Reads.ite_pos rfl (Reads.bind (reads_pod _) (Reads.bind_nil (reads_pod _) (Reads.pure _)))))))))

theorem reads_impactOp (b : Build) (op : ImpactOp) (bs : Bytes) (h : serImpactOp op = .ok bs) (ha : op.Available b) :
    Reads (deImpactOp b) bs op := by
  intro rest
  have hd := serImpactOp_depth_le op bs h
  exact reads_impactOpAux b op bs _ h ha (by rw [List.length_append]; omega) rest

theorem reads_frictionOp (b : Build) (op : FrictionOp) (ha : op.Available b) :
    Reads (deFrictionOp b) (serFrictionOp op) op := by
  cases op with
  | null =>
    exact Reads.bind_nil (reads_name _) (Reads.ite_neg (fun h => absurd h.2 (by decide))
      (Reads.ite_neg (fun h => absurd h.2 (by decide)) (Reads.ite_neg (fun h => absurd h.2 (by decide))
      (Reads.ite_pos rfl (Reads.pure _)))))
  | linearMDPQL n tol =>
    exact Reads.bind (reads_name _) (Reads.ite_pos ⟨ha, rfl⟩
      (Reads.bind (reads_pod _) (Reads.bind_nil (reads_pod _) (Reads.pure _))))
  | boundConstrainedMDPQL tol =>
    exact Reads.bind (reads_name _) (Reads.ite_neg (fun h => absurd h.2 (by decide)) (Reads.ite_pos ⟨ha, rfl⟩
      (Reads.bind_nil (reads_pod _) (Reads.pure _))))
  | smoothMDPIpopt ss tol =>
    exact Reads.bind (reads_name _) (Reads.ite_neg (fun h => absurd h.2 (by decide))
      (Reads.ite_neg (fun h => absurd h.2 (by decide)) (Reads.ite_pos ⟨ha.1, rfl⟩
      (Reads.bind (reads_strs _ ha.2.1 ha.2.2) (Reads.bind_nil (reads_pod _) (Reads.pure _))))))

theorem reads_frictionSolver (b : Build) (s : FrictionSolver) (bs : Bytes) (h : serFrictionSolver s = .ok bs)
    (ha : s.Available b) (hg : ¬ s.isGRR) : Reads (deFrictionSolver b) bs s := by
  cases s with
  | null =>
    cases h
    exact Reads.bind_nil (reads_name _) (Reads.ite_neg (by decide) (Reads.ite_neg (by decide)
      (Reads.ite_pos rfl (Reads.pure _))))
  | sobogus ty e =>
    cases h
    exact Reads.bind (reads_name _) (Reads.ite_neg (by decide)
      (Reads.ite_pos rfl (Reads.bind (reads_pod _) (Reads.bind_nil (reads_pod _) (Reads.pure _)))))
  | staggered wa wb i f =>
    cases hi : serImpactOp i <;> simp only [serFrictionSolver, andThen, hi, Outcome.bind] at h <;> try contradiction
    rename_i cs
    cases h
    rw [List.append_assoc, List.append_assoc]
    exact Reads.bind (reads_name _) (Reads.ite_pos rfl (Reads.bind (reads_pod _) (Reads.bind (reads_pod _)
      (Reads.bind (reads_impactOp b i cs hi ha.1) (Reads.bind_nil (reads_frictionOp b f ha.2) (Reads.pure _))))))
  | grrFriction i f => exact absurd trivial hg

theorem exits_grrFriction (b : Build) (i : ImpactOp) (f : FrictionOp) (bs : Bytes)
    (h : serFrictionSolver (.grrFriction i f) = .ok bs) : Exits (deFrictionSolver b) bs := by
  cases hi : serImpactOp i <;> simp only [serFrictionSolver, andThen, hi, Outcome.bind] at h <;> try contradiction
  cases h
  refine Exits.bind_right (reads_name _) ?_
  rw [if_neg (by decide), if_neg (by decide), if_neg (by decide)]
  exact Exits.exit _

theorem serFrictionSolver_savable (s : FrictionSolver) (h : s.Savable) : ∃ bs, serFrictionSolver s = .ok bs := by
  cases s with
  | staggered wa wb i f =>
    obtain ⟨bs, hb⟩ := serImpactOp_savable i h
    exact ⟨_, by simp only [serFrictionSolver, andThen, hb]; rfl⟩
  | grrFriction i f =>
    obtain ⟨bs, hb⟩ := serImpactOp_savable i h
    exact ⟨_, by simp only [serFrictionSolver, andThen, hb]; rfl⟩
  | _ => exact ⟨_, rfl⟩

theorem serFrictionSolver_unsavable (s : FrictionSolver) (h : ¬ s.Savable) : serFrictionSolver s = .exit := by
  cases s with
  | staggered wa wb i f =>
    simp only [serFrictionSolver, andThen, serImpactOp_unsavable i h]; rfl
  | grrFriction i f =>
    simp only [serFrictionSolver, andThen, serImpactOp_unsavable i h]; rfl
  | _ => exact absurd trivial h

theorem reads_impactMap (m : ImpactMapCfg) : Reads deImpactMap (serImpactMap m) m := by
  cases m with
  | null => exact Reads.bind_nil (reads_name _) (Reads.ite_neg (by decide) (Reads.ite_pos rfl (Reads.pure _)))
  | impactMap w => exact Reads.bind (reads_name _) (Reads.ite_pos rfl (Reads.bind_nil (reads_pod _) (Reads.pure _)))

theorem reads_impactFrictionMap (m : ImpactFrictionMapCfg) (h : m.Fits) :
    Reads deImpactFrictionMap (serImpactFrictionMap m) m := by
  cases m with
  | null =>
    exact Reads.bind_nil (reads_name _) (Reads.ite_neg (by decide) (Reads.ite_neg (by decide) (Reads.ite_neg (by decide)
      (Reads.ite_pos rfl (Reads.pure _)))))
  | geometric f tol n c =>
    exact Reads.bind (reads_name _) (Reads.ite_pos rfl (Reads.bind (reads_vecX _ h) (Reads.bind (reads_pod _)
      (Reads.bind (reads_pod _) (Reads.bind_nil (reads_pod _) (Reads.pure _))))))
  | stabilized f tol n wa wb =>
    exact Reads.bind (reads_name _) (Reads.ite_neg (by decide) (Reads.ite_pos rfl (Reads.bind (reads_vecX _ h)
      (Reads.bind (reads_pod _) (Reads.bind (reads_pod _) (Reads.bind (reads_pod _)
      (Reads.bind_nil (reads_pod _) (Reads.pure _))))))))
  | symplecticEuler f tol n st pen c =>
    exact Reads.bind (reads_name _) (Reads.ite_neg (by decide) (Reads.ite_neg (by decide)
      (Reads.ite_pos rfl (Reads.bind (reads_vecX _ h)
      (Reads.bind (reads_pod _) (Reads.bind (reads_pod _) (Reads.bind (reads_pod _) (Reads.bind (reads_pod _)
      (Reads.bind_nil (reads_pod _) (Reads.pure _))))))))))

theorem reads_integratorBall2D : Reads deIntegratorBall2D (serIntegrator .verlet) .verlet :=
  Reads.bind_nil (reads_name _) (Reads.ite_pos rfl (Reads.pure _))

theorem reads_integratorRB2D (i : Integrator) (h : i = .verlet ∨ i = .symplecticEuler) : Reads deIntegratorRB2D (serIntegrator i) i := by
  rcases h with rfl | rfl
  · exact Reads.bind_nil (reads_name _) (Reads.ite_neg (by decide) (Reads.ite_pos rfl (Reads.pure _)))
  · exact Reads.bind_nil (reads_name _) (Reads.ite_pos rfl (Reads.pure _))

theorem reads_integratorRB3D (i : Integrator) (h : i = .dmv ∨ i = .splitHam ∨ i = .null) : Reads deIntegratorRB3D (serIntegrator i) i := by
  rcases h with rfl | rfl | rfl
  · exact Reads.bind_nil (reads_name _) (Reads.ite_pos rfl (Reads.pure _))
  · exact Reads.bind_nil (reads_name _) (Reads.ite_neg (by decide) (Reads.ite_pos rfl (Reads.pure _)))
  · exact Reads.bind_nil (reads_name _) (Reads.ite_neg (by decide) (Reads.ite_neg (by decide) (Reads.ite_pos rfl (Reads.pure _))))

theorem reads_impactMapIf (b : Bool) (m : ImpactMapCfg) (h : b = true ∨ m = .null) : Reads (deImpactMapIf b) (serImpactMapIf b m) m := by
  cases b with
  | true => exact reads_impactMap m
  | false =>
    rcases h with h | rfl
    · cases h
    · exact Reads.pure _

theorem reads_hdf5 (o : Option (Bytes × Bool)) (h : ∀ d f, o = some (d, f) → d.length < 18446744073709551616) :
    Reads (deHdf5 o.isSome) (serHdf5 o) o := by
  cases o with
  | none => exact Reads.pure _
  | some p =>
    obtain ⟨d, f⟩ := p
    exact Reads.bind (reads_str _ (h d f rfl)) (Reads.bind_nil (reads_pod _) (Reads.pure _))

/-- Everything after the magic number: the part of the file from the git revision on. -/
theorem reads_snapshot {Sim : Type} (fmt : Format Sim) (git : Bytes) (b : Build) (useHdf5 : Bool) (s : Snapshot Sim) (bs : Bytes)
    (hg : git.length < 18446744073709551616) (hs : serSnapshot fmt git s = .ok bs)
    (hf : s.Fits b useHdf5) (hsim : ∀ simb, fmt.serSim s.sim = .ok simb → Reads fmt.deSim simb s.sim)
    (hint : Reads fmt.deIntegrator (serIntegrator s.integrator) s.integrator) (hgrr : ¬ s.frictionSolver.isGRR)
    (him : fmt.hasImpactMap = true ∨ s.impactMap = .null) :
    Reads (deSnapshot fmt b useHdf5) bs s := by
  obtain ⟨sim, iteration, integrator, dtNum, dtDen, endTime, impactOp, cor, frictionSolver, mu, impactMap, ifm, path, mod,
    hdf5, sps, frame, prec, width, ser, ovw⟩ := s
  cases hsb : fmt.serSim sim <;> simp only [serSnapshot, hsb, Outcome.bind] at hs <;> try contradiction
  rename_i simb
  cases hop : serImpactOp impactOp <;> simp only [hop] at hs <;> try contradiction
  rename_i opb
  cases hfs : serFrictionSolver frictionSolver <;> simp only [hfs] at hs <;> try contradiction
  rename_i fsb
  cases hs
  have h5 : Reads (deHdf5 useHdf5) (serHdf5 hdf5) hdf5 := by
    have := reads_hdf5 hdf5 hf.dir
    rwa [hf.hdf5] at this
  exact Reads.bind (reads_pod _) <| Reads.ite_neg (by simp) <| Reads.bind (reads_str _ hg) <| Reads.bind (hsim simb hsb) <|
    Reads.bind (reads_pod _) <| Reads.bind hint <| Reads.bind (reads_pod _) <| Reads.bind (reads_pod _) <|
    Reads.bind (reads_pod _) <| Reads.bind (reads_impactOp b _ _ hop hf.op) <| Reads.bind (reads_pod _) <|
    Reads.bind (reads_frictionSolver b _ _ hfs hf.fs hgrr) <| Reads.bind (reads_pod _) <| Reads.bind (reads_impactMapIf _ _ him) <|
    Reads.bind (reads_impactFrictionMap _ hf.ifm) <| Reads.bind (reads_str _ hf.path) <| Reads.bind (reads_str _ hf.mod) <|
    Reads.bind h5 <| Reads.bind (reads_pod _) <| Reads.bind (reads_pod _) <| Reads.bind (reads_pod _) <|
    Reads.bind (reads_pod _) <| Reads.bind (reads_pod _) <| Reads.bind_nil (reads_pod _) (Reads.pure _)

end Scisim
