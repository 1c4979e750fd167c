import Verif.Spec.Snapshot3D
import Verif.Lemmas.Snapshot
import Verif.Props.Codec
/-!
# Reading back 3D rigid body simulations
-/

namespace Scisim

theorem reads_tri {α : Type} [Pod α] [LawfulPod α] (v : Tri α) : Reads (deTri α) (serTri v) v := by
  have h : Reads (deDenseFixed α 3 1) (serTri v) ⟨3, 1, [v.x, v.y, v.z]⟩ := by
    refine Reads.congr (Reads.bind_nil (reads_coeffs [v.x, v.y, v.z] _ rfl) (Reads.pure _)) ?_
    simp [serTri, serDense]
  exact Reads.bind_nil h (Reads.pure _)

namespace RB3D

theorem reads_plane (p : Plane) : Reads dePlane (serPlane p) p :=
  Reads.bind (reads_tri _) (Reads.bind (reads_tri _) (Reads.bind (reads_tri _) (Reads.bind_nil (reads_tri _) (Reads.pure _))))

theorem reads_cylinder (c : Cylinder) : Reads deCylinder (serCylinder c) c :=
  Reads.bind (reads_tri _) (Reads.bind (reads_tri _) (Reads.bind (reads_pod _) (Reads.bind (reads_tri _) (Reads.bind (reads_tri _)
    (Reads.bind_nil (reads_pod _) (Reads.pure _))))))

theorem reads_portal (p : Portal) : Reads dePortal (serPortal p) p :=
  Reads.bind (reads_plane _) (Reads.bind (reads_plane _) (Reads.bind_nil (reads_tri _) (Reads.pure _)))

theorem reads_threeRows {α : Type} [Pod α] [LawfulPod α] (m : Dense α) (h : ThreeRows m) :
    Reads (deDenseDynCols α 3) (serDense false true m) m := by
  have := C05_dense_dynamic_cols m h.1
  rw [h.2] at this
  exact this

theorem reads_mesh (m : Mesh) (h : m.Fits) : Reads deMesh (serMesh m) m := by
  have hR : Reads (deDenseFixed F64 3 3) (serDense false false m.R) m.R := by
    have := C05_dense_fixed m.R h.R.1
    rw [h.R.2.1, h.R.2.2] at this
    exact this
  exact Reads.bind (reads_str _ h.fileName) <| Reads.bind (reads_threeRows _ h.verts) <| Reads.bind (reads_threeRows _ h.faces) <|
    Reads.bind (reads_pod _) <| Reads.bind (reads_tri _) <| Reads.bind (reads_tri _) <| Reads.bind hR <|
    Reads.bind (reads_threeRows _ h.samples) <| Reads.bind (reads_threeRows _ h.hullSamples) <| Reads.bind (reads_tri _) <|
    Reads.bind (reads_tri _) <| Reads.bind (reads_tri _) <| Reads.bind (reads_vecX _ h.signedDistance) <|
    Reads.bind_nil (reads_tri _) <| Reads.pure _

theorem reads_geo (g : Geo) (h : g.Fits) (bs : Bytes) (hs : serGeo g = .ok bs) : Reads deGeo bs g := by
  cases g with
  | box w => cases hs; exact Reads.bind (reads_pod (0 : UInt8)) (Reads.ite_pos rfl (Reads.bind_nil (reads_tri _) (Reads.pure _)))
  | sphere r =>
    cases hs
    exact Reads.bind (reads_pod (1 : UInt8)) (Reads.ite_neg (by decide) (Reads.ite_pos rfl (Reads.bind_nil (reads_pod _) (Reads.pure _))))
  | staple => cases hs
  | mesh m =>
    cases hs
    exact Reads.bind (reads_pod (3 : UInt8)) (Reads.ite_neg (by decide) (Reads.ite_neg (by decide) (Reads.ite_neg (by decide)
      (Reads.ite_pos rfl (Reads.bind_nil (reads_mesh m h) (Reads.pure _))))))

theorem serGeo_ok (g : Geo) (h : g ≠ .staple) : ∃ bs, serGeo g = .ok bs := by
  cases g with
  | staple => exact absurd rfl h
  | _ => exact ⟨_, rfl⟩

theorem serGeos_ok (gs : List Geo) (h : Geo.staple ∉ gs) : ∃ bs, serGeos gs = .ok bs := by
  induction gs with
  | nil => exact ⟨_, rfl⟩
  | cons g gs ih =>
    obtain ⟨a, ha⟩ := serGeo_ok g (fun e => h (by simp [e]))
    obtain ⟨b, hb⟩ := ih (fun e => h (by simp [e]))
    exact ⟨a ++ b, by simp [serGeos, ha, hb, Outcome.bind]⟩

theorem serGeos_exit (gs : List Geo) (h : Geo.staple ∈ gs) : serGeos gs = .exit := by
  induction gs with
  | nil => simp at h
  | cons g gs ih =>
    by_cases hg : g = .staple
    · subst hg; rfl
    · obtain ⟨a, ha⟩ := serGeo_ok g hg
      have := ih (by rcases List.mem_cons.mp h with e | e; exact absurd e.symm hg; exact e)
      simp [serGeos, ha, this, Outcome.bind]

theorem reads_geos (gs : List Geo) (h : ∀ g ∈ gs, g.Fits) :
    ∀ bs, serGeos gs = .ok bs → Reads (deMany deGeo gs.length) bs gs := by
  induction gs with
  | nil => intro bs hs; cases hs; exact Reads.pure _
  | cons g gs ih =>
    intro bs hs
    obtain ⟨a, ha, hs⟩ := Outcome.bind_ok_iff.mp hs
    obtain ⟨b, hb, hs⟩ := Outcome.bind_ok_iff.mp hs
    cases hs
    exact Reads.bind (reads_geo g (h g (by simp)) a ha) (Reads.bind_nil (ih (fun x hx => h x (by simp [hx])) b hb) (Reads.pure _))

theorem reads_force (f : Force) : Reads deForce (serForce f) f :=
  Reads.bind (reads_name _) (Reads.ite_pos rfl (Reads.bind_nil (reads_tri _) (Reads.pure _)))

theorem reads_state (s : State) (h : s.Fits) (bs : Bytes) (hs : serState s = .ok bs) : Reads deState bs s := by
  obtain ⟨geos, hg, hs⟩ := Outcome.bind_ok_iff.mp hs
  cases hs
  have hgeo : Reads (deVec deGeo) (serLen s.geometry.length ++ geos) s.geometry :=
    Reads.bind (reads_len _ h.geometry) (reads_geos _ h.geos _ hg)
  exact Reads.bind (reads_pod _) <| Reads.bind (reads_vecX _ h.q) <| Reads.bind (reads_vecX _ h.v) <|
    Reads.bind (reads_sparse _ h.M0) <| Reads.bind (reads_sparse _ h.Minv0) <| Reads.bind (reads_sparse _ h.M) <|
    Reads.bind (reads_sparse _ h.Minv) <| Reads.bind (reads_vecBool _ h.fixed) <| Reads.bind hgeo <|
    Reads.bind (reads_vecPod _ h.geoIdx) <| Reads.bind (reads_vec _ h.forces fun x _ => reads_force x) <|
    Reads.bind (reads_vec _ h.planes fun x _ => reads_plane x) <| Reads.bind (reads_vec _ h.cylinders fun x _ => reads_cylinder x) <|
    Reads.bind (reads_vec _ h.portals fun x _ => reads_portal x) <| Reads.bind (reads_pod _) <| Reads.bind (reads_tri _) <|
    Reads.bind_nil (reads_tri _) <| Reads.pure _

theorem reads_sim (s : Sim) (h : s.Fits) (bs : Bytes) (hs : serSim s = .ok bs) : Reads deSim bs s := by
  obtain ⟨st, hst, hs⟩ := Outcome.bind_ok_iff.mp hs
  cases hs
  exact Reads.bind (reads_state _ h.state _ hst) (Reads.bind_nil (reads_rb3dCache _ h.cache) (Reads.pure _))

theorem serSim_ok (s : Sim) (h : ¬ s.HasStaple) : ∃ bs, serSim s = .ok bs := by
  obtain ⟨b, hb⟩ := serGeos_ok _ h
  exact ⟨_, by unfold serSim serState; rw [hb]; rfl⟩

theorem serSim_exit (s : Sim) (h : s.HasStaple) : serSim s = .exit := by
  unfold serSim serState
  rw [serGeos_exit _ h]
  rfl

end RB3D

theorem exits_exponentialEuler (rest : Bytes) : Exits deIntegratorRB3D (serIntegrator .exponentialEuler ++ rest) := by
  refine Exits.bind_right (reads_name _) ?_
  rw [if_neg (by decide), if_neg (by decide), if_neg (by decide)]
  exact Exits.exit _

end Scisim
