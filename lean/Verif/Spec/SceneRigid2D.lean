import Verif.Spec.SceneBall2D
import Verif.Model.SceneRigid2D
/-!
# What a scene file of the simulation of two dimensional rigid bodies describes

`R` says how the texts of attributes are understood: `exactReading` is the format, `lenientReading` what the code accepts.
-/

namespace Scisim

/-- The attribute `a` holds a list of two numbers -/
def XmlNode.Pair (R : SceneReading) (nd : XmlNode) (a : String) (p : ListScalar × ListScalar) : Prop := ∃ t, nd.attr a = some t ∧ R.list t.toList [p.1, p.2]

/-- A number of a list is positive -/
def ListScalar.Positive : ListScalar → Prop
  | .finite q => 0 < q
  | .inf negative => negative = false

/-- The camera; `none` if there is none -/
def DescribesCamera2D (R : SceneReading) (root : XmlNode) (c : Option Camera2D) : Prop :=
  (root.first "camera" = none ∧ c = none) ∨ ∃ nd k, root.first "camera" = some nd ∧ c = some k ∧ nd.Pair R "center" k.center ∧
    nd.Number R "scale" k.scale ∧ 0 < k.scale ∧ nd.Int R "fps" k.fps ∧ 0 < k.fps ∧ nd.Flag R "render_at_fps" k.renderAtFps ∧ nd.Flag R "locked" k.locked

/-- The integrator and the timestep: without the element there is none, and the timestep is 0 -/
def DescribesIntegrator2D (R : SceneReading) (root : XmlNode) (text : String) (dt : Rat64) (i : Option BallIntegrator) : Prop :=
  (root.first "integrator" = none ∧ text = "0" ∧ dt = ⟨0, 1⟩ ∧ i = none) ∨
    ∃ nd k, root.first "integrator" = some nd ∧ IsStep R nd text dt ∧ IsBallIntegrator nd k ∧ i = some k

/-- A plane: its normal is not zero -/
def IsPlane2D (R : SceneReading) (nd : XmlNode) (p : Plane2DElement) : Prop :=
  nd.Pair R "x" p.x ∧ nd.Pair R "n" p.n ∧ ¬ (p.n.1 = .finite 0 ∧ p.n.2 = .finite 0)

/-- A shape, of positive size -/
def IsGeometry2D (R : SceneReading) (nd : XmlNode) : Geometry2DElement → Prop
  | .circle r => nd.attr "type" = some "circle" ∧ nd.Number R "r" r ∧ 0 < r
  | .box r => nd.attr "type" = some "box" ∧ nd.Pair R "r" r ∧ r.1.Positive ∧ r.2.Positive

/-- A body, of positive density, with one of `n` shapes; it is not fixed if nothing is said -/
def IsBody2D (R : SceneReading) (n : ℕ) (nd : XmlNode) (c : Body2DElement) : Prop :=
  nd.Pair R "x" c.x ∧ nd.Number R "theta" c.theta ∧ nd.Pair R "v" c.v ∧ nd.Number R "omega" c.omega ∧ nd.Number R "rho" c.rho ∧ 0 < c.rho ∧
    nd.Int R "geo_idx" c.geo ∧ c.geo < n ∧ ((nd.attr "fixed" = none ∧ c.fixed = false) ∨ nd.Flag R "fixed" c.fixed)

/-- The scene file describes the scene -/
def DescribesRigid2DScene (R : SceneReading) (b : Build) (doc : XmlNode) (s : Rigid2DScene) : Prop :=
  ∃ root, doc.first "rigidbody2d_scene" = some root ∧
    DescribesScript root s.script ∧ DescribesEnd R root s.endTime ∧ DescribesCamera2D R root s.camera ∧ DescribesIntegrator2D R root s.dtText s.dt s.integrator ∧
    (∃ c, DescribesContacts R b .rigidBody2D root c ∧ s.solvers = c.setup) ∧
    List.Forall₂ (fun nd f => nd.Pair R "f" f) (root.all "near_earth_gravity") s.forces ∧
    (∃ planes, List.Forall₂ (IsPlane2D R) (root.all "static_plane") planes ∧ DescribesPortals R (fun x => 0 ≤ x) root planes s.planes s.portals) ∧
    List.Forall₂ (IsGeometry2D R) (root.all "geometry") s.geometry ∧
    ∃ bodies, List.Forall₂ (IsBody2D R s.geometry.length) (root.all "rigid_body") bodies ∧
      s.q = bodies.flatMap (fun c => [c.x.1, c.x.2, .finite c.theta]) ∧ s.v = bodies.flatMap (fun c => [c.v.1, c.v.2, .finite c.omega]) ∧
      s.rho = bodies.map (·.rho) ∧ s.indices = bodies.map (·.geo) ∧ s.fixed = bodies.map (·.fixed)

/-- The attributes that hold lists: none of them is empty -/
def Rigid2DListsPresent (root : XmlNode) : Prop :=
  (∀ nd, root.first "camera" = some nd → nd.attr "center" ≠ some "") ∧
  (∀ nd ∈ root.all "near_earth_gravity", nd.attr "f" ≠ some "") ∧
  (∀ nd ∈ root.all "static_plane", nd.attr "x" ≠ some "" ∧ nd.attr "n" ≠ some "") ∧
  (∀ nd ∈ root.all "geometry", nd.attr "r" ≠ some "") ∧
  ∀ nd ∈ root.all "rigid_body", nd.attr "x" ≠ some "" ∧ nd.attr "v" ≠ some ""

/-- Mass and moment of inertia of a shape of uniform density: a disc, or a rectangle given by its half widths. -/
inductive UniformShape (rho : ℚ) : Geometry2DElement → ℝ → ℝ → Prop where
  | disc (r : ℚ) : UniformShape rho (.circle r) (rho * (Real.pi * r ^ 2)) (rho * (Real.pi * r ^ 2) * r ^ 2 / 2)
  | rectangle (x y : ℚ) : UniformShape rho (.box (.finite x, .finite y)) (rho * ((2 * x) * (2 * y))) (rho * ((2 * x) * (2 * y)) * ((2 * x) ^ 2 + (2 * y) ^ 2) / 12)

end Scisim
