import Verif.Spec.SceneRigid2D
import Verif.Spec.Rotations
import Verif.Spec.Geometry3D
import Verif.Spec.Mass
import Verif.Model.SceneRigid3D
import Mathlib.LinearAlgebra.CrossProduct
/-!
# What a scene file of the simulation of three dimensional rigid bodies describes

`R` says how the texts of attributes are understood: `exactReading` is the format, `lenientReading` what the code accepts. With `strict` the file must make sense:
densities are positive, normals and axes are not zero, renderers belong to planes and cylinders that exist. The code does not check this.
-/

namespace Scisim

open Matrix

/-- The attribute `a` holds a list of three numbers -/
def XmlNode.Triple (R : SceneReading) (nd : XmlNode) (a : String) (p : ListTriple) : Prop := ∃ t, nd.attr a = some t ∧ R.list t.toList [p.1, p.2.1, p.2.2]

/-- The attribute `a` holds three numbers, none of them infinite, with any white space -/
def XmlNode.Vector (R : SceneReading) (nd : XmlNode) (a : String) (p : ℚ × ℚ × ℚ) : Prop := ∃ t, nd.attr a = some t ∧ R.numbers t.toList [p.1, p.2.1, p.2.2]

/-- The attribute `a` holds an index -/
def XmlNode.Index (R : SceneReading) (nd : XmlNode) (a : String) (n : ℕ) : Prop := ∃ t, nd.attr a = some t ∧ R.size t.toList n

/-- Three numbers that are all zero -/
def ListTriple.IsZero (p : ListTriple) : Prop := p.1 = .finite 0 ∧ p.2.1 = .finite 0 ∧ p.2.2 = .finite 0

/-- Numbers of a list are ordered -/
def ListScalar.Less : ListScalar → ListScalar → Prop
  | .finite x, .finite y => x < y
  | .finite _, .inf negative => negative = false
  | .inf negative, .finite _ => negative = true
  | .inf a, .inf b => a = true ∧ b = false

/-- A number of a list is not negative -/
def ListScalar.NotNegative : ListScalar → Prop
  | .finite q => 0 ≤ q
  | .inf negative => negative = false

/-- Settings of both cameras -/
def IsDisplay (R : SceneReading) (nd : XmlNode) (v : View3D) : Prop :=
  nd.Unsigned R "fps" v.fps ∧ nd.Flag R "render_at_fps" v.renderAtFps ∧ nd.Flag R "locked" v.locked

/-- The perspective camera -/
def IsPerspective (R : SceneReading) (nd : XmlNode) (v : View3D) : Prop :=
  ∃ theta phi rho lookat up, v.camera = .perspective theta phi rho lookat up ∧ nd.Number R "theta" theta ∧ nd.Number R "phi" phi ∧ nd.Number R "rho" rho ∧ 0 < rho ∧
    nd.Triple R "lookat" lookat ∧ nd.Triple R "up" up ∧ IsDisplay R nd v

/-- The names of the projection planes -/
def ProjectionPlane.name : ProjectionPlane → String
  | .xy => "xy"
  | .zy => "zy"
  | .zx => "zx"

/-- The orthographic camera -/
def IsOrthographic (R : SceneReading) (nd : XmlNode) (v : View3D) : Prop :=
  ∃ plane center scale, v.camera = .orthographic plane center scale ∧ nd.attr "projection_plane" = some plane.name ∧ nd.Triple R "x" center ∧ nd.Number R "scale" scale ∧ 0 < scale ∧
    IsDisplay R nd v

/-- An element that need not be there -/
def DescribesOptional {α : Type} (is : XmlNode → α → Prop) (root : XmlNode) (name : String) (x : Option α) : Prop :=
  (root.first name = none ∧ x = none) ∨ ∃ nd a, root.first name = some nd ∧ is nd a ∧ x = some a

/-- The camera: if there are two, the orthographic one is used -/
def DescribesView (R : SceneReading) (root : XmlNode) (v : Option View3D) : Prop :=
  ∃ p o, DescribesOptional (IsPerspective R) root "camera_perspective" p ∧ DescribesOptional (IsOrthographic R) root "camera_orthographic" o ∧ v = o.or p

/-- The integrators -/
def Rigid3DIntegrator.name : Rigid3DIntegrator → String
  | .splitHam => "split_ham"
  | .dmv => "dmv"
  | .exponentialEuler => "exponential_euler"

/-- The region of the simulation: in each direction it has a positive extent -/
def IsBoundary (R : SceneReading) (nd : XmlNode) (b : Boundary3D) : Prop :=
  nd.attr "violation_behavior" = some (if b.exits then "exit" else "none") ∧ nd.Triple R "min" b.min ∧ nd.Triple R "max" b.max ∧
    b.min.1.Less b.max.1 ∧ b.min.2.1.Less b.max.2.1 ∧ b.min.2.2.Less b.max.2.2

/-- A plane -/
def IsPlane3D (R : SceneReading) (strict : Bool) (nd : XmlNode) (p : Plane3DElement) : Prop :=
  nd.Triple R "x" p.x ∧ nd.Triple R "n" p.n ∧ (strict → ¬ ListTriple.IsZero p.n)

/-- A cylinder -/
def IsCylinder (R : SceneReading) (strict : Bool) (nd : XmlNode) (c : CylinderElement) : Prop :=
  nd.Triple R "x" c.x ∧ nd.Triple R "axis" c.axis ∧ nd.Number R "R" c.r ∧ 0 < c.r ∧ (strict → ¬ ListTriple.IsZero c.axis)

/-- The renderer of one of `n` planes -/
def IsPlaneRenderer (R : SceneReading) (strict : Bool) (n : ℕ) (nd : XmlNode) (r : PlaneRenderer HalfWidths) : Prop :=
  nd.Index R "plane" r.index ∧ r.index ≤ n ∧ (strict → r.index < n) ∧ nd.Pair R "r" r.r ∧ r.r.1.NotNegative ∧ r.r.2.NotNegative

/-- The renderer of one of `n` cylinders: its index and its length -/
def IsCylinderRenderer (R : SceneReading) (strict : Bool) (n : ℕ) (nd : XmlNode) (r : ℕ × ℚ) : Prop :=
  nd.Index R "cylinder_idx" r.1 ∧ r.1 ≤ n ∧ (strict → r.1 < n) ∧ nd.Number R "L" r.2 ∧ 0 ≤ r.2

/-- The multiplier of a portal: three numbers 1 or -1 with one space between any two -/
def IsMultiplier (R : SceneReading) (nd : XmlNode) (m : Multiplier) : Prop :=
  (∃ t texts, nd.attr "multiplier" = some t ∧ t.toList = [' '].intercalate texts ∧ (∀ s ∈ texts, ' ' ∉ s) ∧ List.Forall₂ R.int texts [m.1, m.2.1, m.2.2]) ∧
    (m.1 = 1 ∨ m.1 = -1) ∧ (m.2.1 = 1 ∨ m.2.1 = -1) ∧ (m.2.2 = 1 ∨ m.2.2 = -1)

/-- Renderers in the order of their planes -/
def byPlane {W : Type} (rs : List (PlaneRenderer W)) : List (PlaneRenderer W) := rs.insertionSort fun a b => a.index ≤ b.index

/-- Portals, given all planes and their renderers. Each portal joins the two planes it names, no plane is named twice. The planes that are left keep their order, and their
renderers, whose index is reduced by the number of planes before them that are gone. A portal is rendered if one of its planes was, with a size that is not zero. -/
def DescribesPortals3 (R : SceneReading) (root : XmlNode) (planes : List Plane3DElement) (rs : List (PlaneRenderer HalfWidths)) (l : Loaded3 Plane3DElement Multiplier HalfWidths) : Prop :=
  ∃ (pairs : List (ℕ × ℕ)) (multipliers : List Multiplier),
    List.Forall₂ (NamesPlanes R) (root.all "planar_portal") pairs ∧
    List.Forall₂ (IsMultiplier R) (root.all "planar_portal") multipliers ∧
    (positions pairs).Nodup ∧ (∀ i ∈ positions pairs, i < planes.length) ∧
    List.Forall₂ (fun (x : (ℕ × ℕ) × Multiplier) q => LoadedPortal.Joins q planes x.1 x.2) (pairs.zip multipliers) l.portals ∧
    l.planes = untouched planes (positions pairs) ∧
    l.planeRenderers = ((rs.filter fun r => r.index ∉ positions pairs).map fun r => ⟨r.index - (positions pairs).countP (· < r.index), r.r⟩) ∧
    l.portalRenderers = pairs.zipIdx.filterMap fun p =>
      if lastWidth rs p.1.1 ≠ 0 ∨ lastWidth rs p.1.2 ≠ 0 then some ⟨p.2, lastWidth rs p.1.1, lastWidth rs p.1.2⟩ else none

/-- A shape, of positive size; a staple is not thicker than wide or long; a mesh is read from its file -/
def IsGeometry3D (R : SceneReading) (files : MeshFiles) (nd : XmlNode) : Geometry3DElement → Prop
  | .sphere r => nd.attr "type" = some "sphere" ∧ nd.Number R "r" r ∧ 0 < r
  | .box r => nd.attr "type" = some "box" ∧ nd.Triple R "r" r ∧ r.1.Positive ∧ r.2.1.Positive ∧ r.2.2.Positive
  | .staple w l D => nd.attr "type" = some "staple" ∧ nd.Number R "w" w ∧ 0 < w ∧ nd.Number R "l" l ∧ 0 < l ∧ nd.Number R "D" D ∧ 0 < D ∧ D ≤ w ∧ D ≤ l
  | .mesh f => nd.attr "type" = some "mesh" ∧ nd.attr "filename" = some f ∧ files f = .ok ()

/-- An index of one of `n` shapes; a negative one counts from the end -/
def IsShapeIndex (n : ℕ) (z : ℤ) (i : ℕ) : Prop := i < n ∧ -2 ^ 31 < z ∧ ((0 ≤ z ∧ (i : ℤ) = z) ∨ (z < 0 ∧ (i : ℤ) = n + z))

/-- A body with one of `n` shapes -/
def IsBody3D (R : SceneReading) (strict : Bool) (n : ℕ) (nd : XmlNode) (c : Body3DElement) : Prop :=
  nd.Vector R "x" c.x ∧ nd.Vector R "v" c.v ∧ nd.Vector R "omega" c.omega ∧ nd.Number R "rho" c.rho ∧ (strict → 0 < c.rho) ∧ nd.Flag R "fixed" c.fixed ∧
    (∃ z, nd.Int R "geo_idx" z ∧ IsShapeIndex n z c.geo) ∧
    ((nd.attr "R" = none ∧ c.rotation = none) ∨ ∃ r, nd.Triple R "R" r ∧ c.rotation = some r)

/-- The scene file describes the scene -/
def DescribesRigid3DScene (R : SceneReading) (strict : Bool) (b : Build) (files : MeshFiles) (doc : XmlNode) (s : Rigid3DScene) : Prop :=
  ∃ root, doc.first "rigidbody3d_scene" = some root ∧
    DescribesScript root s.script ∧ DescribesEnd R root s.endTime ∧
    List.Forall₂ (fun nd f => nd.Triple R "f" f) (root.all "near_earth_gravity") s.forces ∧
    DescribesView R root s.view ∧
    (∃ nd, root.first "integrator" = some nd ∧ IsStep R nd s.dtText s.dt ∧ nd.attr "type" = some s.integrator.name) ∧
    (∃ c, DescribesContacts R b .rigidBody3D root c ∧ s.solvers = c.setup) ∧
    DescribesOptional (IsBoundary R) root "simulation_boundary" s.boundary ∧
    List.Forall₂ (IsCylinder R strict) (root.all "static_cylinder") s.cylinders ∧
    List.Forall₂ (IsCylinderRenderer R strict s.cylinders.length) (root.all "static_cylinder_renderer") s.cylinderRenderers ∧
    (∃ planes rs, List.Forall₂ (IsPlane3D R strict) (root.all "static_plane") planes ∧
      List.Forall₂ (IsPlaneRenderer R strict planes.length) (root.all "static_plane_renderer") rs ∧
      DescribesPortals3 R root planes (byPlane rs) ⟨s.planes, s.portals, s.planeRenderers, s.portalRenderers⟩) ∧
    List.Forall₂ (IsGeometry3D R files) (root.all "geometry") s.geometry ∧
    List.Forall₂ (IsBody3D R strict s.geometry.length) (root.all "rigid_body_with_density") s.bodies

/-- The attributes that hold lists: none of them is empty -/
def Rigid3DListsPresent (root : XmlNode) : Prop :=
  (∀ nd ∈ root.all "near_earth_gravity", nd.attr "f" ≠ some "") ∧
  (∀ nd, root.first "camera_perspective" = some nd → nd.attr "lookat" ≠ some "" ∧ nd.attr "up" ≠ some "") ∧
  (∀ nd, root.first "camera_orthographic" = some nd → nd.attr "x" ≠ some "") ∧
  (∀ nd, root.first "simulation_boundary" = some nd → nd.attr "min" ≠ some "" ∧ nd.attr "max" ≠ some "") ∧
  (∀ nd ∈ root.all "static_plane", nd.attr "x" ≠ some "" ∧ nd.attr "n" ≠ some "") ∧
  (∀ nd ∈ root.all "static_cylinder", nd.attr "x" ≠ some "" ∧ nd.attr "axis" ≠ some "") ∧
  (∀ nd ∈ root.all "static_plane_renderer", nd.attr "r" ≠ some "") ∧
  (∀ nd ∈ root.all "planar_portal", nd.attr "multiplier" ≠ some "") ∧
  (∀ nd ∈ root.all "geometry", nd.attr "r" ≠ some "") ∧
  ∀ nd ∈ root.all "rigid_body_with_density", nd.attr "R" ≠ some ""

/-- `Q` is the rotation about the axis `r`, counterclockwise seen from its tip, by the angle that is the length of `r` -/
def TurnsAbout (r : Vec3) (Q : Mat3) : Prop :=
  IsRotation Q ∧ (r = 0 → Q = 1) ∧ Q *ᵥ r = r ∧
    ∀ p, p ⬝ᵥ r = 0 → norm3 r • (Q *ᵥ p) = (Real.cos (norm3 r) * norm3 r) • p + Real.sin (norm3 r) • (crossProduct r p)

/-- The orientation that a body is to have: that of its shape, turned by the rotation vector, if there is one -/
def HasOrientation (rotation : Option ListTriple) (shape R : Mat3) : Prop :=
  match rotation with
  | none => R = shape
  | some r => ∃ x y z : ℚ, r = (.finite x, .finite y, .finite z) ∧ ∃ Q, TurnsAbout ![(x : ℝ), (y : ℝ), (z : ℝ)] Q ∧ R = Q * shape

/-- All three numbers are finite -/
def ListTriple.Finite (p : ListTriple) : Prop := ∃ x y z, p = (.finite x, .finite y, .finite z)

/-- The body has a finite shape and a finite rotation vector -/
def FiniteBody (c : Body3DElement) (g : Geometry3DElement) : Prop :=
  (∀ r, g = .box r → ListTriple.Finite r) ∧ ∀ r, c.rotation = some r → ListTriple.Finite r

/-- The mass, the moments of inertia, the centre of mass and the orientation that the shape has in its own coordinates, with uniform density. A mesh is described by its file. For
staples see C47: their moments are not these integrals. -/
def ShapeMoments (meshes : String → MeshMoments) (rho : ℝ) (g : Geometry3DElement) (M : ℝ) (I CM : Vec3) (shape : Mat3) : Prop :=
  match g with
  | .sphere r => CM = 0 ∧ shape = 1 ∧ IsSolidMass (ballSet3 0 r) rho ⟨M, CM, I⟩
  | .box r => CM = 0 ∧ shape = 1 ∧ ∃ x y z : ℚ, r = (.finite x, .finite y, .finite z) ∧ IsSolidMass (boxSet3 0 1 ![(x : ℝ), (y : ℝ), (z : ℝ)]) rho ⟨M, CM, I⟩
  | .staple w l D => CM = ![0, (Staple.make w l D).centerOfMassY, 0] ∧ shape = 1
  | .mesh f => CM = (meshes f).center ∧ shape = (meshes f).R ∧ M = rho * (meshes f).volume ∧ I = rho • (meshes f).I

/-- The state that a body of the scene is to have -/
def IsStateOf (meshes : String → MeshMoments) (c : Body3DElement) (g : Geometry3DElement) (y : BodyState3D) : Prop :=
  y.v = vecOf c.v ∧ y.omega = vecOf c.omega ∧
    ∃ CM shape, y.x = vecOf c.x + CM ∧ HasOrientation c.rotation shape y.R ∧ (0 < c.rho → ShapeMoments meshes c.rho g y.M y.I CM shape)

end Scisim
