import Verif.Model.Picture3D
import Verif.Spec.Portal3D
/-!
# What a list of primitives shows in space

The points a primitive of OpenGL covers, what the picture of a body looks like in the coordinates of the body, and the lines that the pictures of planes, portals and
cylinders consist of.
-/

namespace Scisim
namespace Picture3

open Matrix Real

/-- The point is a weighted mean of the corners of a triangle -/
def InTriangle (a b c p : Vec3) : Prop := ∃ s t u : ℝ, 0 ≤ s ∧ 0 ≤ t ∧ 0 ≤ u ∧ s + t + u = 1 ∧ p = s • a + t • b + u • c

/-- The point is a weighted mean of the corners of a quadrangle -/
def InQuad (a b c d p : Vec3) : Prop :=
  ∃ s t u v : ℝ, 0 ≤ s ∧ 0 ≤ t ∧ 0 ≤ u ∧ 0 ≤ v ∧ s + t + u + v = 1 ∧ p = s • a + t • b + u • c + v • d

/-- The point lies on the line between two points -/
def Between (a b p : Vec3) : Prop := ∃ s : ℝ, 0 ≤ s ∧ s ≤ 1 ∧ p = (1 - s) • a + s • b

/-- The area a primitive covers. Lines cover no area. -/
def Draw.Covers (d : Draw) (p : Vec3) : Prop :=
  let vs := d.vertices
  let v := fun i => vs.getD i 0
  match d.mode with
  | .triangles => ∃ i, 3 * i + 2 < vs.length ∧ InTriangle (v (3 * i)) (v (3 * i + 1)) (v (3 * i + 2)) p
  | .quads => ∃ i, 4 * i + 3 < vs.length ∧ InQuad (v (4 * i)) (v (4 * i + 1)) (v (4 * i + 2)) (v (4 * i + 3)) p
  | _ => False

/-- The points on the lines a primitive draws -/
def Draw.Marks (d : Draw) (p : Vec3) : Prop :=
  let vs := d.vertices
  let v := fun i => vs.getD i 0
  match d.mode with
  | .lines => ∃ i, 2 * i + 1 < vs.length ∧ Between (v (2 * i)) (v (2 * i + 1)) p
  | .lineLoop => ∃ i, i < vs.length ∧ Between (v i) (v ((i + 1) % vs.length)) p
  | _ => False

/-- A surface painted with `paint` passes through the point -/
def Shown (ds : List Draw) (paint : Paint) (p : Vec3) : Prop := ∃ d ∈ ds, d.paint = paint ∧ d.Covers p

/-- A line of the given colour passes through the point -/
def Lined (ds : List Draw) (paint : Paint) (p : Vec3) : Prop := ∃ d ∈ ds, d.paint = paint ∧ d.Marks p

/-- The square of the length of a vector -/
def sqLen (y : Vec3) : ℝ := y 0 ^ 2 + y 1 ^ 2 + y 2 ^ 2

/-- The material whose ambient colour is `a` times the colour and whose diffuse colour is `d` times the colour -/
def tinted (a d : ℝ) (c : Color) : Paint := .material (a * c.1, a * c.2.1, a * c.2.2) (d * c.1, d * c.2.1, d * c.2.2)

/-- The surface of a box -/
def OnBox (h y : Vec3) : Prop := (∀ k, |y k| ≤ h k) ∧ ∃ k, |y k| = h k

/-- Almost on the surface of a sphere about the origin, and not outside of it: the radius falls short by less than four parts in a thousand -/
def NearSphere (r : ℝ) (y : Vec3) : Prop := 128 / 129 * r ^ 2 ≤ sqLen y ∧ sqLen y ≤ r ^ 2

/-- Almost on the surface of a tube about the segment from `a` to `b`, and not outside of it: the distance to a point of the segment, measured at a right angle, falls short
of the radius by less than two parts in a thousand -/
def NearTube (a b : Vec3) (r : ℝ) (y : Vec3) : Prop :=
  ∃ s : ℝ, 0 ≤ s ∧ s ≤ 1 ∧ inner3 (y - (a + s • (b - a))) (b - a) = 0 ∧
    (r * cos (π / 64)) ^ 2 ≤ sqLen (y - (a + s • (b - a))) ∧ sqLen (y - (a + s • (b - a))) ≤ r ^ 2

/-- The three segments of the centreline of a staple -/
noncomputable def segments (s : Staple) : List (Vec3 × Vec3) := s.corners.zip s.corners.tail

/-- The dimensions of a geometry are positive -/
def PicGeometry.Positive (g : PicGeometry) : Prop :=
  match g.geometry with
  | .sphere r => 0 < r
  | .box h => ∀ k, 0 < h k
  | .staple s => 0 < s.w ∧ 0 < s.l ∧ 0 < s.r
  | .mesh _ => True

/-- The colour in which a body is to be shown -/
noncomputable def PicBody.shown (b : PicBody) : Color := if b.scripted then (1 / 5, 1 / 5, 1 / 5) else b.color

/-- Soundness: what the picture of a geometry in colour `c` may have at a point, in the coordinates of the body. A sphere has two of its four quarters in the colour
and the other two in white. -/
def PicGeometry.LooksLike (g : PicGeometry) (c : Color) (paint : Paint) (y : Vec3) : Prop :=
  match g.geometry with
  | .box h => OnBox h y ∧ paint = tinted (4 / 5) (9 / 10) c
  | .sphere r => NearSphere r y ∧
      ((0 ≤ y 0 * y 1 ∧ paint = tinted (3 / 10) 1 c) ∨ (y 0 * y 1 ≤ 0 ∧ paint = tinted (3 / 10) 1 (1, 1, 1)))
  | .staple s => ((∃ p ∈ s.corners, NearSphere s.r (y - p)) ∨ ∃ e ∈ segments s, NearTube e.1 e.2 s.r y) ∧ paint = tinted (3 / 10) 1 c
  | .mesh verts => (∃ f ∈ g.faces, ∃ u v w, verts[f.1]? = some u ∧ verts[f.2.1]? = some v ∧ verts[f.2.2]? = some w ∧ InTriangle u v w y) ∧
      paint = tinted (4 / 5) (9 / 10) c

/-- Completeness: what the picture of a geometry in colour `c` must have. Every point of a box and of the faces of a mesh; and for spheres and staples a point in every
direction from the centre or, at a right angle, from the centreline. -/
def PicGeometry.Complete (g : PicGeometry) (c : Color) (at' : Paint → Vec3 → Prop) : Prop :=
  match g.geometry with
  | .box h => ∀ y, OnBox h y → at' (tinted (4 / 5) (9 / 10) c) y
  | .sphere r => ∀ u, sqLen u = 1 →
      (0 ≤ u 0 * u 1 → ∃ t : ℝ, 0 ≤ t ∧ NearSphere r (t • u) ∧ at' (tinted (3 / 10) 1 c) (t • u)) ∧
      (u 0 * u 1 ≤ 0 → ∃ t : ℝ, 0 ≤ t ∧ NearSphere r (t • u) ∧ at' (tinted (3 / 10) 1 (1, 1, 1)) (t • u))
  | .staple s =>
      (∀ p ∈ s.corners, ∀ u, sqLen u = 1 → ∃ t : ℝ, 0 ≤ t ∧ NearSphere s.r (t • u) ∧ at' (tinted (3 / 10) 1 c) (p + t • u)) ∧
      (∀ e ∈ segments s, ∀ a : ℝ, 0 ≤ a → a ≤ 1 → ∀ u, sqLen u = 1 → inner3 u (e.2 - e.1) = 0 →
        ∃ t : ℝ, s.r * cos (π / 64) ≤ t ∧ t ≤ s.r ∧ at' (tinted (3 / 10) 1 c) (e.1 + a • (e.2 - e.1) + t • u))
  | .mesh verts => ∀ f ∈ g.faces, ∀ u v w, verts[f.1]? = some u → verts[f.2.1]? = some v → verts[f.2.2]? = some w →
      ∀ y, InTriangle u v w y → at' (tinted (4 / 5) (9 / 10) c) y

/-- Every index refers to something: the geometry of a body, a corner of a face of a mesh that some body has, the plane, cylinder or portal of a renderer. -/
def Scene.Indexed (s : Scene) : Prop :=
  (∀ b ∈ s.bodies, ∃ g, s.geometries[b.geometry]? = some g ∧
    ∀ verts, g.geometry = .mesh verts → ∀ f ∈ g.faces, f.1 < verts.length ∧ f.2.1 < verts.length ∧ f.2.2 < verts.length) ∧
  (∀ r ∈ s.planeRenderers, r.1 < s.planes.length) ∧ (∀ r ∈ s.cylinderRenderers, r.1 < s.cylinders.length) ∧
  (∀ r ∈ s.portalRenderers, r.1 < s.portals.length)

/-- The outline of a rectangle about `x` with half sides `a` and `b` and the two lines through its middle -/
def windowSet (x a b : Vec3) : Set Vec3 :=
  {p | ∃ s t : ℝ, |s| ≤ 1 ∧ |t| ≤ 1 ∧ (|s| = 1 ∨ |t| = 1 ∨ s = 0 ∨ t = 0) ∧ p = x + s • a + t • b}

/-- A regular polygon with 64 corners about `x`, which starts in direction `u` and runs towards `w` -/
def ringSet (x u w : Vec3) (r : ℝ) : Set Vec3 :=
  let corner := fun (k : ℕ) => x + (r * cos (k * (π / 32))) • u + (r * sin (k * (π / 32))) • w
  {p | ∃ k < 64, Between (corner k) (corner (k + 1)) p}

/-- The lines that show a cylinder of length `L` with axis `a`: two rings, and four lines along the cylinder a quarter turn apart -/
def cageSet (x a u w : Vec3) (r L : ℝ) : Set Vec3 :=
  ringSet (x + (L / 2) • a) u w r ∪ ringSet (x - (L / 2) • a) u w r ∪
  {p | ∃ d ∈ [u, -u, w, -w], Between (x + r • d + (L / 2) • a) (x + r • d - (L / 2) • a) p}

/-- The vector turned by the angle about a unit vector at a right angle to it -/
noncomputable def turned (a : Vec3) (theta : ℝ) (e : Vec3) : Vec3 := cos theta • e + sin theta • crossProduct a e

/-- A unit vector that is exactly straight down or is not within about a millionth of it -/
def NotAlmostDown (n : Vec3) : Prop := inner3 n n = 1 ∧ (-1 + 1 / 1000000000000 ≤ n 1 ∨ n 1 = -1)

end Picture3
end Scisim
