import Verif.Model.Picture2D
import Verif.Spec.Geometry2D
/-!
# What a list of primitives shows

The points a primitive of OpenGL covers, the colour seen at a point, and the lines and half lines that the picture of a plane or a portal consists of.
-/

namespace Scisim
namespace Picture2

/-- The point lies on the same side of every edge of the convex polygon with the given corners (or on an edge) -/
def InConvex (vs : List (V2 ℝ)) (p : V2 ℝ) : Prop :=
  (∀ i < vs.length, 0 ≤ (vs.getD ((i + 1) % vs.length) 0 - vs.getD i 0).cross (p - vs.getD i 0)) ∨
  (∀ i < vs.length, (vs.getD ((i + 1) % vs.length) 0 - vs.getD i 0).cross (p - vs.getD i 0) ≤ 0)

/-- The area a primitive covers. Lines cover no area. -/
def Draw.Covers (d : Draw) (p : V2 ℝ) : Prop :=
  let vs := d.vertices.map Vertex.v
  match d.mode with
  | .polygon => InConvex vs p
  | .triangleStrip => ∃ i, i + 2 < vs.length ∧ InConvex [vs.getD i 0, vs.getD (i + 1) 0, vs.getD (i + 2) 0] p
  | _ => False

/-- The point lies on the line between two vertices; a vertex with last coordinate zero is infinitely far away in its direction -/
def OnSegment (a b : Vertex) (p : V2 ℝ) : Prop := ∃ s t : ℝ, 0 ≤ s ∧ 0 ≤ t ∧ s * a.w + t * b.w = 1 ∧ p = s • a.v + t • b.v

/-- The points on the lines a primitive draws -/
def Draw.Marks (d : Draw) (p : V2 ℝ) : Prop :=
  let vs := d.vertices
  let v := fun i => vs.getD i (.at 0 0)
  match d.mode with
  | .lines => ∃ i, 2 * i + 1 < vs.length ∧ OnSegment (v (2 * i)) (v (2 * i + 1)) p
  | .lineStrip => ∃ i, i + 1 < vs.length ∧ OnSegment (v i) (v (i + 1)) p
  | .lineLoop => ∃ i, i < vs.length ∧ OnSegment (v i) (v ((i + 1) % vs.length)) p
  | _ => False

open Classical in
/-- The colour seen at a point when the primitives are painted one over the other onto a white ground -/
noncomputable def seen (ds : List Draw) (p : V2 ℝ) : Color := ds.foldl (fun c d => if d.Covers p then d.color else c) white

/-- The distance of two points -/
noncomputable def dist2 (p q : V2 ℝ) : ℝ := Real.sqrt ((p.x - q.x) ^ 2 + (p.y - q.y) ^ 2)

/-- The line through `x` with normal `n` -/
def lineSet (x n : V2 ℝ) : Set (V2 ℝ) := {p | n.x * (p.x - x.x) + n.y * (p.y - x.y) = 0}

/-- The half line that starts in `x` in direction `d` -/
def raySet (x d : V2 ℝ) : Set (V2 ℝ) := {p | ∃ s : ℝ, 0 ≤ s ∧ p = ⟨x.x + s * d.x, x.y + s * d.y⟩}

/-- The segment of length `l` that starts in `x` in direction `d` -/
def stubSet (x d : V2 ℝ) (l : ℝ) : Set (V2 ℝ) := {p | ∃ s : ℝ, 0 ≤ s ∧ s ≤ l ∧ p = ⟨x.x + s * d.x, x.y + s * d.y⟩}

/-- The lines that show one plane of a portal: the plane; behind it, for a portal at rest, a half line, and for a portal that slides, the two half lines
that bound its range and two short lines at the middle of the range and at the current position -/
def portalPlaneSet (p : PlanarPortal ℝ) (h : HalfPlane ℝ) : Set (V2 ℝ) :=
  lineSet h.x h.n ∪
  (if p.v = 0 then raySet h.x ⟨-h.n.x, -h.n.y⟩
   else raySet ⟨h.x.x + p.bounds * h.t.x, h.x.y + p.bounds * h.t.y⟩ ⟨-h.n.x, -h.n.y⟩ ∪
        raySet ⟨h.x.x - p.bounds * h.t.x, h.x.y - p.bounds * h.t.y⟩ ⟨-h.n.x, -h.n.y⟩ ∪
        stubSet h.x ⟨-h.n.x, -h.n.y⟩ (p.bounds / 5) ∪
        stubSet ⟨h.x.x + p.dx * h.t.x, h.x.y + p.dx * h.t.y⟩ ⟨-h.n.x, -h.n.y⟩ (p.bounds / 5))

/-- A plane as its constructor leaves it: a unit normal, and a tangent a quarter turn from it -/
def PlaneOk (h : HalfPlane ℝ) : Prop := h.n.x ^ 2 + h.n.y ^ 2 = 1 ∧ h.t = ⟨-h.n.y, h.n.x⟩

/-- The coordinate of `p` across the line through `x` that is turned by the angle `theta`: positive on the side of the upper half of a body -/
noncomputable def upward (x : V2 ℝ) (theta : ℝ) (p : V2 ℝ) : ℝ := -Real.sin theta * (p.x - x.x) + Real.cos theta * (p.y - x.y)

open Real

/-- A ball reaches a plane of a portal: the signed distance of its centre is at most its radius -/
def Reaches (h : HalfPlane ℝ) (x : V2 ℝ) (r : ℝ) : Prop := h.n.x * (x.x - h.x.x) + h.n.y * (x.y - h.x.y) ≤ r

/-- The colour in which a body is to be shown -/
noncomputable def PicBody.shown (b : PicBody) : Color := if b.scripted then gray else b.color

/-- What a body looks like at a point: a box has one colour; the half of a disc that is turned upwards has the colour of the body and the other half is black. A disc is
shown up to the difference of a half circle and a polygon with 32 corners on it. -/
def PicBody.LooksLike (b : PicBody) (p : V2 ℝ) (c : Color) : Prop :=
  match b.body.geometry with
  | .box r => p ∈ boxSet b.body.x b.body.theta r ∧ c = b.shown
  | .circle r => dist2 p b.body.x ≤ r * cos (π / 62) ∧ ((0 < upward b.body.x b.body.theta p ∧ c = b.shown) ∨ (upward b.body.x b.body.theta p ≤ 0 ∧ c = black))

/-- A corner of the axis aligned box around a body lies behind a plane or on it -/
def BoxReaches (h : HalfPlane ℝ) (b : PosedBody2D) : Prop :=
  let box := b.geometry.aabb b.x b.theta
  ∃ z : V2 ℝ, (z.x = box.1.x ∨ z.x = box.2.x) ∧ (z.y = box.1.y ∨ z.y = box.2.y) ∧ h.n.x * (z.x - h.x.x) + h.n.y * (z.y - h.x.y) ≤ 0

/-- The outline of a body whose centre is moved to `x`: the four corners of a box; the upper half of a circle in the colour of the body and, in black, the lower half
together with its diameter -/
def IsOutline (b : PicBody) (x : V2 ℝ) (d : Draw) : Prop :=
  let at' := fun (u v : ℝ) => Vertex.at (x.x + u * cos b.body.theta - v * sin b.body.theta) (x.y + u * sin b.body.theta + v * cos b.body.theta)
  match b.body.geometry with
  | .box r => d = ⟨.lineLoop, b.color, [at' r.x r.y, at' (-r.x) r.y, at' (-r.x) (-r.y), at' r.x (-r.y)]⟩
  | .circle r =>
    d = ⟨.lineStrip, b.color, (List.range 32).map fun (k : ℕ) => .at (x.x + r * cos (b.body.theta + k * (π / 31))) (x.y + r * sin (b.body.theta + k * (π / 31)))⟩ ∨
    d = ⟨.lineLoop, black, (List.range 32).map fun (k : ℕ) => .at (x.x + r * cos (b.body.theta + π + k * (π / 31))) (x.y + r * sin (b.body.theta + π + k * (π / 31)))⟩

end Picture2
end Scisim
