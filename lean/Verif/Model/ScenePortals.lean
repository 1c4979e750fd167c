import Mathlib.Algebra.Order.Ring.Rat
import Verif.Model.Outcome
import Mathlib.Data.List.Sort
/-!
# Turning planes of a scene into portals

ball2dutils/Ball2DSceneParser.cpp, rigidbody2dutils/RigidBody2DSceneParser.cpp, rigidbody3dutils/RigidBody3DSceneParser.cpp. XML is not modelled: a node is
given by its attributes. `.fail` is the result `false` of the functions, upon which the program reports an error.
-/

namespace Scisim

/-- An attribute of an XML node, as a value of type `α` is extracted from it -/
inductive XmlAttr (α : Type) where
  /-- `first_attribute` returns `nullptr` -/
  | missing
  /-- `extractFromString` returns `false` -/
  | malformed
  /-- the value -/
  | value (a : α)

/-- Reading a required attribute, e.g. ball2dutils/Ball2DSceneParser.cpp:391-402 -/
def XmlAttr.read {α : Type} : XmlAttr α → Outcome α
  | .value a => .ok a
  | _ => .fail

/-- A `planar_portal` node -/
structure PortalNode where
  planeA : XmlAttr Nat
  planeB : XmlAttr Nat

/-- A `lees_edwards_portal` node -/
structure LeesEdwardsNode (K : Type) where
  planes : PortalNode
  v : XmlAttr K
  bounds : XmlAttr K

/-- The arguments of the constructor of `PlanarPortal` -/
structure LoadedPortal (P D : Type) where
  planeA : P
  planeB : P
  /-- the velocity and the bounds in two dimensions, the multiplier in three -/
  data : D
deriving DecidableEq

/-- The check that an index is not used by an existing portal, ball2dutils/Ball2DSceneParser.cpp:438-450: both indices against each pair in turn -/
def checkUnused (a b : Nat) : List (Nat × Nat) → Outcome Unit
  | [] => .ok ()
  | (x, y) :: rest =>
    if a = x ∨ a = y then .fail
    else if b = x ∨ b = y then .fail
    else checkUnused a b rest

/-- Reading the two indices of a portal, ball2dutils/Ball2DSceneParser.cpp:389-450; 464-525 repeats it for `lees_edwards_portal`.
`n` is the number of planes. -/
def readPair (n : Nat) (pairs : List (Nat × Nat)) (nd : PortalNode) : Outcome (Nat × Nat) :=
  nd.planeA.read.bind fun a =>
    if a ≥ n then .fail else
    nd.planeB.read.bind fun b =>
      if b ≥ n then .fail else
      if a = b then .fail else
      (checkUnused a b pairs).bind fun _ => .ok (a, b)

/-- The loop over `planar_portal` nodes, ball2dutils/Ball2DSceneParser.cpp:387-455: the pairs, with velocity and bounds zero -/
def loadPlanar {K : Type} [Zero K] (n : Nat) : List PortalNode → List ((Nat × Nat) × K × K) → Outcome (List ((Nat × Nat) × K × K))
  | [], acc => .ok acc
  | nd :: rest, acc => (readPair n (acc.map (·.1)) nd).bind fun p => loadPlanar n rest (acc ++ [(p, 0, 0)])

/-- The loop over `lees_edwards_portal` nodes, ball2dutils/Ball2DSceneParser.cpp:458-560. `badBounds` is the test on the bounds, which differs:
`bounds <= 0.0` in ball2dutils/Ball2DSceneParser.cpp:551, `bounds < 0` in rigidbody2dutils/RigidBody2DSceneParser.cpp:464. -/
def loadLeesEdwards {K : Type} (badBounds : K → Bool) (n : Nat) : List (LeesEdwardsNode K) → List ((Nat × Nat) × K × K) → Outcome (List ((Nat × Nat) × K × K))
  | [], acc => .ok acc
  | nd :: rest, acc =>
    (readPair n (acc.map (·.1)) nd.planes).bind fun p =>
      nd.v.read.bind fun v =>
        nd.bounds.read.bind fun bounds =>
          if badBounds bounds then .fail else loadLeesEdwards badBounds n rest (acc ++ [(p, v, bounds)])

/-- The portals, ball2dutils/Ball2DSceneParser.cpp:564-567. An index outside the planes is undefined behaviour. -/
def buildPortals {P D : Type} (planes : List P) : List ((Nat × Nat) × D) → Outcome (List (LoadedPortal P D))
  | [] => .ok []
  | ((a, b), d) :: rest =>
    match planes[a]?, planes[b]? with
    | some pa, some pb => (buildPortals planes rest).bind fun ps => .ok (⟨pa, pb, d⟩ :: ps)
    | _, _ => .ub

/-- Erasing the planes at the given indices, one after the other, ball2dutils/Ball2DSceneParser.cpp:578-581. Erasing outside the vector is undefined
behaviour. -/
def eraseEach {P : Type} : List Nat → List P → Outcome (List P)
  | [], planes => .ok planes
  | i :: rest, planes => if i < planes.length then eraseEach rest (planes.eraseIdx i) else .ub

/-- The indices of all planes used by portals, ball2dutils/Ball2DSceneParser.cpp:571-576 -/
def usedIndices {D : Type} (pairs : List ((Nat × Nat) × D)) : List Nat := pairs.flatMap fun p => [p.1.1, p.1.2]

/-- The creation of the portals and the removal of their planes, ball2dutils/Ball2DSceneParser.cpp:562-582. The indices are sorted and removed from the
last to the first. -/
def finishPortals {P D : Type} (planes : List P) (pairs : List ((Nat × Nat) × D)) : Outcome (List P × List (LoadedPortal P D)) :=
  (buildPortals planes pairs).bind fun portals =>
    (eraseEach ((usedIndices pairs).insertionSort (· ≤ ·)).reverse planes).bind fun planes' => .ok (planes', portals)

/-- `bounds <= 0.0`, ball2dutils/Ball2DSceneParser.cpp:551: the bounds must be positive -/
def ballBadBounds (b : ℚ) : Bool := decide (b ≤ 0)

/-- `bounds < 0`, rigidbody2dutils/RigidBody2DSceneParser.cpp:464: zero is accepted as well, although the message says that the bounds must be positive -/
def rigidBadBounds (b : ℚ) : Bool := decide (b < 0)

/-- `loadPlanarPortals`, ball2dutils/Ball2DSceneParser.cpp:369-585 and rigidbody2dutils/RigidBody2DSceneParser.cpp:284-504: the planes that are left and
the portals -/
def loadPlanarPortals {P K : Type} [Zero K] (badBounds : K → Bool) (planes : List P) (nodes : List PortalNode) (leNodes : List (LeesEdwardsNode K)) :
    Outcome (List P × List (LoadedPortal P (K × K))) :=
  if nodes.isEmpty ∧ leNodes.isEmpty then .ok (planes, [])
  else if planes.length < 2 then .fail
  else
    (loadPlanar planes.length nodes []).bind fun acc =>
      (loadLeesEdwards badBounds planes.length leNodes acc).bind fun pairs => finishPortals planes pairs

/-! ## Three dimensions -/

/-- A `planar_portal` node in three dimensions. `multiplier` is malformed unless its three numbers are 1 or -1,
rigidbody3dutils/RigidBody3DSceneParser.cpp:634-650. -/
structure PortalNode3 (M : Type) where
  planes : PortalNode
  multiplier : XmlAttr M

/-- `PlaneRendererState`, rigidbody3dutils/RenderingState.cpp:9-34 -/
structure PlaneRenderer (W : Type) where
  index : Nat
  r : W
deriving DecidableEq

/-- A `static_plane_renderer` node; `r` is malformed unless its two numbers are not negative -/
structure PlaneRendererNode (W : Type) where
  plane : XmlAttr Nat
  r : XmlAttr W

/-- The loop of `loadStaticPlaneRenderers`, rigidbody3dutils/RigidBody3DSceneParser.cpp:799-840 -/
def readRenderers {W : Type} (n : Nat) : List (PlaneRendererNode W) → List (PlaneRenderer W) → Outcome (List (PlaneRenderer W))
  | [], acc => .ok acc
  | nd :: rest, acc =>
    nd.plane.read.bind fun idx =>
      if idx > n then .fail else
      nd.r.read.bind fun r => readRenderers n rest (acc ++ [⟨idx, r⟩])

/-- `loadStaticPlaneRenderers`, rigidbody3dutils/RigidBody3DSceneParser.cpp:797-845. `std::sort` leaves open the order of renderers with the same index; here it
is kept. -/
def loadStaticPlaneRenderers {W : Type} (n : Nat) (nodes : List (PlaneRendererNode W)) : Outcome (List (PlaneRenderer W)) :=
  (readRenderers n nodes []).bind fun rs => .ok (rs.insertionSort fun a b => a.index ≤ b.index)

/-- The loop over the nodes, rigidbody3dutils/RigidBody3DSceneParser.cpp:568-652 -/
def loadPlanar3 {M : Type} (n : Nat) : List (PortalNode3 M) → List ((Nat × Nat) × M) → Outcome (List ((Nat × Nat) × M))
  | [], acc => .ok acc
  | nd :: rest, acc =>
    (readPair n (acc.map (·.1)) nd.planes).bind fun p => nd.multiplier.read.bind fun m => loadPlanar3 n rest (acc ++ [(p, m)])

/-- `PlanarPortalRendererState`: the index of the portal and the half widths -/
structure PortalRenderer (W : Type) where
  portal : Nat
  halfWidth0 : W
  halfWidth1 : W
deriving DecidableEq

/-- The half widths of the planes of a portal, rigidbody3dutils/RigidBody3DSceneParser.cpp:657-669: those of the last renderer of each plane, else zero -/
def portalWidths {W : Type} (a b : Nat) : List (PlaneRenderer W) → W × W → W × W
  | [], w => w
  | pr :: rest, (w0, w1) =>
    if pr.index = a then portalWidths a b rest (pr.r, w1)
    else if pr.index = b then portalWidths a b rest (w0, pr.r)
    else portalWidths a b rest (w0, w1)

/-- The portal renderers, rigidbody3dutils/RigidBody3DSceneParser.cpp:654-674. `i` counts the portals. -/
def portalRenderers {W M : Type} [Zero W] [DecidableEq W] (renderers : List (PlaneRenderer W)) : Nat → List ((Nat × Nat) × M) → List (PortalRenderer W)
  | _, [] => []
  | i, ((a, b), _) :: rest =>
    let (w0, w1) := portalWidths a b renderers (0, 0)
    if w0 ≠ 0 ∨ w1 ≠ 0 then ⟨i, w0, w1⟩ :: portalRenderers renderers (i + 1) rest else portalRenderers renderers (i + 1) rest

/-- Removing the planes and their renderers, rigidbody3dutils/RigidBody3DSceneParser.cpp:686-696 -/
def eraseEach3 {P W : Type} : List Nat → List P → List (PlaneRenderer W) → Outcome (List P × List (PlaneRenderer W))
  | [], planes, rs => .ok (planes, rs)
  | i :: rest, planes, rs => if i < planes.length then eraseEach3 rest (planes.eraseIdx i) (rs.filter fun r => r.index ≠ i) else .ub

/-- One pass of the renumbering loop, rigidbody3dutils/RigidBody3DSceneParser.cpp:707-721: all new indices from the first old index that is larger than the
removed one are decremented. -/
def decrementFrom (removed : Nat) : List Nat → List Nat → List Nat
  | o :: olds, x :: xs => if o > removed then (x :: xs).map (· - 1) else x :: decrementFrom removed olds xs
  | _, xs => xs

/-- The renumbering of the renderers, rigidbody3dutils/RigidBody3DSceneParser.cpp:697-725 -/
def renumberRenderers {W : Type} (indices : List Nat) (rs : List (PlaneRenderer W)) : List (PlaneRenderer W) :=
  let olds := rs.map (·.index)
  let news := indices.foldl (fun acc removed => decrementFrom removed olds acc) olds
  rs.zipWith (fun r n => ⟨n, r.r⟩) news

/-- The result of loading portals in three dimensions -/
structure Loaded3 (P M W : Type) where
  planes : List P
  portals : List (LoadedPortal P M)
  planeRenderers : List (PlaneRenderer W)
  portalRenderers : List (PortalRenderer W)

/-- `loadPlanarPortals`, rigidbody3dutils/RigidBody3DSceneParser.cpp:549-736.  -/
def loadPlanarPortals3 {P M W : Type} [Zero W] [DecidableEq W] (planes : List P) (renderers : List (PlaneRenderer W)) (nodes : List (PortalNode3 M)) :
    Outcome (Loaded3 P M W) :=
  if nodes.isEmpty then .ok ⟨planes, [], renderers, []⟩
  else if planes.length < 2 then .fail
  else
    (loadPlanar3 planes.length nodes []).bind fun pairs =>
      (buildPortals planes pairs).bind fun portals =>
        let indices := ((usedIndices pairs).insertionSort (· ≤ ·)).reverse
        (eraseEach3 indices planes renderers).bind fun (planes', rs) =>
          .ok ⟨planes', portals, renumberRenderers indices rs, portalRenderers renderers 0 pairs⟩

end Scisim
