import Verif.Spec.SceneSolvers
import Verif.Spec.ScenePortals
import Verif.Model.SceneBall2D
/-!
# What a scene file of the simulation of balls describes

`R` says how the texts of attributes are understood: `exactReading` is the format, `lenientReading` what the code accepts.
-/

namespace Scisim

/-- The name of the callback, empty if there is none -/
def DescribesScript (root : XmlNode) (s : String) : Prop :=
  (root.first "scripting" = none ∧ s = "") ∨ ∃ nd, root.first "scripting" = some nd ∧ nd.attr "callback" = some s

/-- The end time, infinite (`none`) if there is none -/
def DescribesEnd (R : SceneReading) (root : XmlNode) (t : Option ℚ) : Prop :=
  (root.first "end_time" = none ∧ t = none) ∨ ∃ nd x, root.first "end_time" = some nd ∧ nd.Number R "t" x ∧ 0 < x ∧ t = some x

def IsGravity (R : SceneReading) (nd : XmlNode) (f : ForceElement) : Prop :=
  ∃ fx fy, nd.BareNumber R "fx" fx ∧ nd.BareNumber R "fy" fy ∧ f = .gravity fx fy

def IsPenalty (R : SceneReading) (nd : XmlNode) (f : ForceElement) : Prop :=
  ∃ k p, nd.Number R "stiffness" k ∧ 0 ≤ k ∧ nd.Number R "potential_power" p ∧ f = .penalty k p

/-- The timestep and its text -/
def IsStep (R : SceneReading) (nd : XmlNode) (text : String) (dt : Rat64) : Prop := nd.attr "dt" = some text ∧ R.timestep text.toList dt

def IsBallIntegrator (nd : XmlNode) (i : BallIntegrator) : Prop :=
  (nd.attr "type" = some "verlet" ∧ i = .verlet) ∨ (nd.attr "type" = some "symplectic_euler" ∧ i = .symplecticEuler)

def IsDrum (R : SceneReading) (nd : XmlNode) (d : DrumElement) : Prop :=
  nd.BareNumber R "x" d.x ∧ nd.BareNumber R "y" d.y ∧ nd.BareNumber R "r" d.r

def IsPlane (R : SceneReading) (nd : XmlNode) (p : PlaneElement) : Prop :=
  (∃ t, nd.attr "x" = some t ∧ R.numbers t.toList [p.x.1, p.x.2]) ∧ ∃ t, nd.attr "n" = some t ∧ R.numbers t.toList [p.n.1, p.n.2]

def IsBall (R : SceneReading) (nd : XmlNode) (c : BallElement) : Prop :=
  nd.BareNumber R "x" c.x ∧ nd.BareNumber R "y" c.y ∧ nd.BareNumber R "vx" c.vx ∧ nd.BareNumber R "vy" c.vy ∧
    nd.BareNumber R "m" c.m ∧ nd.BareNumber R "r" c.r ∧ nd.BareFlag R "fixed" c.fixed

/-- The element names the two planes -/
def NamesPlanes (R : SceneReading) (nd : XmlNode) (p : ℕ × ℕ) : Prop := nd.Unsigned R "planeA" p.1 ∧ nd.Unsigned R "planeB" p.2

/-- Portals and the planes that are left, given all planes: each portal joins the two planes it names, no plane is named twice, Lees-Edwards portals have a
velocity and bounds that pass the test -/
def DescribesPortals {P : Type} (R : SceneReading) (admitted : ℚ → Prop) (root : XmlNode) (planes left : List P) (portals : List (LoadedPortal P (ℚ × ℚ))) : Prop :=
  ∃ (pairs lePairs : List (ℕ × ℕ)) (leData : List (ℚ × ℚ)) (planar leesEdwards : List (LoadedPortal P (ℚ × ℚ))),
    List.Forall₂ (NamesPlanes R) (root.all "planar_portal") pairs ∧
    List.Forall₂ (NamesPlanes R) (root.all "lees_edwards_portal") lePairs ∧
    List.Forall₂ (fun nd d => nd.Number R "v" d.1 ∧ nd.Number R "bounds" d.2 ∧ admitted d.2) (root.all "lees_edwards_portal") leData ∧
    (positions (pairs ++ lePairs)).Nodup ∧ (∀ i ∈ positions (pairs ++ lePairs), i < planes.length) ∧
    portals = planar ++ leesEdwards ∧
    List.Forall₂ (fun p q => LoadedPortal.Joins q planes p (0, 0)) pairs planar ∧
    List.Forall₂ (fun (x : (ℕ × ℕ) × ℚ × ℚ) q => LoadedPortal.Joins q planes x.1 x.2) (lePairs.zip leData) leesEdwards ∧
    left = untouched planes (positions (pairs ++ lePairs))

/-- The scene file describes the scene -/
def DescribesBallScene (R : SceneReading) (b : Build) (doc : XmlNode) (s : BallScene) : Prop :=
  ∃ root, doc.first "ball2d_scene" = some root ∧
    DescribesScript root s.script ∧ DescribesEnd R root s.endTime ∧
    (∃ g p, List.Forall₂ (IsGravity R) (root.all "gravity") g ∧ List.Forall₂ (IsPenalty R) (root.all "penalty") p ∧ s.forces = g ++ p) ∧
    (∃ nd, root.first "integrator" = some nd ∧ IsStep R nd s.dtText s.dt ∧ IsBallIntegrator nd s.integrator) ∧
    (∃ c, DescribesContacts R b .balls2D root c ∧ s.solvers = c.setup) ∧
    List.Forall₂ (IsDrum R) (root.all "static_drum") s.drums ∧
    (∃ planes, List.Forall₂ (IsPlane R) (root.all "static_plane") planes ∧ DescribesPortals R (fun x => 0 < x) root planes s.planes s.portals) ∧
    ∃ balls, List.Forall₂ (IsBall R) (root.all "ball") balls ∧ s.q = balls.flatMap (fun c => [c.x, c.y]) ∧ s.v = balls.flatMap (fun c => [c.vx, c.vy]) ∧
      s.m = balls.flatMap (fun c => [c.m, c.m]) ∧ s.r = balls.map (·.r) ∧ s.fixed = balls.map (·.fixed)

/-- The scene file describes the camera; `none` if there is none -/
def DescribesBallCamera (R : SceneReading) (doc : XmlNode) (c : Option BallCamera) : Prop :=
  ∃ root, doc.first "ball2d_scene" = some root ∧
    ((root.first "camera" = none ∧ c = none) ∨ ∃ nd k, root.first "camera" = some nd ∧ c = some k ∧ nd.Number R "cx" k.cx ∧ nd.Number R "cy" k.cy ∧
      nd.Number R "scale_factor" k.scale ∧ nd.Unsigned R "fps" k.fps ∧ nd.Flag R "render_at_fps" k.renderAtFps ∧ nd.Flag R "locked" k.locked)

/-- The attributes whose texts are not checked: none of them is empty or white space -/
def BallTextsPresent (root : XmlNode) : Prop :=
  (∀ nd ∈ root.all "gravity", ∀ a ∈ ["fx", "fy"], ∀ t, nd.attr a = some t → ¬ Blank t.toList) ∧
  (∀ nd ∈ root.all "static_drum", ∀ a ∈ ["x", "y", "r"], ∀ t, nd.attr a = some t → ¬ Blank t.toList) ∧
  ∀ nd ∈ root.all "ball", ∀ a ∈ ["x", "y", "vx", "vy", "m", "r", "fixed"], ∀ t, nd.attr a = some t → ¬ Blank t.toList

end Scisim
