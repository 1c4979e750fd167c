import Verif.Model.SceneRigid3D
/-!
# Writing a state of three dimensional rigid bodies as a scene file

rigidbody3dutils/XMLExporter.cpp. What is written is represented by the tree that rapidxml makes of it. File names with characters that have a meaning in XML are not modelled; the
file is supposed to be opened and written without error.
-/

namespace Scisim

/-- A geometry of the state, with what the exporter asks it for -/
inductive StoredGeometry where
  | sphere (r : ℝ)
  | box (w : Vec3)
  | staple (w l D : ℝ)
  | mesh (filename : String) (volume : ℝ)

/-- `volume`, for the geometries that get that far: rigidbody3d/Geometry/RigidBodySphere.cpp:63-66, RigidBodyTriangleMesh.cpp; the others end the program before -/
noncomputable def StoredGeometry.volume : StoredGeometry → ℝ
  | .sphere r => 4 * Real.pi * r * r * r / 3
  | .mesh _ v => v
  | _ => 0

/-- A body of the state: what `q`, `v` and the mass matrices hold of it, whether it is scripted, and the index of its geometry -/
structure StoredBody where
  state : BodyState3D
  fixed : Bool
  geo : ℕ

/-- An `unsigned` as `operator<<` writes it -/
def natText (n : ℕ) : List Char := if n < 10 then [Char.ofNat (48 + n)] else natText (n / 10) ++ [Char.ofNat (48 + n % 10)]
termination_by n

/-- A `bool` as `operator<<` writes it -/
def flagText (b : Bool) : List Char := if b then ['1'] else ['0']

/-- Three numbers with spaces between. `fmt` is `operator<<( std::ostream&, double )`. -/
def tripleText (fmt : ℝ → List Char) (v : Vec3) : List Char := fmt (v 0) ++ [' '] ++ fmt (v 1) ++ [' '] ++ fmt (v 2)

/-- The body of the first loop of `saveToXMLFile`, rigidbody3dutils/XMLExporter.cpp:29-56 -/
def exportGeometry (fmt : ℝ → List Char) : StoredGeometry → Outcome XmlNode
  | .sphere r => .ok (.mk "geometry" [("type", "sphere"), ("r", String.ofList (fmt r))] [])
  | .box _ => .exit
  | .staple _ _ _ => .exit
  | .mesh f _ => .ok (.mk "geometry" [("type", "mesh"), ("filename", f)] [])

/-- `matrixToAngleAxis`, rigidbody3dutils/XMLExporter.cpp:10-14; `aa` stands for the conversion to `Eigen::AngleAxis` (library code): an angle and an axis -/
noncomputable def rotationVector (aa : Mat3 → ℝ × Vec3) (R : Mat3) : Vec3 := (aa R).1 • (aa R).2

/-- The body of the second loop of `saveToXMLFile`, rigidbody3dutils/XMLExporter.cpp:59-80. An index outside the geometry is undefined. -/
noncomputable def exportBody (fmt : ℝ → List Char) (aa : Mat3 → ℝ × Vec3) (geometry : List StoredGeometry) (b : StoredBody) : Outcome XmlNode :=
  match geometry[b.geo]? with
  | none => .ub
  | some g =>
    let density := b.state.M / g.volume
    .ok (.mk "rigid_body_with_density" [("x", String.ofList (tripleText fmt b.state.x)), ("R", String.ofList (tripleText fmt (rotationVector aa b.state.R))),
      ("v", String.ofList (tripleText fmt b.state.v)), ("omega", String.ofList (tripleText fmt b.state.omega)), ("rho", String.ofList (fmt density)),
      ("fixed", String.ofList (flagText b.fixed)), ("geo_idx", String.ofList (natText b.geo))] [])

/-- `XMLExporter::saveToXMLFile`, rigidbody3dutils/XMLExporter.cpp:16-85; the document -/
noncomputable def saveToXML (fmt : ℝ → List Char) (aa : Mat3 → ℝ × Vec3) (geometry : List StoredGeometry) (bodies : List StoredBody) : Outcome XmlNode := do
  let gs ← mapNodes (exportGeometry fmt) geometry
  let bs ← mapNodes (exportBody fmt aa geometry) bodies
  .ok (.mk "" [] [.mk "rigidbody3d_scene" [] (gs ++ bs)])

end Scisim
