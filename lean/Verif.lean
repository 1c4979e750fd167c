import Verif.Props.Rational
import Verif.Props.Parsing
import Verif.Props.Strings
import Verif.Props.Codec
import Verif.Props.ImpulseCache
import Verif.Props.Snapshot
import Verif.Props.CLI
import Verif.Props.Grid
import Verif.Props.CCD
import Verif.Props.Portal
import Verif.Props.BallContacts
import Verif.Props.Dynamics
import Verif.Props.Rotations
import Verif.Props.Impact
import Verif.Props.ImpactLCP
import Verif.Props.Maps
import Verif.Props.Solvers
import Verif.Props.Residuals
import Verif.Props.Staggered
import Verif.Props.Frames
import Verif.Props.Edits
import Verif.Props.Geometry2D
import Verif.Props.BoxBox
import Verif.Props.Geometry3D
import Verif.Props.Mass
import Verif.Props.SparseMatrix
import Verif.Props.Checks
import Verif.Props.ScenePortals
import Verif.Props.MassMatrix
import Verif.Props.RigidContacts2D
import Verif.Props.RigidContactList2D
import Verif.Spec.RigidPortals2D
import Verif.Lemmas.RigidPortals2D
import Verif.Props.RigidPortals2D
import Verif.Props.Portal3D
import Verif.Props.RigidContacts3D
import Verif.Props.RigidContactList3D
import Verif.Spec.RigidPortals3D
import Verif.Lemmas.RigidPortals3D
import Verif.Props.RigidPortals3D
import Verif.Props.Statistics
import Verif.Props.Boundary3D
import Verif.Props.Snapshot3D
import Verif.Props.Sobogus
import Verif.Props.Scripting
import Verif.Props.DistanceField
import Verif.Props.HDF5
import Verif.Props.ForceOutput
import Verif.Model.SceneText
import Verif.Model.SceneSolvers
import Verif.Model.SceneBall2D
import Verif.Spec.SceneText
import Verif.Spec.SceneSolvers
import Verif.Spec.SceneSafe
import Verif.Spec.SceneBall2D
import Verif.Lemmas.SceneText
import Verif.Lemmas.SceneReading
import Verif.Lemmas.SceneSolvers
import Verif.Lemmas.SceneSafe
import Verif.Lemmas.SceneBall2D
import Verif.Props.SceneBall2D
import Verif.Model.SceneRigid2D
import Verif.Spec.SceneRigid2D
import Verif.Lemmas.SceneRigid2D
import Verif.Props.SceneRigid2D
import Verif.Model.SceneRigid3D
import Verif.Spec.SceneRigid3D
import Verif.Lemmas.SceneRigid3D
import Verif.Props.SceneRigid3D
import Verif.Model.BoxBox3D
import Verif.Spec.BoxBox3D
import Verif.Lemmas.BoxClip
import Verif.Lemmas.SeparatingAxis3D
import Verif.Lemmas.BoxBox3D
import Verif.Lemmas.BoxFace3D
import Verif.Lemmas.BoxEdge3D
import Verif.Lemmas.BoxPair3D
import Verif.Lemmas.BoxBeams3D
import Verif.Props.BoxBox3D
import Verif.Model.Segments3D
import Verif.Lemmas.Segments3D
import Verif.Props.Segments3D
import Verif.Model.ExternalSolvers
import Verif.Spec.ExternalSolvers
import Verif.Lemmas.ExternalSolvers
import Verif.Lemmas.ExternalAnswers
import Verif.Props.ExternalSolvers
import Verif.Model.Viewer
import Verif.Spec.Viewer
import Verif.Lemmas.Viewer
import Verif.Props.Viewer
import Verif.Props.ViewerMovie
import Verif.Props.ViewerControls
import Verif.Props.ViewerExamples
import Verif.Model.Camera
import Verif.Spec.Camera
import Verif.Lemmas.Camera
import Verif.Props.Camera
import Verif.Model.Camera3D
import Verif.Spec.Camera3D
import Verif.Lemmas.Camera3D
import Verif.Lemmas.Camera3DView
import Verif.Props.Camera3D
import Verif.Model.XmlExport
import Verif.Spec.XmlExport
import Verif.Lemmas.XmlExport
import Verif.Props.XmlExport
import Verif.Model.Picture2D
import Verif.Spec.Picture2D
import Verif.Lemmas.Picture2D
import Verif.Props.Picture2D
import Verif.Model.Picture3D
import Verif.Spec.Picture3D
import Verif.Lemmas.Picture3D
import Verif.Lemmas.Picture3DBodies
import Verif.Lemmas.Picture3DScene
import Verif.Lemmas.Picture3DLines
import Verif.Props.Picture3D
import Verif.Model.PostProcessing
import Verif.Spec.PostProcessing
import Verif.Lemmas.PostProcessing
import Verif.Props.PostProcessing
import Verif.Model.PythonRefs
import Verif.Spec.PythonRefs
import Verif.Lemmas.PythonRefs
import Verif.Props.PythonRefs
import Verif.Model.CommandLine
import Verif.Spec.CommandLine
import Verif.Lemmas.CommandLine
import Verif.Props.CommandLine
import Verif.Model.Texts
import Verif.Spec.Texts
import Verif.Lemmas.Texts
import Verif.Props.Texts
import Verif.Model.Handles
import Verif.Spec.Handles
import Verif.Lemmas.Handles
import Verif.Props.Handles
import Verif.Model.Copies
import Verif.Spec.Copies
import Verif.Lemmas.Copies
import Verif.Props.Copies
import Verif.Model.StaggeredError
import Verif.Spec.StaggeredError
import Verif.Lemmas.StaggeredError
import Verif.Props.StaggeredError
import Verif.Model.OperatorCopies
import Verif.Spec.OperatorCopies
import Verif.Lemmas.OperatorCopies
import Verif.Props.OperatorCopies
import Verif.Model.Colours
import Verif.Spec.Colours
import Verif.Lemmas.Colours
import Verif.Props.Colours
import Verif.Model.Products
import Verif.Spec.Products
import Verif.Lemmas.Products
import Verif.Props.Products
import Verif.Model.PlaneFrames
import Verif.Spec.PlaneFrames
import Verif.Lemmas.PlaneFrames
import Verif.Props.PlaneFrames
