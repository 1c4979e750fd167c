import Verif.Model.ScenePortals
/-!
# What loading portals is expected to do
-/

namespace Scisim

/-- The node names the two planes `p` -/
def PortalNode.Names (nd : PortalNode) (p : Nat × Nat) : Prop := nd.planeA = .value p.1 ∧ nd.planeB = .value p.2

/-- The planes of a list whose positions are not among `named`, in their order -/
def untouched {P : Type} (planes : List P) (named : List Nat) : List P := (planes.zipIdx.filter fun p => p.2 ∉ named).map (·.1)

/-- The positions of the planes mentioned by a list of pairs -/
def positions (pairs : List (Nat × Nat)) : List Nat := pairs.flatMap fun p => [p.1, p.2]

/-- The portal joins the planes at the two positions and has the given data -/
def LoadedPortal.Joins {P D : Type} (q : LoadedPortal P D) (planes : List P) (p : Nat × Nat) (d : D) : Prop :=
  planes[p.1]? = some q.planeA ∧ planes[p.2]? = some q.planeB ∧ q.data = d

/-- The half width of the last renderer of the plane at a position; zero if there is none -/
def lastWidth {W : Type} [Zero W] (rs : List (PlaneRenderer W)) (i : Nat) : W := (((rs.filter fun r => r.index = i).getLast?).map (·.r)).getD 0

end Scisim
