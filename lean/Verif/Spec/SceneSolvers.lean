import Verif.Spec.SceneText
import Verif.Model.SceneSolvers
/-!
# What the elements of a scene file that choose solvers mean

`R` says how the texts of attributes are understood.
-/

namespace Scisim

namespace XmlNode

/-- The attribute `a` is there and is the number `q`; likewise below -/
def Number (R : SceneReading) (nd : XmlNode) (a : String) (q : ℚ) : Prop := ∃ t, nd.attr a = some t ∧ R.number t.toList q
def BareNumber (R : SceneReading) (nd : XmlNode) (a : String) (q : ℚ) : Prop := ∃ t, nd.attr a = some t ∧ R.bareNumber t.toList q
def Flag (R : SceneReading) (nd : XmlNode) (a : String) (b : Bool) : Prop := ∃ t, nd.attr a = some t ∧ R.flag t.toList b
def BareFlag (R : SceneReading) (nd : XmlNode) (a : String) (b : Bool) : Prop := ∃ t, nd.attr a = some t ∧ R.bareFlag t.toList b
def Int (R : SceneReading) (nd : XmlNode) (a : String) (z : ℤ) : Prop := ∃ t, nd.attr a = some t ∧ R.int t.toList z
def Unsigned (R : SceneReading) (nd : XmlNode) (a : String) (n : ℕ) : Prop := ∃ t, nd.attr a = some t ∧ R.unsigned t.toList n
def Words (nd : XmlNode) (a : String) (l : List (List Char)) : Prop := ∃ t, nd.attr a = some t ∧ AreWords t.toList l

end XmlNode

/-- An element that names an LCP solver -/
inductive NamesLcp (R : SceneReading) (b : Build) (p : SceneProgram) (nd : XmlNode) : LcpChoice → Prop where
  | apgd {tol : ℚ} {n : ℕ} (hp : p = .balls2D) (hn : nd.attr "name" = some "apgd") (ht : nd.Number R "tol" tol) (hpos : 0 < tol)
      (hi : nd.Unsigned R "max_iters" n) : NamesLcp R b p nd (.apgd tol n)
  | qlVp {tol : ℚ} (hb : b.ql = true) (hn : nd.attr "name" = some "ql_vp") (ht : nd.Number R "tol" tol) : NamesLcp R b p nd (.qlVp tol)
  | ql {tol : ℚ} (hb : b.ql = true) (hn : nd.attr "name" = some "ql") (ht : nd.Number R "tol" tol) : NamesLcp R b p nd (.ql tol)
  | ipopt {tol : ℚ} {l : List (List Char)} (hb : b.ipopt = true) (hn : nd.attr "name" = some "ipopt") (hl : nd.Words "linear_solvers" l) (hne : l ≠ [])
      (ht : nd.Number R "tol" tol) (hpos : 0 < tol) : NamesLcp R b p nd (.ipopt l tol)

/-- An element that describes an impact operator -/
inductive NamesImpact (R : SceneReading) (b : Build) (p : SceneProgram) : XmlNode → ImpactChoice → Prop where
  | gaussSeidel {nd : XmlNode} {tol : ℚ} (h : nd.attr "type" = some "gauss_seidel") (ht : nd.Number R "v_tol" tol) (h0 : 0 ≤ tol) :
      NamesImpact R b p nd (.gaussSeidel tol)
  | jacobi {nd : XmlNode} {tol : ℚ} (h : nd.attr "type" = some "jacobi") (ht : nd.Number R "v_tol" tol) (h0 : 0 ≤ tol) : NamesImpact R b p nd (.jacobi tol)
  | lcp {nd c : XmlNode} {l : LcpChoice} (h : nd.attr "type" = some "lcp") (hc : nd.first "solver" = some c) (hl : NamesLcp R b p c l) :
      NamesImpact R b p nd (.lcp l)
  | gr {nd c : XmlNode} {tol : ℚ} {l : LcpChoice} (h : nd.attr "type" = some "gr") (ht : nd.Number R "v_tol" tol) (h0 : 0 ≤ tol)
      (hc : nd.first "solver" = some c) (hl : NamesLcp R b p c l) : NamesImpact R b p nd (.gr tol l)
  | grr {nd c d : XmlNode} {e i : ImpactChoice} (h : nd.attr "type" = some "grr") (hc : nd.first "elastic_operator" = some c)
      (hd : nd.first "inelastic_operator" = some d) (he : NamesImpact R b p c e) (hi : NamesImpact R b p d i) : NamesImpact R b p nd (.grr e i)

/-- An element that names a friction operator. There is none in two dimensional rigid bodies. -/
inductive NamesFrictionOp (R : SceneReading) (b : Build) (nd : XmlNode) : SceneProgram → FrictionOpChoice → Prop where
  | ql {tol : ℚ} (hb : b.ql = true) (hn : nd.attr "name" = some "ql") (ht : nd.Number R "tol" tol) (h0 : 0 ≤ tol) : NamesFrictionOp R b nd .balls2D (.ql tol)
  | ipopt {tol : ℚ} {l : List (List Char)} (hb : b.ipopt = true) (hn : nd.attr "name" = some "ipopt") (hl : nd.Words "linear_solvers" l) (hne : l ≠ [])
      (ht : nd.Number R "tol" tol) (h0 : 0 ≤ tol) : NamesFrictionOp R b nd .rigidBody3D (.smoothIpopt l tol)

/-- Friction coefficient and coefficient of restitution -/
def Coefficients (R : SceneReading) (nd : XmlNode) (mu cor : ℚ) : Prop :=
  nd.Number R "mu" mu ∧ 0 ≤ mu ∧ nd.Number R "CoR" cor ∧ 0 ≤ cor ∧ cor ≤ 1

/-- Tolerance and number of iterations -/
def Termination (R : SceneReading) (nd : XmlNode) (tol : ℚ) (n : ℕ) : Prop := nd.Number R "tol" tol ∧ 0 ≤ tol ∧ nd.Int R "max_iters" n ∧ 0 < n

/-- An element that describes staggered projections -/
def DescribesStaggered (R : SceneReading) (b : Build) (p : SceneProgram) (nd : XmlNode) (f : FrictionSetup) : Prop :=
  ∃ (wa wb : Bool) (ic fc : XmlNode) (lcp : LcpChoice) (fr : FrictionOpChoice) (tol : ℚ) (n : ℕ),
    Coefficients R nd f.mu f.CoR ∧ nd.Flag R "internal_warm_start_alpha" wa ∧ nd.Flag R "internal_warm_start_beta" wb ∧
    nd.first "lcp_impact_solver" = some ic ∧ NamesLcp R b p ic lcp ∧ nd.first "mdp_friction_solver" = some fc ∧ NamesFrictionOp R b fc p fr ∧
    Termination R nd tol n ∧ f.solver = .staggered wa wb lcp fr ∧
    ((nd.attr "staggering" = some "geometric" ∧ f.map = .geometric tol n .none) ∨ (nd.attr "staggering" = some "stabilized" ∧ f.map = .stabilized tol n))

/-- The cache option -/
def NamesCache (nd : XmlNode) : CacheChoice → Prop
  | .none => nd.attr "cache_impulses" = some "none"
  | .normal => nd.attr "cache_impulses" = some "normal"
  | .normalAndFriction => nd.attr "cache_impulses" = some "normal_and_friction"

/-- The map that an element for the So-bogus solver describes -/
inductive DescribesSobogusMap (R : SceneReading) (nd : XmlNode) (cor tol : ℚ) (n : ℕ) : SceneProgram → IfMapChoice → Prop where
  | geometric {p : SceneProgram} {c : CacheChoice} (hp : p ≠ .rigidBody3D) (h : nd.attr "staggering" = some "geometric") (hc : NamesCache nd c) :
      DescribesSobogusMap R nd cor tol n p (.geometric tol n c)
  /-- in three dimensions nothing is cached -/
  | geometric3 (h : nd.attr "staggering" = some "geometric") : DescribesSobogusMap R nd cor tol n .rigidBody3D (.geometric tol n .none)
  | symplecticEuler {p : SceneProgram} {c : CacheChoice} {st : Bool} {thr : ℚ} (hp : p ≠ .rigidBody2D) (h : nd.attr "staggering" = some "symplectic_euler")
      (h0 : cor = 0) (hc : NamesCache nd c) (hs : nd.Flag R "stabilization" st) (ht : nd.Number R "penetration_threshold" thr) (hn : 0 ≤ thr) :
      DescribesSobogusMap R nd cor tol n p (.symplecticEuler tol n c st thr)
  /-- the cache option must be `none` for balls, may be any in the second program, and is not looked at in the third -/
  | stabilized {p : SceneProgram} (h : nd.attr "staggering" = some "stabilized") (h1 : p = .balls2D → NamesCache nd .none)
      (h2 : p = .rigidBody2D → ∃ c, NamesCache nd c) : DescribesSobogusMap R nd cor tol n p (.stabilized tol n)

/-- An element that describes the So-bogus solver -/
def DescribesSobogus (R : SceneReading) (p : SceneProgram) (nd : XmlNode) (f : FrictionSetup) : Prop :=
  ∃ (tol : ℚ) (n every : ℕ), Coefficients R nd f.mu f.CoR ∧ Termination R nd tol n ∧ nd.Int R "eval_every" every ∧ 0 < every ∧ every ≤ n ∧
    f.solver = .sobogus every ∧ DescribesSobogusMap R nd f.CoR tol n p f.map

/-- An element that describes generalized restitution with friction -/
def DescribesGrr (R : SceneReading) (b : Build) (nd : XmlNode) (f : FrictionSetup) : Prop :=
  ∃ (ic fc : XmlNode) (im : ImpactChoice) (fr : FrictionOpChoice), Coefficients R nd f.mu f.CoR ∧
    nd.first "impact_operator" = some ic ∧ NamesImpact R b .rigidBody3D ic im ∧
    nd.first "friction_operator" = some fc ∧ NamesFrictionOp R b fc .rigidBody3D fr ∧ f.solver = .grr im fr ∧
    ((nd.attr "staggering" = some "geometric" ∧ f.map = .geometric 0 0 .none) ∨ (nd.attr "staggering" = some "stabilized" ∧ f.map = .stabilized 0 0))

/-- How contacts are resolved -/
inductive ContactChoice where
  /-- not at all -/
  | ignored
  /-- without friction; `cache` is absent in three dimensions -/
  | impact (op : ImpactChoice) (cache : Option Bool) (cor : ℚ)
  | friction (f : FrictionSetup)

/-- The scene file describes no solver, an impact operator, or one friction solver -/
inductive DescribesContacts (R : SceneReading) (b : Build) (p : SceneProgram) (root : XmlNode) : ContactChoice → Prop where
  | ignored (h1 : root.first "impact_operator" = none) (h2 : root.first "staggered_projections_friction_solver" = none)
      (h3 : root.first "sobogus_friction_solver" = none) (h4 : p = .rigidBody3D → root.first "grr_friction_solver" = none) : DescribesContacts R b p root .ignored
  | impact {nd : XmlNode} {op : ImpactChoice} {cache : Option Bool} {cor : ℚ} (h1 : root.first "impact_operator" = some nd)
      (h2 : root.first "staggered_projections_friction_solver" = none) (h3 : root.first "sobogus_friction_solver" = none)
      (h4 : p = .rigidBody3D → root.first "grr_friction_solver" = none) (hc : nd.Number R "CoR" cor)
      (hca : if p = .rigidBody3D then cache = none else ∃ c, nd.Flag R "cache_impulses" c ∧ cache = some c) (ho : NamesImpact R b p nd op) :
      DescribesContacts R b p root (.impact op cache cor)
  | staggered {nd : XmlNode} {f : FrictionSetup} (h1 : root.first "impact_operator" = none)
      (h2 : root.first "staggered_projections_friction_solver" = some nd) (h3 : root.first "sobogus_friction_solver" = none)
      (h4 : p = .rigidBody3D → root.first "grr_friction_solver" = none) (hf : DescribesStaggered R b p nd f) : DescribesContacts R b p root (.friction f)
  | sobogus {nd : XmlNode} {f : FrictionSetup} (h1 : root.first "impact_operator" = none)
      (h2 : root.first "staggered_projections_friction_solver" = none) (h3 : root.first "sobogus_friction_solver" = some nd)
      (h4 : p = .rigidBody3D → root.first "grr_friction_solver" = none) (hf : DescribesSobogus R p nd f) : DescribesContacts R b p root (.friction f)
  | grr {nd : XmlNode} {f : FrictionSetup} (hp : p = .rigidBody3D) (h1 : root.first "impact_operator" = none)
      (h2 : root.first "staggered_projections_friction_solver" = none) (h3 : root.first "sobogus_friction_solver" = none)
      (h4 : root.first "grr_friction_solver" = some nd) (hf : DescribesGrr R b nd f) : DescribesContacts R b p root (.friction f)

/-- What the programs make of it: `none` is a null pointer or NaN -/
def ContactChoice.setup : ContactChoice → SolverSetup
  | .ignored => ⟨none, none, none, none, none, none⟩
  | .impact op cache cor => ⟨some op, cache, some cor, none, none, none⟩
  | .friction f => ⟨none, none, some f.CoR, some f.solver, some f.mu, some f.map⟩

end Scisim
