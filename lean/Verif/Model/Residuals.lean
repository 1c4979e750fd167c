import Verif.Model.Solvers
import Verif.Model.Vec2
/-!
# Residuals of candidate impulses

scisim/ConstrainedMaps/ImpactMaps/FischerBurmeisterImpact.cpp and scisim/ConstrainedMaps/FrictionMaps/FischerBurmeister{Smooth,BoundConstrained}.cpp, over exact reals.
`MinMapImpact` is `minMapImpact` in `Model/Solvers.lean`.
-/

namespace Scisim

/-- `sqrt( x * x + y * y ) - x - y` in absolute value, FischerBurmeisterImpact.cpp:15 -/
noncomputable def fbTerm (x y : ℝ) : ℝ := |Real.sqrt (x * x + y * y) - x - y|

open Classical in
/-- `if( fb > inf_norm ) { inf_norm = fb; }`, FischerBurmeisterImpact.cpp:16-19 -/
noncomputable def keepLarger (infNorm fb : ℝ) : ℝ := if infNorm < fb then fb else infNorm

/-- `fischerBurmeisterInfinityNorm` and `FischerBurmeisterImpact::operator()`, FischerBurmeisterImpact.cpp:7-27; the same function is repeated in
FischerBurmeisterBoundConstrained.cpp:16-29 -/
noncomputable def fischerBurmeisterImpact {n : Nat} (x y : Fin n → ℝ) : ℝ :=
  (List.ofFn fun i => fbTerm (x i) (y i)).foldl keepLarger 0

/-- Eigen `norm` of a `Vector2s` -/
noncomputable def V2.norm (a : V2 ℝ) : ℝ := Real.sqrt a.normSq

open Classical in
/-- `getSignedTangentMagnitude`, FischerBurmeisterSmooth.cpp:18-46 -/
noncomputable def signedTangentMagnitude (x : V2 ℝ) (c : ℝ) (grad : V2 ℝ) : ℝ :=
  if c ≤ x.norm then
    if 0 < x.norm then
      -(grad - grad.dot ((1 / x.norm) • x) • ((1 / x.norm) • x)).norm
    else if c = 0 then 0
    else -(grad - grad.dot 0 • (0 : V2 ℝ)).norm
  else grad.norm

/-- The body of the loop of `FischerBurmeisterSmooth::operator()`, FischerBurmeisterSmooth.cpp:58-61 -/
noncomputable def smoothTerm (c : ℝ) (beta vrel : V2 ℝ) : ℝ := fbTerm (signedTangentMagnitude beta c vrel) (c - beta.norm)

/-- `FischerBurmeisterSmooth::operator()`, FischerBurmeisterSmooth.cpp:48-69; `beta.segment<2>( 2 * i )` is `beta i` -/
noncomputable def fischerBurmeisterSmooth {n : Nat} (c : Fin n → ℝ) (beta vrel : Fin n → V2 ℝ) : ℝ :=
  (List.ofFn fun i => smoothTerm (c i) (beta i) (vrel i)).foldl keepLarger 0

open Classical in
/-- `lambda( i )`, FischerBurmeisterBoundConstrained.cpp:36-50 -/
noncomputable def boundLambda (c beta vrel : ℝ) : ℝ :=
  if c = 0 then 0 else if beta ≤ -c then min vrel 0 else if c ≤ beta then max vrel 0 else vrel

/-- `FischerBurmeisterBoundConstrained::operator()`, FischerBurmeisterBoundConstrained.cpp:31-56 -/
noncomputable def fischerBurmeisterBound {n : Nat} (c beta vrel : Fin n → ℝ) : ℝ :=
  fischerBurmeisterImpact (fun i => boundLambda (c i) (beta i) (vrel i)) (fun i => c i - |beta i|)

end Scisim
