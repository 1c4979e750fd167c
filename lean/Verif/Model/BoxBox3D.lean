import Verif.Model.Rotations
import Mathlib.Algebra.Order.Monoid.WithTop
import Mathlib.Data.Matrix.Mul

/-!
# Boxes against boxes in space

rigidbody3d/Constraints/BoxBoxUtilities.cpp: the separating axis test on fifteen axes with its bias towards faces, the clipping of the incident face
against the reference face, and the contact points. Arithmetic is exact. The checks of debug builds (`assert`) are not modelled.
-/

namespace Scisim

open Matrix

/-- `R.col( k )` -/
def Mat3.column (R : Mat3) (k : Fin 3) : Vec3 := fun i => R i k

/-- rigidbody3d/Constraints/BoxBoxUtilities.cpp:18-37 `lineClosestApproach`: the values given to `alpha` and `beta` -/
noncomputable def lineClosestApproach (pa ua pb ub : Vec3) : ℝ × ℝ :=
  let p := pb - pa
  let uaub := ua ⬝ᵥ ub
  let q1 := ua ⬝ᵥ p
  let q2 := -(ub ⬝ᵥ p)
  let d := 1 - uaub * uaub
  if d ≤ 1 / 10000 then (0, 0)
  else ((q1 + uaub * q2) * (1 / d), (uaub * q1 + q2) * (1 / d))

/-- A point of the plane, two adjacent entries of the arrays of `intersectRectQuad` -/
abbrev Pt2 := Fin 2 → ℝ

/-- rigidbody3d/Constraints/BoxBoxUtilities.cpp:71-79 (and 86-93): a point is appended to the output; the flag says that `goto done` is taken, which is
when bit 3 of the count is set -/
def pushPoint (r : List Pt2) (p : Pt2) : List Pt2 × Bool := (r ++ [p], (r.length + 1).testBit 3)

/-- rigidbody3d/Constraints/BoxBoxUtilities.cpp:85-86: where the line from `p` to `next` crosses the chopping line -/
noncomputable def chopCrossing (h : Pt2) (dir : Fin 2) (sign : ℝ) (p next : Pt2) : Pt2 := fun k =>
  if k = dir then sign * h dir else p k + (next k - p k) / (next dir - p dir) * (sign * h dir - p dir)

open Classical in
/-- rigidbody3d/Constraints/BoxBoxUtilities.cpp:65-96: the loop over the points of the polygon that is chopped along `xy[dir] = sign * h[dir]`.
`first` is the first point of the polygon, `r` what has been written so far; the flag says that the loop was left by `goto done`. Arrays and
pointers are lists; the arrays have room for eight points, and the loop is left when there are eight. -/
noncomputable def chopLoop (h : Pt2) (dir : Fin 2) (sign : ℝ) (first : Pt2) : List Pt2 → List Pt2 → List Pt2 × Bool
  | [], r => (r, false)
  | p :: rest, r =>
    let inside := if sign * p dir < h dir then pushPoint r p else (r, false)
    if inside.2 then inside
    else
      let next := rest.headD first
      let cross := if (sign * p dir < h dir) ≠ (sign * next dir < h dir) then pushPoint inside.1 (chopCrossing h dir sign p next) else inside
      if cross.2 then cross else chopLoop h dir sign first rest cross.1

/-- rigidbody3d/Constraints/BoxBoxUtilities.cpp:56-101: the loops over `dir` and `sign`, given the pairs still to come -/
noncomputable def chopAll (h : Pt2) : List (Fin 2 × ℝ) → List Pt2 → List Pt2
  | [], q => q
  | (dir, sign) :: rest, q =>
    let r := chopLoop h dir sign (q.headD 0) q []
    if r.2 then r.1 else chopAll h rest r.1

/-- rigidbody3d/Constraints/BoxBoxUtilities.cpp:47-108 `intersectRectQuad`: the points of `ret` that are counted by the result -/
noncomputable def intersectRectQuad (h : Pt2) (quad : List Pt2) : List Pt2 := chopAll h [(0, -1), (0, 1), (1, -1), (1, 1)] quad

/-- The variables that the separating axis tests update: the smallest penetration so far, as a negative number, and the axis it belongs to.
`normalC` is not initialised in the program and is read only when one of the tests of edges has written it. -/
structure Sat3 where
  depth : WithBot ℝ
  normalC : Vec3
  invert : Bool
  code : Nat

/-- rigidbody3d/Constraints/BoxBoxUtilities.cpp:110-125 `axisAlignedSeperatingTest`; `none` when the axis separates the boxes -/
noncomputable def faceTest3 (dist widths : ℝ) (code : Nat) (st : Sat3) : Option Sat3 :=
  let penDepth := |dist| - widths
  if penDepth > 0 then none
  else if (penDepth : WithBot ℝ) > st.depth then some ⟨penDepth, st.normalC, decide (dist < 0), code⟩
  else some st

/-- rigidbody3d/Constraints/BoxBoxUtilities.cpp:127-150 `edgeEdgeSeparatingTest`; `none` when the axis separates the boxes -/
noncomputable def edgeTest3 (dist widths n1 n2 n3 : ℝ) (code : Nat) (st : Sat3) : Option Sat3 :=
  let s2 := |dist| - widths
  if s2 > 0 then none
  else
    let l := Real.sqrt (n1 * n1 + n2 * n2 + n3 * n3)
    if l > 0 then
      if ((s2 / l * (105 / 100) : ℝ) : WithBot ℝ) > st.depth then some ⟨(s2 / l : ℝ), ![n1 / l, n2 / l, n3 / l], decide (dist < 0), code⟩
      else some st
    else some st

/-- rigidbody3d/Constraints/BoxBoxUtilities.cpp:169-329: the tests on the fifteen axes; `none` when one of them separates the boxes -/
noncomputable def separatingAxes3 (p1 : Vec3) (R1 : Mat3) (side1 : Vec3) (p2 : Vec3) (R2 : Mat3) (side2 : Vec3) : Option Sat3 :=
  let p := p2 - p1
  let pp := R1.transpose *ᵥ p
  let R := R1.transpose * R2
  let Q : Mat3 := R.map abs
  let QbA := Q *ᵥ side2 + side1
  let pOnR2 := R2.transpose *ᵥ p
  let QTaB := Q.transpose *ᵥ side1 + side2
  (faceTest3 (pp 0) (QbA 0) 1 ⟨⊥, 0, false, 0⟩).bind fun s =>
  (faceTest3 (pp 1) (QbA 1) 2 s).bind fun s =>
  (faceTest3 (pp 2) (QbA 2) 3 s).bind fun s =>
  (faceTest3 (pOnR2 0) (QTaB 0) 4 s).bind fun s =>
  (faceTest3 (pOnR2 1) (QTaB 1) 5 s).bind fun s =>
  (faceTest3 (pOnR2 2) (QTaB 2) 6 s).bind fun s =>
  (edgeTest3 (pp 2 * R 1 0 - pp 1 * R 2 0) (side1 1 * Q 2 0 + side1 2 * Q 1 0 + side2 1 * Q 0 2 + side2 2 * Q 0 1) 0 (-R 2 0) (R 1 0) 7 s).bind fun s =>
  (edgeTest3 (pp 2 * R 1 1 - pp 1 * R 2 1) (side1 1 * Q 2 1 + side1 2 * Q 1 1 + side2 0 * Q 0 2 + side2 2 * Q 0 0) 0 (-R 2 1) (R 1 1) 8 s).bind fun s =>
  (edgeTest3 (pp 2 * R 1 2 - pp 1 * R 2 2) (side1 1 * Q 2 2 + side1 2 * Q 1 2 + side2 0 * Q 0 1 + side2 1 * Q 0 0) 0 (-R 2 2) (R 1 2) 9 s).bind fun s =>
  (edgeTest3 (pp 0 * R 2 0 - pp 2 * R 0 0) (side1 0 * Q 2 0 + side1 2 * Q 0 0 + side2 1 * Q 1 2 + side2 2 * Q 1 1) (R 2 0) 0 (-R 0 0) 10 s).bind fun s =>
  (edgeTest3 (pp 0 * R 2 1 - pp 2 * R 0 1) (side1 0 * Q 2 1 + side1 2 * Q 0 1 + side2 0 * Q 1 2 + side2 2 * Q 1 0) (R 2 1) 0 (-R 0 1) 11 s).bind fun s =>
  (edgeTest3 (pp 0 * R 2 2 - pp 2 * R 0 2) (side1 0 * Q 2 2 + side1 2 * Q 0 2 + side2 0 * Q 1 1 + side2 1 * Q 1 0) (R 2 2) 0 (-R 0 2) 12 s).bind fun s =>
  (edgeTest3 (pp 1 * R 0 0 - pp 0 * R 1 0) (side1 0 * Q 1 0 + side1 1 * Q 0 0 + side2 1 * Q 2 2 + side2 2 * Q 2 1) (-R 1 0) (R 0 0) 0 13 s).bind fun s =>
  (edgeTest3 (pp 1 * R 0 1 - pp 0 * R 1 1) (side1 0 * Q 1 1 + side1 1 * Q 0 1 + side2 0 * Q 2 2 + side2 2 * Q 2 0) (-R 1 1) (R 0 1) 0 14 s).bind fun s =>
  edgeTest3 (pp 1 * R 0 2 - pp 0 * R 1 2) (side1 0 * Q 1 2 + side1 1 * Q 0 2 + side2 0 * Q 2 1 + side2 1 * Q 2 0) (-R 1 2) (R 0 2) 0 15 s

/-- rigidbody3d/Constraints/BoxBoxUtilities.cpp:333-348: the normal in world coordinates, from the first box to the second -/
noncomputable def satNormal3 (R1 R2 : Mat3) (st : Sat3) : Vec3 :=
  let normal : Vec3 :=
    if st.code ≤ 6 then
      if st.code ≤ 3 then R1.column (Fin.ofNat 3 (st.code - 1)) else R2.column (Fin.ofNat 3 (st.code - 4))
    else R1 *ᵥ st.normalC
  if st.invert then (-1 : ℝ) • normal else normal

/-- rigidbody3d/Constraints/BoxBoxUtilities.cpp:358-402: the contact point of two edges -/
noncomputable def edgeContact (p1 : Vec3) (R1 : Mat3) (side1 : Vec3) (p2 : Vec3) (R2 : Mat3) (side2 : Vec3) (normal : Vec3) (code : Nat) : Vec3 :=
  let sign1 (j : Fin 3) : ℝ := if normal ⬝ᵥ R1.column j > 0 then 1 else -1
  let pa : Vec3 := fun i => p1 i + sign1 0 * side1 0 * R1 i 0 + sign1 1 * side1 1 * R1 i 1 + sign1 2 * side1 2 * R1 i 2
  let sign2 (j : Fin 3) : ℝ := if normal ⬝ᵥ R2.column j > 0 then -1 else 1
  let pb : Vec3 := fun i => p2 i + sign2 0 * side2 0 * R2 i 0 + sign2 1 * side2 1 * R2 i 1 + sign2 2 * side2 2 * R2 i 2
  let ua := R1.column (Fin.ofNat 3 ((code - 7) / 3))
  let ub := R2.column (Fin.ofNat 3 ((code - 7) % 3))
  let ab := lineClosestApproach pa ua pb ub
  (1 / 2 : ℝ) • ((pa + ab.1 • ua) + (pb + ab.2 • ub))

/-- rigidbody3d/Constraints/BoxBoxUtilities.cpp:453-489: `lanr`, `a1` and `a2` -/
noncomputable def incidentAxes (nr : Vec3) : Fin 3 × Fin 3 × Fin 3 :=
  if |nr 1| > |nr 0| then
    if |nr 1| > |nr 2| then (1, 0, 2) else (2, 0, 1)
  else if |nr 0| > |nr 2| then (0, 1, 2) else (2, 0, 1)

/-- rigidbody3d/Constraints/BoxBoxUtilities.cpp:512-528: `code1` and `code2` -/
def referenceAxes (codeN : Fin 3) : Fin 3 × Fin 3 :=
  if codeN = 0 then (1, 2) else if codeN = 1 then (0, 2) else (0, 1)

/-- rigidbody3d/Constraints/BoxBoxUtilities.cpp:448-614: the contact points when the face `codeN` of box `a` is the reference face; `normal2` is its outward
normal. The arrays `point`, `dep` and `ret` are lists. -/
noncomputable def faceContacts (pa : Vec3) (Ra : Mat3) (Sa pb : Vec3) (Rb : Mat3) (Sb normal2 : Vec3) (codeN : Fin 3) : List Vec3 :=
  let nr := Rb.transpose *ᵥ normal2
  let lanr := (incidentAxes nr).1
  let a1 := (incidentAxes nr).2.1
  let a2 := (incidentAxes nr).2.2
  let center : Vec3 := if nr lanr < 0 then pb - pa + Sb lanr • Rb.column lanr else pb - pa - Sb lanr • Rb.column lanr
  let code1 := (referenceAxes codeN).1
  let code2 := (referenceAxes codeN).2
  let c1 := center ⬝ᵥ Ra.column code1
  let c2 := center ⬝ᵥ Ra.column code2
  let m11 := Ra.column code1 ⬝ᵥ Rb.column a1
  let m12 := Ra.column code1 ⬝ᵥ Rb.column a2
  let m21 := Ra.column code2 ⬝ᵥ Rb.column a1
  let m22 := Ra.column code2 ⬝ᵥ Rb.column a2
  let k1 := m11 * Sb a1
  let k2 := m21 * Sb a1
  let k3 := m12 * Sb a2
  let k4 := m22 * Sb a2
  let quad : List Pt2 := [![c1 - k1 - k3, c2 - k2 - k4], ![c1 - k1 + k3, c2 - k2 + k4], ![c1 + k1 + k3, c2 + k2 + k4], ![c1 + k1 - k3, c2 + k2 - k4]]
  let ret := intersectRectQuad ![Sa code1, Sa code2] quad
  let det1 := 1 / (m11 * m22 - m12 * m21)
  ret.filterMap fun r =>
    let k1 := m22 * det1 * (r 0 - c1) - m12 * det1 * (r 1 - c2)
    let k2 := -(m21 * det1) * (r 0 - c1) + m11 * det1 * (r 1 - c2)
    let point : Vec3 := fun i => center i + k1 * Rb i a1 + k2 * Rb i a2
    let dep := Sa codeN - normal2 ⬝ᵥ point
    if dep ≥ 0 then some (point + pa) else none

/-- rigidbody3d/Constraints/BoxBoxUtilities.cpp:167-615 `boxBox`: the values given to `normal` (which is not written when an axis separates the boxes) and to
`contact_points` -/
noncomputable def boxBox3 (p1 : Vec3) (R1 : Mat3) (side1 : Vec3) (p2 : Vec3) (R2 : Mat3) (side2 : Vec3) (normal0 : Vec3) : Vec3 × List Vec3 :=
  match separatingAxes3 p1 R1 side1 p2 R2 side2 with
  | none => (normal0, [])
  | some st =>
    let normal := satNormal3 R1 R2 st
    if st.code > 6 then (normal, [edgeContact p1 R1 side1 p2 R2 side2 normal st.code])
    else if st.code ≤ 3 then (normal, faceContacts p1 R1 side1 p2 R2 side2 normal (Fin.ofNat 3 (st.code - 1)))
    else (normal, faceContacts p2 R2 side2 p1 R1 side1 (-normal) (Fin.ofNat 3 (st.code - 4)))

/-- rigidbody3d/Constraints/BoxBoxUtilities.cpp:617-627 `isActive`: the values given to `n` (`n0` before the call) and `points` -/
noncomputable def boxBoxIsActive3 (cm0 : Vec3) (R0 : Mat3) (side0 : Vec3) (cm1 : Vec3) (R1 : Mat3) (side1 : Vec3) (n0 : Vec3) : Vec3 × List Vec3 :=
  let r := boxBox3 cm0 R0 side0 cm1 R1 side1 n0
  ((-1 : ℝ) • r.1, r.2)

end Scisim
