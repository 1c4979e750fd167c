import Verif.Model.ForceOutput
import Verif.Spec.RigidContacts2D
import Verif.Spec.RigidContacts3D
/-!
# What a reader of a force file computes from it

A reader knows the state of the simulation (the state file of the same step): where the centres of the bodies are and which bodies are scripted.
-/

namespace Scisim

open Matrix

/-- Vectors in the plane can be summed in any order. -/
noncomputable instance : AddCommMonoid (V2 ℝ) where
  add_assoc a b c := by ext <;> simp [add_assoc]
  zero_add a := by ext <;> simp
  add_zero a := by ext <;> simp
  add_comm a b := by ext <;> simp [add_comm]
  nsmul := nsmulRec

namespace Forces

/-- What a file says about one contact -/
structure Column (V : Type) where
  first : ℤ
  second : ℤ
  point : V
  normal : V
  force : V

/-- Column `k` of the four tables -/
def File.column {V : Type} (f : File V) (k : Nat) : Option (Column V) :=
  match f.indices, f.points, f.normals, f.forces with
  | some is, some ps, some ns, some fs =>
    match is[k]?, ps[k]?, ns[k]?, fs[k]? with
    | some i, some p, some n, some g => some ⟨i.1, i.2, p, n, g⟩
    | _, _, _, _ => none
  | _, _, _, _ => none

/-- The tables have as many columns as the file says that there are contacts, and are not there if there are none. -/
def File.Regular {V : Type} (f : File V) : Prop :=
  match f.indices, f.points, f.normals, f.forces with
  | some is, some ps, some ns, some fs => f.count ≠ 0 ∧ is.length = f.count ∧ ps.length = f.count ∧ ns.length = f.count ∧ fs.length = f.count
  | none, none, none, none => f.count = 0
  | _, _, _, _ => False

/-- What the contact of a column does to the momenta of the bodies: its force acts on the first body at the contact point, and with the opposite sign on the
second one if that is a body (its index is not negative) and not scripted. `x` are the centres of the bodies. -/
noncomputable def Column.impulse3 (nb : Nat) (x : Nat → Vec3) (scripted : Nat → Bool) (c : Column Vec3) : Blocks3 := fun k =>
  impulseAbout3 nb (x c.first.toNat) c.first.toNat c.point c.force k -
    if 0 ≤ c.second ∧ scripted c.second.toNat = false then impulseAbout3 nb (x c.second.toNat) c.second.toNat c.point c.force k else 0

/-- The same in the plane -/
noncomputable def Column.impulse2 (q : Dofs) (scripted : Nat → Bool) (c : Column (V2 ℝ)) : Dofs := fun k =>
  pointImpulse q c.first.toNat c.point c.force k -
    if 0 ≤ c.second ∧ scripted c.second.toNat = false then pointImpulse q c.second.toNat c.point c.force k else 0

/-- The same for balls, which do not turn -/
noncomputable def Column.impulseBall (c : Column (V2 ℝ)) (b : Nat) : V2 ℝ :=
  (if (b : ℤ) = c.first then c.force else 0) - if (b : ℤ) = c.second then c.force else 0

/-- All contacts of the file together -/
noncomputable def File.total {V W : Type} [AddCommMonoid W] (effect : Column V → W) (f : File V) : W :=
  ∑ k ∈ Finset.range f.count, match f.column k with
    | some c => effect c
    | none => 0

end Forces

/-- Which bodies are scripted -/
def Step3.scripted (s : Step3) (i : Nat) : Bool := match s.bodies[i]? with | some b => b.fixed | none => false

/-- Which bodies are scripted -/
def Step2.scripted (s : Step2) (i : Nat) : Bool := match s.bodies[i]? with | some b => b.fixed | none => false

/-- What all contacts of a step do to the momenta of the bodies, for the impulses `alpha` along the normals and `beta` along the two tangents of each -/
noncomputable def response3 (nb : Nat) (q : Pose3) (v : Blocks3) (cs : List Contact3) (alpha beta : List ℝ) : Blocks3 := fun b =>
  ∑ k ∈ Finset.range cs.length, match cs[k]?, alpha[k]?, beta[2 * k]?, beta[2 * k + 1]? with
    | some c, some a, some b1, some b2 => contactImpulse3 nb c q v ![a, b1, b2] b
    | _, _, _, _ => 0

/-- The same in the plane, with one tangent for each contact -/
noncomputable def response2 (q : Dofs) (cs : List Contact2) (alpha beta : List ℝ) : Dofs := fun b =>
  ∑ k ∈ Finset.range cs.length, match cs[k]?, alpha[k]?, beta[k]? with
    | some c, some a, some t => contactImpulse c q a t b
    | _, _, _ => 0

/-- A matrix, given by its columns, times a vector of as many entries -/
noncomputable def columnsTimes {ι V : Type} [AddCommMonoid V] [SMul ℝ V] (cols : List (ι → V)) (x : List ℝ) (b : ι) : V :=
  ∑ k ∈ Finset.range cols.length, match cols[k]?, x[k]? with
    | some c, some a => a • c b
    | _, _ => 0

end Scisim

