import Verif.Model.ImpulseCache
/-!
# What a map of cached impulses should answer

A history of operations; the answer for a contact is what was stored for it first since the last `clear`
(in the simulator every contact is stored at most once between two clears).  Saving and loading must not matter.
-/

namespace Scisim

/-- Operations on a cache whose contacts are of type `C`. -/
inductive CacheOp (C : Type) where
  | store (con : C) (r : Impulse)
  | clear
  /-- write the cache to a stream, read it back into a cache object and go on with that one -/
  | saveLoad

/-- The impulse a contact was given since the last clear, from the history alone (oldest operation first). -/
def expected {C : Type} [DecidableEq C] (con : C) : Option Impulse → List (CacheOp C) → Option Impulse
  | cur, [] => cur
  | cur, .store con' r :: ops =>
    expected con (if con' = con then cur.or (some r) else cur) ops
  | _, .clear :: ops => expected con none ops
  | cur, .saveLoad :: ops => expected con cur ops

/-! ## Caches as they are stored

The C++ caches are `std::map`s: keys are strictly increasing. Sizes are those a process can hold. -/

/-- the invariant of `std::map`: strictly increasing keys -/
def ImpulseMap.Sorted (m : ImpulseMap) : Prop := m.Pairwise (fun a b => Key.lt a.1 b.1)

/-- what every cache map satisfies -/
structure ImpulseMap.Wf (m : ImpulseMap) : Prop where
  sorted : m.Sorted
  len : m.length < 4294967296
  dims : ∀ e ∈ m, e.2.length < 9223372036854775808

/-- the three maps of the ball cache are maps -/
structure BallCache.Wf (s : BallCache) : Prop where
  a : s.ballBall.Wf
  b : s.planeBall.Wf
  c : s.drumBall.Wf

/-- the four maps of the 2D rigid body cache are maps -/
structure RB2DCache.Wf (s : RB2DCache) : Prop where
  a : s.circleCircle.Wf
  b : s.bodyBody.Wf
  c : s.kinematicCircle.Wf
  d : s.planeCircle.Wf

/-- the four maps of the 3D rigid body cache are maps -/
structure RB3DCache.Wf (s : RB3DCache) : Prop where
  a : s.sphereSphere.Wf
  b : s.planeSphere.Wf
  c : s.cylinderSphere.Wf
  d : s.kinematicSphere.Wf

end Scisim
