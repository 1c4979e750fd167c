import Verif.Model.Copies
/-!
# Copies of simulations: what a user expects

A simulation is a value: it is what is in it, with forces and shapes in place of pointers to them. A copy is the same value, a change of one simulation changes that one only.
-/

namespace Scisim.Copies.Spec

/-- What a user sees of all simulations -/
abbrev Values (σ : Type → Type) := ℕ → Option (Sim σ Obj)

variable {σ : Type → Type} (c : Class σ)

/-- The forces or shapes -/
def objects (slot : Slot) (s : σ Obj) : List Obj :=
  match slot with
  | .geometry => c.geometry s
  | .forces => c.forces s

/-- Other forces or shapes -/
def setObjects (slot : Slot) (s : σ Obj) (os : List Obj) : σ Obj :=
  match slot with
  | .geometry => c.make (c.plain s) os (c.forces s)
  | .forces => c.make (c.plain s) (c.geometry s) os

/-- What an operation does with values; `none` if it makes no sense -/
def step (v : Values σ) : Op σ → Option (Values σ)
  | .create i => if (v i).isSome then none else some (Function.update v i (some ⟨c.make c.init [] [], .init⟩))
  | .copy i j => if (v i).isSome then none else (v j).map fun x => Function.update v i (some x)
  | .assign i j => (v i).bind fun _ => (v j).map fun x => Function.update v i (some x)
  | .swap i j => if i = j then none else (v i).bind fun a => (v j).map fun b => Function.update (Function.update v i (some { a with state := b.state })) j (some { b with state := a.state })
  | .destroy i => (v i).map fun _ => Function.update v i none
  | .edit i f => (v i).map fun x => Function.update v i (some { x with state := c.make (f (c.plain x.state)) (c.geometry x.state) (c.forces x.state) })
  | .editRest i f => (v i).map fun x => Function.update v i (some { x with rest := f x.rest })
  | .add i slot o => if slot = .geometry ∧ c.geometric = false then none else
    (v i).map fun x => Function.update v i (some { x with state := setObjects c slot x.state (objects c slot x.state ++ [o]) })
  | .change i slot k f => (v i).bind fun x => (objects c slot x.state)[k]?.map fun o => Function.update v i (some { x with state := setObjects c slot x.state ((objects c slot x.state).set k (f o)) })
  | .remove i slot k => (v i).bind fun x => (objects c slot x.state)[k]?.map fun _ => Function.update v i (some { x with state := setObjects c slot x.state ((objects c slot x.state).eraseIdx k) })
  | .clear i slot => (v i).map fun x => Function.update v i (some { x with state := setObjects c slot x.state [] })

/-- What a history does with values -/
def run : Values σ → List (Op σ) → Option (Values σ)
  | v, [] => some v
  | v, op :: ops => (step c v op).bind fun v => run v ops

/-- The pointer leads to the object -/
def Holds (m : Mem) (p : Ptr) (o : Obj) : Prop := ∃ a, p = some a ∧ m.objs a = some o

/-- A simulation in memory looks like a value -/
def Looks (m : Mem) (x : Sim σ Ptr) (v : Sim σ Obj) : Prop :=
  c.plain x.state = c.plain v.state ∧ x.rest = v.rest ∧ List.Forall₂ (Holds m) (c.geometry x.state) (c.geometry v.state) ∧ List.Forall₂ (Holds m) (c.forces x.state) (c.forces v.state)

/-- All simulations look like these values -/
def LookLike (w : World σ) (v : Values σ) : Prop :=
  ∀ i, match w.sims i, v i with
    | some x, some y => Looks c w.mem x y
    | none, none => True
    | _, _ => False

/-- An address belongs to a simulation -/
def Owned (x : Sim σ Ptr) (a : ℕ) : Prop := some a ∈ c.geometry x.state ∨ some a ∈ c.forces x.state

/-- Nothing is lost: an object that exists belongs to a simulation that exists -/
def NoLeak (w : World σ) : Prop := ∀ a, w.mem.objs a ≠ none → ∃ i x, w.sims i = some x ∧ Owned c x a

/-- An operation may change the simulation `i` -/
def Changes (i : ℕ) : Op σ → Prop
  | .create j | .copy j _ | .assign j _ | .destroy j | .edit j _ | .editRest j _ | .add j _ _ | .change j _ _ _ | .remove j _ _ | .clear j _ => j = i
  | .swap j k => j = i ∨ k = i

end Scisim.Copies.Spec
