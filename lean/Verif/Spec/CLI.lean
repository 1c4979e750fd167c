import Verif.Model.CLI
/-!
# What a run of a command line program should look like

Written in terms of the step function only, without reference to the main loop.
-/

namespace Scisim

/-- One step of the simulation: new state, persistent solver data, and one more iteration. -/
def advance {Sim : Type} (p : Program Sim) (i : StepInput Sim) : Outcome (StepInput Sim) :=
  (flowStep p i).bind fun r => .ok { i with sim := r.1, impactFrictionMap := r.2, iteration := i.iteration + 1 }

/-- The state after `k` steps. -/
def trajectory {Sim : Type} (p : Program Sim) (i : StepInput Sim) : Nat → Outcome (StepInput Sim)
  | 0 => .ok i
  | k + 1 => (trajectory p i k).bind (advance p)

/-- The configuration files of a run, in order: their names and the globals they were written from. -/
def configs {Sim : Type} (evs : List (Event Sim)) : List (Bytes × Snapshot Sim) :=
  evs.filterMap fun
    | .config f g => some (f, g)
    | _ => none

/-- The names and contents of the snapshot files of a run, in order. -/
def snapshots {Sim : Type} (evs : List (Event Sim)) : List (Bytes × Bytes) :=
  evs.filterMap fun
    | .snapshot f d => some (f, d)
    | _ => none

/-- The force files of a run, in order: their names and the globals they were computed from. -/
def forceFiles {Sim : Type} (evs : List (Event Sim)) : List (Bytes × Snapshot Sim) :=
  evs.filterMap fun
    | .forces f g => some (f, g)
    | _ => none

/-- The configuration file of frame `m` of a run started from `g0`: its name carries the number `m`, it holds the state after `m`
times the steps per frame, and it is written from globals with that frame number. -/
structure IsConfigFrame {Sim : Type} (p : Program Sim) (g0 : Snapshot Sim) (m : Nat) (c : Bytes × Snapshot Sim) : Prop where
  file : c.1 = g0.outputDir ++ ascii "/config_" ++ padded g0.saveNumberWidth.toNat m ++ ascii ".h5"
  frame : c.2.outputFrame.toNat = m
  it : c.2.iteration.toNat = m * g0.stepsPerSave.toNat
  state : trajectory p g0.input (m * g0.stepsPerSave.toNat) = .ok c.2.input

/-- The force file of frame `m`: its name carries the number `m` and the forces are those of the state of frame `m`. -/
structure IsForceFrame {Sim : Type} (p : Program Sim) (g0 : Snapshot Sim) (m : Nat) (c : Bytes × Snapshot Sim) : Prop where
  file : c.1 = g0.outputDir ++ ascii "/forces_" ++ padded g0.saveNumberWidth.toNat m ++ ascii ".h5"
  it : c.2.iteration.toNat = m * g0.stepsPerSave.toNat
  state : trajectory p g0.input (m * g0.stepsPerSave.toNat) = .ok c.2.input

/-- A start as `main` sets it up: iteration and frame zero. -/
structure FreshStart {Sim : Type} (g : Snapshot Sim) : Prop where
  iteration : g.iteration = 0
  frame : g.outputFrame = 0
  steps : 0 < g.stepsPerSave.toNat

/-- `N` is the first step count at which the end time is reached. -/
def IsEnd {Sim : Type} (p : Program Sim) (g : Snapshot Sim) (N : Nat) : Prop :=
  p.reached g.dtNum g.dtDen g.endTime (UInt32.ofNat N) = true ∧
    ∀ j < N, p.reached g.dtNum g.dtDen g.endTime (UInt32.ofNat j) = false

/-- The last step of a run that ends at `N`: with force output one more step is taken. -/
def lastStep {Sim : Type} (g : Snapshot Sim) (N : Nat) : Nat := if g.outputForces then N + 1 else N

/-- A class of globals that loading restores and that is closed under what a run does to the globals. -/
structure Restorable {Sim : Type} (p : Program Sim) (I : Snapshot Sim → Prop) : Prop where
  load : ∀ g data, I g → serSnapshot p.format p.git g = .ok data → (loadSnapshot p).run data = .ok (g, [])
  step : ∀ g s ifm, I g → flowStep p g.input = .ok (s, ifm) →
    I { g with sim := s, impactFrictionMap := ifm, iteration := g.iteration + 1 }
  frame : ∀ g, I g → I { g with outputFrame := g.outputFrame + 1 }

end Scisim
