import Verif.Model.Handles
/-!
# Specification: identifiers and failures of the HDF5 library
-/

namespace Scisim.Handles

/-- In this history no file is opened with an object that has one already -/
def NeverReopens (w : World) : State → List Op → Prop
  | _, [] => True
  | s, o :: os => (∀ i, o = .open' i → s.isOpen i = false) ∧ NeverReopens w (step w s o) os

/-- The calls in which data can get lost unless their result is looked at, apart from selecting a part of a file and closing -/
def Matters (k : Kind) : Prop := k = .create ∨ k = .define ∨ k = .ask ∨ k = .write ∨ k = .read

/-- The calls made between two states of the library -/
def Made (l l' : Lib) (calls : List (Kind × Bool)) : Prop := l'.trace = calls ++ l.trace

/-- The programs never write an empty table of records -/
def NotEmpty : Item → Prop
  | .records _ _ _ n => 0 < n
  | _ => True

/-- What is read is of the type and the size that is asked for -/
def Fits : Item → Prop
  | .read t s => t = true ∧ s = true
  | _ => True

/-- No identifier is in use twice, and later ones are new -/
def Sane (l : Lib) : Prop := l.opened.Nodup ∧ ∀ n ∈ l.opened, n < l.next

/-- How many values, or records, a use of a file writes to it -/
def data : Item → ℕ
  | .string _ => 1
  | .dense _ => 1
  | .sparse _ => 5
  | .indices _ n => n
  | .records _ _ _ n => n
  | .read _ _ => 0

/-- How many values there are in a file of forces: time step, iteration, time and version; with a map for impacts also the number of collisions, and if there are any their bodies, points, normals and forces -/
def dataOfForces : Option (Maps × ℕ) → ℕ
  | none => 0
  | some (.free, _) => 4
  | some (_, 0) => 5
  | some (_, _ + 1) => 9

/-- How many values there are in all files of a run; those of states begin with four values, too -/
def dataOfRun (files : List (Option (Maps × ℕ) × List Item)) : ℕ := (files.map fun f => dataOfForces f.1 + (4 + (f.2.map data).sum)).sum

end Scisim.Handles
