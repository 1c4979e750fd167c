import Verif.Model.PythonRefs
/-!
# What is to be owned

A `PythonScripting` owns one reference to the module and one to each function it has; nothing else owns any.
-/

namespace Scisim
namespace PythonRefs

/-- The objects of a `PythonScripting` -/
def Scripting.objects (s : Scripting) : List (Option Obj) := [s.module, s.startOfSim, s.endOfSim, s.startOfStep, s.endOfStep, s.friction, s.restitution]

/-- The modules that were loaded in a run, once for every time -/
def modulesLoaded (es : List Event) : List Obj := es.filterMap fun e => match e with
  | .openScene (some l) => l.reloaded
  | _ => none

/-- What the program owns of object `o` after the events: what its `PythonScripting` has, and what is lost -/
def Owned (lost : List Obj) (s : Scripting) (m : Mem) : Prop := ∀ o, m.refs o = s.objects.count (some o) + lost.count o

end PythonRefs
end Scisim
