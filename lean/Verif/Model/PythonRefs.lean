import Mathlib.Logic.Function.Basic
import Mathlib.Data.List.Count
/-!
# References to Python objects

What the programs own of the objects of the Python interpreter: `PythonObject`, `PythonTools` and the members of `PythonScripting`, from the start of the program to its end. An object
of Python lives as long as someone owns a reference to it. Only references owned by the program are counted here; those that Python owns itself it keeps in order itself.
-/

namespace Scisim
namespace PythonRefs

/-- The address of a Python object -/
abbrev Obj := ℕ

/-- How many references to each object the program has been given and has not given back, and whether the interpreter is running -/
structure Mem where
  refs : Obj → ℕ
  running : Bool

/-- Before the first reference -/
def Mem.start : Mem := ⟨fun _ => 0, true⟩

/-- A call returns, ends the program by `std::exit`, or is undefined. -/
inductive Res (α : Type) where
  | ok (a : α) (m : Mem)
  | exit (m : Mem)
  | ub

/-- One call after the other -/
def Res.bind {α β : Type} (r : Res α) (f : α → Mem → Res β) : Res β :=
  match r with
  | .ok a m => f a m
  | .exit m => .exit m
  | .ub => .ub

/-- A function of the interpreter that returns a new reference, or null -/
def newRef (o : Option Obj) (m : Mem) : Res (Option Obj) :=
  if m.running then
    match o with
    | some o => .ok (some o) { m with refs := Function.update m.refs o (m.refs o + 1) }
    | none => .ok none m
  else .ub

/-- `Py_XDECREF`: undefined for an object that is not owned and after the interpreter has shut down -/
def xdecref (o : Option Obj) (m : Mem) : Res Unit :=
  match o with
  | none => .ok () m
  | some o => if m.running ∧ 0 < m.refs o then .ok () { m with refs := Function.update m.refs o (m.refs o - 1) } else .ub

/-- `PythonObject::operator=( PythonObject&& other )`, scisim/PythonObject.cpp:25-35, of `this` and `other`, which are different objects unless `same`; the two afterwards -/
def moveAssign (same : Bool) (this other : Option Obj) (m : Mem) : Res (Option Obj × Option Obj) :=
  if same then .ok (this, this) m else
  (xdecref this m).bind fun _ m => .ok (other, none) m

/-- `std::swap` of two `PythonObject`s: a move constructor (scisim/PythonObject.cpp:14-18), two assignments and a destructor (20-23) -/
def swapObj (a b : Option Obj) (m : Mem) : Res (Option Obj × Option Obj) :=
  let tmp := a
  (moveAssign false none b m).bind fun p m =>
  (moveAssign false p.2 tmp m).bind fun q m =>
  (xdecref q.2 m).bind fun _ m => .ok (p.1, q.1) m

/-- What Python does when a module is loaded -/
structure Load where
  /-- `sys.path.insert` and `sys.path.pop` succeed -/
  insertPath : Bool
  popPath : Bool
  /-- results of `PyImport_ImportModule` and `PyImport_ReloadModule` -/
  imported : Option Obj
  reloaded : Option Obj
  /-- results of `PyObject_GetAttrString`, and whether they can be called -/
  startOfSim : Option (Obj × Bool)
  endOfSim : Option (Obj × Bool)
  startOfStep : Option (Obj × Bool)
  endOfStep : Option (Obj × Bool)
  friction : Option (Obj × Bool)
  restitution : Option (Obj × Bool)

/-- `loadModule`, scisim/PythonTools.cpp:31-61, into `slot`; the reference to the reloaded module is in a plain pointer -/
def loadModule (l : Load) (slot : Option Obj) (m : Mem) : Res (Option Obj) :=
  if l.insertPath = false then .exit m else
  (newRef l.imported m).bind fun tmp m =>
  (moveAssign false slot tmp m).bind fun p m =>
  (xdecref p.2 m).bind fun _ m =>
  if p.1 = none then .exit m else
  (newRef l.reloaded m).bind fun r m =>
  if r = none then .exit m else
  if l.popPath = false then .exit m else .ok p.1 m

/-- `loadFunction`, scisim/PythonTools.cpp:63-83 -/
def loadFunction (attr : Option (Obj × Bool)) (slot : Option Obj) (m : Mem) : Res (Option Obj) :=
  (newRef (attr.map (·.1)) m).bind fun new m =>
  if new ≠ none ∧ attr.map (·.2) = some false then .exit m else
  (swapObj slot new m).bind fun p m =>
  (xdecref p.2 m).bind fun _ m => .ok p.1 m

/-- `PythonScripting`: whether there is a name of a module, and the seven `PythonObject`s, ball2d/PythonScripting.h:55-68, rigidbody2d/PythonScripting.h and rigidbody3d/PythonScripting.h alike -/
structure Scripting where
  named : Bool
  module : Option Obj
  startOfSim : Option Obj
  endOfSim : Option Obj
  startOfStep : Option Obj
  endOfStep : Option Obj
  friction : Option Obj
  restitution : Option Obj

/-- The default constructor, ball2d/PythonScripting.cpp:30-42 -/
def Scripting.empty : Scripting := ⟨false, none, none, none, none, none, none, none⟩

/-- The constructors with a module, ball2d/PythonScripting.cpp:44-74, and `intializePythonCallbacks`, 76-120; `none` is an empty name -/
def Scripting.construct (l : Option Load) (m : Mem) : Res Scripting :=
  match l with
  | none => .ok .empty m
  | some l =>
    (loadModule l none m).bind fun module m =>
    (loadFunction l.startOfSim none m).bind fun startOfSim m =>
    (loadFunction l.endOfSim none m).bind fun endOfSim m =>
    (loadFunction l.startOfStep none m).bind fun startOfStep m =>
    (loadFunction l.endOfStep none m).bind fun endOfStep m =>
    (loadFunction l.friction none m).bind fun friction m =>
    (loadFunction l.restitution none m).bind fun restitution m =>
    .ok ⟨true, module, startOfSim, endOfSim, startOfStep, endOfStep, friction, restitution⟩ m

/-- `swap( PythonScripting&, PythonScripting& )`, ball2d/PythonScripting.cpp:122-136 -/
def Scripting.swap (a b : Scripting) (m : Mem) : Res (Scripting × Scripting) :=
  (swapObj a.module b.module m).bind fun p0 m =>
  (swapObj a.startOfSim b.startOfSim m).bind fun p1 m =>
  (swapObj a.endOfSim b.endOfSim m).bind fun p2 m =>
  (swapObj a.startOfStep b.startOfStep m).bind fun p3 m =>
  (swapObj a.endOfStep b.endOfStep m).bind fun p4 m =>
  (swapObj a.friction b.friction m).bind fun p5 m =>
  (swapObj a.restitution b.restitution m).bind fun p6 m =>
  .ok (⟨b.named, p0.1, p1.1, p2.1, p3.1, p4.1, p5.1, p6.1⟩, ⟨a.named, p0.2, p1.2, p2.2, p3.2, p4.2, p5.2, p6.2⟩) m

/-- The destructor: that of the members, the last first -/
def Scripting.destroy (s : Scripting) (m : Mem) : Res Unit :=
  (xdecref s.restitution m).bind fun _ m =>
  (xdecref s.friction m).bind fun _ m =>
  (xdecref s.endOfStep m).bind fun _ m =>
  (xdecref s.startOfStep m).bind fun _ m =>
  (xdecref s.endOfSim m).bind fun _ m =>
  (xdecref s.startOfSim m).bind fun _ m =>
  xdecref s.module m

/-- The callbacks -/
inductive Which where
  | startOfSim | endOfSim | startOfStep | endOfStep | friction | restitution
deriving DecidableEq

/-- The function for a callback -/
def Scripting.function (s : Scripting) : Which → Option Obj
  | .startOfSim => s.startOfSim
  | .endOfSim => s.endOfSim
  | .startOfStep => s.startOfStep
  | .endOfStep => s.endOfStep
  | .friction => s.friction
  | .restitution => s.restitution

/-- A callback, scisim/ScriptingCallback.cpp:13-67 and ball2d/PythonScripting.cpp:138-300, in which the function returns `value` or, if that is null, raises an exception. Calling an object
that is not alive is undefined. -/
def Scripting.callback (s : Scripting) (w : Which) (value : Option Obj) (m : Mem) : Res Unit :=
  if s.named = false then .ok () m else
  match s.function w with
  | none => .ok () m
  | some f =>
    if 0 < m.refs f then
      (newRef value m).bind fun v m =>
      if v = none then .exit m else xdecref v m
    else .ub

/-- What happens in a run: a scene is opened or a run resumed (ball2dqt4/GLWidget.cpp:187-190, ball2dcli/ball2d_cli.cpp:146-153 and 300-303 and likewise in the other programs), or a callback is made -/
inductive Event where
  | openScene (l : Option Load)
  | callback (w : Which) (value : Option Obj)

/-- A run of the program up to its end, with the `PythonScripting` it has at the end -/
inductive Life where
  /-- `main` returns -/
  | returned (s : Scripting) (m : Mem)
  /-- `std::exit` -/
  | exited (s : Scripting) (m : Mem)
  | ub

/-- One event -/
def step (e : Event) (s : Scripting) (m : Mem) : Res Scripting :=
  match e with
  | .openScene l =>
    (Scripting.construct l m).bind fun new m =>
    (Scripting.swap s new m).bind fun p m =>
    (p.2.destroy m).bind fun _ m => .ok p.1 m
  | .callback w v => (s.callback w v m).bind fun _ m => .ok s m

/-- Events in order -/
def run : List Event → Scripting → Mem → Life
  | [], s, m => .returned s m
  | e :: es, s, m =>
    match step e s m with
    | .ok s m => run es s m
    | .exit m => .exited s m
    | .ub => .ub

/-- `Py_Finalize`, in `exitCleanup` -/
def finalize (m : Mem) : Mem := { m with running := false }

/-- The interactive programs, ball2dqt4/ball2d_qt4.cpp:37-72, rigidbody2dqt4/rigidbody2d_qt4.cpp and rigidbody3dqt4/rigidbody3d_qt4.cpp: the window, and with it the `PythonScripting`, is an
automatic variable of `main`. It is destroyed before the functions registered with `atexit` are called, and not at all by `std::exit`. -/
def windowProgram (es : List Event) : Res Unit :=
  match run es .empty .start with
  | .returned s m => (s.destroy m).bind fun _ m => .ok () (finalize m)
  | .exited _ m => .ok () (finalize m)
  | .ub => .ub

/-- The command line programs, ball2dcli/ball2d_cli.cpp:54, 594-645, rigidbody2dcli/rigidbody2d_cli.cpp:48, 585-636 and rigidbody3dcli/rigidbody3d_cli.cpp:55, 597-648: the `PythonScripting` has static storage
and was constructed before `main`. It is destroyed after the functions registered with `atexit` in `main` have been called. -/
def commandLineProgram (es : List Event) : Res Unit :=
  match run es .empty .start with
  | .returned s m => s.destroy (finalize m)
  | .exited s m => s.destroy (finalize m)
  | .ub => .ub

end PythonRefs
end Scisim
