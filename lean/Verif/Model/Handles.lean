import Mathlib.Data.List.Basic
import Mathlib.Data.List.Nodup
import Mathlib.Data.Int.Order.Basic
/-!
# Identifiers of the HDF5 library

scisim/HDF5File.h, scisim/HDF5File.cpp, rigidbody2d/StateOutput.cpp and rigidbody3d/StateOutput.cpp once more, this time with the identifiers (`hid_t`) that the library hands out, with calls that may fail at
any moment, with exceptions and with destructors. What is stored in a file is in `Model/HDF5` and `Model/StateFiles`.

The library is modelled by what its documentation says: a call with an identifier that is not in use fails, any other call fails or not as the `world` decides, one that creates or opens something returns
an identifier that is not in use, and one that closes takes it out of use (also if it then reports an error). Predefined identifiers such as `H5T_NATIVE_DOUBLE` are always valid and are left out. Names and
data are left out.
-/

namespace Scisim.Handles

/-- Calls of the library: those that return a new identifier, `H5Lexists`, those that change a type (`H5Tset_size`, `H5Tinsert`), `H5Sselect_hyperslab`, those that ask for extents, `H5Dwrite`, `H5Dread`, those that close -/
inductive Kind where
  | create | exist | define | select | ask | write | read | close
deriving DecidableEq

/-- The state of the library: identifiers in use, the next one, whether one that was not in use has been closed, and the calls so far with whether they succeeded, the last first -/
structure Lib where
  opened : List ℕ
  next : ℕ
  misused : Bool
  trace : List (Kind × Bool)
deriving DecidableEq

/-- Which calls fail for a reason of their own, by their number: a full disk, missing rights, no memory -/
abbrev World := ℕ → Bool

/-- An identifier is in use -/
def Lib.valid (l : Lib) (h : ℤ) : Bool := decide (0 ≤ h) && l.opened.contains h.toNat

/-- What C++ code does: return a value or throw a `std::string` -/
inductive Res (α : Type) where
  | ok (a : α)
  | thrown
deriving DecidableEq

/-- A piece of code that uses the library -/
abbrev Run (α : Type) := Lib → Res α × Lib

/-- One after the other -/
def Run.bind {α β : Type} (p : Run α) (f : α → Run β) : Run β := fun l =>
  match p l with
  | (.ok a, l') => f a l'
  | (.thrown, l') => (.thrown, l')

/-- Nothing -/
def done : Run Unit := fun l => (.ok (), l)

/-- `if( ... ) throw` -/
def guard (b : Bool) : Run Unit := fun l => (if b then .ok () else .thrown, l)

/-- A call that uses the identifiers `hs`: whether it succeeds -/
def call (w : World) (k : Kind) (hs : List ℤ) : Run Bool := fun l =>
  let good := hs.all l.valid && w l.trace.length
  (.ok good, { l with trace := (k, good) :: l.trace })

/-- A call with an exception if it fails -/
def need (w : World) (k : Kind) (hs : List ℤ) : Run Unit := (call w k hs).bind guard

/-- A call that returns a new identifier, or `-1` -/
def acquire (w : World) (hs : List ℤ) : Run ℤ := fun l =>
  let good := hs.all l.valid && w l.trace.length
  if good then (.ok l.next, { l with opened := l.next :: l.opened, next := l.next + 1, trace := (.create, true) :: l.trace })
  else (.ok (-1), { l with trace := (.create, false) :: l.trace })

/-- `~HDFID()`, scisim/HDF5File.h:36-42, and `~HDF5File()`, scisim/HDF5File.cpp:25-31. What the closing call returns is not looked at. -/
def release (w : World) (h : ℤ) (l : Lib) : Lib :=
  if 0 ≤ h then
    if l.valid h then { l with opened := l.opened.erase h.toNat, trace := (.close, w l.trace.length) :: l.trace }
    else { l with misused := true, trace := (.close, false) :: l.trace }
  else l

/-- `HDFID( HDFID&& other )`, scisim/HDF5File.h:44-48, and `HDF5File( HDF5File&& other )`, scisim/HDF5File.cpp:33-37: the new object and `other` -/
def moveConstruct (other : ℤ) : ℤ × ℤ := (other, -1)

/-- `operator=( HDFID&& other )`, scisim/HDF5File.h:50-55, and `operator=( HDF5File&& other )`, scisim/HDF5File.cpp:39-44: `this` and `other` -/
def moveAssign (this other : ℤ) : ℤ × ℤ := (other, this)

/-- A local `HDFID` (or `HDF5File`) that is initialised with what `acq` returns, and the rest of its block: the destructor is called at the end and when an exception passes -/
def scope {α : Type} (w : World) (acq : Run ℤ) (body : ℤ → Run α) : Run α := fun l =>
  match acq l with
  | (.thrown, l) => (.thrown, l)
  | (.ok h, l) => let r := body h l; (r.1, release w h r.2)

/-- The same with the test of the identifier that follows nearly everywhere -/
def checked {α : Type} (w : World) (acq : Run ℤ) (body : ℤ → Run α) : Run α := scope w acq fun h => (guard (decide (0 ≤ h))).bind fun _ => body h

/-- `findOrCreateGroup` and `findGroup` from the assignment of a temporary to the return, scisim/HDF5File.cpp:116-155: `group_id` is `-1` before; the local variable is moved to the caller -/
def assignGroup (w : World) (acq : Run ℤ) : Run ℤ := acq.bind fun tmp l =>
  let p := moveAssign (-1) tmp
  let l := release w p.2 l
  if p.1 < 0 then (.thrown, release w p.1 l) else
  let q := moveConstruct p.1
  (.ok q.1, release w q.2 l)

/-- `HDF5File::findOrCreateGroup`, scisim/HDF5File.cpp:114-135. `name` is what is known of the name: `none` for the empty one, otherwise whether there is a link with it. All calls use the file. -/
def findOrCreateGroup (w : World) (file : ℤ) (name : Option Bool) : Run ℤ :=
  match name with
  | none => assignGroup w (acquire w [file])
  | some there => (call w .exist [file]).bind fun good => if good && !there then assignGroup w (acquire w [file]) else assignGroup w (acquire w [file])

/-- `HDF5File::findGroup`, scisim/HDF5File.cpp:137-155 -/
def findGroup (w : World) (file : ℤ) : Run ℤ := assignGroup w (acquire w [file])

/-- `write` of a string, scisim/HDF5File.cpp:69-112 -/
def writeString (w : World) (file : ℤ) (name : Option Bool) : Run Unit :=
  checked w (acquire w []) fun fileType =>
  (need w .define [fileType]).bind fun _ =>
  checked w (acquire w []) fun memType =>
  (need w .define [memType]).bind fun _ =>
  checked w (acquire w []) fun space =>
  scope w (findOrCreateGroup w file name) fun grp =>
  checked w (acquire w [grp, fileType, space]) fun dset =>
  need w .write [dset, memType]

/-- `write` of a dense matrix, a map or a number, scisim/HDF5File.h:134-236 -/
def writeDense (w : World) (file : ℤ) (name : Option Bool) : Run Unit :=
  checked w (acquire w []) fun space =>
  scope w (findOrCreateGroup w file name) fun grp =>
  checked w (acquire w [grp, space]) fun dset =>
  need w .write [dset]

/-- `write` of a sparse matrix, scisim/HDF5File.h:238-257: five dense ones -/
def writeSparse (w : World) (file : ℤ) (name : Option Bool) : Run Unit :=
  (writeDense w file name).bind fun _ => (writeDense w file name).bind fun _ => (writeDense w file name).bind fun _ => (writeDense w file name).bind fun _ => writeDense w file name

/-- `getNativeType`, scisim/HDF5File.h:396-422; the comparisons, which use no identifier but this one and are taken as "no" if they fail, are left out -/
def getNativeType (w : World) (dset : ℤ) : Run Unit := checked w (acquire w [dset]) fun _ => done

/-- `getDimensions`, scisim/HDF5File.h:424-455 -/
def getDimensions (w : World) (dset : ℤ) : Run Unit :=
  checked w (acquire w [dset]) fun space => (need w .ask [space]).bind fun _ => need w .ask [space]

/-- `read`, scisim/HDF5File.h:259-329. `typeFits` and `sizeFits` are the tests of the type and of the extents. -/
def read (w : World) (file : ℤ) (typeFits sizeFits : Bool) : Run Unit :=
  scope w (findGroup w file) fun grp =>
  checked w (acquire w [grp]) fun dset =>
  (getNativeType w dset).bind fun _ =>
  (guard typeFits).bind fun _ =>
  (getDimensions w dset).bind fun _ =>
  (guard sizeFits).bind fun _ =>
  (getNativeType w dset).bind fun _ =>
  need w .read [dset]

/-- The loops that write elements one by one, rigidbody3d/StateOutput.cpp:63-77, 132-148 and so on; the results of `H5Sselect_hyperslab` are not looked at -/
def writeElements (w : World) (space mem : ℤ) (hs : List ℤ) : ℕ → Run Unit
  | 0 => done
  | n + 1 =>
    (call w .select [space]).bind fun _ =>
    (call w .select [mem]).bind fun _ =>
    (need w .write hs).bind fun _ =>
    writeElements w space mem hs n

/-- `writeGeometryIndices`, rigidbody3d/StateOutput.cpp:25-79 and rigidbody2d/StateOutput.cpp:16-78, of `n` bodies -/
def writeIndices (w : World) (file : ℤ) (name : Option Bool) (n : ℕ) : Run Unit :=
  checked w (acquire w []) fun space =>
  scope w (findOrCreateGroup w file name) fun grp =>
  checked w (acquire w [grp, space]) fun dset =>
  checked w (acquire w []) fun mem =>
  writeElements w space mem [dset, mem, space] n

/-- Fields of a record: a number, an array, a text -/
inductive Field where
  | number | array | text
deriving DecidableEq

/-- The insertion of a field in a type, for example rigidbody3d/StateOutput.cpp:178-181, 104-115 and 240-254 -/
def insertField (w : World) (struct : ℤ) : Field → Run Unit
  | .number => need w .define [struct]
  | .array => checked w (acquire w []) fun tid => need w .define [struct, tid]
  | .text => checked w (acquire w []) fun tid => (need w .define [tid]).bind fun _ => need w .define [struct, tid]

/-- All fields -/
def insertFields (w : World) (struct : ℤ) : List Field → Run Unit
  | [] => done
  | f :: fs => (insertField w struct f).bind fun _ => insertFields w struct fs

/-- The functions that write `n` records: `writeBoxGeometry`, `writeSphereGeometry`, `writeMeshGeometry`, `writeStaticPlanes`, `writeStaticCylinders`, rigidbody3d/StateOutput.cpp:81-291 and 335-577, and
`writeCircleGeometry`, `writeBoxGeometry`, `writeStaticPlanes`, `writePlanarPortals`, rigidbody2d/StateOutput.cpp:80-507. `memChecked` is false for the boxes and meshes of the spatial program, lines 129 and
268, where the identifier of the memory space is not tested. -/
def writeRecords (w : World) (file : ℤ) (name : Option Bool) (fields : List Field) (memChecked : Bool) (n : ℕ) : Run Unit :=
  checked w (acquire w []) fun space =>
  checked w (acquire w []) fun struct =>
  (insertFields w struct fields).bind fun _ =>
  scope w (findOrCreateGroup w file name) fun grp =>
  checked w (acquire w [grp, struct, space]) fun dset =>
  scope w (acquire w []) fun mem =>
  (guard (!memChecked || decide (0 ≤ mem))).bind fun _ =>
  writeElements w space mem [dset, struct, mem, space] n

/-- One use of a file -/
inductive Item where
  | string (name : Option Bool)
  | dense (name : Option Bool)
  | sparse (name : Option Bool)
  | indices (name : Option Bool) (n : ℕ)
  | records (name : Option Bool) (fields : List Field) (memChecked : Bool) (n : ℕ)
  | read (typeFits sizeFits : Bool)

/-- What a use does -/
def Item.run (w : World) (file : ℤ) : Item → Run Unit
  | .string name => writeString w file name
  | .dense name => writeDense w file name
  | .sparse name => writeSparse w file name
  | .indices name n => writeIndices w file name n
  | .records name fields memChecked n => writeRecords w file name fields memChecked n
  | .read t s => Handles.read w file t s

/-- Uses in a row, up to the first exception -/
def runItems (w : World) (file : ℤ) : List Item → Run Unit
  | [] => done
  | i :: is => (i.run w file).bind fun _ => runItems w file is

/-! ## Files -/

/-- `HDF5File::open`, scisim/HDF5File.cpp:46-62: the member afterwards, which does not depend on the one before, and whether there is an exception -/
def openFile (w : World) (l : Lib) : (ℤ × Bool) × Lib :=
  match acquire w [] l with
  | (.ok h, l) => ((h, decide (h < 0)), l)
  | (.thrown, l) => ((-1, true), l)

/-- What a program can do with objects of type `HDF5File`, which are numbered: the two constructors, `open`, the move constructor (of `i` from `j`), the assignment (of `j` to `i`), uses, and the destructor -/
inductive Op where
  | construct (i : ℕ)
  | constructOpen (i : ℕ)
  | open' (i : ℕ)
  | move (i j : ℕ)
  | assign (i j : ℕ)
  | use (i : ℕ) (items : List Item)
  | destroy (i : ℕ)

/-- The library, and the objects that there are with their `m_hdf_file_id` -/
structure State where
  lib : Lib
  objs : ℕ → Option ℤ

/-- Before anything has happened -/
def State.start : State := ⟨⟨[], 0, false, []⟩, fun _ => none⟩

/-- `is_open`, scisim/HDF5File.cpp:64-67 -/
def State.isOpen (s : State) (i : ℕ) : Bool :=
  match s.objs i with
  | some h => decide (0 ≤ h)
  | none => false

/-- One operation, scisim/HDF5File.cpp:15-62. The compiler does not let a program use an object that there is not, or make one that there is: nothing happens then. An exception is caught. -/
def step (w : World) (s : State) : Op → State
  | .construct i => if s.objs i = none then { s with objs := Function.update s.objs i (some (-1)) } else s
  | .constructOpen i =>
    if s.objs i = none then
      let r := openFile w s.lib
      if r.1.2 then { s with lib := r.2 } else ⟨r.2, Function.update s.objs i (some r.1.1)⟩
    else s
  | .open' i =>
    match s.objs i with
    | some _ => let r := openFile w s.lib; ⟨r.2, Function.update s.objs i (some r.1.1)⟩
    | none => s
  | .move i j =>
    match s.objs i, s.objs j with
    | none, some h => { s with objs := Function.update (Function.update s.objs i (some (moveConstruct h).1)) j (some (moveConstruct h).2) }
    | _, _ => s
  | .assign i j =>
    match s.objs i, s.objs j with
    | some this, some other =>
      let p := moveAssign this other
      { s with objs := Function.update (Function.update s.objs i (some p.1)) j (some p.2) }
    | _, _ => s
  | .use i items =>
    match s.objs i with
    | some h => { s with lib := (runItems w h items s.lib).2 }
    | none => s
  | .destroy i =>
    match s.objs i with
    | some h => ⟨release w h s.lib, Function.update s.objs i none⟩
    | none => s

/-- Operations in order -/
def run (w : World) : State → List Op → State
  | s, [] => s
  | s, o :: os => run w (step w s o) os

/-! ## The programs -/

/-- How a function of a program ends: with a status, or with `std::terminate` because of an exception that nobody catches -/
inductive Ended where
  | success | failure | terminated
deriving DecidableEq

/-- `HDF5File output_file{ ... }` and `open` of a default constructed one as the initialisation of a block -/
def opening (w : World) : Run ℤ := fun l =>
  let r := openFile w l
  if r.1.2 then (.thrown, r.2) else (.ok r.1.1, r.2)

/-- `timestep`, `iteration`, `time` and `git_hash` -/
def header : List Item := [.dense none, .dense none, .dense none, .string none]

/-- `saveState`, rigidbody3dcli/rigidbody3d_cli.cpp:172-202, ball2dcli/ball2d_cli.cpp:166-196, rigidbody2dcli/rigidbody2d_cli.cpp:157-187; `items` are those of `writeBinaryState` -/
def saveState (w : World) (items : List Item) (l : Lib) : Ended × Lib :=
  match scope w (opening w) (fun h => runItems w h (header ++ items)) l with
  | (.ok _, l) => (.success, l)
  | (.thrown, l) => (.failure, l)

/-- Which maps there are: none or an unconstrained one only, also one for impacts, or also one for impacts with friction -/
inductive Maps where
  | free | impact | friction
deriving DecidableEq

/-- The items of `writeSolution`, scisim/ConstrainedMaps/ImpactMaps/ImpactSolution.cpp:75-100, and of `exportConstraintForcesToBinaryFile`, scisim/ConstrainedMaps/ImpactFrictionMap.cpp:68-163 -/
def contactItems (ncons : ℕ) : List Item := .dense none :: (if ncons = 0 then [] else [.dense none, .dense none, .dense none, .dense none])

/-- The step itself, with what it writes to the file of forces: rigidbody3dcli/rigidbody3d_cli.cpp:390-437. Its computations are left out. With friction the file is written by `flow`, which is not in a `try` block. -/
def writeContacts (w : World) (maps : Maps) (ncons : ℕ) (h : ℤ) : Run Ended := fun l =>
  match maps with
  | .free => (.ok .success, l)
  | .impact =>
    match runItems w h (contactItems ncons) l with
    | (.ok _, l) => (.ok .success, l)
    | (.thrown, l) => (.ok .failure, l)
  | .friction =>
    match runItems w h (contactItems ncons) l with
    | (.ok _, l) => (.ok .success, l)
    | (.thrown, l) => (.ok .terminated, l)

/-- The file of forces in `stepSystem`, rigidbody3dcli/rigidbody3d_cli.cpp:358-440 (ball2dcli/ball2d_cli.cpp:354-436, rigidbody2dcli/rigidbody2d_cli.cpp:345-427), when one is to be written. In the model
the object is made when it is opened. -/
def saveForces (w : World) (maps : Maps) (ncons : ℕ) (l : Lib) : Ended × Lib :=
  match scope w (opening w) (fun h => (runItems w h header).bind fun _ => writeContacts w maps ncons h) l with
  | (.ok e, l) => (e, l)
  | (.thrown, l) => (.failure, l)

/-- A step with or without a file of forces -/
def stepSystem (w : World) (forces : Option (Maps × ℕ)) (l : Lib) : Ended × Lib :=
  match forces with
  | some f => saveForces w f.1 f.2 l
  | none => (.success, l)

/-- The files of a run up to the first that fails: of forces (`some`) and of states -/
def saveAll (w : World) : List (Option (Maps × ℕ) × List Item) → Lib → Ended × Lib
  | [], l => (.success, l)
  | (forces, items) :: rest, l =>
    let r := stepSystem w forces l
    match r.1 with
    | .success =>
      let s := saveState w items r.2
      match s.1 with
      | .success => saveAll w rest s.2
      | e => (e, s.2)
    | e => (e, r.2)

end Scisim.Handles
