import Verif.Model.Outcome
import Verif.Model.Vec2
/-!
# Binary serialisation

Streams are byte lists.  A reader takes the unread bytes and returns a value and the remaining bytes.

Reads past the end of a stream: `istream::read` stores the bytes there are and marks the stream as failed, and
later reads store nothing (modelled by leaving the empty stream).  The shipped code never tests the
stream state (`assert( input_stream.good() )` is compiled out), so a variable that was declared without
initialiser and not completely read is an indeterminate value: its use is undefined behaviour (`Outcome.ub`).  Containers
which are zero-initialised before the read (`std::vector`) keep zeros in the unread part.
-/

namespace Scisim

abbrev Bytes := List UInt8

/-- Readers. -/
def Dec (α : Type) := Bytes → Outcome (α × Bytes)

namespace Dec

def run {α : Type} (d : Dec α) (bs : Bytes) : Outcome (α × Bytes) := d bs

instance : Monad Dec where
  pure a := fun bs => .ok (a, bs)
  bind d f := fun bs => (d bs).bind fun p => f p.1 p.2

/-- `std::exit( EXIT_FAILURE )` while reading. -/
def exit {α : Type} : Dec α := fun _ => .exit

/-- Undefined behaviour while reading. -/
def ub {α : Type} : Dec α := fun _ => .ub

/-- A failure that is reported to the caller. -/
def fail {α : Type} : Dec α := fun _ => .fail

end Dec

/-- The `n` low bytes of `x`, least significant first: the memory image of an integer on the little-endian
targets the code is built for. -/
def encLE : Nat → Nat → Bytes
  | 0, _ => []
  | n + 1, x => UInt8.ofNat (x % 256) :: encLE n (x / 256)

/-- The integer with the given little-endian memory image. -/
def decLE : Bytes → Nat
  | [] => 0
  | b :: bs => b.toNat + 256 * decLE bs

/-- A trivially copyable C++ type: its size, and the integer whose little-endian image is the object's memory.
`ofN` can be undefined behaviour for images that are no value of the type (`bool`). -/
class Pod (α : Type) where
  size : Nat
  toN : α → Nat
  ofN : Nat → Outcome α

/-- A `double`, identified with its 64 bits, so that equality is equality of representation (NaN payloads and
signed zeros included). -/
structure F64 where
  bits : UInt64
deriving DecidableEq, Repr

/-- `char`, one byte -/
instance : Pod UInt8 := ⟨1, UInt8.toNat, fun n => .ok (UInt8.ofNat n)⟩
/-- `unsigned` -/
instance : Pod UInt32 := ⟨4, UInt32.toNat, fun n => .ok (UInt32.ofNat n)⟩
/-- `size_t` -/
instance : Pod UInt64 := ⟨8, UInt64.toNat, fun n => .ok (UInt64.ofNat n)⟩
/-- `int` (two's complement) -/
instance : Pod Int32 := ⟨4, fun x => x.toUInt32.toNat, fun n => .ok (UInt32.ofNat n).toInt32⟩
/-- `Eigen::Index`, `intmax_t` (two's complement) -/
instance : Pod Int64 := ⟨8, fun x => x.toUInt64.toNat, fun n => .ok (UInt64.ofNat n).toInt64⟩
/-- `double` -/
instance : Pod F64 := ⟨8, fun x => x.bits.toNat, fun n => .ok ⟨UInt64.ofNat n⟩⟩
/-- `bool`: one byte; images other than 0 and 1 are not values of the type. -/
instance : Pod Bool :=
  ⟨1, fun b => if b then 1 else 0,
    fun n => if n = 0 then .ok false else if n = 1 then .ok true else .ub⟩

/-- Memory image of a trivially copyable object. -/
def image {α : Type} [Pod α] (x : α) : Bytes := encLE (Pod.size α) (Pod.toN x)

/-- scisim/Utilities.h:42-50 `serialize( const T& var, std::ostream& )` for trivially copyable `T`. -/
def serPod {α : Type} [Pod α] (x : α) : Bytes := image x

/-- scisim/Utilities.h:100-111 `deserialize<T>` for trivially copyable `T`: `T type_to_read;` is uninitialised, a
short read leaves it indeterminate. -/
def dePod (α : Type) [Pod α] : Dec α := fun bs =>
  if bs.length < Pod.size α then .ub
  else (Pod.ofN (decLE (bs.take (Pod.size α)))).bind fun x => .ok (x, bs.drop (Pod.size α))

/-- Writing a length: `serialize( vector.size(), … )`, a `size_t` (lengths wrap modulo 2^64). -/
def serLen (n : Nat) : Bytes := encLE 8 n

/-- Reading a length (`size_t`). -/
def deLen : Dec Nat := fun bs =>
  if bs.length < 8 then .ub else .ok (decLE (bs.take 8), bs.drop 8)

/-- `stream.read( dst, n )` into memory that held zeros before: missing bytes stay zero. -/
def readZeroed (n : Nat) : Dec Bytes := fun bs =>
  .ok (bs.take n ++ List.replicate (n - bs.length) 0, bs.drop n)

/-- `stream.read( dst, n )` into uninitialised memory that is used afterwards. -/
def readRaw (n : Nat) : Dec Bytes := fun bs =>
  if bs.length < n then .ub else .ok (bs.take n, bs.drop n)

/-- Cut a memory block into `n` objects of type `α`. -/
def podsOf (α : Type) [Pod α] : Nat → Bytes → Outcome (List α)
  | 0, _ => .ok []
  | n + 1, bs =>
    (Pod.ofN (decLE (bs.take (Pod.size α)))).bind fun x =>
      (podsOf α n (bs.drop (Pod.size α))).bind fun xs => .ok (x :: xs)

/-- Memory image of an array. -/
def images {α : Type} [Pod α] (xs : List α) : Bytes := xs.flatMap image

/-- scisim/Utilities.h:84-94 `serialize( const std::vector<T>& )`, trivially copyable elements. -/
def serVecPod {α : Type} [Pod α] (xs : List α) : Bytes := serLen xs.length ++ images xs

/-- scisim/Utilities.h:131-143 `deserialize<std::vector<T>>`, trivially copyable elements (`resize` zero-initialises). -/
def deVecPod (α : Type) [Pod α] : Dec (List α) := do
  let n ← deLen
  let mem ← readZeroed (n * Pod.size α)
  fun bs => (podsOf α n mem).bind fun xs => .ok (xs, bs)

/-- scisim/Utilities.h:52-66 and 68-82: vectors of objects with a `serialize` method. -/
def serVec {α : Type} (ser : α → Bytes) (xs : List α) : Bytes := serLen xs.length ++ xs.flatMap ser

/-- The loop `for idx < length: vector.emplace_back( input_stream )`. -/
def deMany {α : Type} (d : Dec α) : Nat → Dec (List α)
  | 0 => pure []
  | n + 1 => do
    let x ← d
    let xs ← deMany d n
    pure (x :: xs)

/-- scisim/Utilities.h:113-129 `deserialize` of a vector of objects with a deserialising constructor. -/
def deVec {α : Type} (d : Dec α) : Dec (List α) := do
  let n ← deLen
  deMany d n

/-- scisim/Utilities.cpp:8-18 `serialize<bool>( const std::vector<bool>& )`. -/
def serVecBool (xs : List Bool) : Bytes := serLen xs.length ++ xs.flatMap serPod

/-- scisim/Utilities.cpp:20-32 `deserialize<std::vector<bool>>`. -/
def deVecBool : Dec (List Bool) := do
  let n ← deLen
  deMany (dePod Bool) n

/-- scisim/StringUtilities.cpp:40-46 `StringUtilities::serialize`; a `std::string` is its bytes. -/
def serStr (s : Bytes) : Bytes := serLen s.length ++ s

/-- scisim/StringUtilities.cpp:13-21 `StringUtilities::deserialize` (`std::vector<char> cstr( len )` is zeroed). -/
def deStr : Dec Bytes := do
  let n ← deLen
  readZeroed n

/-- scisim/StringUtilities.cpp:49-59 `serializeVector`. -/
def serStrs (xs : List Bytes) : Bytes := serLen xs.length ++ xs.flatMap serStr

/-- scisim/StringUtilities.cpp:24-37 `deserializeVector`. -/
def deStrs : Dec (List Bytes) := do
  let n ← deLen
  deMany deStr n

/-- Dense Eigen object: compile-time dynamic flags are arguments of the functions below; `data` is the column-major
coefficient block. -/
structure Dense (α : Type) where
  rows : Nat
  cols : Nat
  data : List α
deriving DecidableEq

/-- An Eigen object owns `rows * cols` coefficients; sizes are non-negative `Eigen::Index` values. -/
def Dense.Wf {α : Type} (m : Dense α) : Prop :=
  m.data.length = m.rows * m.cols ∧ m.rows < 9223372036854775808 ∧ m.cols < 9223372036854775808

/-- scisim/Math/MathUtilities.h:42-60 `serialize( const Eigen::DenseBase<Derived>& )`. -/
def serDense {α : Type} [Pod α] (dynRows dynCols : Bool) (m : Dense α) : Bytes :=
  (if dynRows then encLE 8 m.rows else []) ++ (if dynCols then encLE 8 m.cols else []) ++ images m.data

/-- Reading an `Eigen::Index` dimension into an uninitialised variable and resizing to it; a negative size is
undefined. -/
def deDim : Dec Nat := do
  let n ← deLen
  if n < 9223372036854775808 then pure n else Dec.ub

/-- Reading `n` coefficients into uninitialised storage. -/
def deCoeffs (α : Type) [Pod α] (n : Nat) : Dec (List α) := do
  let mem ← readRaw (n * Pod.size α)
  fun bs => (podsOf α n mem).bind fun xs => .ok (xs, bs)

/-- scisim/Math/MathUtilities.h:62-74 fixed rows, fixed columns. -/
def deDenseFixed (α : Type) [Pod α] (rows cols : Nat) : Dec (Dense α) := do
  let xs ← deCoeffs α (rows * cols)
  pure ⟨rows, cols, xs⟩

/-- scisim/Math/MathUtilities.h:76-93 fixed rows, dynamic columns. -/
def deDenseDynCols (α : Type) [Pod α] (rows : Nat) : Dec (Dense α) := do
  let cols ← deDim
  let xs ← deCoeffs α (rows * cols)
  pure ⟨rows, cols, xs⟩

/-- scisim/Math/MathUtilities.h:95-112 dynamic rows, fixed columns. -/
def deDenseDynRows (α : Type) [Pod α] (cols : Nat) : Dec (Dense α) := do
  let rows ← deDim
  let xs ← deCoeffs α (rows * cols)
  pure ⟨rows, cols, xs⟩

/-- `MathUtilities::serialize` of a `VectorXs` / `VectorXu` (dynamic rows, one column). -/
def serVecX {α : Type} [Pod α] (x : List α) : Bytes := serDense true false ⟨x.length, 1, x⟩

/-- `MathUtilities::deserialize<VectorXs>`. -/
def deVecX (α : Type) [Pod α] : Dec (List α) := do
  let m ← deDenseDynRows α 1
  pure m.data

/-- `MathUtilities::serialize( const Vector2s& )`. -/
def serV2 (v : V2 F64) : Bytes := serDense false false ⟨2, 1, [v.x, v.y]⟩

/-- `MathUtilities::deserialize<Vector2s>`; the storage has exactly two coefficients. -/
def deV2 : Dec (V2 F64) := do
  let m ← deDenseFixed F64 2 1
  match m.data with
  | [x, y] => pure ⟨x, y⟩
  | _ => Dec.ub

/-- Compressed column storage of `SparseMatrixsc` (`StorageIndex` is `int`). -/
structure Sparse where
  rows : Nat
  cols : Nat
  inner : List Int32
  outer : List Int32
  values : List F64
deriving DecidableEq

/-- scisim/Math/MathUtilities.cpp:142-154. `nonZeros()` of a compressed matrix is the length of its value array. -/
def serSparse (A : Sparse) : Bytes :=
  encLE 8 A.rows ++ (encLE 8 A.cols ++ (encLE 8 A.values.length ++
    (images A.inner ++ (images A.outer ++ images A.values))))

/-- The assignment `A = matrix_map` (MathUtilities.cpp:174): Eigen copies column by column, reading the entries
`outer[j] … outer[j+1]-1` of the mapped arrays and writing them back to back. `base` is the number of entries copied so far.
Entries outside the mapped arrays are undefined behaviour; a decreasing pair of outer indices is an empty column. -/
def copyColumns (inner : List Int32) (values : List F64) :
    Nat → List Int32 → Outcome (List Int32 × List Int32 × List F64)
  | base, o0 :: o1 :: outer =>
    let lo := o0.toInt
    let hi := o1.toInt
    if lo < hi then
      if 0 ≤ lo ∧ hi ≤ values.length ∧ hi ≤ inner.length then
        let i := (inner.drop lo.toNat).take (hi - lo).toNat
        let v := (values.drop lo.toNat).take (hi - lo).toNat
        (copyColumns inner values (base + i.length) (o1 :: outer)).bind fun (o', i', v') =>
          .ok (Int32.ofNat base :: o', i ++ i', v ++ v')
      else .ub
    else
      (copyColumns inner values base (o1 :: outer)).bind fun (o', i', v') => .ok (Int32.ofNat base :: o', i', v')
  | base, _ => .ok ([Int32.ofNat base], [], [])

/-- scisim/Math/MathUtilities.cpp:156-177. -/
def deSparse : Dec Sparse := do
  let rows ← deDim
  let cols ← deDim
  let nnz ← deDim
  let inner ← deCoeffs Int32 nnz
  let outer ← deCoeffs Int32 (cols + 1)
  let values ← deCoeffs F64 nnz
  fun bs => (copyColumns inner values 0 outer).bind fun (o, i, v) => .ok (⟨rows, cols, i, o, v⟩, bs)

end Scisim
