import Verif.Lemmas.Codec
/-!
# C05 — every value written by the binary serialisers is read back unchanged

`RoundTrip ser d x` (Spec/Codec.lean): for every continuation of the stream, reading returns `x` and leaves exactly the
continuation.  Size hypotheses say that lengths are `size_t` / `Eigen::Index` values, which every C++ object satisfies.
-/

namespace Scisim

/-- `unsigned`, `size_t`, `int`, `intmax_t`/`Eigen::Index`, `double` (bit for bit, NaNs included), `bool`, `char`. -/
theorem C05_plain (u : UInt32) (s : UInt64) (i : Int32) (k : Int64) (d : F64) (b : Bool) (c : UInt8) :
    RoundTrip serPod (dePod UInt32) u ∧ RoundTrip serPod (dePod UInt64) s ∧ RoundTrip serPod (dePod Int32) i ∧
    RoundTrip serPod (dePod Int64) k ∧ RoundTrip serPod (dePod F64) d ∧ RoundTrip serPod (dePod Bool) b ∧
    RoundTrip serPod (dePod UInt8) c :=
  ⟨reads_pod u, reads_pod s, reads_pod i, reads_pod k, reads_pod d, reads_pod b, reads_pod c⟩

/-- Sizes in the stream are those of the C++ types. -/
theorem C05_sizes (u : UInt32) (s : UInt64) (i : Int32) (k : Int64) (d : F64) (b : Bool) :
    (serPod u).length = 4 ∧ (serPod s).length = 8 ∧ (serPod i).length = 4 ∧ (serPod k).length = 8 ∧
    (serPod d).length = 8 ∧ (serPod b).length = 1 := by
  simp only [serPod, image_length]; exact ⟨rfl, rfl, rfl, rfl, rfl, rfl⟩

example : serPod (0x12345678 : UInt32) = [0x78, 0x56, 0x34, 0x12] := by decide
example : serPod (-2 : Int32) = [0xFE, 0xFF, 0xFF, 0xFF] := by decide

/-- Strings. -/
theorem C05_string (s : Bytes) (h : s.length < 18446744073709551616) : RoundTrip serStr deStr s := reads_str s h

example : RoundTrip serStr deStr [0x67, 0x72] := C05_string _ (by decide)

/-- Vectors of strings. -/
theorem C05_strings (xs : List Bytes) (hl : xs.length < 18446744073709551616)
    (h : ∀ s ∈ xs, s.length < 18446744073709551616) : RoundTrip serStrs deStrs xs := reads_strs xs hl h

example : RoundTrip serStrs deStrs [[0x6d, 0x61], [], [0x39]] := C05_strings _ (by decide) (by decide)

/-- Vectors of trivially copyable values. -/
theorem C05_vector {α : Type} [Pod α] [LawfulPod α] (xs : List α) (h : xs.length < 18446744073709551616) :
    RoundTrip serVecPod (deVecPod α) xs := reads_vecPod xs h

example : RoundTrip serVecPod (deVecPod UInt32) [7, 0, 4294967295] := C05_vector _ (by decide)

/-- Vectors of objects with their own serialiser: if every element survives, the vector does. -/
theorem C05_vector_of_objects {α : Type} {ser : α → Bytes} {d : Dec α} (xs : List α)
    (hl : xs.length < 18446744073709551616) (h : ∀ x ∈ xs, RoundTrip ser d x) :
    RoundTrip (serVec ser) (deVec d) xs := reads_vec xs hl h

example : RoundTrip (serVec serV2) (deVec deV2) [⟨⟨1⟩, ⟨2⟩⟩, ⟨⟨3⟩, ⟨4⟩⟩] :=
  C05_vector_of_objects _ (by decide) fun x _ => reads_v2 x

/-- Boolean vectors. -/
theorem C05_vector_bool (xs : List Bool) (h : xs.length < 18446744073709551616) :
    RoundTrip serVecBool deVecBool xs := reads_vecBool xs h

example : RoundTrip serVecBool deVecBool [true, false, true] := C05_vector_bool _ (by decide)

/-- Dense Eigen objects of fixed size. -/
theorem C05_dense_fixed {α : Type} [Pod α] [LawfulPod α] (m : Dense α) (h : m.Wf) :
    RoundTrip (serDense false false) (deDenseFixed α m.rows m.cols) m := by
  refine Reads.congr (Reads.bind_nil (reads_coeffs m.data _ h.1) (Reads.pure _)) ?_
  simp [serDense]

/-- Dense Eigen objects with dynamic columns. -/
theorem C05_dense_dynamic_cols {α : Type} [Pod α] [LawfulPod α] (m : Dense α) (h : m.Wf) :
    RoundTrip (serDense false true) (deDenseDynCols α m.rows) m := by
  refine Reads.congr (Reads.bind (reads_dim _ h.2.2) (Reads.bind_nil (reads_coeffs m.data _ h.1) (Reads.pure _))) ?_
  simp [serDense]

/-- Dense Eigen objects with dynamic rows. -/
theorem C05_dense_dynamic_rows {α : Type} [Pod α] [LawfulPod α] (m : Dense α) (h : m.Wf) :
    RoundTrip (serDense true false) (deDenseDynRows α m.cols) m := by
  refine Reads.congr (Reads.bind (reads_dim _ h.2.1) (Reads.bind_nil (reads_coeffs m.data _ h.1) (Reads.pure _))) ?_
  simp [serDense]

example : RoundTrip (serDense false true) (deDenseDynCols F64 3) ⟨3, 2, [⟨1⟩, ⟨2⟩, ⟨3⟩, ⟨4⟩, ⟨5⟩, ⟨6⟩]⟩ :=
  C05_dense_dynamic_cols ⟨3, 2, _⟩ (by unfold Dense.Wf; decide)

/-- Sparse matrices (any number of rows, columns, entries; empty columns allowed). -/
theorem C05_sparse (A : Sparse) (h : A.Wf) : RoundTrip serSparse deSparse A := reads_sparse A h

/-- a 3×4 matrix with entries (0,0), (2,0), (1,3) and two empty columns -/
def exampleSparse : Sparse := ⟨3, 4, [0, 2, 1], [0, 2, 2, 2, 3], [⟨10⟩, ⟨20⟩, ⟨30⟩]⟩

theorem exampleSparse_wf : exampleSparse.Wf :=
  ⟨by decide, by decide, by decide, by decide, by decide, by decide, by decide, by decide⟩

example : RoundTrip serSparse deSparse exampleSparse := C05_sparse _ exampleSparse_wf

/-- Two different values never have the same bytes (consequence of the round trip; stated for any serialiser). -/
theorem C05_injective {α : Type} {ser : α → Bytes} {d : Dec α} {x y : α} (hx : RoundTrip ser d x)
    (hy : RoundTrip ser d y) (h : ser x = ser y) : x = y := by
  have h1 := hx []
  rw [h, hy []] at h1
  simp only [Outcome.ok.injEq, Prod.mk.injEq, and_true] at h1
  exact h1.symm

/-- A short read of a plain variable is never silently accepted as a value: the variable stays indeterminate. -/
theorem C05_truncated_plain (α : Type) [Pod α] (bs : Bytes) (h : bs.length < Pod.size α) :
    (dePod α).run bs = .ub := if_pos h

/-- … but a truncated string or vector *is* silently completed with zeros (no error is reported). -/
theorem C05_truncated_string_zero_filled :
    deStr.run (serLen 3 ++ [0x61]) = .ok ([0x61, 0, 0], []) := by decide

end Scisim
