import Verif.Spec.Codec
/-!
# Codec lemmas
-/

namespace Scisim

/-- `d` reads `bs` as `x`, whatever follows. -/
def Reads {α : Type} (d : Dec α) (bs : Bytes) (x : α) : Prop :=
  ∀ rest, d (bs ++ rest) = .ok (x, rest)

theorem roundTrip_iff {α : Type} {ser : α → Bytes} {d : Dec α} {x : α} :
    RoundTrip ser d x ↔ Reads d (ser x) x := Iff.rfl

theorem Reads.pure {α : Type} (x : α) : Reads (Pure.pure x : Dec α) [] x := fun _ => rfl

theorem Reads.bind {α β : Type} {d : Dec α} {f : α → Dec β} {as bs : Bytes} {a : α} {b : β}
    (h1 : Reads d as a) (h2 : Reads (f a) bs b) : Reads (d >>= f) (as ++ bs) b := by
  intro rest
  show (d (as ++ bs ++ rest)).bind _ = _
  rw [List.append_assoc, h1]
  exact h2 rest

theorem Reads.bind_nil {α β : Type} {d : Dec α} {f : α → Dec β} {as : Bytes} {a : α} {b : β}
    (h1 : Reads d as a) (h2 : Reads (f a) [] b) : Reads (d >>= f) as b := by
  have := Reads.bind h1 h2
  rwa [List.append_nil] at this

theorem Reads.congr {α : Type} {d : Dec α} {as bs : Bytes} {a : α} (h : Reads d as a) (e : as = bs) :
    Reads d bs a := e ▸ h

@[simp] theorem encLE_length (n x : Nat) : (encLE n x).length = n := by
  induction n generalizing x with
  | zero => rfl
  | succ n ih => simp [encLE, ih]

theorem decLE_encLE (n x : Nat) (h : x < 256 ^ n) : decLE (encLE n x) = x := by
  induction n generalizing x with
  | zero => simp [encLE, decLE] at *; omega
  | succ n ih =>
    simp only [encLE, decLE]
    rw [ih (x / 256) (by rw [Nat.pow_succ] at h; omega)]
    have : (UInt8.ofNat (x % 256)).toNat = x % 256 := by
      rw [UInt8.toNat_ofNat']
      exact Nat.mod_eq_of_lt (by have := Nat.mod_lt x (show 256 > 0 by omega); omega)
    rw [this]; omega

/-- The representation of every value fits and is read back. -/
class LawfulPod (α : Type) [Pod α] : Prop where
  lt : ∀ x : α, Pod.toN x < 256 ^ Pod.size α
  ofN_toN : ∀ x : α, Pod.ofN (Pod.toN x) = Outcome.ok x

instance : LawfulPod UInt8 :=
  ⟨fun x => x.toNat_lt, fun x => by show Outcome.ok _ = _; simp [Pod.toN]⟩
instance : LawfulPod UInt32 :=
  ⟨fun x => x.toNat_lt, fun x => by show Outcome.ok _ = _; simp [Pod.toN]⟩
instance : LawfulPod UInt64 :=
  ⟨fun x => x.toNat_lt, fun x => by show Outcome.ok _ = _; simp [Pod.toN]⟩
instance : LawfulPod Int32 :=
  ⟨fun x => x.toUInt32.toNat_lt, fun x => by show Outcome.ok _ = _; simp [Pod.toN]⟩
instance : LawfulPod Int64 :=
  ⟨fun x => x.toUInt64.toNat_lt, fun x => by show Outcome.ok _ = _; simp [Pod.toN]⟩
instance : LawfulPod F64 :=
  ⟨fun x => x.bits.toNat_lt, fun x => by show Outcome.ok _ = _; simp [Pod.toN]⟩
instance : LawfulPod Bool :=
  ⟨fun x => by cases x <;> decide, fun x => by cases x <;> rfl⟩

@[simp] theorem image_length {α : Type} [Pod α] (x : α) : (image x).length = Pod.size α := by simp [image]

theorem decLE_image {α : Type} [Pod α] [LawfulPod α] (x : α) : decLE (image x) = Pod.toN x :=
  decLE_encLE _ _ (LawfulPod.lt x)

theorem reads_pod {α : Type} [Pod α] [LawfulPod α] (x : α) : Reads (dePod α) (serPod x) x := by
  intro rest
  have hl : (image x).length = Pod.size α := image_length x
  unfold dePod serPod
  rw [if_neg (by rw [List.length_append, hl]; omega), List.take_left' hl, List.drop_left' hl, decLE_image,
    LawfulPod.ofN_toN]
  rfl

theorem reads_len (n : Nat) (h : n < 18446744073709551616) : Reads deLen (serLen n) n := by
  intro rest
  have hl : (encLE 8 n).length = 8 := encLE_length 8 n
  unfold deLen serLen
  rw [if_neg (by rw [List.length_append, hl]; omega), List.take_left' hl, List.drop_left' hl,
    decLE_encLE 8 n (show n < 18446744073709551616 from h)]

theorem reads_dim (n : Nat) (h : n < 9223372036854775808) : Reads deDim (encLE 8 n) n := by
  refine Reads.bind_nil (reads_len n (by omega)) ?_
  rw [if_pos h]
  exact Reads.pure n

theorem images_length {α : Type} [Pod α] (xs : List α) : (images xs).length = xs.length * Pod.size α := by
  induction xs with
  | nil => simp [images]
  | cons x xs ih =>
    simp only [images, List.flatMap_cons, List.length_append, image_length, List.length_cons] at *
    rw [ih, Nat.add_mul]; omega

theorem podsOf_images {α : Type} [Pod α] [LawfulPod α] (xs : List α) (tl : Bytes) :
    podsOf α xs.length (images xs ++ tl) = .ok xs := by
  induction xs with
  | nil => rfl
  | cons x xs ih =>
    have hl : (image x).length = Pod.size α := image_length x
    simp only [images, List.flatMap_cons, List.length_cons, podsOf, List.append_assoc] at *
    rw [List.take_left' hl, List.drop_left' hl, decLE_image, LawfulPod.ofN_toN]
    show ((podsOf α xs.length _).bind _) = _
    rw [ih]; rfl

theorem reads_raw (mem : Bytes) (n : Nat) (h : mem.length = n) : Reads (readRaw n) mem mem := by
  intro rest
  unfold readRaw
  rw [if_neg (by rw [List.length_append]; omega), List.take_left' h, List.drop_left' h]

theorem reads_zeroed (mem : Bytes) (n : Nat) (h : mem.length = n) : Reads (readZeroed n) mem mem := by
  intro rest
  unfold readZeroed
  rw [List.take_left' h, List.drop_left' h,
    show n - (mem ++ rest).length = 0 by rw [List.length_append]; omega]
  simp

theorem reads_coeffs {α : Type} [Pod α] [LawfulPod α] (xs : List α) (n : Nat) (h : xs.length = n) :
    Reads (deCoeffs α n) (images xs) xs := by
  subst h
  refine Reads.bind_nil (reads_raw _ _ (images_length xs)) ?_
  intro rest
  have := podsOf_images xs []
  rw [List.append_nil] at this
  show (podsOf α xs.length (images xs)).bind _ = _
  rw [this]; rfl

theorem reads_vecPod {α : Type} [Pod α] [LawfulPod α] (xs : List α) (h : xs.length < 18446744073709551616) :
    Reads (deVecPod α) (serVecPod xs) xs := by
  refine Reads.bind (reads_len _ h) (Reads.bind_nil (reads_zeroed _ _ (images_length xs)) ?_)
  intro rest
  have := podsOf_images xs []
  rw [List.append_nil] at this
  show (podsOf α xs.length (images xs)).bind _ = _
  rw [this]; rfl

theorem reads_many {α : Type} {ser : α → Bytes} {d : Dec α} (xs : List α) (h : ∀ x ∈ xs, Reads d (ser x) x) :
    Reads (deMany d xs.length) (xs.flatMap ser) xs := by
  induction xs with
  | nil => exact Reads.pure _
  | cons x xs ih =>
    simp only [List.flatMap_cons, List.length_cons, deMany]
    exact Reads.bind (h x (by simp)) (Reads.bind_nil (ih fun y hy => h y (by simp [hy])) (Reads.pure _))

theorem reads_vec {α : Type} {ser : α → Bytes} {d : Dec α} (xs : List α) (hl : xs.length < 18446744073709551616)
    (h : ∀ x ∈ xs, Reads d (ser x) x) : Reads (deVec d) (serVec ser xs) xs :=
  Reads.bind (reads_len _ hl) (reads_many xs h)

theorem reads_vecBool (xs : List Bool) (hl : xs.length < 18446744073709551616) :
    Reads deVecBool (serVecBool xs) xs :=
  Reads.bind (reads_len _ hl) (reads_many xs fun x _ => reads_pod x)

theorem reads_str (s : Bytes) (hl : s.length < 18446744073709551616) : Reads deStr (serStr s) s :=
  Reads.bind (reads_len _ hl) (reads_zeroed _ _ rfl)

theorem reads_strs (xs : List Bytes) (hl : xs.length < 18446744073709551616)
    (h : ∀ s ∈ xs, s.length < 18446744073709551616) : Reads deStrs (serStrs xs) xs :=
  Reads.bind (reads_len _ hl) (reads_many xs fun s hs => reads_str s (h s hs))

theorem reads_vecX {α : Type} [Pod α] [LawfulPod α] (x : List α) (hl : x.length < 9223372036854775808) :
    Reads (deVecX α) (serVecX x) x := by
  have h : Reads (deDenseDynRows α 1) (serVecX x) ⟨x.length, 1, x⟩ := by
    refine Reads.congr (Reads.bind (reads_dim _ hl)
      (Reads.bind_nil (reads_coeffs x _ (by omega)) (Reads.pure _))) ?_
    simp [serVecX, serDense]
  exact Reads.bind_nil h (Reads.pure _)

theorem reads_v2 (v : V2 F64) : Reads deV2 (serV2 v) v := by
  have h : Reads (deDenseFixed F64 2 1) (serV2 v) ⟨2, 1, [v.x, v.y]⟩ := by
    refine Reads.congr (Reads.bind_nil (reads_coeffs [v.x, v.y] _ rfl) (Reads.pure _)) ?_
    simp [serV2, serDense]
  exact Reads.bind_nil h (Reads.pure _)

/-- Copying a well-formed column structure reproduces it. -/
theorem copyColumns_wf (inner : List Int32) (values : List F64) (hlen : inner.length = values.length)
    (hn : values.length < 2147483648) (outer : List Int32) (base : Nat)
    (hne : outer ≠ [])
    (hhead : outer.head? = some (Int32.ofNat base)) (hb : base ≤ values.length)
    (hmono : outer.Pairwise (fun a b => a.toInt ≤ b.toInt))
    (hlast : outer.getLast? = some (Int32.ofNat values.length)) :
    copyColumns inner values base outer = .ok (outer, inner.drop base, values.drop base) := by
  have toInt_ofNat : ∀ k : Nat, k < 2147483648 → (Int32.ofNat k).toInt = k := fun k hk => by
    rw [Int32.toInt_ofNat_of_lt hk]
  have ofNat_toInt : ∀ o : Int32, 0 ≤ o.toInt → Int32.ofNat o.toInt.toNat = o := fun o ho => by
    apply Int32.toInt_inj.mp
    rw [toInt_ofNat]
    · omega
    · have := o.toInt_lt; omega
  induction outer generalizing base with
  | nil => exact absurd rfl hne
  | cons o0 outer ih =>
    simp only [List.head?_cons, Option.some.injEq] at hhead
    subst hhead
    cases outer with
    | nil =>
      simp only [List.getLast?_singleton, Option.some.injEq] at hlast
      have : (base : Int) = values.length := by
        rw [← toInt_ofNat base (by omega), ← toInt_ofNat values.length hn, hlast]
      have hbl : base = values.length := by omega
      subst hbl
      simp only [copyColumns]
      rw [List.drop_eq_nil_of_le (by omega), List.drop_eq_nil_of_le (by omega)]
    | cons o1 outer =>
      have hlast' : (o1 :: outer).getLast? = some (Int32.ofNat values.length) := by
        rw [List.getLast?_cons_cons] at hlast; exact hlast
      have hp := List.pairwise_cons.mp hmono
      have h01 := hp.1 o1 (by simp)
      have hp1 := List.pairwise_cons.mp hp.2
      have h1l : o1.toInt ≤ (values.length : Int) := by
        have hm : Int32.ofNat values.length ∈ o1 :: outer := List.mem_of_getLast? hlast'
        rcases List.mem_cons.mp hm with h | h
        · rw [← h, toInt_ofNat _ hn]; exact Int.le_refl _
        · have := hp1.1 _ h
          rw [toInt_ofNat _ hn] at this; exact this
      rw [toInt_ofNat base (by omega)] at h01
      have ih' := ih o1.toInt.toNat (by simp) (by rw [List.head?_cons, ofNat_toInt o1 (by omega)]) (by omega) hp.2 hlast'
      unfold copyColumns
      simp only [toInt_ofNat base (show base < 2147483648 by omega)]
      by_cases hlt : (base : Int) < o1.toInt
      · rw [if_pos hlt, if_pos ⟨by omega, h1l, by omega⟩]
        have hk : ((inner.drop base).take (o1.toInt - base).toNat).length = o1.toInt.toNat - base := by
          rw [List.length_take, List.length_drop]; omega
        simp only [Int.toNat_natCast]
        rw [hk, show base + (o1.toInt.toNat - base) = o1.toInt.toNat by omega, ih']
        show Outcome.ok _ = _
        have e : ∀ {β : Type} (l : List β), (l.drop base).take (o1.toInt - base).toNat ++ l.drop o1.toInt.toNat
            = l.drop base := fun l => by
          have := List.take_append_drop (o1.toInt - base).toNat (l.drop base)
          rw [List.drop_drop, show base + (o1.toInt - base).toNat = o1.toInt.toNat by omega] at this
          exact this
        rw [e, e]
      · rw [if_neg hlt]
        have he : o1.toInt.toNat = base := by omega
        rw [he] at ih'
        rw [ih']; rfl

theorem reads_sparse (A : Sparse) (h : A.Wf) : Reads deSparse (serSparse A) A := by
  refine Reads.bind (reads_dim _ h.rows_lt) (Reads.bind (reads_dim _ h.cols_lt)
    (Reads.bind (reads_dim _ (by have := h.nnz_lt; omega)) (Reads.bind (reads_coeffs A.inner _ h.inner_len)
    (Reads.bind (reads_coeffs A.outer _ h.outer_len) (Reads.bind_nil (reads_coeffs A.values _ rfl) ?_)))))
  intro rest
  have hc := copyColumns_wf A.inner A.values h.inner_len h.nnz_lt A.outer 0
    (by intro e; have := h.outer_head; simp [e] at this) (by rw [h.outer_head]; rfl) (by omega) h.outer_mono h.outer_last
  show (copyColumns A.inner A.values 0 A.outer).bind _ = _
  rw [hc]; rfl

end Scisim
