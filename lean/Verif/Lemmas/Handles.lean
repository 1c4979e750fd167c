import Verif.Spec.Handles
import Mathlib.Tactic.Linarith
/-!
# Lemmas: identifiers of the HDF5 library
-/

namespace Scisim.Handles

variable {α β : Type} {w : World}

/-- The same identifiers are in use -/
def Same (l l' : Lib) : Prop := l'.opened = l.opened ∧ l'.misused = l.misused ∧ l.next ≤ l'.next

theorem Same.refl (l : Lib) : Same l l := ⟨rfl, rfl, le_rfl⟩

theorem Same.trans {a b c : Lib} (h : Same a b) (h' : Same b c) : Same a c :=
  ⟨h'.1.trans h.1, h'.2.1.trans h.2.1, h.2.2.trans h'.2.2⟩

theorem Same.sane {a b : Lib} (h : Same a b) (ha : Sane a) : Sane b :=
  ⟨h.1 ▸ ha.1, fun n hn => (ha.2 n (h.1 ▸ hn)).trans_le h.2.2⟩

/-- Code after which the same identifiers are in use -/
def Keeps (p : Run α) : Prop := ∀ l, Sane l → Same l (p l).2

/-- Code that returns a new identifier, or a negative number, or throws -/
def Gives (p : Run ℤ) : Prop := ∀ l, Sane l →
  (Same l (p l).2 ∧ ((p l).1 = .thrown ∨ ∃ h : ℤ, h < 0 ∧ (p l).1 = .ok h)) ∨
  ∃ n : ℕ, (p l).1 = .ok (n : ℤ) ∧ l.next ≤ n ∧ n < (p l).2.next ∧ (p l).2.opened = n :: l.opened ∧ (p l).2.misused = l.misused

theorem Keeps.bind {p : Run α} {f : α → Run β} (hp : Keeps p) (hf : ∀ a, Keeps (f a)) : Keeps (p.bind f) := by
  intro l hl
  have h := hp l hl
  simp only [Run.bind]
  rcases hr : p l with ⟨r, l'⟩
  rw [hr] at h
  cases r with
  | ok a => exact h.trans (hf a l' (h.sane hl))
  | thrown => exact h

theorem keeps_done : Keeps done := fun l _ => Same.refl l

theorem keeps_guard (b : Bool) : Keeps (guard b) := fun l _ => Same.refl l

theorem keeps_call (k : Kind) (hs : List ℤ) : Keeps (call w k hs) := fun _ _ => ⟨rfl, rfl, le_rfl⟩

theorem keeps_need (k : Kind) (hs : List ℤ) : Keeps (need w k hs) := (keeps_call k hs).bind keeps_guard

theorem gives_acquire (hs : List ℤ) : Gives (acquire w hs) := by
  intro l hl
  unfold acquire
  by_cases h : (hs.all l.valid && w l.trace.length) = true
  · right
    rw [if_pos h]
    exact ⟨l.next, rfl, le_rfl, Nat.lt_succ_self _, rfl, rfl⟩
  · left
    simp only [Bool.not_eq_true] at h
    simp only [h, Bool.false_eq_true, if_false]
    exact ⟨⟨rfl, rfl, le_rfl⟩, Or.inr ⟨-1, by decide, rfl⟩⟩

theorem release_neg {h : ℤ} (hh : h < 0) (l : Lib) : release w h l = l := by
  simp [release, not_le.mpr hh]

theorem release_head {n : ℕ} {l : Lib} {t : List ℕ} (h : l.opened = n :: t) :
    (release w (n : ℤ) l).opened = t ∧ (release w (n : ℤ) l).misused = l.misused ∧ (release w (n : ℤ) l).next = l.next := by
  have hv : l.valid (n : ℤ) = true := by simp [Lib.valid, h]
  have h0 : (0 : ℤ) ≤ (n : ℤ) := Int.natCast_nonneg n
  simp [release, hv, h0, h]

theorem Keeps.scope {acq : Run ℤ} {body : ℤ → Run α} (ha : Gives acq) (hb : ∀ h, Keeps (body h)) : Keeps (scope w acq body) := by
  intro l hl
  simp only [Handles.scope]
  rcases hr : acq l with ⟨r, l'⟩
  have hg := ha l hl
  rw [hr] at hg
  cases r with
  | thrown =>
    rcases hg with ⟨h, _⟩ | ⟨n, h, _⟩
    · exact h
    · simp at h
  | ok h =>
    rcases hg with ⟨hs, h' | ⟨m, hm, hm'⟩⟩ | ⟨n, hn, hlt, hnext, hop, hmis⟩
    · simp at h'
    · simp only [Res.ok.injEq] at hm'
      subst hm'
      simp only
      rw [release_neg hm]
      exact hs.trans (hb h l' (hs.sane hl))
    · simp only [Res.ok.injEq] at hn
      subst hn
      have hsane : Sane l' := by
        refine ⟨?_, fun m hm => ?_⟩
        · simp only at hop
          rw [hop]
          exact List.nodup_cons.mpr ⟨fun hc => absurd (hl.2 n hc) (not_lt.mpr hlt), hl.1⟩
        · simp only at hop hnext
          rw [hop, List.mem_cons] at hm
          rcases hm with rfl | hm
          · exact hnext
          · exact (hl.2 m hm).trans_le (hlt.trans hnext.le)
      have hk := hb (n : ℤ) l' hsane
      have hop' : (body (n : ℤ) l').2.opened = n :: l.opened := hk.1.trans hop
      obtain ⟨h1, h2, h3⟩ := release_head (w := w) hop'
      exact ⟨h1, h2.trans (hk.2.1.trans hmis), by rw [h3]; exact (hlt.trans hnext.le).trans hk.2.2⟩

theorem Keeps.checked {acq : Run ℤ} {body : ℤ → Run α} (ha : Gives acq) (hb : ∀ h, Keeps (body h)) : Keeps (checked w acq body) :=
  Keeps.scope ha fun h => (keeps_guard _).bind fun _ => hb h

theorem gives_assignGroup {acq : Run ℤ} (ha : Gives acq) : Gives (assignGroup w acq) := by
  intro l hl
  have hg := ha l hl
  unfold assignGroup Run.bind
  rcases hr : acq l with ⟨r, l'⟩
  rw [hr] at hg
  cases r with
  | thrown =>
    rcases hg with ⟨h, _⟩ | ⟨n, h, _⟩
    · exact Or.inl ⟨h, Or.inl rfl⟩
    · simp at h
  | ok h =>
    have hm1 : ∀ l : Lib, release w (-1) l = l := fun l => release_neg (by decide) l
    rcases hg with ⟨hs, h' | ⟨m, hm, hm'⟩⟩ | ⟨n, hn, hlt, hnext, hop, hmis⟩
    · simp at h'
    · simp only [Res.ok.injEq] at hm'
      subst hm'
      left
      simp only [moveAssign, hm1, hm, if_true, release_neg hm]
      exact ⟨hs, Or.inl trivial⟩
    · simp only [Res.ok.injEq] at hn
      subst hn
      right
      have h0 : ¬ ((n : ℤ) < 0) := not_lt.mpr (Int.natCast_nonneg n)
      simp only [moveAssign, moveConstruct, hm1, h0, if_false]
      exact ⟨n, rfl, hlt, hnext, hop, hmis⟩

theorem Gives.bind {p : Run α} {f : α → Run ℤ} (hp : Keeps p) (hf : ∀ a, Gives (f a)) : Gives (p.bind f) := by
  intro l hl
  have h := hp l hl
  simp only [Run.bind]
  rcases hr : p l with ⟨r, l'⟩
  rw [hr] at h
  simp only at h
  cases r with
  | thrown => exact Or.inl ⟨h, Or.inl rfl⟩
  | ok a =>
    rcases hf a l' (h.sane hl) with ⟨hs, hx⟩ | ⟨n, hn, hlt, hnext, hop, hmis⟩
    · exact Or.inl ⟨h.trans hs, hx⟩
    · exact Or.inr ⟨n, hn, h.2.2.trans hlt, hnext, by rw [hop, h.1], hmis.trans h.2.1⟩

theorem gives_findOrCreateGroup (file : ℤ) (name : Option Bool) : Gives (findOrCreateGroup w file name) := by
  cases name with
  | none => exact gives_assignGroup (gives_acquire _)
  | some there =>
    refine Gives.bind (keeps_call _ _) fun good => ?_
    split <;> exact gives_assignGroup (gives_acquire _)

theorem gives_findGroup (file : ℤ) : Gives (findGroup w file) := gives_assignGroup (gives_acquire _)

theorem keeps_writeString (file : ℤ) (name : Option Bool) : Keeps (writeString w file name) :=
  .checked (gives_acquire _) fun _ => (keeps_need _ _).bind fun _ => .checked (gives_acquire _) fun _ => (keeps_need _ _).bind fun _ =>
  .checked (gives_acquire _) fun _ => .scope (gives_findOrCreateGroup _ _) fun _ => .checked (gives_acquire _) fun _ => keeps_need _ _

theorem keeps_writeDense (file : ℤ) (name : Option Bool) : Keeps (writeDense w file name) :=
  .checked (gives_acquire _) fun _ => .scope (gives_findOrCreateGroup _ _) fun _ => .checked (gives_acquire _) fun _ => keeps_need _ _

theorem keeps_writeSparse (file : ℤ) (name : Option Bool) : Keeps (writeSparse w file name) :=
  have h := keeps_writeDense (w := w) file name
  h.bind fun _ => h.bind fun _ => h.bind fun _ => h.bind fun _ => h

theorem keeps_getNativeType (d : ℤ) : Keeps (getNativeType w d) := .checked (gives_acquire _) fun _ => keeps_done

theorem keeps_getDimensions (d : ℤ) : Keeps (getDimensions w d) := .checked (gives_acquire _) fun _ => (keeps_need _ _).bind fun _ => keeps_need _ _

theorem keeps_read (file : ℤ) (a b : Bool) : Keeps (Handles.read w file a b) :=
  .scope (gives_findGroup _) fun _ => .checked (gives_acquire _) fun _ => (keeps_getNativeType _).bind fun _ => (keeps_guard _).bind fun _ =>
  (keeps_getDimensions _).bind fun _ => (keeps_guard _).bind fun _ => (keeps_getNativeType _).bind fun _ => keeps_need _ _

theorem keeps_writeElements (s m : ℤ) (hs : List ℤ) (n : ℕ) : Keeps (writeElements w s m hs n) := by
  induction n with
  | zero => exact keeps_done
  | succ n ih => exact (keeps_call _ _).bind fun _ => (keeps_call _ _).bind fun _ => (keeps_need _ _).bind fun _ => ih

theorem keeps_writeIndices (file : ℤ) (name : Option Bool) (n : ℕ) : Keeps (writeIndices w file name n) :=
  .checked (gives_acquire _) fun _ => .scope (gives_findOrCreateGroup _ _) fun _ => .checked (gives_acquire _) fun _ => .checked (gives_acquire _) fun _ => keeps_writeElements _ _ _ _

theorem keeps_insertField (s : ℤ) (f : Field) : Keeps (insertField w s f) := by
  cases f with
  | number => exact keeps_need _ _
  | array => exact .checked (gives_acquire _) fun _ => keeps_need _ _
  | text => exact .checked (gives_acquire _) fun _ => (keeps_need _ _).bind fun _ => keeps_need _ _

theorem keeps_insertFields (s : ℤ) (fs : List Field) : Keeps (insertFields w s fs) := by
  induction fs with
  | nil => exact keeps_done
  | cons f fs ih => exact (keeps_insertField s f).bind fun _ => ih

theorem keeps_writeRecords (file : ℤ) (name : Option Bool) (fs : List Field) (c : Bool) (n : ℕ) : Keeps (writeRecords w file name fs c n) :=
  .checked (gives_acquire _) fun _ => .checked (gives_acquire _) fun _ => (keeps_insertFields _ _).bind fun _ => .scope (gives_findOrCreateGroup _ _) fun _ =>
  .checked (gives_acquire _) fun _ => .scope (gives_acquire _) fun _ => (keeps_guard _).bind fun _ => keeps_writeElements _ _ _ _

theorem keeps_item (file : ℤ) (i : Item) : Keeps (i.run w file) := by
  cases i with
  | string n => exact keeps_writeString _ _
  | dense n => exact keeps_writeDense _ _
  | sparse n => exact keeps_writeSparse _ _
  | indices n k => exact keeps_writeIndices _ _ _
  | records n f c k => exact keeps_writeRecords _ _ _ _ _
  | read a b => exact keeps_read _ _ _

theorem keeps_runItems (file : ℤ) (is : List Item) : Keeps (runItems w file is) := by
  induction is with
  | nil => exact keeps_done
  | cons i is ih => exact (keeps_item file i).bind fun _ => ih

/-! ## Without a file -/

/-- Code that never returns -/
def Throws (p : Run α) : Prop := ∀ l, (p l).1 = .thrown

theorem acquire_invalid {file : ℤ} (hf : file < 0) (l : Lib) : acquire w [file] l = (.ok (-1), { l with trace := (.create, false) :: l.trace }) := by
  have hv : l.valid file = false := by simp [Lib.valid, not_le.mpr hf]
  simp [acquire, hv]

theorem throws_assignGroup {file : ℤ} (hf : file < 0) : Throws (assignGroup w (acquire w [file])) := by
  intro l
  simp [assignGroup, Run.bind, acquire_invalid hf, moveAssign]

theorem throws_findOrCreateGroup {file : ℤ} (hf : file < 0) (name : Option Bool) : Throws (findOrCreateGroup w file name) := by
  intro l
  cases name with
  | none => exact throws_assignGroup hf l
  | some there =>
    simp only [findOrCreateGroup, Run.bind, call]
    split <;> exact throws_assignGroup hf _

theorem Throws.bind {p : Run α} {f : α → Run β} (hp : Throws p) : Throws (p.bind f) := by
  intro l
  have h := hp l
  simp only [Run.bind]
  rcases hr : p l with ⟨r, l'⟩
  rw [hr] at h
  simp only at h
  subst h
  rfl

theorem Throws.after {p : Run α} {f : α → Run β} (hf : ∀ a, Throws (f a)) : Throws (p.bind f) := by
  intro l
  simp only [Run.bind]
  rcases hr : p l with ⟨r, l'⟩
  cases r with
  | ok a => exact hf a l'
  | thrown => rfl

theorem Throws.scope {acq : Run ℤ} {body : ℤ → Run α} (hb : ∀ h, Throws (body h)) : Throws (scope w acq body) := by
  intro l
  simp only [Handles.scope]
  rcases hr : acq l with ⟨r, l'⟩
  cases r with
  | ok a => exact hb a l'
  | thrown => rfl

theorem Throws.scope' {acq : Run ℤ} {body : ℤ → Run α} (ha : Throws acq) : Throws (Handles.scope w acq body) := by
  intro l
  have h := ha l
  simp only [Handles.scope]
  rcases hr : acq l with ⟨r, l'⟩
  rw [hr] at h
  simp only at h
  subst h
  rfl

theorem Throws.checked {acq : Run ℤ} {body : ℤ → Run α} (hb : ∀ h, Throws (body h)) : Throws (checked w acq body) :=
  Throws.scope fun h => Throws.after fun _ => hb h

theorem throws_item {file : ℤ} (hf : file < 0) (i : Item) : Throws (i.run w file) := by
  have hd : ∀ n, Throws (writeDense w file n) := fun n => .checked fun _ => .scope' (throws_findOrCreateGroup hf n)
  cases i with
  | string n => exact .checked fun _ => .after fun _ => .checked fun _ => .after fun _ => .checked fun _ => .scope' (throws_findOrCreateGroup hf n)
  | dense n => exact hd n
  | sparse n => exact (hd n).bind
  | indices n k => exact .checked fun _ => .scope' (throws_findOrCreateGroup hf n)
  | records n f c k => exact .checked fun _ => .checked fun _ => .after fun _ => .scope' (throws_findOrCreateGroup hf n)
  | read a b => exact .scope' (throws_assignGroup hf)

/-! ## Histories -/

/-- The identifiers in use are those of the objects, each of one -/
def Held (s : State) : Prop :=
  Sane s.lib ∧ s.lib.misused = false ∧ (∀ n : ℕ, n ∈ s.lib.opened ↔ ∃ i, s.objs i = some (n : ℤ)) ∧
    ∀ (i j : ℕ) (n : ℕ), s.objs i = some (n : ℤ) → s.objs j = some (n : ℤ) → i = j

theorem openFile_cases (l : Lib) :
    (openFile w l = ((-1, true), { l with trace := (.create, false) :: l.trace })) ∨
    (openFile w l = (((l.next : ℤ), false), { l with opened := l.next :: l.opened, next := l.next + 1, trace := (.create, true) :: l.trace })) := by
  unfold openFile acquire
  by_cases h : w l.trace.length = true
  · right; simp [h]
  · left; simp [h]

theorem held_same {s : State} {l' : Lib} (h : Held s) (hs : Same s.lib l') : Held { s with lib := l' } := by
  obtain ⟨h1, h2, h3, h4⟩ := h
  exact ⟨hs.sane h1, hs.2.1.trans h2, fun n => by rw [show ({ s with lib := l' } : State).lib.opened = s.lib.opened from hs.1]; exact h3 n, h4⟩

theorem held_step {s : State} {o : Op} (h : Held s) (ho : ∀ i, o = .open' i → s.isOpen i = false) : Held (step w s o) := by
  have hneg : ∀ n : ℕ, (some (-1 : ℤ)) ≠ some (n : ℤ) := fun n hc => by
    have := Option.some.inj hc
    have := Int.natCast_nonneg n
    omega
  obtain ⟨h1, h2, h3, h4⟩ := h
  -- a new file in a place that has none
  have hnew : ∀ (i : ℕ) (t : List (Kind × Bool)), (∀ n : ℕ, s.objs i ≠ some (n : ℤ)) →
      Held ⟨{ s.lib with opened := s.lib.next :: s.lib.opened, next := s.lib.next + 1, trace := t }, Function.update s.objs i (some (s.lib.next : ℤ))⟩ := by
    intro i t hi
    refine ⟨⟨List.nodup_cons.mpr ⟨fun hc => absurd (h1.2 _ hc) (lt_irrefl _), h1.1⟩, fun n hn => ?_⟩, h2, fun n => ?_, fun a b n ha hb => ?_⟩
    · rcases List.mem_cons.mp hn with rfl | hn
      · exact Nat.lt_succ_self _
      · exact (h1.2 n hn).trans (Nat.lt_succ_self _)
    · simp only [List.mem_cons]
      constructor
      · rintro (rfl | hn)
        · exact ⟨i, by simp⟩
        · obtain ⟨j, hj⟩ := (h3 n).mp hn
          have hji : j ≠ i := fun hc => hi n (by rw [← hc]; exact hj)
          exact ⟨j, (Function.update_of_ne hji _ _).trans hj⟩
      · rintro ⟨j, hj⟩
        by_cases hij : j = i
        · subst hij
          simp only [Function.update_self, Option.some.injEq, Nat.cast_inj] at hj
          exact Or.inl hj.symm
        · rw [Function.update_of_ne hij] at hj
          exact Or.inr ((h3 n).mpr ⟨j, hj⟩)
    · have hlt : ∀ k, s.objs k = some (n : ℤ) → n ≠ s.lib.next := fun k hk hc => absurd (h1.2 n ((h3 n).mpr ⟨k, hk⟩)) (by omega)
      simp only [Function.update_apply] at ha hb
      split_ifs at ha hb with hai hbi hbi
      · rw [hai, hbi]
      · have : n = s.lib.next := by simpa using (Option.some.inj ha).symm
        exact absurd this (hlt b hb)
      · have : n = s.lib.next := by simpa using (Option.some.inj hb).symm
        exact absurd this (hlt a ha)
      · exact h4 a b n ha hb
  -- an object without a file in a place that has none
  have hnone : ∀ (i : ℕ) (t : List (Kind × Bool)) (x : Option ℤ), (∀ n : ℕ, s.objs i ≠ some (n : ℤ)) → (∀ n : ℕ, x ≠ some (n : ℤ)) →
      Held ⟨{ s.lib with trace := t }, Function.update s.objs i x⟩ := by
    intro i t x hi hx
    refine ⟨h1, h2, fun n => ?_, fun a b n ha hb => ?_⟩
    · rw [h3 n]
      constructor
      · rintro ⟨j, hj⟩
        have hji : j ≠ i := fun hc => hi n (by rw [← hc]; exact hj)
        exact ⟨j, (Function.update_of_ne hji _ _).trans hj⟩
      · rintro ⟨j, hj⟩
        simp only [Function.update_apply] at hj
        split_ifs at hj with hji
        · exact absurd hj (hx n)
        · exact ⟨j, hj⟩
    · simp only [Function.update_apply] at ha hb
      split_ifs at ha hb with hai hbi hbi
      · exact absurd ha (hx n)
      · exact absurd ha (hx n)
      · exact absurd hb (hx n)
      · exact h4 a b n ha hb
  -- the contents of two places are exchanged
  have hswap : ∀ (i j : ℕ) (x y : Option ℤ), (∀ n : ℕ, s.objs i = some (n : ℤ) ↔ y = some (n : ℤ)) → (∀ n : ℕ, s.objs j = some (n : ℤ) ↔ x = some (n : ℤ)) →
      (i = j → x = y) → Held { s with objs := Function.update (Function.update s.objs i x) j y } := by
    intro i j x y hi hj hij
    refine ⟨h1, h2, fun n => ?_, fun a b n ha hb => ?_⟩
    · rw [h3 n]
      constructor
      · rintro ⟨k, hk⟩
        by_cases hki : k = i
        · subst hki
          exact ⟨j, by simp only [Function.update_self]; exact (hi n).mp hk⟩
        · by_cases hkj : k = j
          · subst hkj
            refine ⟨i, ?_⟩
            show Function.update (Function.update s.objs i x) k y i = _
            rw [Function.update_of_ne (fun hc => hki hc.symm), Function.update_self]
            exact (hj n).mp hk
          · exact ⟨k, (Function.update_of_ne hkj _ _).trans ((Function.update_of_ne hki _ _).trans hk)⟩
      · rintro ⟨k, hk⟩
        simp only [Function.update_apply] at hk
        split_ifs at hk with hkj hki
        · exact ⟨i, (hi n).mpr hk⟩
        · exact ⟨j, (hj n).mpr hk⟩
        · exact ⟨k, hk⟩
    · simp only [Function.update_apply] at ha hb
      split_ifs at ha hb with haj hbj hbi hai hbj hbi hbj hbi
      · rw [haj, hbj]
      · exact absurd (h4 i j n ((hi n).mpr ha) ((hj n).mpr hb)) (fun hc => hbj (hbi.trans hc))
      · exact absurd (h4 i b n ((hi n).mpr ha) hb) (fun hc => hbi hc.symm)
      · exact absurd (h4 j i n ((hj n).mpr ha) ((hi n).mpr hb)) (fun hc => haj (hai.trans hc.symm))
      · rw [hai, hbi]
      · exact absurd (h4 j b n ((hj n).mpr ha) hb) (fun hc => hbj hc.symm)
      · exact absurd (h4 a i n ha ((hi n).mpr hb)) hai
      · exact absurd (h4 a j n ha ((hj n).mpr hb)) haj
      · exact h4 a b n ha hb
  cases o with
  | construct i =>
    simp only [step]
    split_ifs with hi
    · exact hnone i s.lib.trace _ (fun n hc => by rw [hi] at hc; simp at hc) hneg
    · exact ⟨h1, h2, h3, h4⟩
  | constructOpen i =>
    simp only [step]
    by_cases hi : s.objs i = none
    · rw [if_pos hi]
      have hi' : ∀ n : ℕ, s.objs i ≠ some (n : ℤ) := fun n hc => by rw [hi] at hc; simp at hc
      rcases openFile_cases (w := w) s.lib with hr | hr
      · rw [hr]
        simp only [if_true]
        exact held_same ⟨h1, h2, h3, h4⟩ ⟨rfl, rfl, le_rfl⟩
      · rw [hr]
        simp only [Bool.false_eq_true, if_false]
        exact hnew i _ hi'
    · rw [if_neg hi]
      exact ⟨h1, h2, h3, h4⟩
  | open' i =>
    have hio := ho i rfl
    simp only [step]
    rcases hobj : s.objs i with _ | x
    · exact ⟨h1, h2, h3, h4⟩
    · have hx : x < 0 := by simpa [State.isOpen, hobj] using hio
      have hi' : ∀ n : ℕ, s.objs i ≠ some (n : ℤ) := fun n hc => by
        rw [hobj] at hc
        have := Option.some.inj hc
        have := Int.natCast_nonneg n
        omega
      rcases openFile_cases (w := w) s.lib with hr | hr
      · simp only [hr]
        exact hnone i _ _ hi' hneg
      · simp only [hr]
        exact hnew i _ hi'
  | move i j =>
    simp only [step]
    split
    · rename_i x hi hj
      refine hswap i j _ _ (fun n => ?_) (fun n => ?_) (fun hij => ?_)
      · rw [hi]
        simp only [moveConstruct, reduceCtorEq, false_iff]
        exact hneg n
      · rw [hj]
        simp [moveConstruct]
      · subst hij
        rw [hi] at hj
        simp at hj
    · exact ⟨h1, h2, h3, h4⟩
  | assign i j =>
    simp only [step]
    split
    · rename_i this other hi hj
      refine hswap i j _ _ (fun n => ?_) (fun n => ?_) (fun hij => ?_)
      · rw [hi]; simp [moveAssign]
      · rw [hj]; simp [moveAssign]
      · subst hij
        rw [hi] at hj
        simp only [moveAssign]
        exact hj.symm
    · exact ⟨h1, h2, h3, h4⟩
  | use i items =>
    simp only [step]
    split
    · exact held_same ⟨h1, h2, h3, h4⟩ (keeps_runItems _ _ _ h1)
    · exact ⟨h1, h2, h3, h4⟩
  | destroy i =>
    simp only [step]
    rcases hobj : s.objs i with _ | x
    · exact ⟨h1, h2, h3, h4⟩
    · rcases lt_or_ge x 0 with hx | hx
      · simp only [release_neg hx]
        refine hnone i s.lib.trace none (fun n hc => ?_) (fun n => by simp)
        rw [hobj] at hc
        have := Option.some.inj hc
        have := Int.natCast_nonneg n
        omega
      · obtain ⟨m, rfl⟩ := Int.eq_ofNat_of_zero_le hx
        have hm : m ∈ s.lib.opened := (h3 m).mpr ⟨i, hobj⟩
        have hv : s.lib.valid (m : ℤ) = true := by simpa [Lib.valid] using hm
        have h0 : (0 : ℤ) ≤ (m : ℤ) := Int.natCast_nonneg m
        simp only [release, h0, hv, if_true]
        refine ⟨⟨h1.1.erase _, fun n hn => h1.2 n (List.mem_of_mem_erase hn)⟩, h2, fun n => ?_, fun a b n ha hb => ?_⟩
        · rw [show ((m : ℤ)).toNat = m from Int.toNat_natCast m, h1.1.mem_erase_iff, h3 n]
          constructor
          · rintro ⟨hne, k, hk⟩
            have hki : k ≠ i := by
              intro hc
              rw [hc, hobj] at hk
              exact hne (by simpa using (Option.some.inj hk).symm)
            exact ⟨k, (Function.update_of_ne hki _ _).trans hk⟩
          · rintro ⟨k, hk⟩
            simp only [Function.update_apply] at hk
            split_ifs at hk with hki
            refine ⟨fun hc => hki (h4 k i n hk (by rw [hobj, hc])), k, hk⟩
        · simp only [Function.update_apply] at ha hb
          split_ifs at ha hb
          exact h4 a b n ha hb

theorem held_run {os : List Op} : ∀ {s : State}, Held s → NeverReopens w s os → Held (run w s os) := by
  induction os with
  | nil => intro s h _; exact h
  | cons o os ih => intro s h hn; exact ih (held_step h hn.1) hn.2

theorem held_start : Held State.start := ⟨⟨List.nodup_nil, fun n hn => by simp [State.start] at hn⟩, rfl, fun n => by simp [State.start], fun i j n hi => by simp [State.start] at hi⟩

/-! ## Files of the programs -/

theorem gives_opening : Gives (opening w) := by
  intro l hl
  unfold opening
  rcases openFile_cases (w := w) l with hr | hr
  · left
    rw [hr]
    exact ⟨⟨rfl, rfl, le_rfl⟩, Or.inl rfl⟩
  · right
    rw [hr]
    exact ⟨l.next, rfl, le_rfl, Nat.lt_succ_self _, rfl, rfl⟩

theorem same_saveState (items : List Item) {l : Lib} (hl : Sane l) : Same l (saveState w items l).2 := by
  have h := Keeps.scope (w := w) (gives_opening (w := w)) (fun h => keeps_runItems (w := w) h (header ++ items)) l hl
  unfold saveState
  split <;> (rename_i hr; rw [hr] at h; exact h)

theorem keeps_writeContacts (maps : Maps) (n : ℕ) (h : ℤ) : Keeps (writeContacts w maps n h) := by
  intro l hl
  have hk := keeps_runItems (w := w) h (contactItems n) l hl
  unfold writeContacts
  cases maps with
  | free => exact Same.refl l
  | impact =>
    simp only
    split <;> (rename_i hr; rw [hr] at hk; exact hk)
  | friction =>
    simp only
    split <;> (rename_i hr; rw [hr] at hk; exact hk)

theorem same_saveForces (maps : Maps) (n : ℕ) {l : Lib} (hl : Sane l) : Same l (saveForces w maps n l).2 := by
  have h := Keeps.scope (w := w) (gives_opening (w := w)) (fun h => (keeps_runItems (w := w) h header).bind fun _ => keeps_writeContacts (w := w) maps n h) l hl
  unfold saveForces
  split <;> (rename_i hr; rw [hr] at h; exact h)

theorem same_saveAll : ∀ (files : List (Option (Maps × ℕ) × List Item)) {l : Lib}, Sane l → Same l (saveAll w files l).2
  | [], l, _ => Same.refl l
  | (forces, items) :: rest, l, hl => by
    unfold saveAll
    have hr : Same l (stepSystem w forces l).2 := by
      rcases forces with _ | ⟨maps, n⟩
      · exact Same.refl l
      · exact same_saveForces maps n hl
    simp only
    split
    · have hs := same_saveState (w := w) items (hr.sane hl)
      split
      · exact (hr.trans hs).trans (same_saveAll rest (hs.sane (hr.sane hl)))
      · exact hr.trans hs
    · exact hr

/-! ## Failures -/

/-- The calls that matter between two states have succeeded -/
def Fine (l l' : Lib) : Prop := ∃ t, Made l l' t ∧ ∀ c ∈ t, Matters c.1 → c.2 = true

theorem Fine.refl (l : Lib) : Fine l l := ⟨[], rfl, by simp⟩

theorem Fine.trans {a b c : Lib} (h : Fine a b) (h' : Fine b c) : Fine a c := by
  obtain ⟨t, ht, hf⟩ := h
  obtain ⟨t', ht', hf'⟩ := h'
  refine ⟨t' ++ t, ?_, fun x hx => ?_⟩
  · unfold Made at *
    rw [ht', ht, List.append_assoc]
  · rcases List.mem_append.mp hx with h | h
    · exact hf' x h
    · exact hf x h

/-- Code that returns only if the calls that matter have succeeded -/
def Honest (p : Run α) : Prop := ∀ l a l', p l = (.ok a, l') → Fine l l'

/-- Code that returns an identifier only if the calls that matter have succeeded -/
def HonestId (p : Run ℤ) : Prop := ∀ l h l', p l = (.ok h, l') → 0 ≤ h → Fine l l'

theorem Honest.bind {p : Run α} {f : α → Run β} (hp : Honest p) (hf : ∀ a, Honest (f a)) : Honest (p.bind f) := by
  intro l b l' h
  simp only [Run.bind] at h
  rcases hr : p l with ⟨r, m⟩
  rw [hr] at h
  cases r with
  | ok a => exact (hp l a m hr).trans (hf a m b l' h)
  | thrown => simp at h

theorem honest_done : Honest done := by
  intro l a l' h
  simp only [done, Prod.mk.injEq] at h
  rw [← h.2]
  exact Fine.refl l

theorem honest_guard (b : Bool) : Honest (guard b) := by
  intro l a l' h
  simp only [guard, Prod.mk.injEq] at h
  rw [← h.2]
  exact Fine.refl l

theorem honest_need (k : Kind) (hs : List ℤ) : Honest (need w k hs) := by
  intro l a l' h
  simp only [need, Run.bind, call, guard, Prod.mk.injEq] at h
  obtain ⟨h1, h2⟩ := h
  refine ⟨[(k, hs.all l.valid && w l.trace.length)], by rw [← h2]; rfl, fun c hc _ => ?_⟩
  rw [List.mem_singleton] at hc
  subst hc
  split_ifs at h1 with hg
  exact hg

theorem honest_call {k : Kind} (hk : ¬ Matters k) (hs : List ℤ) : Honest (call w k hs) := by
  intro l a l' h
  simp only [call, Prod.mk.injEq] at h
  refine ⟨[(k, hs.all l.valid && w l.trace.length)], by rw [← h.2]; rfl, fun c hc hm => ?_⟩
  rw [List.mem_singleton] at hc
  subst hc
  exact absurd hm hk

theorem not_matters_exist : ¬ Matters .exist := by simp [Matters]
theorem not_matters_select : ¬ Matters .select := by simp [Matters]

theorem fine_release (h : ℤ) (l : Lib) : Fine l (release w h l) := by
  unfold release
  split_ifs
  · exact ⟨[(.close, w l.trace.length)], rfl, fun c hc hm => by rw [List.mem_singleton] at hc; subst hc; simp [Matters] at hm⟩
  · exact ⟨[(.close, false)], rfl, fun c hc hm => by rw [List.mem_singleton] at hc; subst hc; simp [Matters] at hm⟩
  · exact Fine.refl l

theorem honestId_acquire (hs : List ℤ) : HonestId (acquire w hs) := by
  intro l h l' hr h0
  unfold acquire at hr
  by_cases hg : (hs.all l.valid && w l.trace.length) = true
  · simp only [hg, if_true, Prod.mk.injEq] at hr
    exact ⟨[(.create, true)], by rw [← hr.2]; rfl, fun c hc _ => by rw [List.mem_singleton] at hc; subst hc; rfl⟩
  · simp only [Bool.not_eq_true] at hg
    simp only [hg, Bool.false_eq_true, if_false, Prod.mk.injEq, Res.ok.injEq] at hr
    omega

theorem Honest.scope {acq : Run ℤ} {body : ℤ → Run α} (ha : HonestId acq) (hneg : ∀ h : ℤ, h < 0 → Throws (body h)) (hb : ∀ h, 0 ≤ h → Honest (body h)) :
    Honest (Handles.scope w acq body) := by
  intro l a l' hr
  simp only [Handles.scope] at hr
  rcases hacq : acq l with ⟨r, m⟩
  rw [hacq] at hr
  cases r with
  | thrown => simp at hr
  | ok h =>
    simp only [Prod.mk.injEq] at hr
    obtain ⟨h1, h2⟩ := hr
    rcases lt_or_ge h 0 with hh | hh
    · have := hneg h hh m
      rw [this] at h1
      simp at h1
    · rw [← h2]
      refine (ha l h m hacq hh).trans ((hb h hh m a (body h m).2 ?_).trans (fine_release h _))
      rw [← h1]

theorem throws_guard_false {body : Unit → Run α} : Throws ((guard false).bind body) := fun _ => rfl

theorem Honest.checked {acq : Run ℤ} {body : ℤ → Run α} (ha : HonestId acq) (hb : ∀ h, Honest (body h)) : Honest (Handles.checked w acq body) := by
  refine Honest.scope ha (fun h hh => ?_) (fun h _ => (honest_guard _).bind fun _ => hb h)
  have : decide (0 ≤ h) = false := by simp [hh]
  rw [this]
  exact throws_guard_false

/-- A group that is returned is one -/
def NonNeg (p : Run ℤ) : Prop := ∀ l h l', p l = (.ok h, l') → 0 ≤ h

theorem nonneg_assignGroup (acq : Run ℤ) : NonNeg (assignGroup w acq) := by
  intro l h l' hr
  unfold assignGroup Run.bind at hr
  rcases hacq : acq l with ⟨r, m⟩
  rw [hacq] at hr
  cases r with
  | thrown => simp at hr
  | ok t =>
    by_cases ht : t < 0
    · simp [moveAssign, ht] at hr
    · simp only [moveAssign, moveConstruct, ht, if_false, Prod.mk.injEq, Res.ok.injEq] at hr
      omega

theorem honestId_assignGroup {acq : Run ℤ} (ha : HonestId acq) : HonestId (assignGroup w acq) := by
  intro l h l' hr h0
  unfold assignGroup Run.bind at hr
  rcases hacq : acq l with ⟨r, m⟩
  rw [hacq] at hr
  cases r with
  | thrown => simp at hr
  | ok t =>
    by_cases ht : t < 0
    · simp [moveAssign, ht] at hr
    · simp only [moveAssign, moveConstruct, ht, if_false, Prod.mk.injEq, Res.ok.injEq] at hr
      rw [← hr.2]
      exact ((ha l t m hacq (by omega)).trans (fine_release _ _)).trans (fine_release _ _)

theorem nonneg_findOrCreateGroup (file : ℤ) (name : Option Bool) : NonNeg (findOrCreateGroup w file name) := by
  intro l h l' hr
  cases name with
  | none => exact nonneg_assignGroup _ l h l' hr
  | some there =>
    simp only [findOrCreateGroup, Run.bind, call] at hr
    split at hr <;> exact nonneg_assignGroup _ _ h l' hr

theorem honestId_findOrCreateGroup (file : ℤ) (name : Option Bool) : HonestId (findOrCreateGroup w file name) := by
  intro l h l' hr h0
  cases name with
  | none => exact honestId_assignGroup (honestId_acquire _) l h l' hr h0
  | some there =>
    simp only [findOrCreateGroup] at hr
    rcases hc : call w .exist [file] l with ⟨r, m⟩
    simp only [Run.bind, hc] at hr
    cases r with
    | thrown => simp at hr
    | ok g =>
      refine (honest_call not_matters_exist _ l g m hc).trans ?_
      simp only at hr
      split at hr <;> exact honestId_assignGroup (honestId_acquire _) m h l' hr h0

theorem Honest.group {acq : Run ℤ} {body : ℤ → Run α} (ha : HonestId acq) (hn : NonNeg acq) (hb : ∀ h, Honest (body h)) : Honest (Handles.scope w acq body) := by
  intro l a l' hr
  simp only [Handles.scope] at hr
  rcases hacq : acq l with ⟨r, m⟩
  rw [hacq] at hr
  cases r with
  | thrown => simp at hr
  | ok h =>
    simp only [Prod.mk.injEq] at hr
    obtain ⟨h1, h2⟩ := hr
    rw [← h2]
    refine (ha l h m hacq (hn l h m hacq)).trans ((hb h m a (body h m).2 ?_).trans (fine_release h _))
    rw [← h1]

theorem honest_writeDense (file : ℤ) (name : Option Bool) : Honest (writeDense w file name) :=
  .checked (honestId_acquire _) fun _ => .group (honestId_findOrCreateGroup _ _) (nonneg_findOrCreateGroup _ _) fun _ => .checked (honestId_acquire _) fun _ => honest_need _ _

theorem honest_writeElements (s m : ℤ) (hs : List ℤ) (n : ℕ) : Honest (writeElements w s m hs n) := by
  induction n with
  | zero => exact honest_done
  | succ n ih => exact (honest_call not_matters_select _).bind fun _ => (honest_call not_matters_select _).bind fun _ => (honest_need _ _).bind fun _ => ih

theorem honest_insertField (s : ℤ) (f : Field) : Honest (insertField w s f) := by
  cases f with
  | number => exact honest_need _ _
  | array => exact .checked (honestId_acquire _) fun _ => honest_need _ _
  | text => exact .checked (honestId_acquire _) fun _ => (honest_need _ _).bind fun _ => honest_need _ _

theorem honest_insertFields (s : ℤ) (fs : List Field) : Honest (insertFields w s fs) := by
  induction fs with
  | nil => exact honest_done
  | cons f fs ih => exact (honest_insertField s f).bind fun _ => ih

theorem throws_need_invalid {k : Kind} {hs : List ℤ} (h : ∃ x ∈ hs, x < 0) : Throws (need w k hs) := by
  obtain ⟨x, hx, hx'⟩ := h
  intro l
  have : (hs.all l.valid) = false := by
    rw [List.all_eq_false]
    exact ⟨x, hx, by simp [Lib.valid, not_le.mpr hx']⟩
  simp [need, Run.bind, call, guard, this]

theorem honest_writeRecords (file : ℤ) (name : Option Bool) (fs : List Field) (c : Bool) {n : ℕ} (hn : 0 < n) : Honest (writeRecords w file name fs c n) := by
  refine .checked (honestId_acquire _) fun _ => .checked (honestId_acquire _) fun _ => (honest_insertFields _ _).bind fun _ =>
    .group (honestId_findOrCreateGroup _ _) (nonneg_findOrCreateGroup _ _) fun _ => .checked (honestId_acquire _) fun _ =>
    .scope (honestId_acquire _) (fun h hh => ?_) fun _ _ => (honest_guard _).bind fun _ => honest_writeElements _ _ _ _
  obtain ⟨k, rfl⟩ := Nat.exists_eq_succ_of_ne_zero hn.ne'
  exact .after fun _ => .after fun _ => .after fun _ => .bind (throws_need_invalid ⟨h, by simp, hh⟩)

theorem honest_item (file : ℤ) {i : Item} (hi : NotEmpty i) : Honest (i.run w file) := by
  have hd := honest_writeDense (w := w) file
  cases i with
  | string n =>
    exact .checked (honestId_acquire _) fun _ => (honest_need _ _).bind fun _ => .checked (honestId_acquire _) fun _ => (honest_need _ _).bind fun _ =>
      .checked (honestId_acquire _) fun _ => .group (honestId_findOrCreateGroup _ _) (nonneg_findOrCreateGroup _ _) fun _ => .checked (honestId_acquire _) fun _ => honest_need _ _
  | dense n => exact hd n
  | sparse n => exact (hd n).bind fun _ => (hd n).bind fun _ => (hd n).bind fun _ => (hd n).bind fun _ => hd n
  | indices n k =>
    exact .checked (honestId_acquire _) fun _ => .group (honestId_findOrCreateGroup _ _) (nonneg_findOrCreateGroup _ _) fun _ => .checked (honestId_acquire _) fun _ =>
      .checked (honestId_acquire _) fun _ => honest_writeElements _ _ _ _
  | records n f c k => exact honest_writeRecords _ _ _ _ hi
  | read a b =>
    have ht : ∀ d, Honest (getNativeType w d) := fun d => .checked (honestId_acquire _) fun _ => honest_done
    exact .group (honestId_assignGroup (honestId_acquire _)) (nonneg_assignGroup _) fun _ => .checked (honestId_acquire _) fun d => (ht d).bind fun _ => (honest_guard _).bind fun _ =>
      Honest.bind (.checked (honestId_acquire _) fun _ => (honest_need _ _).bind fun _ => honest_need _ _) fun _ => (honest_guard _).bind fun _ => (ht d).bind fun _ => honest_need _ _

theorem honest_runItems (file : ℤ) {is : List Item} (hi : ∀ i ∈ is, NotEmpty i) : Honest (runItems w file is) := by
  induction is with
  | nil => exact honest_done
  | cons i is ih => exact (honest_item file (hi i (by simp))).bind fun _ => ih fun j hj => hi j (List.mem_cons_of_mem _ hj)

theorem honestId_opening : HonestId (opening w) := by
  intro l h l' hr _
  unfold opening at hr
  rcases openFile_cases (w := w) l with ho | ho
  · rw [ho] at hr; simp at hr
  · rw [ho] at hr
    simp only [Bool.false_eq_true, if_false, Prod.mk.injEq] at hr
    exact ⟨[(.create, true)], by rw [← hr.2]; rfl, fun c hc _ => by rw [List.mem_singleton] at hc; subst hc; rfl⟩

theorem nonneg_opening : NonNeg (opening w) := by
  intro l h l' hr
  unfold opening at hr
  rcases openFile_cases (w := w) l with ho | ho
  · rw [ho] at hr; simp at hr
  · rw [ho] at hr
    simp only [Bool.false_eq_true, if_false, Prod.mk.injEq, Res.ok.injEq] at hr
    omega

theorem notEmpty_header : ∀ i ∈ header, NotEmpty i := by
  intro i hi
  simp only [header, List.mem_cons, List.not_mem_nil, or_false] at hi
  rcases hi with rfl | rfl | rfl | rfl <;> trivial

theorem notEmpty_contactItems (n : ℕ) : ∀ i ∈ contactItems n, NotEmpty i := by
  intro i hi
  unfold contactItems at hi
  split_ifs at hi <;> simp only [List.mem_cons, List.not_mem_nil, or_false] at hi
  · subst hi; trivial
  · rcases hi with rfl | rfl | rfl | rfl | rfl <;> trivial

theorem fine_saveState {items : List Item} (hi : ∀ i ∈ items, NotEmpty i) {l l' : Lib} (h : saveState w items l = (.success, l')) : Fine l l' := by
  have hh : Honest (Handles.scope w (opening w) fun h => runItems w h (header ++ items)) :=
    .group honestId_opening nonneg_opening fun _ => honest_runItems _ fun i h => (List.mem_append.mp h).elim (notEmpty_header i) (hi i)
  unfold saveState at h
  split at h
  · rename_i a m hr
    simp only [Prod.mk.injEq, true_and] at h
    rw [← h]
    exact hh l _ m hr
  · simp at h

theorem forces_cases {maps : Maps} {n : ℕ} {h : ℤ} {l l' : Lib} {e : Ended}
    (hr : ((runItems w h header).bind fun _ => writeContacts w maps n h) l = (.ok e, l')) : (e = .success → Fine l l') ∧ (e = .terminated → maps = .friction) := by
  simp only [Run.bind] at hr
  rcases hc : runItems w h header l with ⟨r, m⟩
  rw [hc] at hr
  cases r with
  | thrown => simp at hr
  | ok a =>
    have hf := honest_runItems (w := w) h notEmpty_header l a m hc
    simp only [writeContacts] at hr
    cases maps with
    | free =>
      simp only [Prod.mk.injEq, Res.ok.injEq] at hr
      obtain ⟨rfl, rfl⟩ := hr
      exact ⟨fun _ => hf, fun h => by simp at h⟩
    | impact =>
      simp only at hr
      split at hr <;> simp only [Prod.mk.injEq, Res.ok.injEq] at hr <;> obtain ⟨rfl, rfl⟩ := hr
      · rename_i hx
        exact ⟨fun _ => hf.trans (honest_runItems h (notEmpty_contactItems n) _ _ _ hx), fun h => by simp at h⟩
      · exact ⟨fun h => by simp at h, fun h => by simp at h⟩
    | friction =>
      simp only at hr
      split at hr <;> simp only [Prod.mk.injEq, Res.ok.injEq] at hr <;> obtain ⟨rfl, rfl⟩ := hr
      · rename_i hx
        exact ⟨fun _ => hf.trans (honest_runItems h (notEmpty_contactItems n) _ _ _ hx), fun _ => rfl⟩
      · exact ⟨fun h => by simp at h, fun _ => rfl⟩

theorem fine_saveForces {maps : Maps} {n : ℕ} {l l' : Lib} {e : Ended} (h : saveForces w maps n l = (e, l')) : (e = .success → Fine l l') ∧ (e = .terminated → maps = .friction) := by
  unfold saveForces at h
  split at h
  · rename_i a m hr
    simp only [Prod.mk.injEq] at h
    obtain ⟨rfl, rfl⟩ := h
    simp only [Handles.scope] at hr
    rcases hc : opening w l with ⟨r, k⟩
    rw [hc] at hr
    cases r with
    | thrown => simp at hr
    | ok x =>
      simp only [Prod.mk.injEq] at hr
      obtain ⟨hr1, hr2⟩ := hr
      have := forces_cases (Prod.ext hr1 rfl)
      rw [← hr2]
      exact ⟨fun he => ((honestId_opening l x k hc (nonneg_opening l x k hc)).trans (this.1 he)).trans (fine_release _ _), this.2⟩
  · simp only [Prod.mk.injEq] at h
    obtain ⟨rfl, rfl⟩ := h
    exact ⟨fun h => by simp at h, fun h => by simp at h⟩

theorem saveState_not_terminated (items : List Item) (l : Lib) : (saveState w items l).1 ≠ .terminated := by
  unfold saveState
  split <;> simp

theorem fine_saveAll : ∀ (files : List (Option (Maps × ℕ) × List Item)) {l l' : Lib}, (∀ f ∈ files, ∀ i ∈ f.2, NotEmpty i) → saveAll w files l = (.success, l') → Fine l l'
  | [], l, l', _, h => by
    simp only [saveAll, Prod.mk.injEq, true_and] at h
    rw [← h]
    exact Fine.refl l
  | (forces, items) :: rest, l, l', hi, h => by
    unfold saveAll at h
    rcases hr : stepSystem w forces l with ⟨e, m⟩
    rw [hr] at h
    simp only at h
    cases e with
    | success =>
      have hf : Fine l m := by
        rcases forces with _ | ⟨maps, n⟩
        · simp only [stepSystem, Prod.mk.injEq, true_and] at hr
          rw [← hr]
          exact Fine.refl l
        · exact (fine_saveForces hr).1 rfl
      rcases hs : saveState w items m with ⟨e', k⟩
      simp only [hs] at h
      cases e' with
      | success => exact (hf.trans (fine_saveState (hi (forces, items) List.mem_cons_self) hs)).trans (fine_saveAll rest (fun f hf => hi f (List.mem_cons_of_mem _ hf)) h)
      | failure => simp at h
      | terminated => simp at h
    | failure => simp at h
    | terminated => simp at h

theorem saveAll_not_terminated : ∀ (files : List (Option (Maps × ℕ) × List Item)) (l : Lib), (∀ f ∈ files, ∀ n, f.1 ≠ some (.friction, n)) → (saveAll w files l).1 ≠ .terminated
  | [], l, _ => by simp [saveAll]
  | (forces, items) :: rest, l, hi => by
    unfold saveAll
    rcases hr : stepSystem w forces l with ⟨e, m⟩
    have hne : e ≠ .terminated := by
      intro hc
      subst hc
      rcases forces with _ | ⟨maps, n⟩
      · simp [stepSystem] at hr
      · exact hi (some (maps, n), items) (by simp) n (by rw [show maps = .friction from (fine_saveForces hr).2 rfl])
    simp only
    cases e with
    | success =>
      have := saveState_not_terminated (w := w) items m
      rcases hs : saveState w items m with ⟨e', k⟩
      rw [hs] at this
      simp only
      cases e' with
      | success => exact saveAll_not_terminated rest k fun f hf => hi f (List.mem_cons_of_mem _ hf)
      | failure => simp
      | terminated => simp at this
    | failure => simp
    | terminated => simp at hne

/-! ## Success -/

/-- Code that returns when the identifiers `hs` are in use -/
def Works (hs : List ℤ) (p : Run α) : Prop := ∀ l, Sane l → (∀ h ∈ hs, l.valid h = true) → ∃ a, (p l).1 = .ok a

theorem Same.valid {l l' : Lib} (h : Same l l') (x : ℤ) : l'.valid x = l.valid x := by simp [Lib.valid, h.1]

theorem Works.bind {hs : List ℤ} {p : Run α} {f : α → Run β} (hp : Works hs p) (hk : Keeps p) (hf : ∀ a, Works hs (f a)) : Works hs (p.bind f) := by
  intro l hl hv
  obtain ⟨a, ha⟩ := hp l hl hv
  have h := hk l hl
  simp only [Run.bind]
  rcases hr : p l with ⟨r, l'⟩
  rw [hr] at h ha
  simp only at ha h
  subst ha
  exact hf a l' (h.sane hl) fun x hx => (h.valid x).trans (hv x hx)

theorem works_done (hs : List ℤ) : Works hs done := fun _ _ _ => ⟨(), rfl⟩

theorem works_guard (hs : List ℤ) {b : Bool} (hb : b = true) : Works hs (guard b) := fun _ _ _ => ⟨(), by simp [guard, hb]⟩

theorem works_call (hs : List ℤ) (k : Kind) (gs : List ℤ) : Works hs (call w k gs) := fun _ _ _ => ⟨_, rfl⟩

theorem works_need (hw : ∀ n, w n = true) {hs gs : List ℤ} (h : ∀ g ∈ gs, g ∈ hs) (k : Kind) : Works hs (need w k gs) := by
  intro l _ hv
  have hall : gs.all l.valid = true := List.all_eq_true.mpr fun g hg => hv g (h g hg)
  exact ⟨(), by simp [need, Run.bind, call, guard, hall, hw]⟩

/-- Code that returns an identifier that is in use -/
def WorksId (hs : List ℤ) (p : Run ℤ) : Prop := ∀ l, Sane l → (∀ h ∈ hs, l.valid h = true) →
  ∃ n : ℕ, (p l).1 = .ok (n : ℤ) ∧ (p l).2.opened = n :: l.opened ∧ l.next ≤ n ∧ n < (p l).2.next

theorem worksId_acquire (hw : ∀ n, w n = true) {hs gs : List ℤ} (h : ∀ g ∈ gs, g ∈ hs) : WorksId hs (acquire w gs) := by
  intro l _ hv
  have hall : gs.all l.valid = true := List.all_eq_true.mpr fun g hg => hv g (h g hg)
  refine ⟨l.next, ?_⟩
  simp [acquire, hall, hw]

theorem WorksId.assignGroup {hs : List ℤ} {acq : Run ℤ} (ha : WorksId hs acq) : WorksId hs (assignGroup w acq) := by
  intro l hl hv
  obtain ⟨n, h1, h2, h3, h4⟩ := ha l hl hv
  unfold Handles.assignGroup Run.bind
  rcases hr : acq l with ⟨r, m⟩
  rw [hr] at h1 h2 h4
  simp only at h1 h2 h4
  subst h1
  have hm1 : ∀ l : Lib, release w (-1) l = l := fun l => release_neg (by decide) l
  have h0 : ¬ ((n : ℤ) < 0) := not_lt.mpr (Int.natCast_nonneg n)
  simp only [moveAssign, moveConstruct, hm1, h0, if_false]
  exact ⟨n, rfl, h2, h3, h4⟩

theorem worksId_findOrCreateGroup (hw : ∀ n, w n = true) {hs : List ℤ} {file : ℤ} (hf : file ∈ hs) (name : Option Bool) : WorksId hs (findOrCreateGroup w file name) := by
  have ha : WorksId hs (acquire w [file]) := worksId_acquire hw fun g hg => by rw [List.mem_singleton.mp hg]; exact hf
  cases name with
  | none => exact ha.assignGroup
  | some there =>
    intro l hl hv
    have hs' : Same l (call w .exist [file] l).2 := keeps_call _ _ l hl
    have := ha.assignGroup (w := w) _ (hs'.sane hl) fun x hx => (hs'.valid x).trans (hv x hx)
    simp only [findOrCreateGroup, Run.bind]
    rcases hc : call w .exist [file] l with ⟨r, m⟩
    rw [hc] at this hs'
    cases r with
    | thrown => simp [call] at hc
    | ok g =>
      simp only at this hs' ⊢
      obtain ⟨n, h1, h2, h3, h4⟩ := this
      split <;> exact ⟨n, h1, by rw [h2, hs'.1], hs'.2.2.trans h3, h4⟩

theorem Works.scope {hs : List ℤ} {acq : Run ℤ} {body : ℤ → Run α} (ha : WorksId hs acq) (hb : ∀ h : ℤ, 0 ≤ h → Works (h :: hs) (body h)) : Works hs (scope w acq body) := by
  intro l hl hv
  obtain ⟨n, h1, h2, h3, h4⟩ := ha l hl hv
  simp only [Handles.scope]
  rcases hr : acq l with ⟨r, m⟩
  rw [hr] at h1 h2 h4
  simp only at h1 h2 h4
  subst h1
  refine hb n (Int.natCast_nonneg n) m ⟨?_, fun x hx => ?_⟩ fun x hx => ?_
  · rw [h2]
    exact List.nodup_cons.mpr ⟨fun hc => absurd (hl.2 n hc) (not_lt.mpr h3), hl.1⟩
  · rw [h2, List.mem_cons] at hx
    rcases hx with rfl | hx
    · exact h4
    · exact (hl.2 x hx).trans_le (h3.trans h4.le)
  · rcases List.mem_cons.mp hx with rfl | hx
    · simp [Lib.valid, h2]
    · have := hv x hx
      simp only [Lib.valid, Bool.and_eq_true, List.contains_iff_mem] at this ⊢
      exact ⟨this.1, by rw [h2]; exact List.mem_cons_of_mem _ this.2⟩

theorem Works.checked {hs : List ℤ} {acq : Run ℤ} {body : ℤ → Run α} (ha : WorksId hs acq) (hb : ∀ h : ℤ, Works (h :: hs) (body h)) : Works hs (checked w acq body) :=
  Works.scope ha fun h h0 => (works_guard _ (by simpa using h0)).bind (keeps_guard _) fun _ => hb h

theorem works_writeDense (hw : ∀ n, w n = true) {hs : List ℤ} {file : ℤ} (hf : file ∈ hs) (name : Option Bool) : Works hs (writeDense w file name) :=
  .checked (worksId_acquire hw (by simp)) fun _ => .scope (worksId_findOrCreateGroup hw (by simp [hf]) _) fun _ _ => .checked (worksId_acquire hw (by simp)) fun _ => works_need hw (by simp) _

theorem works_writeElements (hw : ∀ n, w n = true) (s m : ℤ) {hs gs : List ℤ} (h : ∀ g ∈ gs, g ∈ hs) (n : ℕ) : Works hs (writeElements w s m gs n) := by
  induction n with
  | zero => exact works_done _
  | succ n ih => exact (works_call _ _ _).bind (keeps_call _ _) fun _ => (works_call _ _ _).bind (keeps_call _ _) fun _ => (works_need hw h _).bind (keeps_need _ _) fun _ => ih

theorem works_insertFields (hw : ∀ n, w n = true) {hs : List ℤ} {s : ℤ} (h : s ∈ hs) (fs : List Field) : Works hs (insertFields w s fs) := by
  induction fs with
  | nil => exact works_done _
  | cons f fs ih =>
    refine Works.bind ?_ (keeps_insertField s f) fun _ => ih
    cases f with
    | number => exact works_need hw (by simp [h]) _
    | array => exact .checked (worksId_acquire hw (by simp)) fun _ => works_need hw (by simp [h]) _
    | text => exact .checked (worksId_acquire hw (by simp)) fun _ => (works_need hw (by simp) _).bind (keeps_need _ _) fun _ => works_need hw (by simp [h]) _

theorem works_item (hw : ∀ n, w n = true) {hs : List ℤ} {file : ℤ} (hf : file ∈ hs) {i : Item} (hi : Fits i) : Works hs (i.run w file) := by
  have hd := works_writeDense (w := w) hw hf
  have kd := keeps_writeDense (w := w) file
  cases i with
  | string n =>
    exact .checked (worksId_acquire hw (by simp)) fun _ => (works_need hw (by simp) _).bind (keeps_need _ _) fun _ => .checked (worksId_acquire hw (by simp)) fun _ =>
      (works_need hw (by simp) _).bind (keeps_need _ _) fun _ => .checked (worksId_acquire hw (by simp)) fun _ => .scope (worksId_findOrCreateGroup hw (by simp [hf]) _) fun _ _ =>
      .checked (worksId_acquire hw (by simp)) fun _ => works_need hw (by simp) _
  | dense n => exact hd n
  | sparse n => exact (hd n).bind (kd n) fun _ => (hd n).bind (kd n) fun _ => (hd n).bind (kd n) fun _ => (hd n).bind (kd n) fun _ => hd n
  | indices n k =>
    exact .checked (worksId_acquire hw (by simp)) fun _ => .scope (worksId_findOrCreateGroup hw (by simp [hf]) _) fun _ _ => .checked (worksId_acquire hw (by simp)) fun _ =>
      .checked (worksId_acquire hw (by simp)) fun _ => works_writeElements hw _ _ (by simp) _
  | records n f c k =>
    exact .checked (worksId_acquire hw (by simp)) fun _ => .checked (worksId_acquire hw (by simp)) fun _ => (works_insertFields hw (by simp) _).bind (keeps_insertFields _ _) fun _ =>
      .scope (worksId_findOrCreateGroup hw (by simp [hf]) _) fun _ _ => .checked (worksId_acquire hw (by simp)) fun _ => .scope (worksId_acquire hw (by simp)) fun _ h0 =>
      (works_guard _ (by simp [h0])).bind (keeps_guard _) fun _ => works_writeElements hw _ _ (by simp) _
  | read a b =>
    obtain ⟨rfl, rfl⟩ := hi
    have ht : ∀ {hs : List ℤ} {d : ℤ}, d ∈ hs → Works hs (getNativeType w d) := fun hd => .checked (worksId_acquire hw (by simp [hd])) fun _ => works_done _
    exact .scope ((worksId_acquire hw (by simp [hf])).assignGroup) fun _ _ => .checked (worksId_acquire hw (by simp)) fun d => (ht (by simp)).bind (keeps_getNativeType _) fun _ =>
      (works_guard _ rfl).bind (keeps_guard _) fun _ =>
      Works.bind (.checked (worksId_acquire hw (by simp)) fun _ => (works_need hw (by simp) _).bind (keeps_need _ _) fun _ => works_need hw (by simp) _) (keeps_getDimensions _) fun _ =>
      (works_guard _ rfl).bind (keeps_guard _) fun _ => (ht (by simp)).bind (keeps_getNativeType _) fun _ => works_need hw (by simp) _

theorem works_runItems (hw : ∀ n, w n = true) {hs : List ℤ} {file : ℤ} (hf : file ∈ hs) {is : List Item} (hi : ∀ i ∈ is, Fits i) : Works hs (runItems w file is) := by
  induction is with
  | nil => exact works_done _
  | cons i is ih => exact (works_item hw hf (hi i (by simp))).bind (keeps_item _ _) fun _ => ih fun j hj => hi j (List.mem_cons_of_mem _ hj)

theorem worksId_opening (hw : ∀ n, w n = true) (hs : List ℤ) : WorksId hs (opening w) := by
  intro l _ _
  refine ⟨l.next, ?_⟩
  simp only [opening, openFile, acquire, hw, List.all_nil, Bool.and_self, if_true]
  simp [not_lt.mpr (Int.natCast_nonneg l.next)]

theorem fits_header : ∀ i ∈ header, Fits i := by
  intro i hi
  simp only [header, List.mem_cons, List.not_mem_nil, or_false] at hi
  rcases hi with rfl | rfl | rfl | rfl <;> trivial

theorem fits_contactItems (n : ℕ) : ∀ i ∈ contactItems n, Fits i := by
  intro i hi
  unfold contactItems at hi
  split_ifs at hi <;> simp only [List.mem_cons, List.not_mem_nil, or_false] at hi
  · subst hi; trivial
  · rcases hi with rfl | rfl | rfl | rfl | rfl <;> trivial

theorem saveState_success (hw : ∀ n, w n = true) {items : List Item} (hi : ∀ i ∈ items, Fits i) {l : Lib} (hl : Sane l) : (saveState w items l).1 = .success := by
  have h : Works [] (Handles.scope w (opening w) fun h => runItems w h (header ++ items)) :=
    .scope (worksId_opening hw _) fun h _ => works_runItems hw (by simp) fun i hi' => (List.mem_append.mp hi').elim (fits_header i) (hi i)
  obtain ⟨a, ha⟩ := h l hl (by simp)
  unfold saveState
  rcases hr : Handles.scope w (opening w) (fun h => runItems w h (header ++ items)) l with ⟨r, m⟩
  rw [hr] at ha
  simp only at ha
  subst ha
  rfl

theorem saveForces_success (hw : ∀ n, w n = true) (maps : Maps) (n : ℕ) {l : Lib} (hl : Sane l) : (saveForces w maps n l).1 = .success := by
  rcases hopen : opening w l with ⟨r, m⟩
  obtain ⟨x, h1, h2, h3, h4⟩ := worksId_opening hw [] l hl (by simp)
  rw [hopen] at h1 h2 h4
  simp only at h1 h2 h4
  subst h1
  have hm : Sane m := by
    refine ⟨?_, fun y hy => ?_⟩
    · rw [h2]
      exact List.nodup_cons.mpr ⟨fun hc => absurd (hl.2 x hc) (not_lt.mpr h3), hl.1⟩
    · rw [h2, List.mem_cons] at hy
      rcases hy with rfl | hy
      · exact h4
      · exact (hl.2 y hy).trans_le (h3.trans h4.le)
  have hv : ∀ h ∈ [(x : ℤ)], m.valid h = true := by
    intro h hh
    rw [List.mem_singleton] at hh
    subst hh
    simp [Lib.valid, h2]
  have hk := keeps_runItems (w := w) x header m hm
  obtain ⟨a, ha⟩ := works_runItems (w := w) (hs := [(x : ℤ)]) (file := (x : ℤ)) hw (by simp) fits_header m hm hv
  rcases hr : runItems w x header m with ⟨r, k⟩
  rw [hr] at ha hk
  simp only at ha hk
  subst ha
  obtain ⟨b, hb⟩ := works_runItems (w := w) (hs := [(x : ℤ)]) (file := (x : ℤ)) hw (by simp) (fits_contactItems n) k (hk.sane hm) fun h hh => (hk.valid h).trans (hv h hh)
  rcases hr' : runItems w x (contactItems n) k with ⟨r', k'⟩
  rw [hr'] at hb
  simp only at hb
  subst hb
  simp only [saveForces, Handles.scope, hopen, Run.bind, hr, writeContacts, hr']
  cases maps <;> rfl

theorem saveAll_success (hw : ∀ n, w n = true) : ∀ (files : List (Option (Maps × ℕ) × List Item)), (∀ f ∈ files, ∀ i ∈ f.2, Fits i) → ∀ {l : Lib}, Sane l → (saveAll w files l).1 = .success
  | [], _, _, _ => rfl
  | (forces, items) :: rest, hi, l, hl => by
    have h1 : (stepSystem w forces l).1 = .success := by
      rcases forces with _ | ⟨maps, n⟩
      · rfl
      · exact saveForces_success hw maps n hl
    have hs : Same l (stepSystem w forces l).2 := by
      rcases forces with _ | ⟨maps, n⟩
      · exact Same.refl l
      · exact same_saveForces maps n hl
    have h2 := saveState_success (w := w) hw (hi (forces, items) List.mem_cons_self) (hs.sane hl)
    have hs2 := same_saveState (w := w) items (hs.sane hl)
    unfold saveAll
    simp only [h1]
    rw [h2]
    exact saveAll_success hw rest (fun f hf => hi f (List.mem_cons_of_mem _ hf)) (hs2.sane (hs.sane hl))

theorem eq_of_fst {x : Ended × Lib} {e : Ended} (h : x.1 = e) : x = (e, x.2) := by
  rw [← h]

/-- Evaluation of the model on concrete cases -/
macro "handles_eval" : tactic => `(tactic| simp [saveAll, stepSystem, saveState, saveForces, scope, opening, openFile, acquire, runItems, Run.bind, header, contactItems, writeContacts, Item.run, writeDense, writeString,
  writeIndices, writeRecords, writeElements, insertFields, insertField, Handles.read, getNativeType, getDimensions, findGroup, checked, Handles.guard, findOrCreateGroup, assignGroup, need, call, release, Lib.valid,
  moveAssign, moveConstruct, done])

/-! ## How much is written -/

/-- What has been written so far -/
def Lib.written (l : Lib) : ℕ := l.trace.count (.write, true)

/-- Code that writes nothing -/
def Quiet (p : Run α) : Prop := ∀ l, (p l).2.written = l.written

/-- Code that, if it returns, has written `k` values -/
def Counts (p : Run α) (k : ℕ) : Prop := ∀ l a l', p l = (.ok a, l') → l'.written = l.written + k

theorem release_written (h : ℤ) (l : Lib) : (release w h l).written = l.written := by
  unfold release Lib.written
  split_ifs <;> simp [List.count_cons]

theorem Counts.bind {p : Run α} {f : α → Run β} {j k : ℕ} (hp : Counts p j) (hf : ∀ a, Counts (f a) k) : Counts (p.bind f) (j + k) := by
  intro l b l' h
  simp only [Run.bind] at h
  rcases hr : p l with ⟨r, m⟩
  rw [hr] at h
  cases r with
  | ok a => rw [hf a m b l' h, hp l a m hr, Nat.add_assoc]
  | thrown => simp at h

/-- The same with a first part that writes nothing -/
theorem Counts.after {p : Run α} {f : α → Run β} {k : ℕ} (hp : Counts p 0) (hf : ∀ a, Counts (f a) k) : Counts (p.bind f) k := by
  have := hp.bind hf
  rwa [Nat.zero_add] at this

theorem counts_done : Counts done 0 := by
  intro l a l' h
  simp only [done, Prod.mk.injEq] at h
  rw [← h.2, Nat.add_zero]

theorem counts_guard (b : Bool) : Counts (guard b) 0 := by
  intro l a l' h
  simp only [guard, Prod.mk.injEq] at h
  rw [← h.2, Nat.add_zero]

theorem counts_write (hs : List ℤ) : Counts (need w .write hs) 1 := by
  intro l a l' h
  simp only [need, Run.bind, call, guard, Prod.mk.injEq] at h
  obtain ⟨h1, h2⟩ := h
  split_ifs at h1 with hg
  rw [← h2]
  simp only [hg, Lib.written, List.count_cons_self]

theorem counts_call {k : Kind} (hk : k ≠ .write) (hs : List ℤ) : Counts (call w k hs) 0 := by
  intro l a l' h
  simp only [call, Prod.mk.injEq] at h
  rw [← h.2]
  simp [Lib.written, List.count_cons, hk]

theorem counts_need {k : Kind} (hk : k ≠ .write) (hs : List ℤ) : Counts (need w k hs) 0 := (counts_call hk hs).after fun b => counts_guard b

theorem quiet_acquire (hs : List ℤ) : Quiet (acquire w hs) := by
  intro l
  unfold acquire Lib.written
  simp only
  split_ifs <;> simp [List.count_cons]

theorem quiet_assignGroup {acq : Run ℤ} (ha : Quiet acq) : Quiet (assignGroup w acq) := by
  intro l
  have := ha l
  unfold assignGroup Run.bind
  rcases hacq : acq l with ⟨r, m⟩
  rw [hacq] at this
  cases r with
  | thrown => exact this
  | ok t =>
    simp only
    split_ifs <;> simp only [release_written] <;> exact this

theorem quiet_findOrCreateGroup (file : ℤ) (name : Option Bool) : Quiet (findOrCreateGroup w file name) := by
  intro l
  cases name with
  | none => exact quiet_assignGroup (quiet_acquire _) l
  | some there =>
    have hc := counts_call (w := w) (k := .exist) (by simp) [file] l _ _ rfl
    simp only [findOrCreateGroup, Run.bind, call]
    have key : ∀ m : Lib, m.written = l.written → ∀ b : Bool, ((if b then assignGroup w (acquire w [file]) else assignGroup w (acquire w [file])) m).2.written = l.written := by
      intro m hm b
      rw [ite_self, quiet_assignGroup (quiet_acquire _) m, hm]
    exact key _ hc _

theorem Counts.scope {acq : Run ℤ} {body : ℤ → Run α} {k : ℕ} (ha : Quiet acq) (hb : ∀ h, Counts (body h) k) : Counts (Handles.scope w acq body) k := by
  intro l a l' hr
  have hq := ha l
  simp only [Handles.scope] at hr
  rcases hacq : acq l with ⟨r, m⟩
  rw [hacq] at hr hq
  cases r with
  | thrown => simp at hr
  | ok h =>
    simp only [Prod.mk.injEq] at hr
    obtain ⟨h1, h2⟩ := hr
    rw [← h2, release_written, hb h m a (body h m).2 (Prod.ext h1 rfl)]
    rw [show m.written = l.written from hq]

theorem Counts.checked {acq : Run ℤ} {body : ℤ → Run α} {k : ℕ} (ha : Quiet acq) (hb : ∀ h, Counts (body h) k) : Counts (Handles.checked w acq body) k :=
  .scope ha fun h => (counts_guard _).after fun _ => hb h

theorem counts_writeDense (file : ℤ) (name : Option Bool) : Counts (writeDense w file name) 1 :=
  .checked (quiet_acquire _) fun _ => .scope (quiet_findOrCreateGroup _ _) fun _ => .checked (quiet_acquire _) fun _ => counts_write _

theorem counts_writeElements (s m : ℤ) (hs : List ℤ) (n : ℕ) : Counts (writeElements w s m hs n) n := by
  induction n with
  | zero => exact counts_done
  | succ n ih =>
    have h : Counts (writeElements w s m hs (n + 1)) (1 + n) :=
      (counts_call (k := .select) (by simp) _).after fun _ => (counts_call (k := .select) (by simp) _).after fun _ => (counts_write _).bind fun _ => ih
    intro l a l' e
    rw [h l a l' e, Nat.add_comm 1 n]

theorem counts_insertField (s : ℤ) (f : Field) : Counts (insertField w s f) 0 := by
  cases f with
  | number => exact counts_need (by simp) _
  | array => exact .checked (quiet_acquire _) fun _ => counts_need (by simp) _
  | text => exact .checked (quiet_acquire _) fun _ => (counts_need (by simp) _).after fun _ => counts_need (by simp) _

theorem counts_insertFields (s : ℤ) (fs : List Field) : Counts (insertFields w s fs) 0 := by
  induction fs with
  | nil => exact counts_done
  | cons f fs ih => exact (counts_insertField s f).after fun _ => ih

theorem counts_item (file : ℤ) (i : Item) : Counts (i.run w file) (data i) := by
  have hd := counts_writeDense (w := w) file
  cases i with
  | string n =>
    exact .checked (quiet_acquire _) fun _ => (counts_need (by simp) _).after fun _ => .checked (quiet_acquire _) fun _ => (counts_need (by simp) _).after fun _ =>
      .checked (quiet_acquire _) fun _ => .scope (quiet_findOrCreateGroup _ _) fun _ => .checked (quiet_acquire _) fun _ => counts_write _
  | dense n => exact hd n
  | sparse n => exact (hd n).bind fun _ => (hd n).bind fun _ => (hd n).bind fun _ => (hd n).bind fun _ => hd n
  | indices n k =>
    exact .checked (quiet_acquire _) fun _ => .scope (quiet_findOrCreateGroup _ _) fun _ => .checked (quiet_acquire _) fun _ => .checked (quiet_acquire _) fun _ =>
      counts_writeElements _ _ _ _
  | records n f c k =>
    exact .checked (quiet_acquire _) fun _ => .checked (quiet_acquire _) fun _ => (counts_insertFields _ _).after fun _ => .scope (quiet_findOrCreateGroup _ _) fun _ =>
      .checked (quiet_acquire _) fun _ => .scope (quiet_acquire _) fun _ => (counts_guard _).after fun _ => counts_writeElements _ _ _ _
  | read a b =>
    have ht : ∀ d, Counts (getNativeType w d) 0 := fun d => .checked (quiet_acquire _) fun _ => counts_done
    exact .scope (quiet_assignGroup (quiet_acquire _)) fun _ => .checked (quiet_acquire _) fun d => (ht d).after fun _ => (counts_guard _).after fun _ =>
      Counts.after (.checked (quiet_acquire _) fun _ => (counts_need (by simp) _).after fun _ => counts_need (by simp) _) fun _ => (counts_guard _).after fun _ =>
      (ht d).after fun _ => counts_need (by simp) _

theorem counts_runItems (file : ℤ) (is : List Item) : Counts (runItems w file is) ((is.map data).sum) := by
  induction is with
  | nil => exact counts_done
  | cons i is ih => exact (counts_item file i).bind fun _ => ih

theorem quiet_opening : Quiet (opening w) := by
  intro l
  have h := quiet_acquire (w := w) [] l
  unfold opening openFile
  rcases hacq : acquire w [] l with ⟨r, m⟩
  rw [hacq] at h
  cases r <;> simp only <;> split_ifs <;> exact h

theorem written_saveState {items : List Item} {l l' : Lib} (h : saveState w items l = (.success, l')) : l'.written = l.written + (4 + (items.map data).sum) := by
  have hh : Counts (Handles.scope w (opening w) fun h => runItems w h (header ++ items)) (4 + (items.map data).sum) := by
    refine .scope quiet_opening fun f => ?_
    have := counts_runItems (w := w) f (header ++ items)
    rwa [List.map_append, List.sum_append] at this
  unfold saveState at h
  split at h
  · rename_i a m hr
    simp only [Prod.mk.injEq, true_and] at h
    rw [← h]
    exact hh l _ m hr
  · simp at h

theorem written_contacts {maps : Maps} {n : ℕ} {h : ℤ} {l l' : Lib} (hr : writeContacts w maps n h l = (.ok .success, l')) :
    l'.written + 4 = l.written + dataOfForces (some (maps, n)) := by
  have key : ∀ {a : Unit} {m : Lib}, runItems w h (contactItems n) l = (.ok a, m) → m.written = l.written + if n = 0 then 1 else 5 := by
    intro a m hx
    rw [counts_runItems h _ l a m hx]
    unfold contactItems
    split_ifs <;> rfl
  unfold writeContacts at hr
  cases maps with
  | free =>
    simp only [Prod.mk.injEq, true_and] at hr
    rw [← hr]
    rfl
  | impact =>
    simp only at hr
    split at hr <;> simp only [Prod.mk.injEq, Res.ok.injEq, reduceCtorEq, false_and, true_and] at hr
    rename_i hx
    rw [← hr, key hx]
    cases n <;> rfl
  | friction =>
    simp only at hr
    split at hr <;> simp only [Prod.mk.injEq, Res.ok.injEq, reduceCtorEq, false_and, true_and] at hr
    rename_i hx
    rw [← hr, key hx]
    cases n <;> rfl

theorem written_stepSystem {forces : Option (Maps × ℕ)} {l l' : Lib} (h : stepSystem w forces l = (.success, l')) : l'.written = l.written + dataOfForces forces := by
  rcases forces with _ | ⟨maps, n⟩
  · simp only [stepSystem, Prod.mk.injEq, true_and] at h
    rw [← h]
    rfl
  · simp only [stepSystem, saveForces] at h
    split at h
    · rename_i e m hr
      simp only [Prod.mk.injEq] at h
      obtain ⟨rfl, rfl⟩ := h
      have hq := quiet_opening (w := w) l
      simp only [Handles.scope] at hr
      rcases hc : opening w l with ⟨r, k⟩
      rw [hc] at hr hq
      cases r with
      | thrown => simp at hr
      | ok x =>
        simp only [Prod.mk.injEq] at hr
        obtain ⟨hr1, hr2⟩ := hr
        rw [← hr2, release_written]
        simp only [Run.bind] at hr1 ⊢
        rcases hh : runItems w x header k with ⟨r', j⟩
        rw [hh] at hr1
        cases r' with
        | thrown => simp at hr1
        | ok a =>
          have h1 := counts_runItems x header k a j hh
          have h2 : (writeContacts w maps n x j).2.written + 4 = j.written + dataOfForces (some (maps, n)) := written_contacts (Prod.ext hr1 rfl)
          have h3 : (header.map data).sum = 4 := rfl
          have h4 : k.written = l.written := hq
          show (writeContacts w maps n x j).2.written = _
          omega
    · simp at h

theorem written_saveAll : ∀ (files : List (Option (Maps × ℕ) × List Item)) {l l' : Lib}, saveAll w files l = (.success, l') → l'.written = l.written + dataOfRun files
  | [], l, l', h => by
    simp only [saveAll, Prod.mk.injEq, true_and] at h
    rw [← h]
    rfl
  | (forces, items) :: rest, l, l', h => by
    unfold saveAll at h
    rcases hr : stepSystem w forces l with ⟨e, m⟩
    rw [hr] at h
    simp only at h
    cases e with
    | success =>
      rcases hs : saveState w items m with ⟨e', k⟩
      simp only [hs] at h
      cases e' with
      | success =>
        have h1 := written_stepSystem hr
        have h2 := written_saveState hs
        have h3 := written_saveAll rest h
        simp only [dataOfRun, List.map_cons, List.sum_cons] at h3 ⊢
        omega
      | failure => simp at h
      | terminated => simp at h
    | failure => simp at h
    | terminated => simp at h

end Scisim.Handles
