import Verif.Lemmas.Codec
import Verif.Spec.ImpulseCache
/-!
# Lemmas on impulse maps
-/

namespace Scisim

theorem Key.eq_of_not_lt {a b : Key} (h1 : ¬ Key.lt a b) (h2 : ¬ Key.lt b a) : a = b := by
  unfold Key.lt at *
  obtain ⟨a1, a2⟩ := a
  obtain ⟨b1, b2⟩ := b
  simp only at *
  have e1 : a1 = b1 := UInt32.toNat_inj.mp (by omega)
  have e2 : a2 = b2 := UInt32.toNat_inj.mp (by omega)
  rw [e1, e2]

theorem Key.lt_irrefl (a : Key) : ¬ Key.lt a a := by unfold Key.lt; omega

theorem Key.lt_trans {a b c : Key} (h1 : Key.lt a b) (h2 : Key.lt b c) : Key.lt a c := by
  unfold Key.lt at *; omega

theorem ImpulseMap.insert_mem {m : ImpulseMap} {k : Key} {r : Impulse} {e : Key × Impulse}
    (h : e ∈ m.insert k r) : e = (k, r) ∨ e ∈ m := by
  induction m with
  | nil => simp [ImpulseMap.insert] at h; exact Or.inl h
  | cons e' m ih =>
    unfold ImpulseMap.insert at h
    split at h
    · rcases List.mem_cons.mp h with h | h
      · exact Or.inl h
      · exact Or.inr h
    · split at h
      · rcases List.mem_cons.mp h with h | h
        · exact Or.inr (by rw [h]; simp)
        · rcases ih h with h | h
          · exact Or.inl h
          · exact Or.inr (by simp [h])
      · exact Or.inr h

theorem ImpulseMap.insert_sorted {m : ImpulseMap} (hs : m.Sorted) (k : Key) (r : Impulse) :
    (m.insert k r).Sorted := by
  induction m with
  | nil => simp [ImpulseMap.insert, ImpulseMap.Sorted]
  | cons e m ih =>
    have hs' := List.pairwise_cons.mp hs
    unfold ImpulseMap.insert
    split
    · rename_i hlt
      refine List.pairwise_cons.mpr ⟨?_, hs⟩
      intro x hx
      rcases List.mem_cons.mp hx with h | h
      · rw [h]; exact hlt
      · exact Key.lt_trans hlt (hs'.1 x h)
    · split
      · rename_i hlt
        refine List.pairwise_cons.mpr ⟨?_, ih hs'.2⟩
        intro x hx
        rcases ImpulseMap.insert_mem hx with h | h
        · rw [h]; exact hlt
        · exact hs'.1 x h
      · exact hs

theorem ImpulseMap.insert_length (m : ImpulseMap) (k : Key) (r : Impulse) :
    (m.insert k r).length ≤ m.length + 1 := by
  induction m with
  | nil => simp [ImpulseMap.insert]
  | cons e m ih =>
    unfold ImpulseMap.insert
    split
    · simp
    · split
      · simp only [List.length_cons]; omega
      · simp

theorem ImpulseMap.find_none_of_lt {m : ImpulseMap} {k : Key} (h : ∀ e ∈ m, Key.lt k e.1) : m.find k = none := by
  induction m with
  | nil => rfl
  | cons e m ih =>
    unfold ImpulseMap.find
    rw [if_neg, ih fun x hx => h x (by simp [hx])]
    intro he
    have := h e (by simp)
    rw [he] at this
    exact Key.lt_irrefl _ this

theorem ImpulseMap.find_insert {m : ImpulseMap} (hs : m.Sorted) (k k' : Key) (r : Impulse) :
    (m.insert k r).find k' = if k = k' then (m.find k').or (some r) else m.find k' := by
  induction m with
  | nil => rfl
  | cons e m ih =>
    have hs' := List.pairwise_cons.mp hs
    unfold ImpulseMap.insert
    split
    · rename_i hlt
      have hn : k = k' → ImpulseMap.find (e :: m) k' = none := fun he => by
        subst he
        apply ImpulseMap.find_none_of_lt
        intro x hx
        rcases List.mem_cons.mp hx with h | h
        · rw [h]; exact hlt
        · exact Key.lt_trans hlt (hs'.1 x h)
      show (if k = k' then some r else _) = _
      by_cases hk : k = k'
      · rw [if_pos hk, if_pos hk, hn hk]; rfl
      · rw [if_neg hk, if_neg hk]
    · rename_i hnlt
      split
      · rename_i hlt
        show (if e.1 = k' then some e.2 else ImpulseMap.find (ImpulseMap.insert m k r) k') = _
        rw [ih hs'.2]
        simp only [ImpulseMap.find]
        by_cases hk : k = k'
        · have hne : e.1 ≠ k' := by
            intro he; rw [he, ← hk] at hlt; exact Key.lt_irrefl _ hlt
          simp only [if_pos hk, if_neg hne]
        · simp only [if_neg hk]
      · rename_i hnlt'
        have hke : k = e.1 := Key.eq_of_not_lt hnlt hnlt'
        by_cases hk : k = k'
        · rw [if_pos hk]
          simp only [ImpulseMap.find, if_pos (hke ▸ hk), Option.some_or]
        · rw [if_neg hk]

/-- inserting a key above all others appends -/
theorem ImpulseMap.insert_append {m : ImpulseMap} {k : Key} {r : Impulse} (h : ∀ e ∈ m, Key.lt e.1 k) :
    m.insert k r = m ++ [(k, r)] := by
  induction m with
  | nil => rfl
  | cons e m ih =>
    have he := h e (by simp)
    unfold ImpulseMap.insert
    rw [if_neg (fun hlt => Key.lt_irrefl _ (Key.lt_trans hlt he)), if_pos he, ih fun x hx => h x (by simp [hx])]
    rfl

theorem reads_entries (m : ImpulseMap) (acc : ImpulseMap) (hs : (acc ++ m).Sorted)
    (hl : ∀ e ∈ m, e.2.length < 9223372036854775808) :
    Reads (deEntries m.length acc) (m.flatMap serEntry) (acc ++ m) := by
  induction m generalizing acc with
  | nil => simp only [List.length_nil, List.flatMap_nil, List.append_nil]; exact Reads.pure acc
  | cons e m ih =>
    simp only [List.length_cons, List.flatMap_cons, deEntries]
    have happ := List.pairwise_append.mp hs
    have hins : acc.insert e.1 e.2 = acc ++ [e] :=
      ImpulseMap.insert_append fun x hx => happ.2.2 x hx e (by simp)
    have := ih (acc ++ [e]) (by rw [List.append_assoc]; exact hs) (fun x hx => hl x (by simp [hx]))
    rw [List.append_assoc, ← hins] at this
    refine Reads.congr (Reads.bind (reads_pod e.1.1) (Reads.bind (reads_pod e.1.2)
      (Reads.bind (reads_vecX e.2 (hl e (by simp))) this))) ?_
    simp [serEntry, List.append_assoc]

theorem reads_map (m : ImpulseMap) (h : m.Wf) : Reads deMap (serMap m) m := by
  refine Reads.bind (reads_len _ (by have := h.len; omega)) ?_
  rw [if_pos h.len]
  have := reads_entries m [] (by simpa using h.sorted) h.dims
  simpa using this

theorem reads_ballCache (c : BallCache) (h : c.Wf) : Reads deBallCache (serBallCache c) c :=
  Reads.bind (reads_map _ h.a) (Reads.bind (reads_map _ h.b) (Reads.bind_nil (reads_map _ h.c) (Reads.pure _)))

theorem reads_rb2dCache (c : RB2DCache) (h : c.Wf) : Reads deRB2DCache (serRB2DCache c) c :=
  Reads.bind (reads_map _ h.a) (Reads.bind (reads_map _ h.b) (Reads.bind (reads_map _ h.c)
    (Reads.bind_nil (reads_map _ h.d) (Reads.pure _))))

theorem reads_rb3dCache (c : RB3DCache) (h : c.Wf) : Reads deRB3DCache (serRB3DCache c) c :=
  Reads.bind (reads_map _ h.a) (Reads.bind (reads_map _ h.b) (Reads.bind (reads_map _ h.c)
    (Reads.bind_nil (reads_map _ h.d) (Reads.pure _))))

theorem ImpulseMap.wf_insert {m : ImpulseMap} {n : Nat} {k : Key} {r : Impulse} (h : m.Wf) (hn : m.length ≤ n)
    (hb : n + 1 < 4294967296) (hr : r.length < 9223372036854775808) :
    (m.insert k r).Wf ∧ (m.insert k r).length ≤ n + 1 := by
  have hl := ImpulseMap.insert_length m k r
  refine ⟨⟨ImpulseMap.insert_sorted h.sorted k r, by omega, fun e he => ?_⟩, by omega⟩
  rcases ImpulseMap.insert_mem he with h1 | h1
  · rw [h1]; exact hr
  · exact h.dims e h1

theorem ImpulseMap.wf_nil : ImpulseMap.Wf [] :=
  ⟨List.Pairwise.nil, by simp, by simp⟩

/-- Running a history on a cache. -/
def runOps {C S : Type} (step : S → CacheOp C → Outcome S) : S → List (CacheOp C) → Outcome S
  | s, [] => .ok s
  | s, op :: ops => (step s op).bind fun s' => runOps step s' ops

/-- If every single operation acts on the answers as the specification says, so does every history. -/
theorem runOps_refines {C S : Type} [DecidableEq C] {look : S → C → Option Impulse}
    {step : S → CacheOp C → Outcome S} {Inv : Nat → S → Prop} {Good : CacheOp C → Prop} {bound : Nat}
    (hstep : ∀ n s op, Inv n s → n + 1 < bound → Good op →
      ∃ s', step s op = .ok s' ∧ Inv (n + 1) s' ∧ ∀ con, look s' con = expected con (look s con) [op])
    (ops : List (CacheOp C)) (n : Nat) (s : S) (hi : Inv n s) (hb : n + ops.length < bound)
    (hg : ∀ op ∈ ops, Good op) :
    ∃ s', runOps step s ops = .ok s' ∧ ∀ con, look s' con = expected con (look s con) ops := by
  induction ops generalizing n s with
  | nil => exact ⟨s, rfl, fun _ => rfl⟩
  | cons op ops ih =>
    simp only [List.length_cons] at hb
    obtain ⟨s1, h1, hi1, hl1⟩ := hstep n s op hi (by omega) (hg op (by simp))
    obtain ⟨s2, h2, hl2⟩ := ih (n + 1) s1 hi1 (by omega) (fun o ho => hg o (by simp [ho]))
    refine ⟨s2, by rw [runOps, h1]; exact h2, fun con => ?_⟩
    rw [hl2, hl1]
    cases op <;> rfl

end Scisim
