import Mathlib.Data.Finset.Card
import Mathlib.Data.Finset.Range
import Mathlib.Data.List.Nodup
import Verif.Spec.OperatorCopies
/-! # Lemmas on copies of operators -/

namespace Scisim.OperatorCopies

/-- Depth of nesting -/
def depth : ImpactOp → ℕ
  | .gr _ op => depth op + 1
  | .grr e i => max (depth e) (depth i) + 1
  | _ => 1

theorem Holds.depth_le {m a op l} (h : Holds m a op l) : depth op ≤ l.length := by
  induction h with
  | gr _ _ _ ih => simp [depth]; omega
  | grr _ _ _ _ _ _ ih1 ih2 => simp [depth]; omega
  | _ => simp [depth]

theorem Holds.live {m a op l} (h : Holds m a op l) : ∀ x ∈ l, m.objs x ≠ none := by
  induction h with
  | gr h _ _ ih => intro x hx; rcases List.mem_cons.mp hx with rfl | hx; simp [h]; exact ih x hx
  | grr h _ _ _ _ _ ih1 ih2 =>
    intro x hx; rcases List.mem_cons.mp hx with rfl | hx
    · simp [h]
    · rcases List.mem_append.mp hx with hx | hx
      exacts [ih1 x hx, ih2 x hx]
  | _ h => intro x hx; simp at hx; subst hx; simp [h]

theorem Holds.nodup {m a op l} (h : Holds m a op l) : l.Nodup := by
  induction h with
  | gr _ _ ha ih => exact List.nodup_cons.mpr ⟨ha, ih⟩
  | grr _ _ _ h1 h2 hd ih1 ih2 =>
    refine List.nodup_cons.mpr ⟨by simp [h1, h2], ih1.append ih2 hd⟩
  | _ => simp

theorem Holds.mem {m a op l} (h : Holds m a op l) : a ∈ l := by cases h <;> simp

theorem Holds.whole {m a op l} (h : Holds m a op l) : Whole op := by
  induction h with
  | gr _ _ _ ih => exact ih
  | grr _ _ _ _ _ _ ih1 ih2 => exact ⟨ih1, ih2⟩
  | _ => exact trivial

theorem length_le_of_nodup {l : List ℕ} {n : ℕ} (h : l.Nodup) (hl : ∀ x ∈ l, x < n) : l.length ≤ n := by
  have : l.toFinset ⊆ Finset.range n := fun x hx => Finset.mem_range.mpr (hl x (List.mem_toFinset.mp hx))
  have := Finset.card_le_card this
  rwa [List.toFinset_card_of_nodup h, Finset.card_range] at this

theorem Holds.depth_next {m a op l} (hw : m.Wf) (h : Holds m a op l) : depth op ≤ m.next :=
  le_trans h.depth_le (length_le_of_nodup h.nodup fun x hx => hw x (h.live x hx))

theorem Holds.frame {m m' a op l} (h : Holds m a op l) (hs : ∀ x ∈ l, m'.objs x = m.objs x) : Holds m' a op l := by
  induction h with
  | gr h _ ha ih => exact .gr (by rw [hs _ (by simp)]; exact h) (ih fun x hx => hs x (by simp [hx])) ha
  | grr h _ _ h1 h2 hd ih1 ih2 =>
    exact .grr (by rw [hs _ (by simp)]; exact h) (ih1 fun x hx => hs x (by simp [hx])) (ih2 fun x hx => hs x (by simp [hx])) h1 h2 hd
  | gaussSeidel h => exact .gaussSeidel (by rw [hs _ (by simp)]; exact h)
  | jacobi h => exact .jacobi (by rw [hs _ (by simp)]; exact h)
  | lcpQL h => exact .lcpQL (by rw [hs _ (by simp)]; exact h)
  | lcpQLVP h => exact .lcpQLVP (by rw [hs _ (by simp)]; exact h)
  | lcpIpopt h => exact .lcpIpopt (by rw [hs _ (by simp)]; exact h)
  | lcpAPGD h => exact .lcpAPGD (by rw [hs _ (by simp)]; exact h)

/-! ## New objects -/

/-- The memory after `new` -/
def Mem.push (m : Mem) (n : Node) : Mem := ⟨Function.update m.objs m.next (some n), m.next + 1⟩

theorem new_eq (n m) : new n m = .ok (m.next, m.push n) := rfl

theorem push_self (m : Mem) (n) : (m.push n).objs m.next = some n := by simp [Mem.push]

theorem push_same (m : Mem) (n) : SameBut [m.next] m (m.push n) := by
  intro x hx; simp at hx; simp [Mem.push, hx]

theorem push_wf {m : Mem} (h : m.Wf) (n) : (m.push n).Wf := by
  intro x hx
  by_cases e : x = m.next
  · simp [Mem.push, e]
  · have := h x (by simpa [Mem.push, e] using hx)
    simp [Mem.push]; omega

/-- `r`: something described by `P`, made in `m`, with memory of its own -/
def MadeG {α : Type} (m : Mem) (P : Mem → α → List ℕ → Prop) (r : α × Mem) : Prop :=
  ∃ l', r.2.Wf ∧ P r.2 r.1 l' ∧ Fresh m l' ∧ m.next ≤ r.2.next ∧ SameBut l' m r.2

/-- The description depends on its own memory only. -/
structure Framed {α : Type} (P : Mem → α → List ℕ → Prop) : Prop where
  live : ∀ m a l, P m a l → ∀ x ∈ l, m.objs x ≠ none
  frame : ∀ m m' a l, P m a l → (∀ x ∈ l, m'.objs x = m.objs x) → P m' a l

/-- An impact operator -/
abbrev impactP (op : ImpactOp) (m : Mem) (a : ℕ) (l : List ℕ) : Prop := Holds m a op l

theorem framed_impact (op) : Framed (impactP op) := ⟨fun _ _ _ h => h.live, fun _ _ _ _ h => h.frame⟩

/-- A friction operator -/
abbrev frictionP (f : FrictionOp) (m : Mem) (a : ℕ) (l : List ℕ) : Prop := HoldsFriction m a f ∧ l = [a]

theorem HoldsFriction.live {m a f} (h : HoldsFriction m a f) : m.objs a ≠ none := by cases h with | _ h => simp [h]

theorem HoldsFriction.frame {m m' : Mem} {a f} (h : HoldsFriction m a f) (e : m'.objs a = m.objs a) : HoldsFriction m' a f := by
  cases h with
  | linear h => exact .linear (by rw [e, h])
  | bound h => exact .bound (by rw [e, h])
  | smooth h => exact .smooth (by rw [e, h])

theorem framed_friction (f) : Framed (frictionP f) := by
  refine ⟨fun m a l h x hx => ?_, fun m m' a l h hs => ⟨h.1.frame (hs a (by simp [h.2])), h.2⟩⟩
  obtain ⟨h, rfl⟩ := h
  simp at hx; subst hx; exact h.live

/-- A friction solver -/
abbrev solverP (i : ImpactOp) (f : FrictionOp) (m : Mem) (s : Solver) (l : List ℕ) : Prop :=
  ∃ l', Holds m s.impact i l' ∧ HoldsFriction m s.friction f ∧ s.friction ∉ l' ∧ l = s.friction :: l'

theorem framed_solver (i f) : Framed (solverP i f) := by
  refine ⟨fun m a l h x hx => ?_, fun m m' a l h hs => ?_⟩
  · obtain ⟨l', h1, h2, _, rfl⟩ := h
    rcases List.mem_cons.mp hx with rfl | hx
    exacts [h2.live, h1.live x hx]
  · obtain ⟨l', h1, h2, h3, rfl⟩ := h
    exact ⟨l', h1.frame fun x hx => hs x (by simp [hx]), h2.frame (hs _ (by simp)), h3, rfl⟩

/-- `r`: an operator made in `m`, with memory of its own -/
abbrev Made (m : Mem) (op : ImpactOp) (r : ℕ × Mem) : Prop := MadeG m (impactP op) r

theorem made_leaf {m : Mem} (hw : m.Wf) {n op} (h : Holds (m.push n) m.next op [m.next]) : Made m op (m.next, m.push n) :=
  ⟨[m.next], push_wf hw n, h, by intro x hx; simp at hx; omega, by simp [Mem.push], push_same m n⟩

theorem linearSolverSupported_iff (s : Bytes) : linearSolverSupported s = true ↔ s = ascii "ma27" ∨ s = ascii "ma57" ∨ s = ascii "mumps" ∨ s = ascii "ma86" ∨ s = ascii "ma97" := by
  unfold linearSolverSupported
  split
  · next h => obtain ⟨h1, h2, h3, h4, h5⟩ := h; simp [h1, h2, h3, h4, h5]
  · next h => simp only [true_iff]; by_contra hc; exact h (by simpa [not_or] using hc)

theorem containsDuplicates_iff (ss : List Bytes) : containsDuplicates ss = false ↔ ss.Nodup := by
  induction ss with
  | nil => simp [containsDuplicates]
  | cons s rest ih =>
    unfold containsDuplicates
    by_cases h : s ∈ rest
    · have : (rest.any fun t => s = t) = true := by simpa using h
      simp [this, h]
    · have : (rest.any fun t => s = t) = false := by
        simp only [List.any_eq_false, decide_eq_true_eq]; intro x hx e; exact h (e ▸ hx)
      simp [this, h, ih]

theorem checkSolvers_good {ss : List Bytes} (h : GoodSolvers ss) (after) : checkSolvers ss after = after := by
  obtain ⟨h1, h2, h3⟩ := h
  have hb : (ss.any fun s => !linearSolverSupported s) = false := by
    simp only [List.any_eq_false, Bool.not_eq_true', Bool.not_eq_false]
    intro s hs; exact (linearSolverSupported_iff s).mpr (h3 s hs)
  simp [checkSolvers, h1, (containsDuplicates_iff ss).mpr h2, hb]

theorem checkSolvers_bad {ss : List Bytes} (h : ¬ GoodSolvers ss) (after) : checkSolvers ss after = .exit := by
  unfold checkSolvers
  split
  · rfl
  split
  · rfl
  split
  · rfl
  next h1 h2 h3 =>
    refine absurd ⟨h1, (containsDuplicates_iff ss).mp (by simpa using h2), fun s hs => ?_⟩ h
    apply (linearSolverSupported_iff s).mp
    have h3 : (ss.any fun s => !linearSolverSupported s) = false := by simpa using h3
    simpa using List.any_eq_false.mp h3 s hs

/-! ## Constructors of compounds -/

/-- `clone` copies what is at the address -/
def Clones (clone : ℕ → Mem → Outcome (ℕ × Mem)) (op : ImpactOp) : Prop :=
  ∀ m a l, m.Wf → Holds m a op l → (Good op → ∃ r, clone a m = .ok r ∧ Made m op r) ∧ (¬ Good op → clone a m = .exit)

theorem MadeG.keeps {α β : Type} {P : Mem → α → List ℕ → Prop} {R : Mem → β → List ℕ → Prop} (hR : Framed R) {m r b l} (hw : m.Wf) (h : MadeG m P r) (hp : R m b l) : R r.2 b l := by
  obtain ⟨l', _, _, hf, _, hs⟩ := h
  refine hR.frame _ _ _ _ hp fun x hx => hs x fun hc => ?_
  have := hf x hc; have := hw x (hR.live _ _ _ hp x hx); omega

theorem made_gr {m op r} (h : Made m op r) (v) : Made m (.gr v op) (r.2.next, r.2.push (.gr v r.1)) := by
  obtain ⟨l, hw, hh, hf, hn, hs⟩ := h
  have hlt : ∀ x ∈ l, x < r.2.next := fun x hx => hw x (hh.live x hx)
  have hni : r.2.next ∉ l := fun hc => by have := hlt _ hc; omega
  refine ⟨r.2.next :: l, push_wf hw _, .gr (push_self _ _) (hh.frame fun x hx => push_same _ _ x (by have := hlt x hx; simp; omega)) hni, ?_, ?_, ?_⟩
  · intro x hx; rcases List.mem_cons.mp hx with rfl | hx
    exacts [hn, hf x hx]
  · simp [Mem.push]; omega
  · intro x hx; simp at hx
    rw [push_same _ _ x (by simp [hx.1]), hs x hx.2]

theorem made_grr {m e r i s} (h : Made m e r) (h' : Made r.2 i s) : Made m (.grr e i) (s.2.next, s.2.push (.grr r.1 s.1)) := by
  have hk := fun l (hp : Holds r.2 r.1 e l) => h'.keeps (framed_impact e) h.choose_spec.1 hp
  obtain ⟨l, hw, hh, hf, hn, hs⟩ := h
  obtain ⟨l', hw', hh', hf', hn', hs'⟩ := h'
  have hlt : ∀ x ∈ l, x < r.2.next := fun x hx => hw x (hh.live x hx)
  have hlt' : ∀ x ∈ l', x < s.2.next := fun x hx => hw' x (hh'.live x hx)
  have hni : s.2.next ∉ l := fun hc => by have := hlt _ hc; omega
  have hni' : s.2.next ∉ l' := fun hc => by have := hlt' _ hc; omega
  refine ⟨s.2.next :: (l ++ l'), push_wf hw' _, .grr (push_self _ _) ((hk l hh).frame fun x hx => push_same _ _ x (by have := hlt x hx; simp; omega))
    (hh'.frame fun x hx => push_same _ _ x (by have := hlt' x hx; simp; omega)) hni hni' ?_, ?_, ?_, ?_⟩
  · intro x hx hx'; have := hlt x hx; have := hf' x hx'; omega
  · intro x hx; rcases List.mem_cons.mp hx with rfl | hx
    · show m.next ≤ s.2.next; omega
    · rcases List.mem_append.mp hx with hx | hx
      · exact hf x hx
      · have := hf' x hx; omega
  · simp [Mem.push]; omega
  · intro x hx; simp at hx
    rw [push_same _ _ x (by simp [hx.1]), hs' x hx.2.2, hs x hx.2.1]

theorem makeGR_spec {clone op} (hc : Clones clone op) {m a l} (hw : m.Wf) (h : Holds m a op l) (v) :
    (Good op → ∃ r, makeGR clone v a m = .ok r ∧ Made m (.gr v op) r) ∧ (¬ Good op → makeGR clone v a m = .exit) := by
  refine ⟨fun hg => ?_, fun hg => ?_⟩
  · obtain ⟨r, e, hm⟩ := (hc m a l hw h).1 hg
    exact ⟨_, by simp only [makeGR, e, Outcome.bind, new_eq], made_gr hm v⟩
  · simp only [makeGR, (hc m a l hw h).2 hg, Outcome.bind]

theorem makeGRR_spec {clone e i} (he : Clones clone e) (hi : Clones clone i) {m a b l l'} (hw : m.Wf) (ha : Holds m a e l) (hb : Holds m b i l') :
    (Good e ∧ Good i → ∃ r, makeGRR clone a b m = .ok r ∧ Made m (.grr e i) r) ∧ (¬ (Good e ∧ Good i) → makeGRR clone a b m = .exit) := by
  by_cases hge : Good e
  · obtain ⟨r, er, hr⟩ := (he m a l hw ha).1 hge
    have hb' := hr.keeps (framed_impact i) hw hb
    by_cases hgi : Good i
    · obtain ⟨s, es, hs⟩ := (hi r.2 b l' hr.choose_spec.1 hb').1 hgi
      exact ⟨fun _ => ⟨_, by simp only [makeGRR, er, es, Outcome.bind, new_eq], made_grr hr hs⟩, fun h => absurd ⟨hge, hgi⟩ h⟩
    · have es := (hi r.2 b l' hr.choose_spec.1 hb').2 hgi
      exact ⟨fun h => absurd h.2 hgi, fun _ => by simp only [makeGRR, er, es, Outcome.bind]⟩
  · exact ⟨fun h => absurd h.1 hge, fun _ => by simp only [makeGRR, (he m a l hw ha).2 hge, Outcome.bind]⟩

theorem cloneImpactAux_spec (op : ImpactOp) : ∀ k, depth op ≤ k → Clones (cloneImpactAux k) op := by
  induction op with
  | null => intro k _ m a l _ h; cases h
  | gr v op ih =>
    intro k hk m a l hw h
    simp only [depth] at hk
    obtain ⟨k, rfl⟩ : ∃ k', k = k' + 1 := ⟨k - 1, by omega⟩
    cases h with
    | gr ho hh _ => simp only [cloneImpactAux, ho, Good]; exact makeGR_spec (ih k (by omega)) hw hh v
  | grr e i ih1 ih2 =>
    intro k hk m a l hw h
    simp only [depth] at hk
    obtain ⟨k, rfl⟩ : ∃ k', k = k' + 1 := ⟨k - 1, by omega⟩
    cases h with
    | grr ho h1 h2 _ _ _ => simp only [cloneImpactAux, ho, Good]; exact makeGRR_spec (ih1 k (by omega)) (ih2 k (by omega)) hw h1 h2
  | lcpIpopt ss t =>
    intro k hk m a l hw h
    simp only [depth] at hk
    obtain ⟨k, rfl⟩ : ∃ k', k = k' + 1 := ⟨k - 1, by omega⟩
    cases h with
    | lcpIpopt ho =>
      simp only [cloneImpactAux, ho, Good]
      exact ⟨fun hg => ⟨_, by rw [checkSolvers_good hg, new_eq], made_leaf hw (.lcpIpopt (push_self _ _))⟩, fun hg => checkSolvers_bad hg _⟩
  | _ =>
    intro k hk m a l hw h
    simp only [depth] at hk
    obtain ⟨k, rfl⟩ : ∃ k', k = k' + 1 := ⟨k - 1, by omega⟩
    cases h
    rename_i ho
    simp only [cloneImpactAux, ho, Good, not_true_eq_false, false_imp_iff, and_true]
    refine fun _ => ⟨_, new_eq _ _, made_leaf hw ?_⟩
    constructor
    exact push_self _ _

theorem cloneImpact_spec (op : ImpactOp) : Clones cloneImpact op :=
  fun m a l hw h => cloneImpactAux_spec op m.next (h.depth_next hw) m a l hw h

/-! ## Destruction -/

/-- The memory without the objects at the listed addresses -/
def Mem.without (m : Mem) (l : List ℕ) : Mem := ⟨fun x => if x ∈ l then none else m.objs x, m.next⟩

theorem free_eq {m : Mem} {a} (h : m.objs a ≠ none) : free a m = .ok (m.without [a]) := by
  unfold free
  cases e : m.objs a with
  | none => exact absurd e h
  | some n =>
    simp only [Outcome.ok.injEq, Mem.without, Mem.mk.injEq, and_true]
    funext x; simp [Function.update_apply]

theorem without_without (m : Mem) (l l') : (m.without l).without l' = m.without (l' ++ l) := by
  simp only [Mem.without, Mem.mk.injEq, and_true]
  funext x
  by_cases h : x ∈ l' <;> by_cases h' : x ∈ l <;> simp [h, h']

theorem deleteAux_spec (op : ImpactOp) : ∀ k m a l, depth op ≤ k → Holds m a op l → deleteAux k a m = .ok (m.without l) := by
  induction op with
  | null => intro k m a l _ h; cases h
  | gr v op ih =>
    intro k m a l hk h
    simp only [depth] at hk
    obtain ⟨k, rfl⟩ : ∃ k', k = k' + 1 := ⟨k - 1, by omega⟩
    cases h with
    | @gr _ _ b _ l ho hh ha =>
      simp only [deleteAux, ho, ih k m _ _ (by omega) hh, Outcome.bind]
      rw [free_eq (by simp [Mem.without, ha, ho]), without_without]; rfl
  | grr e i ih1 ih2 =>
    intro k m a l hk h
    simp only [depth] at hk
    obtain ⟨k, rfl⟩ : ∃ k', k = k' + 1 := ⟨k - 1, by omega⟩
    cases h with
    | @grr _ b c _ _ l l' ho h1 h2 ha ha' hd =>
      have h1' : Holds (m.without l') b e l := h1.frame fun x hx => by simp only [Mem.without]; exact if_neg fun hc => hd hx hc
      simp only [deleteAux, ho, ih2 k m _ _ (by omega) h2, ih1 k _ _ _ (by omega) h1', Outcome.bind]
      rw [free_eq (by simp [Mem.without, ha, ha', ho]), without_without, without_without]; rfl
  | _ =>
    intro k m a l hk h
    simp only [depth] at hk
    obtain ⟨k, rfl⟩ : ∃ k', k = k' + 1 := ⟨k - 1, by omega⟩
    cases h
    rename_i ho
    simp only [deleteAux, ho]
    exact free_eq (by simp [ho])

theorem delete_spec {m a op l} (hw : m.Wf) (h : Holds m a op l) : delete a m = .ok (m.without l) :=
  deleteAux_spec op m.next m a l (h.depth_next hw) h

theorem writeAux_spec (op : ImpactOp) : ∀ k m a l, depth op ≤ k → Holds m a op l → writeAux k a m = serImpactOp op := by
  induction op with
  | null => intro k m a l _ h; cases h
  | gr v op ih =>
    intro k m a l hk h
    simp only [depth] at hk
    obtain ⟨k, rfl⟩ : ∃ k', k = k' + 1 := ⟨k - 1, by omega⟩
    cases h with
    | gr ho hh ha => simp only [writeAux, ho, ih k m _ _ (by omega) hh, serImpactOp]
  | grr e i ih1 ih2 =>
    intro k m a l hk h
    simp only [depth] at hk
    obtain ⟨k, rfl⟩ : ∃ k', k = k' + 1 := ⟨k - 1, by omega⟩
    cases h with
    | grr ho h1 h2 ha ha' hd => simp only [writeAux, ho, ih2 k m _ _ (by omega) h2, ih1 k _ _ _ (by omega) h1, serImpactOp]
  | _ =>
    intro k m a l hk h
    simp only [depth] at hk
    obtain ⟨k, rfl⟩ : ∃ k', k = k' + 1 := ⟨k - 1, by omega⟩
    cases h
    rename_i ho
    simp only [writeAux, ho, serImpactOp]

theorem without_wf {m : Mem} (h : m.Wf) (l) : (m.without l).Wf := by
  intro x hx; apply h; simp only [Mem.without] at hx; intro e; simp [e] at hx

/-- What was made from a temporary object outlives it. -/
theorem MadeG.drop {α β : Type} {P : Mem → α → List ℕ → Prop} {R : Mem → β → List ℕ → Prop} (hP : Framed P) (hR : Framed R) {m : Mem} {r : α × Mem} {s : β × Mem} {l : List ℕ} (hwm : m.Wf) (hwr : r.2.Wf) (hl : P r.2 r.1 l)
    (hf : Fresh m l) (hn : m.next ≤ r.2.next) (hsb : SameBut l m r.2) (hs : MadeG r.2 R s) : MadeG m R (s.1, s.2.without l) := by
  obtain ⟨l', hw', hh', hf', hn', hs'⟩ := hs
  have hlt : ∀ x ∈ l, x < r.2.next := fun x hx => hwr x (hP.live _ _ _ hl x hx)
  refine ⟨l', without_wf hw' l, hR.frame _ _ _ _ hh' fun x hx => ?_, fun x hx => ?_, ?_, fun x hx => ?_⟩
  · have : x ∉ l := fun hc => by have := hlt x hc; have := hf' x hx; omega
    simp [Mem.without, this]
  · have := hf' x hx; omega
  · show m.next ≤ s.2.next; omega
  · by_cases hxl : x ∈ l
    · have : m.objs x = none := by
        by_contra hc; have := hwm x hc; have := hf x hxl; omega
      simp [Mem.without, hxl, this]
    · simp only [Mem.without, hxl, if_false]; rw [hs' x hx, hsb x hxl]

theorem MadeG.wf {α : Type} {P : Mem → α → List ℕ → Prop} {m r} (h : MadeG m P r) : r.2.Wf := h.choose_spec.1

/-! ## The parsers -/

theorem parseImpact_spec (op : ImpactOp) : ∀ m, m.Wf → Whole op → (Good op → ∃ r, parseImpact op m = .ok r ∧ Made m op r) ∧ (¬ Good op → parseImpact op m = .exit) := by
  induction op with
  | null => intro m _ h; exact absurd h id
  | gr v op ih =>
    intro m hw h
    simp only [Good]
    refine ⟨fun hg => ?_, fun hg => by simp only [parseImpact, (ih m hw h).2 hg, Outcome.bind]⟩
    obtain ⟨r, er, l, hwr, hl, hf, hn, hsb⟩ := (ih m hw h).1 hg
    obtain ⟨s, es, hs⟩ := (makeGR_spec (cloneImpact_spec op) hwr hl v).1 hg
    refine ⟨(s.1, s.2.without l), ?_, hs.drop (framed_impact op) (framed_impact _) hw hwr hl hf hn hsb⟩
    simp only [parseImpact, er, es, Outcome.bind, delete_spec hs.wf (hs.keeps (framed_impact op) hwr hl)]
  | grr e i ih1 ih2 =>
    intro m hw h
    simp only [Good]
    by_cases hge : Good e
    · obtain ⟨r, er, l, hwr, hl, hf, hn, hsb⟩ := (ih1 m hw h.1).1 hge
      by_cases hgi : Good i
      · refine ⟨fun _ => ?_, fun hc => absurd ⟨hge, hgi⟩ hc⟩
        obtain ⟨s, es, hs⟩ := (ih2 r.2 hwr h.2).1 hgi
        have hls := hs.keeps (framed_impact e) hwr hl
        obtain ⟨l', hws, hl', hf', hn', hsb'⟩ := hs
        obtain ⟨t, et, ht⟩ := (makeGRR_spec (cloneImpact_spec e) (cloneImpact_spec i) hws hls hl').1 ⟨hge, hgi⟩
        have hd := ht.drop (framed_impact i) (framed_impact _) hwr hws hl' hf' hn' hsb'
        refine ⟨(t.1, (t.2.without l').without l), ?_, hd.drop (framed_impact e) (framed_impact _) hw hwr hl hf hn hsb⟩
        simp only [parseImpact, er, es, et, Outcome.bind, delete_spec ht.wf (ht.keeps (framed_impact i) hws hl'), delete_spec hd.wf (hd.keeps (framed_impact e) hwr hl)]
      · exact ⟨fun hc => absurd hc.2 hgi, fun _ => by simp only [parseImpact, er, (ih2 r.2 hwr h.2).2 hgi, Outcome.bind]⟩
    · exact ⟨fun hc => absurd hc.1 hge, fun _ => by simp only [parseImpact, (ih1 m hw h.1).2 hge, Outcome.bind]⟩
  | lcpIpopt ss t =>
    intro m hw _
    simp only [parseImpact, Good]
    exact ⟨fun hg => ⟨_, by rw [checkSolvers_good hg, new_eq], made_leaf hw (.lcpIpopt (push_self _ _))⟩, fun hg => checkSolvers_bad hg _⟩
  | _ =>
    intro m hw _
    simp only [parseImpact, Good, not_true_eq_false, false_imp_iff, and_true]
    refine fun _ => ⟨_, new_eq _ _, made_leaf hw ?_⟩
    constructor
    exact push_self _ _

theorem made_friction {m : Mem} (hw : m.Wf) {n f} (h : HoldsFriction (m.push n) m.next f) : MadeG m (frictionP f) (m.next, m.push n) :=
  ⟨[m.next], push_wf hw n, ⟨h, rfl⟩, by intro x hx; simp at hx; omega, by simp [Mem.push], push_same m n⟩

theorem parseFriction_spec (f : FrictionOp) {m : Mem} (hw : m.Wf) (hf : f ≠ .null) :
    (GoodFriction f → ∃ r, parseFriction f m = .ok r ∧ MadeG m (frictionP f) r) ∧ (¬ GoodFriction f → parseFriction f m = .exit) := by
  cases f with
  | null => exact absurd rfl hf
  | linearMDPQL n t => exact ⟨fun _ => ⟨_, new_eq _ _, made_friction hw (.linear (push_self _ _))⟩, fun h => absurd trivial h⟩
  | boundConstrainedMDPQL t => exact ⟨fun _ => ⟨_, new_eq _ _, made_friction hw (.bound (push_self _ _))⟩, fun h => absurd trivial h⟩
  | smoothMDPIpopt ss t =>
    simp only [parseFriction, GoodFriction]
    exact ⟨fun hg => ⟨_, by rw [checkSolvers_good hg, new_eq], made_friction hw (.smooth (push_self _ _))⟩, fun hg => checkSolvers_bad hg _⟩

theorem cloneFriction_spec {f : FrictionOp} {m : Mem} {a} (hw : m.Wf) (h : HoldsFriction m a f) :
    (GoodFriction f → ∃ r, cloneFriction a m = .ok r ∧ MadeG m (frictionP f) r) ∧ (¬ GoodFriction f → cloneFriction a m = .exit) := by
  cases h with
  | linear h => simp only [cloneFriction, h]; exact ⟨fun _ => ⟨_, new_eq _ _, made_friction hw (.linear (push_self _ _))⟩, fun h => absurd trivial h⟩
  | bound h => simp only [cloneFriction, h]; exact ⟨fun _ => ⟨_, new_eq _ _, made_friction hw (.bound (push_self _ _))⟩, fun h => absurd trivial h⟩
  | smooth h =>
    simp only [cloneFriction, h, GoodFriction]
    exact ⟨fun hg => ⟨_, by rw [checkSolvers_good hg, new_eq], made_friction hw (.smooth (push_self _ _))⟩, fun hg => checkSolvers_bad hg _⟩

theorem made_solver {m i f r s} (h : Made m i r) (h' : MadeG r.2 (frictionP f) s) : MadeG m (solverP i f) (⟨r.1, s.1⟩, s.2) := by
  have hk := fun l (hp : Holds r.2 r.1 i l) => h'.keeps (framed_impact i) h.choose_spec.1 hp
  obtain ⟨l, hw, hh, hf, hn, hs⟩ := h
  obtain ⟨l', hw', ⟨hh', rfl⟩, hf', hn', hs'⟩ := h'
  have hlt : ∀ x ∈ l, x < r.2.next := fun x hx => hw x (hh.live x hx)
  have hge : r.2.next ≤ s.1 := hf' _ (by simp)
  refine ⟨s.1 :: l, hw', ⟨l, hk l hh, hh', fun hc => absurd (hlt s.1 hc) (by omega), rfl⟩, ?_, by show m.next ≤ s.2.next; omega, ?_⟩
  · intro x hx; rcases List.mem_cons.mp hx with rfl | hx
    · omega
    · exact hf x hx
  · intro x hx; simp at hx
    show s.2.objs x = m.objs x
    rw [hs' x (by simp [hx.1]), hs x hx.2]

theorem delete_friction {m a f} (hw : m.Wf) (h : HoldsFriction m a f) : delete a m = .ok (m.without [a]) := by
  have hl := hw a h.live
  unfold delete
  obtain ⟨k, hk⟩ : ∃ k, m.next = k + 1 := ⟨m.next - 1, by omega⟩
  rw [hk]
  cases h with
  | _ ho => simp only [deleteAux, ho]; exact free_eq (by simp [ho])

theorem parseSolver_spec (i : ImpactOp) (f : FrictionOp) {m : Mem} (hw : m.Wf) (hi : Whole i) (hf : f ≠ .null) :
    (Good i ∧ GoodFriction f → ∃ r, parseSolver i f m = .ok r ∧ MadeG m (solverP i f) r) ∧ (¬ (Good i ∧ GoodFriction f) → parseSolver i f m = .exit) := by
  by_cases hgi : Good i
  · obtain ⟨r, er, l, hwr, hl, hfr, hn, hsb⟩ := (parseImpact_spec i m hw hi).1 hgi
    by_cases hgf : GoodFriction f
    · refine ⟨fun _ => ?_, fun hc => absurd ⟨hgi, hgf⟩ hc⟩
      obtain ⟨s, es, hs⟩ := (parseFriction_spec f hwr hf).1 hgf
      have hls := hs.keeps (framed_impact i) hwr hl
      obtain ⟨l', hws, hl', hf', hn', hsb'⟩ := hs
      obtain ⟨u, eu, hu⟩ := (cloneImpact_spec i s.2 r.1 l hws hls).1 hgi
      have hfu := hu.keeps (framed_friction f) hws hl'
      obtain ⟨w, ew, hwm⟩ := (cloneFriction_spec hu.wf hfu.1).1 hgf
      have ht := made_solver hu hwm
      have hd := ht.drop (framed_friction f) (framed_solver i f) hwr hws hl' hf' hn' hsb'
      have e2 : l' = [s.1] := hl'.2
      refine ⟨(⟨u.1, w.1⟩, (w.2.without l').without l), ?_, hd.drop (framed_impact i) (framed_solver i f) hw hwr hl hfr hn hsb⟩
      have d1 := delete_friction ht.wf (ht.keeps (framed_friction f) hws hl').1
      have d2 := delete_spec hd.wf (hd.keeps (framed_impact i) hwr hl)
      simp only at d1 d2
      rw [← e2] at d1
      simp only [parseSolver, er, es, makeSolver, eu, ew, Outcome.bind, d1, d2]
    · exact ⟨fun hc => absurd hc.2 hgf, fun _ => by simp only [parseSolver, er, (parseFriction_spec f hwr hf).2 hgf, Outcome.bind]⟩
  · exact ⟨fun hc => absurd hc.1 hgi, fun _ => by simp only [parseSolver, (parseImpact_spec i m hw hi).2 hgi, Outcome.bind]⟩

theorem without_objs {m m' : Mem} {l} (hw : m.Wf) (hf : Fresh m l) (hs : SameBut l m m') : (m'.without l).objs = m.objs := by
  funext x
  by_cases h : x ∈ l
  · have : m.objs x = none := by by_contra hc; have := hw x hc; have := hf x h; omega
    simp [Mem.without, h, this]
  · simp [Mem.without, h, hs x h]

theorem deleteSolver_spec {m : Mem} {s i f l} (hw : m.Wf) (h : solverP i f m s l) : deleteSolver s m = .ok (m.without l) := by
  obtain ⟨l', h1, h2, h3, rfl⟩ := h
  have h1' : Holds (m.without [s.friction]) s.impact i l' := h1.frame fun x hx => by
    have : x ≠ s.friction := fun e => h3 (e ▸ hx)
    simp [Mem.without, this]
  simp only [deleteSolver, delete_friction hw h2, Outcome.bind, delete_spec (without_wf hw _) h1', without_without]
  simp only [Outcome.ok.injEq, Mem.without, Mem.mk.injEq, and_true]
  funext x
  simp [or_comm]

end Scisim.OperatorCopies
