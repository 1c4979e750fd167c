import Verif.Spec.Scripting
import Verif.Props.Edits
/-!
# Lemmas about scripts
-/

namespace Scisim.Scripting

variable {W A S O B M D : Type}

theorem toList_getElem (a : Arr S) (i : Nat) : a.toList[i]? = if i < a.size then some (a.get i) else none := RbStore.toList_getElem a i

theorem length_toList (a : Arr S) : a.toList.length = a.size := by unfold Arr.toList; simp

theorem toList_set (a : Arr S) (k : Nat) (x : S) : (a.set k x).toList = a.toList.set k x := by
  apply List.ext_getElem?
  intro i
  rw [toList_getElem, List.getElem?_set, toList_getElem, length_toList]
  unfold Arr.set
  by_cases hi : i < a.size
  · by_cases hk : k = i
    · subst hk; simp [hi]
    · simp [hi, hk, Ne.symm hk]
  · by_cases hk : k = i
    · subst hk; simp [hi]
    · simp [hi, hk]

/-- The program's arithmetic on NumPy indices is Python's indexing -/
theorem numpyIndex_eq (n : Nat) (i : Int) : numpyIndex n i = pythonIndex n i := by
  unfold numpyIndex pythonIndex
  by_cases h : 0 ≤ i
  · by_cases h2 : i < n
    · rw [if_pos ⟨h, h2⟩, if_pos h, if_pos (by omega)]
    · rw [if_neg (by omega), if_neg (by omega), if_pos h, if_neg (by omega)]
  · by_cases h2 : -(n : Int) ≤ i
    · rw [if_neg (by omega), if_pos (by omega), if_neg h, if_pos (by omega)]
      congr 1
      omega
    · rw [if_neg (by omega), if_neg (by omega), if_neg h, if_neg (by omega)]

theorem numpyIndex_lt {n : Nat} {i : Int} {k : Nat} (h : numpyIndex n i = some k) : k < n := by
  unfold numpyIndex at h
  split at h
  · rw [Option.some.injEq] at h; omega
  · split at h
    · rw [Option.some.injEq] at h; omega
    · cases h

theorem lookAt_eq (l : List S) (i : Int) : lookAt l i =
    match numpyIndex l.length i with
    | none => .error
    | some k => match l[k]? with | none => .error | some x => .number (some x) := by
  unfold lookAt
  rw [← numpyIndex_eq]
  cases h : numpyIndex l.length i <;> rfl

/-! ## Indices -/

theorem place_some {α : Type} {l : List α} {i : Int} {k : Nat} (h : place l i = some k) : asUnsigned i = k ∧ k < l.length := by
  unfold place at h
  split at h
  · rename_i hc
    rw [Option.some.injEq] at h
    subst h
    unfold asUnsigned
    constructor
    · congr 1; exact Int.emod_eq_of_lt hc.1 hc.2.2
    · omega
  · cases h

theorem element_of_place {α : Type} {l : List α} {i : Int} {k : Nat} (h : place l i = some k) : ∃ a, l[k]? = some a ∧ element l i = .ok a := by
  obtain ⟨h1, h2⟩ := place_some h
  refine ⟨l[k], List.getElem?_eq_getElem h2, ?_⟩
  unfold element
  rw [h1, if_neg (by omega), List.getElem?_eq_getElem h2]
  rfl

theorem set_eq_modify {α : Type} (l : List α) (k : Nat) (f : α → α) (a : α) (h : l[k]? = some a) : l.set k (f a) = l.modify k f := by
  apply List.ext_getElem?
  intro i
  rw [List.getElem?_set, List.getElem?_modify]
  by_cases hk : k = i
  · subst hk
    obtain ⟨hl, ha⟩ := List.getElem?_eq_some_iff.mp h
    simp [hl, ha]
  · simp [hk]

theorem modifyElement_of_place {α : Type} {l : List α} {i : Int} {k : Nat} (h : place l i = some k) (f : α → α) :
    modifyElement l i f = .ok (l.modify k f) := by
  obtain ⟨a, h1, h2⟩ := element_of_place h
  unfold modifyElement
  rw [h2]
  change Outcome.ok _ = _
  rw [(place_some h).1, set_eq_modify l k f a h1]

theorem eraseElement_of_place {α : Type} {l : List α} {i : Int} {k : Nat} (h : place l i = some k) :
    eraseElement l i = .ok (l.eraseIdx k) := by
  obtain ⟨a, -, h2⟩ := element_of_place h
  unfold eraseElement
  rw [h2]
  change Outcome.ok _ = _
  rw [(place_some h).1]

/-! ## Refinement -/

/-- What has to be shown about one program -/
structure Refines [Vectors W S] [SceneVectors A S] (I : Interface W S O) (R : Rules A S O) (shows_ : W → A → Prop) : Prop where
  arrays : I.arrays = R.arrays
  own : ∀ o m a r a', Agrees shows_ m a → R.own o a = some (r, a') → ∃ m', I.own o m = .ok (r, m') ∧ Agrees shows_ m' a'
  q : ∀ w s, I.arrays = true → shows_ w s → (Vectors.q w).toList = SceneVectors.q s
  v : ∀ w s, I.arrays = true → shows_ w s → (Vectors.v w).toList = SceneVectors.v s
  setQ : ∀ w s k x, I.arrays = true → shows_ w s → k < (Vectors.q w).size → shows_ (Vectors.setQ w ((Vectors.q w).set k x)) (SceneVectors.setQ s k x)
  setV : ∀ w s k x, I.arrays = true → shows_ w s → k < (Vectors.v w).size → shows_ (Vectors.setV w ((Vectors.v w).set k x)) (SceneVectors.setV s k x)

/-- Changing the world does not touch the static variables -/
theorem Phase.Set.world {p : Phase S} {m m' : Machine W S} (h : p.Set m) (h1 : m'.hasState = m.hasState) (h2 : m'.hasIterate = m.hasIterate)
    (h3 : m'.timestep = m.timestep) (h4 : m'.nextIteration = m.nextIteration) (h5 : m'.active = m.active) (h6 : m'.mu = m.mu)
    (h7 : m'.cor = m.cor) : p.Set m' := by
  cases p <;> simp only [Phase.Set] at h ⊢ <;> simp_all

theorem Agrees.state {shows_ : W → A → Prop} {m : Machine W S} {a : Author A S} (h : Agrees shows_ m a) (ho : a.phase.open = true) :
    m.state = .ok m.world := by
  have hp := h.phase
  unfold Machine.state
  cases hph : a.phase <;> rw [hph] at hp ho <;> simp only [Phase.Set, Phase.open] at hp ho
  · rw [if_pos hp.1]
  · rw [if_pos hp.1]
  · rw [if_pos hp]
  · cases ho
  · cases ho

theorem Agrees.contacts {shows_ : W → A → Prop} {m : Machine W S} {a : Author A S} (h : Agrees shows_ m a) {c : List Collision}
    (ho : a.phase.contacts = some c) : m.active = some c := by
  have hp := h.phase
  cases hph : a.phase <;> rw [hph] at hp ho <;> simp only [Phase.Set, Phase.contacts] at hp ho
  · cases ho
  · cases ho
  · cases ho
  · rw [← ho]; exact hp.1
  · rw [← ho]; exact hp.1

theorem read_spec (a : Arr S) (l : List S) (h : a.toList = l) (i : Int) :
    (match numpyIndex a.size i with | none => Reply.error | some k => .number (some (a.get k))) = lookAt l i := by
  subst h
  rw [lookAt_eq, length_toList]
  cases hk : numpyIndex a.size i with
  | none => rfl
  | some k =>
    have := numpyIndex_lt hk
    simp only
    rw [toList_getElem, if_pos this]

theorem readList_spec (l : List S) (i : Int) :
    (match numpyIndex l.length i with | none => Outcome.ok Reply.error | some k => (deref l[k]?).bind fun x => .ok (.number (some x))) =
      .ok (lookAt l i) := by
  rw [lookAt_eq]
  cases hk : numpyIndex l.length i with
  | none => rfl
  | some k =>
    have := numpyIndex_lt hk
    simp only
    rw [List.getElem?_eq_getElem this]
    rfl

variable [Vectors W S] [SceneVectors A S] {I : Interface W S O} {R : Rules A S O} {shows_ : W → A → Prop}

/-- A call the author may make does what they expect -/
theorem Refines.call (hR : Refines I R shows_) (c : Call O S) (m : Machine W S) (a : Author A S) (r : Reply S) (a' : Author A S)
    (h : Agrees shows_ m a) (hc : ask R c a = some (r, a')) : ∃ m', Scripting.call I c m = .ok (r, m') ∧ Agrees shows_ m' a' := by
  have harr := hR.arrays
  have hp := h.phase
  cases c with
  | own o => exact hR.own o m a r a' h hc
  | wrongArguments => simp [ask] at hc
  | timestep =>
    simp only [ask] at hc
    cases hph : a.phase <;> rw [hph] at hc hp <;> simp only [reduceCtorEq, Option.some.injEq, Prod.mk.injEq] at hc
    obtain ⟨rfl, rfl⟩ := hc
    exact ⟨m, by simp only [Scripting.call]; rw [hp.2.1], h⟩
  | nextIteration =>
    simp only [ask] at hc
    cases hph : a.phase <;> rw [hph] at hc hp <;> simp only [reduceCtorEq, Option.some.injEq, Prod.mk.injEq] at hc
    obtain ⟨rfl, rfl⟩ := hc
    exact ⟨m, by simp only [Scripting.call]; rw [hp.2.2], h⟩
  | configuration =>
    simp only [ask] at hc
    split at hc
    · rename_i ho
      rw [Bool.and_eq_true] at ho
      simp only [Option.some.injEq, Prod.mk.injEq] at hc
      obtain ⟨rfl, rfl⟩ := hc
      refine ⟨m, ?_, h⟩
      simp only [Scripting.call]
      rw [if_pos (harr.trans ho.1), h.state ho.2, h.stateTag]
      rfl
    · cases hc
  | velocity =>
    simp only [ask] at hc
    split at hc
    · rename_i ho
      rw [Bool.and_eq_true] at ho
      simp only [Option.some.injEq, Prod.mk.injEq] at hc
      obtain ⟨rfl, rfl⟩ := hc
      refine ⟨m, ?_, h⟩
      simp only [Scripting.call]
      rw [if_pos (harr.trans ho.1), h.state ho.2, h.stateTag]
      rfl
    · cases hc
  | mu =>
    simp only [ask] at hc
    split at hc
    · rename_i ho hph
      simp only [Option.some.injEq, Prod.mk.injEq] at hc
      obtain ⟨rfl, rfl⟩ := hc
      rw [hph] at hp
      refine ⟨m, ?_, h⟩
      simp only [Scripting.call]
      rw [if_pos (harr.trans ho), hp.2, h.coefTag]
      rfl
    · cases hc
  | cor =>
    simp only [ask] at hc
    split at hc
    · rename_i ho hph
      simp only [Option.some.injEq, Prod.mk.injEq] at hc
      obtain ⟨rfl, rfl⟩ := hc
      rw [hph] at hp
      refine ⟨m, ?_, h⟩
      simp only [Scripting.call]
      rw [if_pos (harr.trans ho), hp.2, h.coefTag]
      rfl
    · cases hc
  | numCollisions =>
    simp only [ask] at hc
    split at hc
    · rename_i ho
      rw [Option.map_eq_some_iff] at hc
      obtain ⟨l, hl, hc⟩ := hc
      simp only [Prod.mk.injEq] at hc
      obtain ⟨rfl, rfl⟩ := hc
      refine ⟨m, ?_, h⟩
      simp only [Scripting.call]
      rw [if_pos (harr.trans ho), h.contacts hl]
      rfl
    · cases hc
  | collisionType i =>
    simp only [ask] at hc
    split at hc
    · rename_i ho
      rw [Option.bind_eq_some_iff] at hc
      obtain ⟨l, hl, hc⟩ := hc
      rw [Option.map_eq_some_iff] at hc
      obtain ⟨k, hk, hc⟩ := hc
      rw [Option.bind_eq_some_iff] at hk
      obtain ⟨j, hj, hk⟩ := hk
      simp only [Prod.mk.injEq] at hc
      obtain ⟨rfl, rfl⟩ := hc
      obtain ⟨e, he1, he2⟩ := element_of_place hj
      rw [he1, Option.some.injEq] at hk
      subst hk
      refine ⟨m, ?_, h⟩
      simp only [Scripting.call]
      rw [if_pos (harr.trans ho), h.contacts hl]
      change Outcome.bind (element l i) _ = _
      rw [he2]
      rfl
    · cases hc
  | collisionIndices i =>
    simp only [ask] at hc
    split at hc
    · rename_i ho
      rw [Option.bind_eq_some_iff] at hc
      obtain ⟨l, hl, hc⟩ := hc
      rw [Option.map_eq_some_iff] at hc
      obtain ⟨k, hk, hc⟩ := hc
      rw [Option.bind_eq_some_iff] at hk
      obtain ⟨j, hj, hk⟩ := hk
      simp only [Prod.mk.injEq] at hc
      obtain ⟨rfl, rfl⟩ := hc
      obtain ⟨e, he1, he2⟩ := element_of_place hj
      rw [he1, Option.some.injEq] at hk
      subst hk
      refine ⟨m, ?_, h⟩
      simp only [Scripting.call]
      rw [if_pos (harr.trans ho), h.contacts hl]
      change Outcome.bind (element l i) _ = _
      rw [he2]
      rfl
    · cases hc
  | read w i =>
    simp only [ask] at hc
    split at hc
    · cases hc
    · rename_i ho
      have hI : I.arrays = true := by rw [harr]; simpa using ho
      simp only [Scripting.call]
      rw [if_pos hI]
      split at hc
      · rename_i p1 p2 hb
        split at hc
        · rename_i hv
          simp only [Option.some.injEq, Prod.mk.injEq] at hc
          obtain ⟨rfl, rfl⟩ := hc
          refine ⟨m, ?_, h⟩
          unfold readView
          rw [hb]
          simp only
          rw [if_neg (by rw [h.stateTag]; simpa using hv.2)]
          exact congrArg (fun r => Outcome.ok (r, m)) (read_spec _ _ (hR.q _ _ hI h.scene) i)
        · cases hc
      · rename_i p1 p2 hb
        split at hc
        · rename_i hv
          simp only [Option.some.injEq, Prod.mk.injEq] at hc
          obtain ⟨rfl, rfl⟩ := hc
          refine ⟨m, ?_, h⟩
          unfold readView
          rw [hb]
          simp only
          rw [if_neg (by rw [h.stateTag]; simpa using hv.2)]
          exact congrArg (fun r => Outcome.ok (r, m)) (read_spec _ _ (hR.v _ _ hI h.scene) i)
        · cases hc
      · rename_i c l hb hph
        rw [hph] at hp
        split at hc
        · rename_i hv
          simp only [Option.some.injEq, Prod.mk.injEq] at hc
          obtain ⟨rfl, rfl⟩ := hc
          refine ⟨m, ?_, h⟩
          unfold readView
          rw [hb]
          simp only
          rw [if_neg (by rw [h.coefTag]; simpa using hv), hp.2]
          change Outcome.bind (match numpyIndex l.length i with | none => Outcome.ok Reply.error | some k => (deref l[k]?).bind fun x => .ok (.number (some x))) _ = _
          rw [readList_spec]
          rfl
        · cases hc
      · rename_i c l hb hph
        rw [hph] at hp
        split at hc
        · rename_i hv
          simp only [Option.some.injEq, Prod.mk.injEq] at hc
          obtain ⟨rfl, rfl⟩ := hc
          refine ⟨m, ?_, h⟩
          unfold readView
          rw [hb]
          simp only
          rw [if_neg (by rw [h.coefTag]; simpa using hv), hp.2]
          change Outcome.bind (match numpyIndex l.length i with | none => Outcome.ok Reply.error | some k => (deref l[k]?).bind fun x => .ok (.number (some x))) _ = _
          rw [readList_spec]
          rfl
        · cases hc
      · cases hc
  | write w i x =>
    simp only [ask] at hc
    split at hc
    · cases hc
    · rename_i ho
      have hI : I.arrays = true := by rw [harr]; simpa using ho
      simp only [Scripting.call]
      rw [if_pos hI]
      split at hc
      · rename_i p1 p2 hb
        split at hc
        · rename_i hv
          rw [Option.some.injEq, ← numpyIndex_eq, ← hR.q _ _ hI h.scene, length_toList] at hc
          unfold writeView
          rw [hb]
          simp only
          rw [if_neg (by rw [h.stateTag]; simpa using hv.2)]
          cases hk : numpyIndex (Vectors.q m.world).size i with
          | none =>
            rw [hk] at hc
            simp only [Prod.mk.injEq] at hc
            obtain ⟨rfl, rfl⟩ := hc
            exact ⟨m, rfl, h⟩
          | some k =>
            rw [hk] at hc
            simp only [Prod.mk.injEq] at hc
            obtain ⟨rfl, rfl⟩ := hc
            exact ⟨_, rfl, hR.setQ _ _ _ _ hI h.scene (numpyIndex_lt hk), h.iterate, h.stateTag, h.coefTag,
              hp.world rfl rfl rfl rfl rfl rfl rfl⟩
        · cases hc
      · rename_i p1 p2 hb
        split at hc
        · rename_i hv
          rw [Option.some.injEq, ← numpyIndex_eq, ← hR.v _ _ hI h.scene, length_toList] at hc
          unfold writeView
          rw [hb]
          simp only
          rw [if_neg (by rw [h.stateTag]; simpa using hv.2)]
          cases hk : numpyIndex (Vectors.v m.world).size i with
          | none =>
            rw [hk] at hc
            simp only [Prod.mk.injEq] at hc
            obtain ⟨rfl, rfl⟩ := hc
            exact ⟨m, rfl, h⟩
          | some k =>
            rw [hk] at hc
            simp only [Prod.mk.injEq] at hc
            obtain ⟨rfl, rfl⟩ := hc
            exact ⟨_, rfl, hR.setV _ _ _ _ hI h.scene (numpyIndex_lt hk), h.iterate, h.stateTag, h.coefTag,
              hp.world rfl rfl rfl rfl rfl rfl rfl⟩
        · cases hc
      · rename_i c l hb hph
        rw [hph] at hp
        split at hc
        · rename_i hv
          rw [Option.some.injEq, ← numpyIndex_eq] at hc
          unfold writeView
          rw [hb]
          simp only
          rw [if_neg (by rw [h.coefTag]; simpa using hv), hp.2]
          simp only [deref, Outcome.bind]
          cases hk : numpyIndex l.length i with
          | none =>
            rw [hk] at hc
            simp only [Prod.mk.injEq] at hc
            obtain ⟨rfl, rfl⟩ := hc
            exact ⟨m, rfl, h⟩
          | some k =>
            rw [hk] at hc
            simp only [Prod.mk.injEq] at hc
            obtain ⟨rfl, rfl⟩ := hc
            exact ⟨_, rfl, h.scene, h.iterate, h.stateTag, h.coefTag, hp.1, rfl⟩
        · cases hc
      · rename_i c l hb hph
        rw [hph] at hp
        split at hc
        · rename_i hv
          rw [Option.some.injEq, ← numpyIndex_eq] at hc
          unfold writeView
          rw [hb]
          simp only
          rw [if_neg (by rw [h.coefTag]; simpa using hv), hp.2]
          simp only [deref, Outcome.bind]
          cases hk : numpyIndex l.length i with
          | none =>
            rw [hk] at hc
            simp only [Prod.mk.injEq] at hc
            obtain ⟨rfl, rfl⟩ := hc
            exact ⟨m, rfl, h⟩
          | some k =>
            rw [hk] at hc
            simp only [Prod.mk.injEq] at hc
            obtain ⟨rfl, rfl⟩ := hc
            exact ⟨_, rfl, h.scene, h.iterate, h.stateTag, h.coefTag, hp.1, rfl⟩
        · cases hc
      · cases hc

/-- A careful script does what its author expects -/
theorem Refines.run (hR : Refines I R shows_) (s : Script (Call O S) (Reply S) B) (m : Machine W S) (a : Author A S) (b : Option B)
    (a' : Author A S) (h : Agrees shows_ m a) (hs : s.intended R a = some (b, a')) :
    ∃ m', s.run (Scripting.call I) m = .ok (b, m') ∧ Agrees shows_ m' a' := by
  induction s generalizing m a with
  | done x =>
    simp only [Script.intended, Option.some.injEq, Prod.mk.injEq] at hs
    obtain ⟨rfl, rfl⟩ := hs
    exact ⟨m, rfl, h⟩
  | raise =>
    simp only [Script.intended, Option.some.injEq, Prod.mk.injEq] at hs
    obtain ⟨rfl, rfl⟩ := hs
    exact ⟨m, rfl, h⟩
  | call c k ih =>
    simp only [Script.intended, Option.bind_eq_some_iff] at hs
    obtain ⟨⟨r, a1⟩, h1, h2⟩ := hs
    obtain ⟨m1, e1, g1⟩ := hR.call c m a r a1 h h1
    obtain ⟨m', e2, g2⟩ := ih r m1 a1 g1 h2
    refine ⟨m', ?_, g2⟩
    simp only [Script.run]
    rw [e1]
    exact e2

/-- Changing an element of a list of the scene -/
theorem changeAt_spec {α : Type} {m : Machine W S} {a a' : Author A S} {r : Reply S} {l : List α} {i : Int} {f : α → α} {put : List α → A}
    (h : Agrees shows_ m a) (hc : changeAt a l i f put = some (r, a')) :
    ∃ k, place l i = some k ∧ r = .unit ∧ a' = { a with scene := put (l.modify k f) } ∧ m.state = .ok m.world ∧
      modifyElement l i f = .ok (l.modify k f) := by
  unfold changeAt at hc
  split at hc
  · rename_i ho
    rw [Option.map_eq_some_iff] at hc
    obtain ⟨k, hk, hc⟩ := hc
    simp only [Prod.mk.injEq] at hc
    exact ⟨k, hk, hc.1.symm, hc.2.symm, h.state ho, modifyElement_of_place hk f⟩
  · cases hc

theorem Agrees.withWorld {m : Machine W S} {a : Author A S} (h : Agrees shows_ m a) {w : W} {s : A} (hw : shows_ w s) :
    Agrees shows_ { m with world := w } { a with scene := s } :=
  ⟨hw, h.iterate, h.stateTag, h.coefTag, h.phase.world rfl rfl rfl rfl rfl rfl rfl⟩

/-! ## The three programs -/

theorem flatMap2_getElem {β : Type} (f g : β → S) (l : List β) (k : Nat) :
    (l.flatMap fun b => [f b, g b])[k]? = (l[k / 2]?).map (if k % 2 = 0 then f else g) := by
  induction l generalizing k with
  | nil => simp
  | cons b l ih =>
    rw [List.flatMap_cons]
    match k with
    | 0 => simp
    | 1 => simp
    | k + 2 =>
      rw [show (k + 2) / 2 = k / 2 + 1 by omega, show (k + 2) % 2 = k % 2 by omega]
      simpa using ih k

theorem toList_flatMap2 {β : Type} (a : Arr S) (f g : β → S) (ball : Nat → β) (he : a.size % 2 = 0) (hf : ∀ i, f (ball i) = a.get (2 * i))
    (hg : ∀ i, g (ball i) = a.get (2 * i + 1)) : a.toList = ((List.range (a.size / 2)).map ball).flatMap fun b => [f b, g b] := by
  apply List.ext_getElem?
  intro k
  rw [toList_getElem, flatMap2_getElem, List.getElem?_map]
  by_cases hk : k < a.size
  · rw [if_pos hk, List.getElem?_range (by omega)]
    simp only [Option.map_some]
    by_cases h2 : k % 2 = 0
    · rw [if_pos h2, hf]; congr 2; omega
    · rw [if_neg h2, hg]; congr 2; omega
  · rw [if_neg hk, List.getElem?_eq_none (by simp; omega)]
    rfl

theorem map_range_modify {β : Type} (n j : Nat) (ball : Nat → β) (f : β → β) :
    ((List.range n).map ball).modify j f = (List.range n).map fun i => if i = j then f (ball i) else ball i := by
  apply List.ext_getElem?
  intro i
  rw [List.getElem?_modify, List.getElem?_map, List.getElem?_map]
  by_cases hi : i < n
  · rw [List.getElem?_range hi]
    by_cases hj : j = i
    · subst hj; simp
    · simp [hj, Ne.symm hj]
  · rw [List.getElem?_eq_none (by simpa using hi)]
    rfl

section
variable [One S] [Div S] [Zero S] [LE S] [DecidableLE S]

theorem refines_balls2d : Refines (balls2d (S := S)) ballRules BallWorld.Shows where
  arrays := rfl
  own := by
    intro o m a r a' h hc
    cases o with
    | insertBall x y vx vy rad mass fixed =>
      simp only [ballRules] at hc
      split at hc
      · rename_i ho
        simp only [Option.some.injEq, Prod.mk.injEq] at hc
        obtain ⟨rfl, rfl⟩ := hc
        have := C43_insert_ball m.world.balls h.scene.consistent x y vx vy rad mass fixed
        rw [if_neg (by rintro (h1 | h1 | h1); exacts [ho.2.1 h1, ho.2.2.1 h1, by omega])] at this
        obtain ⟨b, e1, e2, e3⟩ := this
        simp only [balls2d, ballCall]
        rw [e1]
        change ∃ m', m.state.bind _ = _ ∧ _
        rw [h.state ho.1]
        refine ⟨_, rfl, ⟨e2, ?_, h.scene.planes⟩, h.iterate, ?_, h.coefTag, h.phase.world rfl rfl rfl rfl rfl rfl rfl⟩
        · rw [e3, h.scene.balls]
        · change m.stateClock + 1 = a.stateTag + 1
          rw [h.stateTag]
      · cases hc
    | numStaticPlanes =>
      simp only [ballRules] at hc
      split at hc
      · rename_i ho
        simp only [Option.some.injEq, Prod.mk.injEq] at hc
        obtain ⟨rfl, rfl⟩ := hc
        refine ⟨m, ?_, h⟩
        simp only [balls2d, ballCall]
        rw [h.state ho, ← h.scene.planes]
        rfl
      · cases hc
    | setStaticPlanePosition i x y =>
      simp only [ballRules] at hc
      obtain ⟨k, -, rfl, rfl, e1, e2⟩ := changeAt_spec h hc
      simp only [balls2d, ballCall]
      rw [e1]
      change ∃ m', (modifyElement m.world.planes i _).bind _ = _ ∧ _
      rw [h.scene.planes, e2]
      exact ⟨_, rfl, h.withWorld ⟨h.scene.consistent, h.scene.balls, rfl⟩⟩
    | setStaticPlaneVelocity i x y =>
      simp only [ballRules] at hc
      obtain ⟨k, -, rfl, rfl, e1, e2⟩ := changeAt_spec h hc
      simp only [balls2d, ballCall]
      rw [e1]
      change ∃ m', (modifyElement m.world.planes i _).bind _ = _ ∧ _
      rw [h.scene.planes, e2]
      exact ⟨_, rfl, h.withWorld ⟨h.scene.consistent, h.scene.balls, rfl⟩⟩
    | deleteStaticPlane i =>
      simp only [ballRules] at hc
      split at hc
      · rename_i ho
        rw [Option.map_eq_some_iff] at hc
        obtain ⟨k, hk, hc⟩ := hc
        simp only [Prod.mk.injEq] at hc
        obtain ⟨rfl, rfl⟩ := hc
        simp only [balls2d, ballCall]
        rw [h.state ho]
        change ∃ m', (eraseElement m.world.planes i).bind _ = _ ∧ _
        rw [h.scene.planes, eraseElement_of_place hk]
        exact ⟨_, rfl, h.withWorld ⟨h.scene.consistent, h.scene.balls, rfl⟩⟩
      · cases hc
  q := by
    intro w s _ h
    change w.balls.q.toList = s.balls.flatMap _
    rw [← h.balls]
    exact toList_flatMap2 _ _ _ _ h.consistent.q (fun _ => rfl) (fun _ => rfl)
  v := by
    intro w s _ h
    change w.balls.v.toList = s.balls.flatMap _
    rw [← h.balls]
    unfold BallStore.balls
    rw [← h.consistent.v]
    exact toList_flatMap2 _ _ _ _ (by rw [h.consistent.v]; exact h.consistent.q) (fun _ => rfl) (fun _ => rfl)
  setQ := by
    intro w s k x _ h hk
    refine ⟨⟨h.consistent.q, h.consistent.v, h.consistent.r, h.consistent.fixed, h.consistent.M, h.consistent.Minv⟩, ?_, h.planes⟩
    change _ = s.balls.modify _ _
    rw [← h.balls]
    unfold BallStore.balls
    rw [map_range_modify]
    apply List.map_congr_left
    intro i _
    by_cases hi : i = k / 2
    · rw [if_pos hi]
      by_cases h2 : k % 2 = 0
      · rw [if_pos h2]
        have e : k = 2 * i := by omega
        simp [BallStore.ball, Vectors.setQ, Vectors.q, Arr.set, e]
      · rw [if_neg h2]
        have e : k = 2 * i + 1 := by omega
        simp [BallStore.ball, Vectors.setQ, Vectors.q, Arr.set, e]
    · rw [if_neg hi]
      have e1 : 2 * i ≠ k := by omega
      have e2 : 2 * i + 1 ≠ k := by omega
      simp [BallStore.ball, Vectors.setQ, Vectors.q, Arr.set, e1, e2]
  setV := by
    intro w s k x _ h hk
    refine ⟨⟨h.consistent.q, h.consistent.v, h.consistent.r, h.consistent.fixed, h.consistent.M, h.consistent.Minv⟩, ?_, h.planes⟩
    change _ = s.balls.modify _ _
    rw [← h.balls]
    unfold BallStore.balls
    rw [map_range_modify]
    apply List.map_congr_left
    intro i _
    by_cases hi : i = k / 2
    · rw [if_pos hi]
      by_cases h2 : k % 2 = 0
      · rw [if_pos h2]
        have e : k = 2 * i := by omega
        simp [BallStore.ball, Vectors.setV, Vectors.v, Arr.set, e]
      · rw [if_neg h2]
        have e : k = 2 * i + 1 := by omega
        simp [BallStore.ball, Vectors.setV, Vectors.v, Arr.set, e]
    · rw [if_neg hi]
      have e1 : 2 * i ≠ k := by omega
      have e2 : 2 * i + 1 ≠ k := by omega
      simp [BallStore.ball, Vectors.setV, Vectors.v, Arr.set, e1, e2]

/-- A single edit -/
theorem edit_one {G : Type} [HasNaN S] (junk : Nat → Nat) (circle : S → G) (massInertia : G → S → S × S) (op : EditOp S) (s : RbStore S G)
    (w w' : World S G) (hw : s.Holds w) (h : w.step circle massInertia op = some w') :
    ∃ s', RbStore.edit junk circle massInertia [op] s = .ok s' ∧ s'.Holds w' :=
  C43_history junk circle massInertia [op] s w w' hw (by simp [World.run, h])

theorem bind_ok_self {α : Type} (x : Outcome α) : (x.bind fun a => .ok a) = x := by cases x <;> rfl

theorem refines_rigidbody2d {G : Type} [HasNaN S] [Neg S] [DecidableEq S] (normalized : V2 S → V2 S) (junk : Nat → Nat) (circle : S → G)
    (massInertia : G → S → S × S) :
    Refines (rigidbody2d normalized junk circle massInertia) (bodyRules normalized circle massInertia) BodyWorld.Shows where
  arrays := rfl
  own := by
    intro o m a r a' h hc
    cases o with
    | numStaticPlanes =>
      simp only [bodyRules] at hc
      split at hc
      · rename_i ho
        simp only [Option.some.injEq, Prod.mk.injEq] at hc
        obtain ⟨rfl, rfl⟩ := hc
        refine ⟨m, ?_, h⟩
        simp only [rigidbody2d, bodyCall]
        rw [h.state ho, ← h.scene.planes]
        rfl
      · cases hc
    | setStaticPlanePosition i x y =>
      simp only [bodyRules] at hc
      obtain ⟨k, -, rfl, rfl, e1, e2⟩ := changeAt_spec h hc
      simp only [rigidbody2d, bodyCall]
      rw [e1]
      change ∃ m', (modifyElement m.world.planes i _).bind _ = _ ∧ _
      rw [h.scene.planes, e2]
      exact ⟨_, rfl, h.withWorld ⟨h.scene.bodies, rfl⟩⟩
    | setStaticPlaneVelocity i x y =>
      simp only [bodyRules] at hc
      obtain ⟨k, -, rfl, rfl, e1, e2⟩ := changeAt_spec h hc
      simp only [rigidbody2d, bodyCall]
      rw [e1]
      change ∃ m', (modifyElement m.world.planes i _).bind _ = _ ∧ _
      rw [h.scene.planes, e2]
      exact ⟨_, rfl, h.withWorld ⟨h.scene.bodies, rfl⟩⟩
    | setStaticPlaneNormal i x y =>
      simp only [bodyRules] at hc
      split at hc
      · cases hc
      · obtain ⟨k, -, rfl, rfl, e1, e2⟩ := changeAt_spec h hc
        simp only [rigidbody2d, bodyCall]
        rw [e1]
        change ∃ m', (modifyElement m.world.planes i (fun p => { p with n := normalized ⟨x, y⟩, t := ⟨-(normalized ⟨x, y⟩).y, (normalized ⟨x, y⟩).x⟩ })).bind
          _ = _ ∧ _
        rw [h.scene.planes, e2]
        exact ⟨_, rfl, h.withWorld ⟨h.scene.bodies, rfl⟩⟩
    | setStaticPlaneAngularVelocity i w =>
      simp only [bodyRules] at hc
      obtain ⟨k, -, rfl, rfl, e1, e2⟩ := changeAt_spec h hc
      simp only [rigidbody2d, bodyCall]
      rw [e1]
      change ∃ m', (modifyElement m.world.planes i _).bind _ = _ ∧ _
      rw [h.scene.planes, e2]
      exact ⟨_, rfl, h.withWorld ⟨h.scene.bodies, rfl⟩⟩
    | deleteStaticPlane i =>
      simp only [bodyRules] at hc
      split at hc
      · rename_i ho
        rw [Option.map_eq_some_iff] at hc
        obtain ⟨k, hk, hc⟩ := hc
        simp only [Prod.mk.injEq] at hc
        obtain ⟨rfl, rfl⟩ := hc
        simp only [rigidbody2d, bodyCall]
        rw [h.state ho]
        change ∃ m', (eraseElement m.world.planes i).bind _ = _ ∧ _
        rw [h.scene.planes, eraseElement_of_place hk]
        exact ⟨_, rfl, h.withWorld ⟨h.scene.bodies, rfl⟩⟩
      · cases hc
    | numBodies =>
      simp only [bodyRules] at hc
      split at hc
      · rename_i ho
        simp only [Option.some.injEq, Prod.mk.injEq] at hc
        obtain ⟨rfl, rfl⟩ := hc
        refine ⟨m, ?_, h⟩
        simp only [rigidbody2d, bodyCall]
        rw [h.state ho, ← h.scene.bodies.bodies, RbStore.length_bodies]
        rfl
      · cases hc
    | numGeometryInstances =>
      simp only [bodyRules] at hc
      split at hc
      · rename_i ho
        simp only [Option.some.injEq, Prod.mk.injEq] at hc
        obtain ⟨rfl, rfl⟩ := hc
        refine ⟨m, ?_, h⟩
        simp only [rigidbody2d, bodyCall]
        rw [h.state ho]
        have := congrArg List.length h.scene.bodies.geometries
        rw [List.length_map] at this
        rw [← this]
        change Outcome.ok _ = Outcome.ok _
        congr 3
        unfold RbStore.geometries
        rw [length_toList]
      · cases hc
    | addCircleGeometry rad =>
      simp only [bodyRules, editScene] at hc
      split at hc
      · rename_i ho
        rw [Option.map_eq_some_iff] at hc
        obtain ⟨w', hw', hc⟩ := hc
        simp only [Prod.mk.injEq] at hc
        obtain ⟨rfl, rfl⟩ := hc
        obtain ⟨b, e1, e2⟩ := edit_one junk circle massInertia _ m.world.bodies _ _ h.scene.bodies hw'
        simp only [RbStore.edit] at e1
        rw [bind_ok_self] at e1
        simp only [rigidbody2d, bodyCall]
        rw [e1]
        change ∃ m', m.state.bind _ = _ ∧ _
        rw [h.state ho]
        exact ⟨_, rfl, h.withWorld ⟨e2, h.scene.planes⟩⟩
      · cases hc
    | addBody x y theta vx vy omega rho g f =>
      simp only [bodyRules, editScene] at hc
      split at hc
      · rename_i ho
        rw [Option.map_eq_some_iff] at hc
        obtain ⟨w', hw', hc⟩ := hc
        simp only [Prod.mk.injEq] at hc
        obtain ⟨rfl, rfl⟩ := hc
        have hrho : ¬ rho ≤ 0 := by
          intro hle
          simp only [World.step] at hw'
          rw [if_pos (Or.inl hle)] at hw'
          cases hw'
        obtain ⟨b, e1, e2⟩ := edit_one junk circle massInertia _ m.world.bodies _ _ h.scene.bodies hw'
        simp only [RbStore.edit] at e1
        rw [bind_ok_self] at e1
        simp only [rigidbody2d, bodyCall]
        rw [if_neg hrho, h.state ho]
        change ∃ m', (m.world.bodies.scriptAddBody massInertia x y theta vx vy omega rho g f).bind _ = _ ∧ _
        rw [e1]
        refine ⟨_, rfl, ⟨e2, h.scene.planes⟩, h.iterate, ?_, h.coefTag, h.phase.world rfl rfl rfl rfl rfl rfl rfl⟩
        change m.stateClock + 1 = a.stateTag + 1
        rw [h.stateTag]
      · cases hc
    | deleteBodies is =>
      simp only [bodyRules, editScene] at hc
      split at hc
      · rename_i ho
        rw [Option.map_eq_some_iff] at hc
        obtain ⟨w', hw', hc⟩ := hc
        simp only [Prod.mk.injEq] at hc
        obtain ⟨rfl, rfl⟩ := hc
        obtain ⟨b, e1, e2⟩ := edit_one junk circle massInertia _ m.world.bodies _ _ h.scene.bodies hw'
        simp only [RbStore.edit] at e1
        rw [bind_ok_self] at e1
        simp only [rigidbody2d, bodyCall]
        rw [h.state ho]
        change ∃ m', (m.world.bodies.scriptDeleteBodies is).bind _ = _ ∧ _
        rw [e1]
        refine ⟨_, rfl, ⟨e2, h.scene.planes⟩, h.iterate, ?_, h.coefTag, h.phase.world rfl rfl rfl rfl rfl rfl rfl⟩
        change m.stateClock + 1 = a.stateTag + 1
        rw [h.stateTag]
      · cases hc
    | deleteGeometry is =>
      simp only [bodyRules, editScene] at hc
      split at hc
      · rename_i ho
        rw [Option.map_eq_some_iff] at hc
        obtain ⟨w', hw', hc⟩ := hc
        simp only [Prod.mk.injEq] at hc
        obtain ⟨rfl, rfl⟩ := hc
        obtain ⟨b, e1, e2⟩ := edit_one junk circle massInertia _ m.world.bodies _ _ h.scene.bodies hw'
        simp only [RbStore.edit] at e1
        rw [bind_ok_self] at e1
        simp only [rigidbody2d, bodyCall]
        rw [h.state ho]
        change ∃ m', (m.world.bodies.scriptDeleteGeometry junk is).bind _ = _ ∧ _
        rw [e1]
        exact ⟨_, rfl, h.withWorld ⟨e2, h.scene.planes⟩⟩
      · cases hc
  q := fun _ _ h => by cases h
  v := fun _ _ h => by cases h
  setQ := fun _ _ _ _ h => by cases h
  setV := fun _ _ _ _ h => by cases h

end

theorem refines_rigidbody3d {Q : Type} (unit : Triple S → Bool) (normalized : Triple S → Triple S) :
    Refines (rigidbody3d (Q := Q) unit normalized) (spaceRules unit normalized) SpaceWorld.Shows where
  arrays := rfl
  own := by
    intro o m a r a' h hc
    cases o with
    | numStaticPlanes =>
      simp only [spaceRules] at hc
      split at hc
      · rename_i ho
        simp only [Option.some.injEq, Prod.mk.injEq] at hc
        obtain ⟨rfl, rfl⟩ := hc
        refine ⟨m, ?_, h⟩
        simp only [rigidbody3d, spaceCall]
        rw [h.state ho, ← h.scene.planes]
        rfl
      · cases hc
    | numStaticCylinders =>
      simp only [spaceRules] at hc
      split at hc
      · rename_i ho
        simp only [Option.some.injEq, Prod.mk.injEq] at hc
        obtain ⟨rfl, rfl⟩ := hc
        refine ⟨m, ?_, h⟩
        simp only [rigidbody3d, spaceCall]
        rw [h.state ho, ← h.scene.cylinders]
        rfl
      · cases hc
    | numForces =>
      simp only [spaceRules] at hc
      split at hc
      · rename_i ho
        simp only [Option.some.injEq, Prod.mk.injEq] at hc
        obtain ⟨rfl, rfl⟩ := hc
        refine ⟨m, ?_, h⟩
        simp only [rigidbody3d, spaceCall]
        rw [h.state ho, ← h.scene.forces]
        rfl
      · cases hc
    | setStaticPlanePosition i x =>
      simp only [spaceRules] at hc
      obtain ⟨k, -, rfl, rfl, e1, e2⟩ := changeAt_spec h hc
      simp only [rigidbody3d, spaceCall]
      rw [e1]
      change ∃ m', (modifyElement m.world.planes i _).bind _ = _ ∧ _
      rw [h.scene.planes, e2]
      exact ⟨_, rfl, h.withWorld ⟨h.scene.q, h.scene.v, rfl, h.scene.cylinders, h.scene.forces⟩⟩
    | setStaticPlaneVelocity i x =>
      simp only [spaceRules] at hc
      obtain ⟨k, -, rfl, rfl, e1, e2⟩ := changeAt_spec h hc
      simp only [rigidbody3d, spaceCall]
      rw [e1]
      change ∃ m', (modifyElement m.world.planes i _).bind _ = _ ∧ _
      rw [h.scene.planes, e2]
      exact ⟨_, rfl, h.withWorld ⟨h.scene.q, h.scene.v, rfl, h.scene.cylinders, h.scene.forces⟩⟩
    | setStaticCylinderOrientation i axis theta =>
      simp only [spaceRules] at hc
      split at hc
      · rename_i hu
        obtain ⟨k, hk, rfl, rfl, e1, e2⟩ := changeAt_spec h hc
        obtain ⟨c, hc1, -⟩ := element_of_place hk
        obtain ⟨hk1, hk2⟩ := place_some hk
        simp only [rigidbody3d, spaceCall]
        rw [e1]
        change ∃ m', (if asUnsigned i > m.world.cylinders.length then _ else _) = _ ∧ _
        rw [h.scene.cylinders, hk1, if_neg (by omega), if_neg (by rw [hu]; decide), hc1]
        refine ⟨_, rfl, h.withWorld ⟨h.scene.q, h.scene.v, h.scene.planes, ?_, h.scene.forces⟩⟩
        exact set_eq_modify a.scene.cylinders k (fun c => { c with n := normalized axis, theta := theta }) c hc1
      · cases hc
    | setStaticCylinderAngularVelocity i x =>
      simp only [spaceRules] at hc
      obtain ⟨k, -, rfl, rfl, e1, e2⟩ := changeAt_spec h hc
      simp only [rigidbody3d, spaceCall]
      rw [e1]
      change ∃ m', (modifyElement m.world.cylinders i _).bind _ = _ ∧ _
      rw [h.scene.cylinders, e2]
      exact ⟨_, rfl, h.withWorld ⟨h.scene.q, h.scene.v, h.scene.planes, rfl, h.scene.forces⟩⟩
    | forceType i =>
      simp only [spaceRules] at hc
      split at hc
      · rename_i ho
        rw [Option.map_eq_some_iff] at hc
        obtain ⟨k, hk, hc⟩ := hc
        simp only [Prod.mk.injEq] at hc
        obtain ⟨rfl, rfl⟩ := hc
        obtain ⟨c, -, hc2⟩ := element_of_place hk
        refine ⟨m, ?_, h⟩
        simp only [rigidbody3d, spaceCall]
        rw [h.state ho]
        change (element m.world.forces i).bind _ = _
        rw [h.scene.forces, hc2]
        rfl
      · cases hc
    | setGravityForce i x =>
      simp only [spaceRules] at hc
      obtain ⟨k, -, rfl, rfl, e1, e2⟩ := changeAt_spec h hc
      simp only [rigidbody3d, spaceCall]
      rw [e1]
      change ∃ m', (modifyElement m.world.forces i _).bind _ = _ ∧ _
      rw [h.scene.forces, e2]
      exact ⟨_, rfl, h.withWorld ⟨h.scene.q, h.scene.v, h.scene.planes, h.scene.cylinders, rfl⟩⟩
    | setInitialIterate n =>
      simp only [spaceRules] at hc
      have hp := h.phase
      split at hc
      · rename_i hph
        rw [hph] at hp
        split at hc
        · rename_i hn
          simp only [Option.some.injEq, Prod.mk.injEq] at hc
          obtain ⟨rfl, rfl⟩ := hc
          simp only [rigidbody3d, spaceCall]
          rw [if_pos hp.2]
          refine ⟨_, rfl, h.scene, ?_, h.stateTag, h.coefTag, h.phase.world rfl rfl rfl rfl rfl rfl rfl⟩
          change asUnsigned n = n.toNat
          unfold asUnsigned
          congr 1
          exact Int.emod_eq_of_lt hn.1 hn.2
        · cases hc
      · cases hc
  q := fun _ _ _ h => h.q
  v := fun _ _ _ h => h.v
  setQ := by
    intro w s k x _ h _
    exact ⟨(toList_set _ _ _).trans (by rw [show (Vectors.q w).toList = s.q from h.q]; rfl), h.v, h.planes, h.cylinders, h.forces⟩
  setV := by
    intro w s k x _ h _
    exact ⟨h.q, (toList_set _ _ _).trans (by rw [show (Vectors.v w).toList = s.v from h.v]; rfl), h.planes, h.cylinders, h.forces⟩

end Scisim.Scripting
