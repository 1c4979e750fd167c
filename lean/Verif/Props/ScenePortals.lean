import Verif.Spec.ScenePortals
import Mathlib.Data.List.Forall2
import Mathlib.Data.List.Nodup
import Mathlib.Data.Rat.Defs
import Mathlib.Algebra.Order.Ring.Rat
import Mathlib.Tactic.ByContra
/-!
# C48: portals take exactly the planes they name

Helper lemmas first, the property theorems from `C48_portals` on.
-/

namespace Scisim

/-! ## Removing by position -/

theorem untouched_eq_self {P : Type} (l : List P) (k : Nat) (named : List Nat) (h : ∀ i ∈ named, i < k) :
    ((l.zipIdx k).filter fun p => p.2 ∉ named).map (·.1) = l := by
  induction l generalizing k with
  | nil => rfl
  | cons a t ih =>
    have hk : k ∉ named := fun hc => Nat.lt_irrefl _ (h k hc)
    rw [List.zipIdx_cons, List.filter_cons_of_pos (by simpa using hk), List.map_cons, ih (k + 1) fun i hi => Nat.lt_succ_of_lt (h i hi)]

theorem untouched_erase {P : Type} (d : Nat) (ds : List Nat) (hds : ∀ i ∈ ds, i < d) :
    ∀ (planes : List P), d < planes.length → untouched (planes.eraseIdx d) ds = untouched planes (d :: ds) := by
  intro planes hd
  have hsplit : planes = planes.take d ++ planes[d] :: planes.drop (d + 1) := by
    rw [← List.drop_eq_getElem_cons hd, List.take_append_drop]
  have hlen : (planes.take d).length = d := by rw [List.length_take]; omega
  generalize hx : planes[d] = x at hsplit
  generalize ha : planes.take d = a at hsplit hlen
  generalize hb : planes.drop (d + 1) = b at hsplit
  have herase : planes.eraseIdx d = a ++ b := by rw [hsplit, ← hlen]; simp [List.eraseIdx_append_of_length_le]
  rw [herase, hsplit]
  simp only [untouched, List.zipIdx_append, List.zipIdx_cons, List.filter_append, List.map_append, hlen, Nat.zero_add]
  congr 1
  · congr 1
    apply List.filter_congr
    intro p hp
    have : p.2 < d := by
      have := List.snd_lt_of_mem_zipIdx hp
      omega
    have hne : p.2 ≠ d := by omega
    simp [hne]
  · rw [untouched_eq_self b d ds hds, List.filter_cons_of_neg (by simp), untouched_eq_self b (d + 1) (d :: ds)]
    intro i hi
    rcases List.mem_cons.mp hi with rfl | hi
    · omega
    · have := hds i hi; omega

theorem untouched_nil {P : Type} (planes : List P) : untouched planes [] = planes := untouched_eq_self planes 0 [] (by simp)

theorem untouched_congr {P : Type} (planes : List P) {a b : List Nat} (h : ∀ i, i ∈ a ↔ i ∈ b) : untouched planes a = untouched planes b := by
  unfold untouched
  congr 1
  apply List.filter_congr
  intro p _
  simp [h]

theorem eraseEach_eq {P : Type} : ∀ (ds : List Nat) (planes : List P), ds.Pairwise (· > ·) → (∀ i ∈ ds, i < planes.length) →
    eraseEach ds planes = .ok (untouched planes ds)
  | [], planes, _, _ => by rw [eraseEach, untouched_nil]
  | d :: ds, planes, hp, hl => by
    have hd : d < planes.length := hl d (by simp)
    have hds : ∀ i ∈ ds, i < d := fun i hi => (List.pairwise_cons.mp hp).1 i hi
    rw [eraseEach, if_pos hd, eraseEach_eq ds _ (List.pairwise_cons.mp hp).2, untouched_erase d ds hds planes hd]
    intro i hi
    rw [List.length_eraseIdx_of_lt hd]
    have := hds i hi
    omega

theorem descending_spec (l : List Nat) (h : l.Nodup) :
    ((l.insertionSort (· ≤ ·)).reverse).Pairwise (· > ·) ∧ ∀ i, i ∈ (l.insertionSort (· ≤ ·)).reverse ↔ i ∈ l := by
  have hp := List.perm_insertionSort (· ≤ ·) l
  have hs : (l.insertionSort (· ≤ ·)).Pairwise (· ≤ ·) := List.pairwise_insertionSort (· ≤ ·) l
  have hn : (l.insertionSort (· ≤ ·)).Nodup := hp.nodup_iff.mpr h
  constructor
  · rw [List.pairwise_reverse]
    exact (hs.and hn).imp fun ⟨h1, h2⟩ => by omega
  · intro i
    rw [List.mem_reverse, hp.mem_iff]

/-! ## Reading the nodes -/

theorem read_ok {α : Type} (x : XmlAttr α) (a : α) : x.read = .ok a ↔ x = .value a := by
  cases x <;> simp [XmlAttr.read]

theorem read_safe {α : Type} (x : XmlAttr α) : x.read = .fail ∨ ∃ a, x.read = .ok a := by
  cases x <;> simp [XmlAttr.read]

theorem checkUnused_ok (a b : Nat) : ∀ pairs : List (Nat × Nat), checkUnused a b pairs = .ok () ↔ a ∉ positions pairs ∧ b ∉ positions pairs
  | [] => by simp [checkUnused, positions]
  | (x, y) :: rest => by
    have ih := checkUnused_ok a b rest
    have hc : positions ((x, y) :: rest) = x :: y :: positions rest := rfl
    rw [checkUnused, hc]
    by_cases h1 : a = x ∨ a = y
    · rw [if_pos h1]
      rcases h1 with h | h <;> simp [h]
    · rw [if_neg h1]
      by_cases h2 : b = x ∨ b = y
      · rw [if_pos h2]
        rcases h2 with h | h <;> simp [h]
      · rw [if_neg h2, ih]
        push Not at h1 h2
        simp [h1, h2]

theorem checkUnused_safe (a b : Nat) : ∀ pairs : List (Nat × Nat), checkUnused a b pairs = .ok () ∨ checkUnused a b pairs = .fail
  | [] => Or.inl rfl
  | (x, y) :: rest => by
    rw [checkUnused]
    by_cases h1 : a = x ∨ a = y
    · rw [if_pos h1]; exact Or.inr rfl
    · rw [if_neg h1]
      by_cases h2 : b = x ∨ b = y
      · rw [if_pos h2]; exact Or.inr rfl
      · rw [if_neg h2]; exact checkUnused_safe a b rest

theorem readPair_ok (n : Nat) (pairs : List (Nat × Nat)) (nd : PortalNode) (p : Nat × Nat) :
    readPair n pairs nd = .ok p ↔ nd.Names p ∧ p.1 < n ∧ p.2 < n ∧ p.1 ≠ p.2 ∧ p.1 ∉ positions pairs ∧ p.2 ∉ positions pairs := by
  obtain ⟨A, B⟩ := nd
  unfold readPair PortalNode.Names
  cases A with
  | missing => simp [XmlAttr.read, Outcome.bind]
  | malformed => simp [XmlAttr.read, Outcome.bind]
  | value a =>
    by_cases ha : a ≥ n
    · simp only [XmlAttr.read, Outcome.bind, if_pos ha]
      constructor
      · intro h; cases h
      · rintro ⟨⟨h1, _⟩, h2, _⟩
        cases h1
        omega
    · simp only [XmlAttr.read, Outcome.bind, if_neg ha]
      cases B with
      | missing => simp
      | malformed => simp
      | value b =>
        simp only
        by_cases hb : b ≥ n
        · rw [if_pos hb]
          constructor
          · intro h; cases h
          · rintro ⟨⟨_, h1⟩, _, h2, _⟩
            cases h1
            omega
        · rw [if_neg hb]
          by_cases hab : a = b
          · rw [if_pos hab]
            constructor
            · intro h; cases h
            · rintro ⟨⟨h0, h1⟩, _, _, h2, _⟩
              cases h0
              cases h1
              exact absurd hab h2
          · rw [if_neg hab]
            have hc := checkUnused_ok a b pairs
            rcases checkUnused_safe a b pairs with h | h
            · rw [h] at hc ⊢
              have hc' := hc.mp rfl
              constructor
              · intro he
                cases he
                exact ⟨⟨rfl, rfl⟩, by omega, by omega, hab, hc'.1, hc'.2⟩
              · rintro ⟨⟨h0, h1⟩, _⟩
                cases h0
                cases h1
                rfl
            · rw [h] at hc ⊢
              constructor
              · intro he; cases he
              · rintro ⟨⟨h0, h1⟩, _, _, _, h3, h4⟩
                cases h0
                cases h1
                exact absurd (hc.mpr ⟨h3, h4⟩) (by simp)

theorem readPair_safe (n : Nat) (pairs : List (Nat × Nat)) (nd : PortalNode) : readPair n pairs nd = .fail ∨ ∃ p, readPair n pairs nd = .ok p := by
  obtain ⟨A, B⟩ := nd
  unfold readPair
  cases A with
  | missing => exact Or.inl rfl
  | malformed => exact Or.inl rfl
  | value a =>
    by_cases ha : a ≥ n
    · simp only [XmlAttr.read, Outcome.bind, if_pos ha]; exact Or.inl trivial
    · simp only [XmlAttr.read, Outcome.bind, if_neg ha]
      cases B with
      | missing => exact Or.inl rfl
      | malformed => exact Or.inl rfl
      | value b =>
        simp only
        by_cases hb : b ≥ n
        · rw [if_pos hb]; exact Or.inl rfl
        · rw [if_neg hb]
          by_cases hab : a = b
          · rw [if_pos hab]; exact Or.inl rfl
          · rw [if_neg hab]
            rcases checkUnused_safe a b pairs with h | h <;> rw [h] <;> simp

/-- The common shape of the three loops over portal nodes -/
def loadNodes {N D : Type} (n : Nat) (pn : N → PortalNode) (rd : N → Outcome D) : List N → List ((Nat × Nat) × D) → Outcome (List ((Nat × Nat) × D))
  | [], acc => .ok acc
  | nd :: rest, acc => (readPair n (acc.map (·.1)) (pn nd)).bind fun p => (rd nd).bind fun d => loadNodes n pn rd rest (acc ++ [(p, d)])

theorem positions_append (a b : List (Nat × Nat)) : positions (a ++ b) = positions a ++ positions b := by simp [positions]

theorem loadNodes_ok {N D : Type} (n : Nat) (pn : N → PortalNode) (rd : N → Outcome D) :
    ∀ (nodes : List N) (acc r : List ((Nat × Nat) × D)), (positions (acc.map (·.1))).Nodup → (∀ i ∈ positions (acc.map (·.1)), i < n) →
      (loadNodes n pn rd nodes acc = .ok r ↔ ∃ new, r = acc ++ new ∧ List.Forall₂ (fun nd x => (pn nd).Names x.1 ∧ rd nd = .ok x.2) nodes new ∧
        (positions (r.map (·.1))).Nodup ∧ ∀ i ∈ positions (r.map (·.1)), i < n)
  | [], acc, r, hnd, hlt => by
    rw [loadNodes]
    constructor
    · intro h
      cases h
      exact ⟨[], by simp, List.Forall₂.nil, hnd, hlt⟩
    · rintro ⟨new, rfl, hf, -⟩
      cases hf
      simp
  | nd :: rest, acc, r, hnd, hlt => by
    rw [loadNodes]
    have key : ∀ p d, (pn nd).Names p → p.1 < n → p.2 < n → p.1 ≠ p.2 → p.1 ∉ positions (acc.map (·.1)) → p.2 ∉ positions (acc.map (·.1)) →
        (positions ((acc ++ [(p, d)]).map (·.1 : (Nat × Nat) × D → Nat × Nat))).Nodup ∧
          ∀ i ∈ positions ((acc ++ [(p, d)]).map (·.1 : (Nat × Nat) × D → Nat × Nat)), i < n := by
      intro p d _ h1 h2 h3 h4 h5
      rw [List.map_append, positions_append]
      have hs : positions (List.map (·.1) [(p, d)]) = [p.1, p.2] := rfl
      rw [hs]
      constructor
      · rw [List.nodup_append]
        refine ⟨hnd, by simp [h3], ?_⟩
        intro a ha b hb
        simp only [List.mem_cons, List.not_mem_nil, or_false] at hb
        rintro rfl
        rcases hb with rfl | rfl
        · exact h4 ha
        · exact h5 ha
      · intro i hi
        rcases List.mem_append.mp hi with hi | hi
        · exact hlt i hi
        · simp only [List.mem_cons, List.not_mem_nil, or_false] at hi
          rcases hi with rfl | rfl
          · exact h1
          · exact h2
    constructor
    · intro h
      obtain ⟨p, hp, h⟩ := Outcome.bind_ok_iff.mp h
      obtain ⟨d, hd, h⟩ := Outcome.bind_ok_iff.mp h
      obtain ⟨hname, h1, h2, h3, h4, h5⟩ := (readPair_ok _ _ _ _).mp hp
      obtain ⟨k1, k2⟩ := key p d hname h1 h2 h3 h4 h5
      obtain ⟨new, hr, hf, hN, hL⟩ := (loadNodes_ok n pn rd rest _ r k1 k2).mp h
      exact ⟨(p, d) :: new, by rw [hr]; simp, List.Forall₂.cons ⟨hname, hd⟩ hf, hN, hL⟩
    · rintro ⟨new, hr, hf, hN, hL⟩
      cases hf with
      | cons hx hf =>
        rename_i x new'
        obtain ⟨p, d⟩ := x
        have hsplit : positions (r.map (·.1)) = positions (acc.map (·.1)) ++ ([p.1, p.2] ++ positions (new'.map (·.1))) := by
          rw [hr, List.map_append, positions_append]
          rfl
        rw [hsplit] at hN hL
        have hN2 := (List.nodup_append.mp hN).2.1
        have hdis := (List.nodup_append.mp hN).2.2
        have h3 : p.1 ≠ p.2 := by
          have := (List.nodup_append.mp hN2).1
          simpa using this
        have h1 : p.1 < n := hL _ (by simp)
        have h2 : p.2 < n := hL _ (by simp)
        have h4 : p.1 ∉ positions (acc.map (·.1)) := fun hc => hdis _ hc p.1 (by simp) rfl
        have h5 : p.2 ∉ positions (acc.map (·.1)) := fun hc => hdis _ hc p.2 (by simp) rfl
        obtain ⟨k1, k2⟩ := key p d hx.1 h1 h2 h3 h4 h5
        refine Outcome.bind_ok_iff.mpr ⟨p, (readPair_ok _ _ _ _).mpr ⟨hx.1, h1, h2, h3, h4, h5⟩, Outcome.bind_ok_iff.mpr ⟨d, hx.2, ?_⟩⟩
        refine (loadNodes_ok n pn rd rest _ r k1 k2).mpr ⟨new', by rw [hr]; simp, hf, ?_⟩
        rw [hsplit]
        exact ⟨hN, hL⟩

theorem loadNodes_safe {N D : Type} (n : Nat) (pn : N → PortalNode) (rd : N → Outcome D) (hrd : ∀ nd, rd nd = .fail ∨ ∃ d, rd nd = .ok d) :
    ∀ (nodes : List N) (acc : List ((Nat × Nat) × D)), loadNodes n pn rd nodes acc = .fail ∨ ∃ r, loadNodes n pn rd nodes acc = .ok r
  | [], acc => Or.inr ⟨acc, rfl⟩
  | nd :: rest, acc => by
    rw [loadNodes]
    rcases readPair_safe n (acc.map (·.1)) (pn nd) with h | ⟨p, h⟩
    · rw [h]; exact Or.inl rfl
    · rw [h]
      rcases hrd nd with h' | ⟨d, h'⟩
      · simp only [Outcome.bind, h']; exact Or.inl trivial
      · simp only [Outcome.bind, h']
        exact loadNodes_safe n pn rd hrd rest _

theorem loadPlanar_eq {K : Type} [Zero K] (n : Nat) : ∀ (nodes : List PortalNode) (acc : List ((Nat × Nat) × K × K)),
    loadPlanar n nodes acc = loadNodes n id (fun _ => .ok ((0 : K), (0 : K))) nodes acc
  | [], _ => rfl
  | nd :: rest, acc => by
    rw [loadPlanar, loadNodes]
    congr 1
    funext p
    exact loadPlanar_eq n rest _

/-- The data of a `lees_edwards_portal` -/
def readLeesEdwards {K : Type} (badBounds : K → Bool) (nd : LeesEdwardsNode K) : Outcome (K × K) :=
  nd.v.read.bind fun v => nd.bounds.read.bind fun bounds => if badBounds bounds then .fail else .ok (v, bounds)

theorem readLeesEdwards_ok {K : Type} (badBounds : K → Bool) (nd : LeesEdwardsNode K) (d : K × K) :
    readLeesEdwards badBounds nd = .ok d ↔ nd.v = .value d.1 ∧ nd.bounds = .value d.2 ∧ badBounds d.2 = false := by
  obtain ⟨p, v, b⟩ := nd
  obtain ⟨d1, d2⟩ := d
  cases v <;> cases b <;> simp only [readLeesEdwards, XmlAttr.read, Outcome.bind, reduceCtorEq, false_and, and_false]
  rename_i v b
  by_cases hb : badBounds b = true
  · rw [if_pos hb]
    constructor
    · intro h; cases h
    · rintro ⟨h1, h2, h3⟩
      cases h2
      rw [hb] at h3
      cases h3
  · rw [if_neg hb]
    constructor
    · intro h
      cases h
      exact ⟨rfl, rfl, by simpa using hb⟩
    · rintro ⟨h1, h2, h3⟩
      cases h1
      cases h2
      rfl

theorem readLeesEdwards_safe {K : Type} (badBounds : K → Bool) (nd : LeesEdwardsNode K) :
    readLeesEdwards badBounds nd = .fail ∨ ∃ d, readLeesEdwards badBounds nd = .ok d := by
  obtain ⟨p, v, b⟩ := nd
  cases v <;> cases b <;> simp only [readLeesEdwards, XmlAttr.read, Outcome.bind, true_or]
  rename_i v b
  by_cases hb : badBounds b = true
  · rw [if_pos hb]; exact Or.inl rfl
  · rw [if_neg hb]; exact Or.inr ⟨_, rfl⟩

theorem loadLeesEdwards_eq {K : Type} (badBounds : K → Bool) (n : Nat) : ∀ (nodes : List (LeesEdwardsNode K)) (acc : List ((Nat × Nat) × K × K)),
    loadLeesEdwards badBounds n nodes acc = loadNodes n (·.planes) (readLeesEdwards badBounds) nodes acc
  | [], _ => rfl
  | nd :: rest, acc => by
    rw [loadLeesEdwards, loadNodes]
    congr 1
    funext p
    unfold readLeesEdwards
    cases nd.v.read with
    | ok v =>
      cases nd.bounds.read with
      | ok b =>
        simp only [Outcome.bind]
        by_cases hb : badBounds b = true
        · rw [if_pos hb, if_pos hb]
        · rw [if_neg hb, if_neg hb]
          exact loadLeesEdwards_eq badBounds n rest _
      | _ => rfl
    | _ => rfl

theorem loadPlanar3_eq {M : Type} (n : Nat) : ∀ (nodes : List (PortalNode3 M)) (acc : List ((Nat × Nat) × M)),
    loadPlanar3 n nodes acc = loadNodes n (·.planes) (·.multiplier.read) nodes acc
  | [], _ => rfl
  | nd :: rest, acc => by
    rw [loadPlanar3, loadNodes]
    congr 1
    funext p
    congr 1
    funext m
    exact loadPlanar3_eq n rest _

theorem usedIndices_eq {D : Type} (pairs : List ((Nat × Nat) × D)) : usedIndices pairs = positions (pairs.map (·.1)) := by
  simp [usedIndices, positions, List.flatMap_map]

theorem buildPortals_ok {P D : Type} (planes : List P) : ∀ (pairs : List ((Nat × Nat) × D)),
    (∀ i ∈ positions (pairs.map (·.1)), i < planes.length) →
      ∃ portals, buildPortals planes pairs = .ok portals ∧ ∀ qs, List.Forall₂ (fun x q => LoadedPortal.Joins q planes x.1 x.2) pairs qs ↔ qs = portals
  | [], _ => ⟨[], rfl, fun qs => by simp [List.forall₂_nil_left_iff]⟩
  | ((a, b), d) :: rest, h => by
    have ha : a < planes.length := h a (by simp [positions])
    have hb : b < planes.length := h b (by simp [positions])
    obtain ⟨ps, h1, h2⟩ := buildPortals_ok planes rest fun i hi => h i (by simp only [positions, List.map_cons, List.flatMap_cons] at hi ⊢; exact List.mem_append_right _ hi)
    refine ⟨⟨planes[a], planes[b], d⟩ :: ps, ?_, ?_⟩
    · rw [buildPortals, List.getElem?_eq_getElem ha, List.getElem?_eq_getElem hb]
      simp only [h1, Outcome.bind]
    · intro qs
      rw [List.forall₂_cons_left_iff]
      constructor
      · rintro ⟨q, qs', ⟨j1, j2, j3⟩, hr, rfl⟩
        rw [(h2 qs').mp hr]
        obtain ⟨qa, qb, qd⟩ := q
        rw [List.getElem?_eq_getElem ha] at j1
        rw [List.getElem?_eq_getElem hb] at j2
        cases j1
        cases j2
        cases j3
        rfl
      · rintro rfl
        exact ⟨_, _, ⟨List.getElem?_eq_getElem ha, List.getElem?_eq_getElem hb, rfl⟩, (h2 ps).mpr rfl, rfl⟩

theorem finishPortals_ok {P D : Type} (planes : List P) (pairs : List ((Nat × Nat) × D)) (hn : (positions (pairs.map (·.1))).Nodup)
    (hl : ∀ i ∈ positions (pairs.map (·.1)), i < planes.length) :
    ∃ portals, finishPortals planes pairs = .ok (untouched planes (positions (pairs.map (·.1))), portals) ∧
      ∀ qs, List.Forall₂ (fun x q => LoadedPortal.Joins q planes x.1 x.2) pairs qs ↔ qs = portals := by
  obtain ⟨portals, h1, h2⟩ := buildPortals_ok planes pairs hl
  refine ⟨portals, ?_, h2⟩
  rw [finishPortals, h1, usedIndices_eq]
  obtain ⟨hd, hm⟩ := descending_spec _ hn
  simp only [Outcome.bind]
  rw [eraseEach_eq _ planes hd (fun i hi => hl i ((hm i).mp hi)), untouched_congr planes hm]

/-- Planes are enough once a portal has been read -/
theorem positions_two {n : Nat} {pairs : List (Nat × Nat)} (hne : pairs ≠ []) (hn : (positions pairs).Nodup) (hl : ∀ i ∈ positions pairs, i < n) : ¬ n < 2 := by
  cases pairs with
  | nil => exact absurd rfl hne
  | cons p rest =>
    have h1 : p.1 < n := hl _ (by simp [positions])
    have h2 : p.2 < n := hl _ (by simp [positions])
    have h3 : p.1 ≠ p.2 := by
      rw [show positions (p :: rest) = p.1 :: p.2 :: positions rest from rfl, List.nodup_cons] at hn
      intro hc
      exact hn.1 (by rw [hc]; simp)
    omega

/-- **C48 (two dimensions).** Portals are loaded exactly if every node names two planes of the scene, no plane is named twice, and every Lees-Edwards node has
a velocity and admissible bounds. Then the portals are, node by node, planar ones first, those joining the two planes that the node names, with
velocity and bounds zero for planar portals and as given for Lees-Edwards portals; and the planes left are all planes that no node names, in their
original order. -/
theorem C48_portals {P K : Type} [Zero K] (badBounds : K → Bool) (planes planes' : List P) (nodes : List PortalNode) (leNodes : List (LeesEdwardsNode K))
    (portals : List (LoadedPortal P (K × K))) :
    loadPlanarPortals badBounds planes nodes leNodes = .ok (planes', portals) ↔
      ∃ (pairs lePairs : List (Nat × Nat)) (leData : List (K × K)) (planar leesEdwards : List (LoadedPortal P (K × K))),
        List.Forall₂ PortalNode.Names nodes pairs ∧
        List.Forall₂ (fun nd p => nd.planes.Names p) leNodes lePairs ∧
        List.Forall₂ (fun nd d => nd.v = .value d.1 ∧ nd.bounds = .value d.2 ∧ badBounds d.2 = false) leNodes leData ∧
        (positions (pairs ++ lePairs)).Nodup ∧
        (∀ i ∈ positions (pairs ++ lePairs), i < planes.length) ∧
        portals = planar ++ leesEdwards ∧
        List.Forall₂ (fun p q => LoadedPortal.Joins q planes p (0, 0)) pairs planar ∧
        List.Forall₂ (fun (x : (Nat × Nat) × K × K) q => LoadedPortal.Joins q planes x.1 x.2) (lePairs.zip leData) leesEdwards ∧
        planes' = untouched planes (positions (pairs ++ lePairs)) := by
  have forall₂_split : ∀ (l : List (LeesEdwardsNode K)) (xs : List ((Nat × Nat) × K × K)),
      List.Forall₂ (fun nd x => nd.planes.Names x.1 ∧ readLeesEdwards badBounds nd = .ok x.2) l xs →
        List.Forall₂ (fun nd p => nd.planes.Names p) l (xs.map (·.1)) ∧
        List.Forall₂ (fun nd d => nd.v = .value d.1 ∧ nd.bounds = .value d.2 ∧ badBounds d.2 = false) l (xs.map (·.2)) := by
    intro l xs h
    induction h with
    | nil => exact ⟨List.Forall₂.nil, List.Forall₂.nil⟩
    | cons hx _ ih => exact ⟨List.Forall₂.cons hx.1 ih.1, List.Forall₂.cons ((readLeesEdwards_ok _ _ _).mp hx.2) ih.2⟩
  have planar_split : ∀ (l : List PortalNode) (xs : List ((Nat × Nat) × K × K)),
      List.Forall₂ (fun nd x => (id nd : PortalNode).Names x.1 ∧ (Outcome.ok ((0 : K), (0 : K)) = .ok x.2)) l xs →
        List.Forall₂ PortalNode.Names l (xs.map (·.1)) ∧ xs = (xs.map (·.1)).map fun p => (p, (0 : K), (0 : K)) := by
    intro l xs h
    induction h with
    | nil => exact ⟨List.Forall₂.nil, rfl⟩
    | cons hx _ ih =>
      refine ⟨List.Forall₂.cons hx.1 ih.1, ?_⟩
      have hb := hx.2
      simp only [Outcome.ok.injEq] at hb
      rw [List.map_cons, List.map_cons, ← ih.2, hb]
  have hle_len : ∀ {l : List (LeesEdwardsNode K)} {xs : List ((Nat × Nat) × K × K)}, xs = (xs.map (·.1)).zip (xs.map (·.2)) := by
    intro _ xs
    induction xs with
    | nil => rfl
    | cons x xs ih => simp only [List.map_cons, List.zip_cons_cons]; rw [← ih]
  unfold loadPlanarPortals
  by_cases hemp : nodes.isEmpty ∧ leNodes.isEmpty
  · rw [if_pos hemp]
    obtain ⟨e1, e2⟩ := hemp
    rw [List.isEmpty_iff] at e1 e2
    subst e1 e2
    constructor
    · intro h
      cases h
      refine ⟨[], [], [], [], [], List.Forall₂.nil, List.Forall₂.nil, List.Forall₂.nil, by simp [positions], by simp [positions], rfl, List.Forall₂.nil,
        List.Forall₂.nil, ?_⟩
      exact (untouched_nil planes).symm
    · rintro ⟨pairs, lePairs, leData, planar, le, h1, h2, h3, -, -, h6, h7, h8, h9⟩
      cases h1
      cases h2
      cases h3
      cases h7
      cases h8
      rw [h6, h9]
      simp only [positions, List.append_nil, List.flatMap_nil, untouched_nil]
  · rw [if_neg hemp]
    constructor
    · intro h
      by_cases h2 : planes.length < 2
      · rw [if_pos h2] at h; cases h
      · rw [if_neg h2] at h
        obtain ⟨acc, ha, h⟩ := Outcome.bind_ok_iff.mp h
        obtain ⟨all, hb, h⟩ := Outcome.bind_ok_iff.mp h
        rw [loadPlanar_eq] at ha
        obtain ⟨new, hacc, hf, hn, hl⟩ := (loadNodes_ok _ _ _ nodes [] acc (by simp [positions]) (by simp [positions])).mp ha
        rw [List.nil_append] at hacc
        rw [hacc] at ha hb hn hl
        rw [loadLeesEdwards_eq] at hb
        obtain ⟨new', rfl, hf', hn', hl'⟩ := (loadNodes_ok _ _ _ leNodes new all hn hl).mp hb
        obtain ⟨ps, hp1, hp2⟩ := finishPortals_ok planes (new ++ new') hn' hl'
        rw [hp1] at h
        cases h
        obtain ⟨s1, s2⟩ := planar_split _ _ hf
        obtain ⟨t1, t2⟩ := forall₂_split _ _ hf'
        have hall := (hp2 portals).mpr rfl
        rw [List.map_append] at hn' hl'
        have hlen := hall.length_eq
        refine ⟨new.map (·.1), new'.map (·.1), new'.map (·.2), portals.take new.length, portals.drop new.length, s1, t1, t2, hn', hl', ?_, ?_, ?_, ?_⟩
        · rw [List.take_append_drop]
        · have := List.forall₂_take new.length hall
          rw [List.take_left'] at this
          · rw [s2, List.forall₂_map_left_iff] at this
            rw [List.length_map, List.length_map] at this
            exact this
          · rfl
        · have := List.forall₂_drop new.length hall
          rw [List.drop_left'] at this
          · rw [← hle_len (l := [])]
            exact this
          · rfl
        · rw [List.map_append]
    · rintro ⟨pairs, lePairs, leData, planar, le, h1, h2, h3, h4, h5, rfl, h7, h8, rfl⟩
      have hne : pairs ++ lePairs ≠ [] := by
        intro hc
        obtain ⟨c1, c2⟩ := List.append_eq_nil_iff.mp hc
        subst c1 c2
        rw [List.forall₂_nil_right_iff] at h1 h2
        exact hemp ⟨by simp [h1], by simp [h2]⟩
      rw [if_neg (positions_two hne h4 h5)]
      have hlens : lePairs.length = leData.length := by rw [← h2.length_eq, h3.length_eq]
      have hzip1 : (lePairs.zip leData).map (·.1) = lePairs := by rw [List.map_fst_zip]; omega
      have hmap1 : (pairs.map fun p => (p, (0 : K), (0 : K))).map (·.1) = pairs := by rw [List.map_map]; exact List.map_id _
      have hn1 : (positions pairs).Nodup := by rw [positions_append] at h4; exact (List.nodup_append.mp h4).1
      have hl1 : ∀ i ∈ positions pairs, i < planes.length := fun i hi => h5 i (by rw [positions_append]; exact List.mem_append_left _ hi)
      refine Outcome.bind_ok_iff.mpr ⟨pairs.map fun p => (p, (0 : K), (0 : K)), ?_, Outcome.bind_ok_iff.mpr ⟨(pairs.map fun p => (p, (0 : K), (0 : K))) ++ lePairs.zip leData, ?_, ?_⟩⟩
      · rw [loadPlanar_eq]
        refine (loadNodes_ok _ _ _ nodes [] _ (by simp [positions]) (by simp [positions])).mpr ⟨_, rfl, ?_, ?_, ?_⟩
        · rw [List.forall₂_map_right_iff]
          exact h1.imp fun a b h => ⟨h, rfl⟩
        · rw [hmap1]; exact hn1
        · rw [hmap1]; exact hl1
      · rw [loadLeesEdwards_eq]
        refine (loadNodes_ok _ _ _ leNodes _ _ (by rw [hmap1]; exact hn1) (by rw [hmap1]; exact hl1)).mpr ⟨_, rfl, ?_, ?_, ?_⟩
        · clear h8 h4 h5 hne hzip1 hlens hemp
          induction h2 generalizing leData with
          | nil => simp
          | cons hx _ ih =>
            cases h3 with
            | cons hy h3 =>
              rw [List.zip_cons_cons]
              exact List.Forall₂.cons ⟨hx, (readLeesEdwards_ok _ _ _).mpr hy⟩ (ih _ h3)
        · rw [List.map_append, hmap1, hzip1]; exact h4
        · rw [List.map_append, hmap1, hzip1]; exact h5
      · have hm : ((pairs.map fun p => (p, (0 : K), (0 : K))) ++ lePairs.zip leData).map (·.1) = pairs ++ lePairs := by rw [List.map_append, hmap1, hzip1]
        obtain ⟨ps, hp1, hp2⟩ := finishPortals_ok planes ((pairs.map fun p => (p, (0 : K), (0 : K))) ++ lePairs.zip leData) (by rw [hm]; exact h4) (by rw [hm]; exact h5)
        rw [hp1, hm]
        have : planar ++ le = ps := by
          apply (hp2 _).mp
          apply List.rel_append
          · rw [List.forall₂_map_left_iff]
            exact h7
          · exact h8
        rw [this]

/-- **C48 (two dimensions, otherwise).** In all other cases loading reports an error; it never touches a plane that does not exist. -/
theorem C48_no_undefined {P K : Type} [Zero K] (badBounds : K → Bool) (planes : List P) (nodes : List PortalNode) (leNodes : List (LeesEdwardsNode K)) :
    loadPlanarPortals badBounds planes nodes leNodes = .fail ∨ ∃ r, loadPlanarPortals badBounds planes nodes leNodes = .ok r := by
  unfold loadPlanarPortals
  by_cases hemp : nodes.isEmpty ∧ leNodes.isEmpty
  · rw [if_pos hemp]; exact Or.inr ⟨_, rfl⟩
  · rw [if_neg hemp]
    by_cases h2 : planes.length < 2
    · rw [if_pos h2]; exact Or.inl rfl
    · rw [if_neg h2, loadPlanar_eq]
      rcases loadNodes_safe planes.length id (fun _ => .ok ((0 : K), (0 : K))) (fun _ => Or.inr ⟨_, rfl⟩) nodes [] with h | ⟨acc, h⟩
      · rw [h]; exact Or.inl rfl
      · obtain ⟨new, -, hf, hn, hl⟩ := (loadNodes_ok _ _ _ nodes [] acc (by simp [positions]) (by simp [positions])).mp h
        rw [h]
        simp only [Outcome.bind]
        rw [loadLeesEdwards_eq]
        rcases loadNodes_safe planes.length (·.planes) (readLeesEdwards badBounds) (readLeesEdwards_safe badBounds) leNodes acc with h' | ⟨all, h'⟩
        · rw [h']; exact Or.inl rfl
        · obtain ⟨new', hr, hf', hn', hl'⟩ := (loadNodes_ok _ _ _ leNodes _ all hn hl).mp h'
          obtain ⟨ps, hp1, -⟩ := finishPortals_ok planes all hn' hl'
          rw [h']
          simp only [hp1]
          exact Or.inr ⟨_, rfl⟩

/-- Five planes; one planar portal between planes 3 and 1 and one Lees-Edwards portal between planes 0 and 4: plane 2 is left. -/
example : loadPlanarPortals ballBadBounds ["a", "b", "c", "d", "e"] [⟨.value 3, .value 1⟩] [⟨⟨.value 0, .value 4⟩, .value 2, .value 5⟩] =
    .ok (["c"], [⟨"d", "b", (0, 0)⟩, ⟨"a", "e", (2, 5)⟩]) := by
  decide +kernel

/-- A plane that is named twice -/
example : loadPlanarPortals ballBadBounds ["a", "b", "c", "d", "e"] [⟨.value 3, .value 1⟩, ⟨.value 2, .value 3⟩] [] = .fail := by
  decide +kernel

/-- Bounds zero -/
example : loadPlanarPortals ballBadBounds ["a", "b"] [] [⟨⟨.value 0, .value 1⟩, .value 2, .value 0⟩] = .fail ∧
    loadPlanarPortals rigidBadBounds ["a", "b"] [] [⟨⟨.value 0, .value 1⟩, .value 2, .value 0⟩] = .ok ([], [⟨"a", "b", (2, 0)⟩]) := by
  decide +kernel

/-! ## Three dimensions -/

theorem eraseEach3_eq {P W : Type} : ∀ (ds : List Nat) (planes : List P) (rs : List (PlaneRenderer W)), ds.Pairwise (· > ·) → (∀ i ∈ ds, i < planes.length) →
    eraseEach3 ds planes rs = .ok (untouched planes ds, rs.filter fun r => r.index ∉ ds)
  | [], planes, rs, _, _ => by
    rw [eraseEach3, untouched_nil]
    simp
  | d :: ds, planes, rs, hp, hl => by
    have hd : d < planes.length := hl d (by simp)
    have hds : ∀ i ∈ ds, i < d := fun i hi => (List.pairwise_cons.mp hp).1 i hi
    rw [eraseEach3, if_pos hd, eraseEach3_eq ds _ _ (List.pairwise_cons.mp hp).2, untouched_erase d ds hds planes hd, List.filter_filter]
    · congr 2
      apply List.filter_congr
      intro r _
      simp [Bool.and_comm]
    · intro i hi
      rw [List.length_eraseIdx_of_lt hd]
      have := hds i hi
      omega

/-- What all passes of the renumbering do to one index -/
def renumberOne (ds : List Nat) (o x : Nat) : Nat := ds.foldl (fun x d => if o > d then x - 1 else x) x

theorem decrementFrom_eq (d : Nat) (g : Nat → Nat) : ∀ olds : List Nat, olds.Pairwise (· ≤ ·) →
    decrementFrom d olds (olds.map g) = olds.map fun o => if o > d then g o - 1 else g o
  | [], _ => rfl
  | o :: olds, hp => by
    rw [List.map_cons, decrementFrom, List.map_cons (l := olds) (f := fun o => if o > d then g o - 1 else g o)]
    by_cases h : o > d
    · rw [if_pos h, if_pos h, List.map_cons, List.map_map]
      congr 1
      apply List.map_congr_left
      intro o' ho'
      have := (List.pairwise_cons.mp hp).1 o' ho'
      rw [if_pos (by omega)]
      rfl
    · rw [if_neg h, if_neg h, decrementFrom_eq d g olds (List.pairwise_cons.mp hp).2]

theorem renumber_fold (olds : List Nat) (hp : olds.Pairwise (· ≤ ·)) : ∀ (ds : List Nat) (g : Nat → Nat),
    ds.foldl (fun acc removed => decrementFrom removed olds acc) (olds.map g) = olds.map fun o => renumberOne ds o (g o)
  | [], _ => rfl
  | d :: ds, g => by
    rw [List.foldl_cons, decrementFrom_eq d g olds hp, renumber_fold olds hp ds]
    rfl

theorem renumberRenderers_eq {W : Type} (ds : List Nat) (rs : List (PlaneRenderer W)) (hp : (rs.map (·.index)).Pairwise (· ≤ ·)) :
    renumberRenderers ds rs = rs.map fun r => ⟨renumberOne ds r.index r.index, r.r⟩ := by
  have h := renumber_fold (rs.map (·.index)) hp ds id
  rw [List.map_id] at h
  simp only [renumberRenderers, h, id]
  clear h hp
  induction rs with
  | nil => rfl
  | cons r rs ih =>
    simp only [List.map_cons, List.zipWith_cons_cons]
    rw [ih]

theorem getElem?_renumberOne {P : Type} (o : Nat) : ∀ (ds : List Nat) (x : Nat) (planes : List P), ds.Pairwise (· > ·) → (∀ i ∈ ds, i < planes.length) →
    (∀ d ∈ ds, (o > d ↔ x > d) ∧ x ≠ d) → (untouched planes ds)[renumberOne ds o x]? = planes[x]?
  | [], x, planes, _, _, _ => by rw [untouched_nil]; rfl
  | d :: ds, x, planes, hp, hl, hx => by
    have hd : d < planes.length := hl d (by simp)
    have hds : ∀ i ∈ ds, i < d := fun i hi => (List.pairwise_cons.mp hp).1 i hi
    obtain ⟨h1, h2⟩ := hx d (by simp)
    have hlen : ∀ i ∈ ds, i < (planes.eraseIdx d).length := by
      intro i hi
      rw [List.length_eraseIdx_of_lt hd]
      have := hds i hi
      omega
    rw [← untouched_erase d ds hds planes hd, show renumberOne (d :: ds) o x = renumberOne ds o (if o > d then x - 1 else x) from rfl]
    by_cases ho : o > d
    · rw [if_pos ho, getElem?_renumberOne o ds (x - 1) (planes.eraseIdx d) (List.pairwise_cons.mp hp).2 hlen, List.getElem?_eraseIdx_of_ge]
      · have := h1.mp ho
        congr 1
        omega
      · have := h1.mp ho
        omega
      · intro d' hd'
        have := h1.mp ho
        have := hds d' hd'
        constructor
        · constructor <;> intro _ <;> omega
        · omega
    · rw [if_neg ho, getElem?_renumberOne o ds x (planes.eraseIdx d) (List.pairwise_cons.mp hp).2 hlen, List.getElem?_eraseIdx_of_lt]
      · have : ¬ x > d := fun hc => ho (h1.mpr hc)
        omega
      · intro d' hd'
        exact hx d' (List.mem_cons_of_mem _ hd')

theorem portalWidths_eq {W : Type} [Zero W] (a b : Nat) (hab : a ≠ b) : ∀ (rs : List (PlaneRenderer W)) (w : W × W),
    portalWidths a b rs w = ((((rs.filter fun r => r.index = a).getLast?).map (·.r)).getD w.1, (((rs.filter fun r => r.index = b).getLast?).map (·.r)).getD w.2)
  | [], (w0, w1) => rfl
  | r :: rs, (w0, w1) => by
    have hl : ∀ (l : List (PlaneRenderer W)) (w : W), ((r :: l).getLast?.map (·.r)).getD w = (l.getLast?.map (·.r)).getD r.r := by
      intro l w
      cases l with
      | nil => rfl
      | cons x l => rw [List.getLast?_cons_cons]; rw [List.getLast?_cons]; rfl
    rw [portalWidths]
    by_cases h1 : r.index = a
    · have h2 : r.index ≠ b := h1 ▸ hab
      rw [if_pos h1, portalWidths_eq a b hab rs, List.filter_cons_of_pos (by simpa using h1), List.filter_cons_of_neg (by simpa using h2), hl]
    · rw [if_neg h1]
      by_cases h2 : r.index = b
      · rw [if_pos h2, portalWidths_eq a b hab rs, List.filter_cons_of_neg (by simpa using h1), List.filter_cons_of_pos (by simpa using h2), hl]
      · rw [if_neg h2, portalWidths_eq a b hab rs, List.filter_cons_of_neg (by simpa using h1), List.filter_cons_of_neg (by simpa using h2)]

theorem portalRenderers_eq {W M : Type} [Zero W] [DecidableEq W] (rs : List (PlaneRenderer W)) : ∀ (pairs : List ((Nat × Nat) × M)) (i : Nat),
    (∀ p ∈ pairs, p.1.1 ≠ p.1.2) →
    portalRenderers rs i pairs = ((pairs.map (·.1)).zipIdx i).filterMap fun p =>
      if lastWidth rs p.1.1 ≠ 0 ∨ lastWidth rs p.1.2 ≠ 0 then some ⟨p.2, lastWidth rs p.1.1, lastWidth rs p.1.2⟩ else none
  | [], _, _ => rfl
  | ((a, b), m) :: rest, i, h => by
    have ih := portalRenderers_eq rs rest (i + 1) fun p hp => h p (List.mem_cons_of_mem _ hp)
    rw [portalRenderers, portalWidths_eq a b (h _ List.mem_cons_self), ih, List.map_cons, List.zipIdx_cons]
    simp only [lastWidth]
    by_cases hc : ((List.filter (fun r => decide (r.index = a)) rs).getLast?.map fun x => x.r).getD 0 ≠ 0 ∨ ((List.filter (fun r => decide (r.index = b)) rs).getLast?.map fun x => x.r).getD 0 ≠ 0
    · rw [if_pos hc, List.filterMap_cons_some (b := ⟨i, _, _⟩)]
      exact if_pos hc
    · rw [if_neg hc, List.filterMap_cons_none]
      exact if_neg hc

theorem positions_ne {D : Type} {pairs : List ((Nat × Nat) × D)} (h : (positions (pairs.map (·.1))).Nodup) : ∀ p ∈ pairs, p.1.1 ≠ p.1.2 := by
  induction pairs with
  | nil => simp
  | cons q rest ih =>
    rw [List.map_cons, show positions (q.1 :: rest.map (·.1)) = [q.1.1, q.1.2] ++ positions (rest.map (·.1)) from rfl, List.nodup_append] at h
    intro p hp
    rcases List.mem_cons.mp hp with rfl | hp
    · simpa using h.1
    · exact ih h.2.1 p hp

theorem zip_map_fst_snd {A B : Type} (xs : List (A × B)) : (xs.map (·.1)).zip (xs.map (·.2)) = xs := by
  induction xs with
  | nil => rfl
  | cons x xs ih => simp only [List.map_cons, List.zip_cons_cons]; rw [ih]

/-- **C48 (three dimensions).** Portals are loaded exactly if every node names two planes and has a valid multiplier, and no plane is named twice. Then
the portals are those that the nodes name, in order; the planes left are those that no node names, in their original order; the renderers of these planes are
kept, and each still refers to its plane, whose index may have changed; and a portal has a renderer if one of its planes has a renderer of non-zero
size, with the half widths of those. Renderers must be sorted by the index of their plane, as `C48_renderers` shows them to be after loading. -/
theorem C48_portals3 {P M W : Type} [Zero W] [DecidableEq W] (planes : List P) (rs : List (PlaneRenderer W)) (nodes : List (PortalNode3 M))
    (hrs : (rs.map (·.index)).Pairwise (· ≤ ·)) (r : Loaded3 P M W) (h : loadPlanarPortals3 planes rs nodes = .ok r) :
    ∃ (pairs : List (Nat × Nat)) (multipliers : List M),
      List.Forall₂ (fun nd p => nd.planes.Names p) nodes pairs ∧
      List.Forall₂ (fun nd m => nd.multiplier = .value m) nodes multipliers ∧
      (positions pairs).Nodup ∧
      (∀ i ∈ positions pairs, i < planes.length) ∧
      List.Forall₂ (fun (x : (Nat × Nat) × M) q => LoadedPortal.Joins q planes x.1 x.2) (pairs.zip multipliers) r.portals ∧
      r.planes = untouched planes (positions pairs) ∧
      List.Forall₂ (fun old new => new.r = old.r ∧ r.planes[new.index]? = planes[old.index]?) (rs.filter fun x => x.index ∉ positions pairs) r.planeRenderers ∧
      r.portalRenderers = pairs.zipIdx.filterMap fun p =>
        if lastWidth rs p.1.1 ≠ 0 ∨ lastWidth rs p.1.2 ≠ 0 then some ⟨p.2, lastWidth rs p.1.1, lastWidth rs p.1.2⟩ else none := by
  have hself : ∀ (l : List (PlaneRenderer W)), List.Forall₂ (fun old new => new.r = old.r ∧ planes[new.index]? = planes[old.index]?) l l := by
    intro l
    induction l with
    | nil => exact List.Forall₂.nil
    | cons a l ih => exact List.Forall₂.cons ⟨rfl, rfl⟩ ih
  unfold loadPlanarPortals3 at h
  by_cases hemp : nodes.isEmpty
  · rw [if_pos hemp] at h
    rw [List.isEmpty_iff] at hemp
    subst hemp
    cases h
    refine ⟨[], [], List.Forall₂.nil, List.Forall₂.nil, by simp [positions], by simp [positions], List.Forall₂.nil, (untouched_nil planes).symm, ?_, rfl⟩
    have : (rs.filter fun x => x.index ∉ positions []) = rs := by simp [positions]
    rw [this]
    exact hself rs
  · rw [if_neg hemp] at h
    by_cases h2 : planes.length < 2
    · rw [if_pos h2] at h; cases h
    · rw [if_neg h2] at h
      obtain ⟨all, ha, h⟩ := Outcome.bind_ok_iff.mp h
      rw [loadPlanar3_eq] at ha
      obtain ⟨new, hnew, hf, hn, hl⟩ := (loadNodes_ok _ _ _ nodes [] all (by simp [positions]) (by simp [positions])).mp ha
      rw [List.nil_append] at hnew
      rw [← hnew] at hf
      clear hnew new ha
      obtain ⟨ps, hp1, hp2⟩ := buildPortals_ok planes all hl
      rw [hp1] at h
      simp only [Outcome.bind] at h
      obtain ⟨hd, hm⟩ := descending_spec _ hn
      rw [usedIndices_eq] at h
      rw [eraseEach3_eq _ planes rs hd (fun i hi => hl i ((hm i).mp hi))] at h
      simp only at h
      generalize hds : ((positions (all.map (·.1))).insertionSort (· ≤ ·)).reverse = ds at h hd hm
      cases h
      have hsub : (rs.filter fun x => x.index ∉ ds) = rs.filter fun x => x.index ∉ positions (all.map (·.1)) := by
        apply List.filter_congr
        intro x _
        simp [hm]
      refine ⟨all.map (·.1), all.map (·.2), ?_, ?_, hn, hl, ?_, untouched_congr planes hm, ?_, portalRenderers_eq rs all 0 (positions_ne hn)⟩
      · rw [List.forall₂_map_right_iff]
        exact hf.imp fun _ _ hx => hx.1
      · rw [List.forall₂_map_right_iff]
        exact hf.imp fun _ _ hx => (read_ok _ _).mp hx.2
      · rw [zip_map_fst_snd]
        exact (hp2 ps).mpr rfl
      · have hsorted : ((rs.filter fun x => x.index ∉ ds).map (·.index)).Pairwise (· ≤ ·) := hrs.sublist (List.filter_sublist.map _)
        simp only
        rw [renumberRenderers_eq ds _ hsorted, hsub, List.forall₂_map_right_iff]
        apply List.forall₂_same.mpr
        intro x hx
        refine ⟨rfl, ?_⟩
        have hx' : x.index ∉ positions (all.map (·.1)) := by simpa using (List.mem_filter.mp hx).2
        apply getElem?_renumberOne x.index ds x.index planes hd fun i hi => hl i ((hm i).mp hi)
        intro d hd'
        exact ⟨Iff.rfl, fun hc => hx' ((hm _).mp (hc ▸ hd'))⟩

/-- **C48 (three dimensions, otherwise).** Conversely, nodes that name distinct existing planes and have valid multipliers are loaded; in all other cases loading
reports an error, and never touches a plane that does not exist. -/
theorem C48_success3 {P M W : Type} [Zero W] [DecidableEq W] (planes : List P) (rs : List (PlaneRenderer W)) (nodes : List (PortalNode3 M)) :
    ((∃ r, loadPlanarPortals3 planes rs nodes = .ok r) ↔
      ∃ (pairs : List (Nat × Nat)) (multipliers : List M),
        List.Forall₂ (fun nd p => nd.planes.Names p) nodes pairs ∧ List.Forall₂ (fun nd m => nd.multiplier = .value m) nodes multipliers ∧
          (positions pairs).Nodup ∧ ∀ i ∈ positions pairs, i < planes.length) ∧
      (loadPlanarPortals3 planes rs nodes = .fail ∨ ∃ r, loadPlanarPortals3 planes rs nodes = .ok r) := by
  have hfin : ∀ all : List ((Nat × Nat) × M), (positions (all.map (·.1))).Nodup → (∀ i ∈ positions (all.map (·.1)), i < planes.length) →
      ∃ r, ((buildPortals planes all).bind fun portals =>
        (eraseEach3 ((usedIndices all).insertionSort (· ≤ ·)).reverse planes rs).bind fun (planes', rs') =>
          (.ok ⟨planes', portals, renumberRenderers ((usedIndices all).insertionSort (· ≤ ·)).reverse rs', portalRenderers rs 0 all⟩ : Outcome (Loaded3 P M W))) = .ok r := by
    intro all hn hl
    obtain ⟨ps, hp1, -⟩ := buildPortals_ok planes all hl
    obtain ⟨hd, hm⟩ := descending_spec _ hn
    rw [hp1, usedIndices_eq]
    simp only [Outcome.bind]
    rw [eraseEach3_eq _ planes rs hd (fun i hi => hl i ((hm i).mp hi))]
    exact ⟨_, rfl⟩
  unfold loadPlanarPortals3
  by_cases hemp : nodes.isEmpty
  · rw [if_pos hemp]
    rw [List.isEmpty_iff] at hemp
    subst hemp
    exact ⟨⟨fun _ => ⟨[], [], List.Forall₂.nil, List.Forall₂.nil, by simp [positions], by simp [positions]⟩, fun _ => ⟨_, rfl⟩⟩, Or.inr ⟨_, rfl⟩⟩
  · rw [if_neg hemp]
    constructor
    · constructor
      · rintro ⟨r, h⟩
        by_cases h2 : planes.length < 2
        · rw [if_pos h2] at h; cases h
        · rw [if_neg h2] at h
          obtain ⟨all, ha, -⟩ := Outcome.bind_ok_iff.mp h
          rw [loadPlanar3_eq] at ha
          obtain ⟨new, hnew, hf, hn, hl⟩ := (loadNodes_ok _ _ _ nodes [] all (by simp [positions]) (by simp [positions])).mp ha
          rw [List.nil_append] at hnew
          rw [← hnew] at hf
          refine ⟨all.map (·.1), all.map (·.2), ?_, ?_, hn, hl⟩
          · rw [List.forall₂_map_right_iff]
            exact hf.imp fun _ _ hx => hx.1
          · rw [List.forall₂_map_right_iff]
            exact hf.imp fun _ _ hx => (read_ok _ _).mp hx.2
      · rintro ⟨pairs, ms, h1, h3, hn, hl⟩
        have hne : pairs ≠ [] := by
          rintro rfl
          rw [List.forall₂_nil_right_iff] at h1
          exact hemp (by simp [h1])
        rw [if_neg (positions_two hne hn hl)]
        have hlens : pairs.length = ms.length := by rw [← h1.length_eq, h3.length_eq]
        have hzip : (pairs.zip ms).map (·.1) = pairs := by rw [List.map_fst_zip]; omega
        obtain ⟨r, hr⟩ := hfin (pairs.zip ms) (by rw [hzip]; exact hn) (by rw [hzip]; exact hl)
        refine ⟨r, Outcome.bind_ok_iff.mpr ⟨pairs.zip ms, ?_, hr⟩⟩
        rw [loadPlanar3_eq]
        refine (loadNodes_ok _ _ _ nodes [] _ (by simp [positions]) (by simp [positions])).mpr ⟨_, rfl, ?_, by rw [hzip]; exact hn, by rw [hzip]; exact hl⟩
        clear hzip hlens hne hn hl hemp hr
        induction h1 generalizing ms with
        | nil => simp
        | cons hx _ ih =>
          cases h3 with
          | cons hy h3 =>
            exact List.Forall₂.cons ⟨hx, (read_ok _ _).mpr hy⟩ (ih _ h3)
    · by_cases h2 : planes.length < 2
      · rw [if_pos h2]; exact Or.inl rfl
      · rw [if_neg h2, loadPlanar3_eq]
        rcases loadNodes_safe planes.length (fun nd : PortalNode3 M => nd.planes) (·.multiplier.read) (fun nd => read_safe nd.multiplier) nodes [] with h | ⟨all, h⟩
        · rw [h]; exact Or.inl rfl
        · obtain ⟨new, -, hf, hn, hl⟩ := (loadNodes_ok _ _ _ nodes [] all (by simp [positions]) (by simp [positions])).mp h
          rw [h]
          exact Or.inr (hfin all hn hl)

theorem readRenderers_ok {W : Type} (n : Nat) : ∀ (nodes : List (PlaneRendererNode W)) (acc r : List (PlaneRenderer W)),
    readRenderers n nodes acc = .ok r → ∃ new, r = acc ++ new ∧
      List.Forall₂ (fun nd (x : PlaneRenderer W) => nd.plane = .value x.index ∧ nd.r = .value x.r ∧ x.index ≤ n) nodes new
  | [], acc, r, h => by
    rw [readRenderers] at h
    cases h
    exact ⟨[], by simp, List.Forall₂.nil⟩
  | nd :: rest, acc, r, h => by
    rw [readRenderers] at h
    obtain ⟨idx, hi, h⟩ := Outcome.bind_ok_iff.mp h
    by_cases hb : idx > n
    · rw [if_pos hb] at h; cases h
    · rw [if_neg hb] at h
      obtain ⟨w, hw, h⟩ := Outcome.bind_ok_iff.mp h
      obtain ⟨new, hr, hf⟩ := readRenderers_ok n rest _ r h
      exact ⟨⟨idx, w⟩ :: new, by rw [hr]; simp, List.Forall₂.cons ⟨(read_ok _ _).mp hi, (read_ok _ _).mp hw, by simp only; omega⟩ hf⟩

/-- **C48 (renderers of planes).** Loading the renderers of planes gives the renderers that the nodes describe, sorted by the index of their plane. -/
theorem C48_renderers {W : Type} (n : Nat) (nodes : List (PlaneRendererNode W)) (rs : List (PlaneRenderer W)) (h : loadStaticPlaneRenderers n nodes = .ok rs) :
    (rs.map (·.index)).Pairwise (· ≤ ·) ∧ ∃ given : List (PlaneRenderer W), rs.Perm given ∧
      List.Forall₂ (fun nd (x : PlaneRenderer W) => nd.plane = .value x.index ∧ nd.r = .value x.r) nodes given := by
  obtain ⟨l, hl, h⟩ := Outcome.bind_ok_iff.mp h
  cases h
  obtain ⟨new, hr, hf⟩ := readRenderers_ok n nodes [] l hl
  rw [List.nil_append] at hr
  subst hr
  constructor
  · haveI : Std.Total fun a b : PlaneRenderer W => a.index ≤ b.index := ⟨fun a b => Nat.le_total _ _⟩
    haveI : IsTrans (PlaneRenderer W) fun a b => a.index ≤ b.index := ⟨fun a b c => Nat.le_trans⟩
    rw [List.pairwise_map]
    exact List.pairwise_insertionSort (fun a b : PlaneRenderer W => a.index ≤ b.index) l
  · exact ⟨l, List.perm_insertionSort _ _, hf.imp fun _ _ hx => ⟨hx.1, hx.2.1⟩⟩

/-- A renderer of the plane after the last one is accepted: with two planes, of indices 0 and 1, a renderer of plane 2. -/
theorem C48_renderer_index_false : ∃ rs : List (PlaneRenderer ℚ), loadStaticPlaneRenderers 2 [⟨.value 2, .value 1⟩] = .ok rs ∧ ∃ r ∈ rs, ¬ r.index < 2 :=
  ⟨[⟨2, 1⟩], by decide +kernel, ⟨2, 1⟩, by simp, by decide⟩

/-- Six planes; portals between 4 and 1 and between 0 and 3. Planes 2 and 5 are left, their renderers now say 0 and 1, and the second portal, whose planes have no
renderers, has none. -/
example : (match loadPlanarPortals3 (W := ℚ) (M := Nat) ["a", "b", "c", "d", "e", "f"] [⟨1, 7⟩, ⟨2, 8⟩, ⟨5, 9⟩] [⟨⟨.value 4, .value 1⟩, .value 1⟩, ⟨⟨.value 0, .value 3⟩, .value 2⟩] with
    | .ok r => decide (r.planes = ["c", "f"] ∧ r.portals = [⟨"e", "b", 1⟩, ⟨"a", "d", 2⟩] ∧ r.planeRenderers = [⟨0, 8⟩, ⟨1, 9⟩] ∧ r.portalRenderers = [⟨0, 0, 7⟩])
    | _ => false) = true := by
  decide +kernel

end Scisim
