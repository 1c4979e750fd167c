import Verif.Spec.Maps
import Verif.Lemmas.ImpulseCache
import Mathlib.Tactic.Ring
import Mathlib.Tactic.LinearCombination
import Mathlib.Tactic.FieldSimp
import Mathlib.Tactic.Linarith
import Mathlib.Tactic.FinCases
import Mathlib.Tactic.ByContra
/-!
# Lemmas about the contact-aware maps
-/

namespace Scisim

variable {Q V C K S P D : Type}

theorem forEach_ok {B : Type} {f : C → Outcome B} {cs : List C} {bs : List B} (h : forEach f cs = .ok bs) :
    bs.length = cs.length ∧ ∀ (j : Nat) c, cs[j]? = some c → ∃ b, bs[j]? = some b ∧ f c = .ok b := by
  induction cs generalizing bs with
  | nil => simp only [forEach, Outcome.ok.injEq] at h; subst h; simp
  | cons c cs ih =>
    rw [forEach] at h
    obtain ⟨b, h1, h⟩ := Outcome.bind_ok_iff.mp h
    obtain ⟨bs', h2, h⟩ := Outcome.bind_ok_iff.mp h
    cases h
    obtain ⟨h3, h4⟩ := ih h2
    refine ⟨by simp [h3], fun j c' hj => ?_⟩
    cases j with
    | zero => simp only [List.getElem?_cons_zero, Option.some.injEq] at hj; subst hj; exact ⟨b, rfl, h1⟩
    | succ j => exact h4 j c' hj

theorem entry_ok {v : List S} {i : Nat} {x : S} (h : entry v i = .ok x) : v[i]? = some x := by
  unfold entry at h
  split at h
  · cases h; assumption
  · cases h

/-- the cache contains exactly the vectors of a list of contacts -/
def Kept [Zero S] [DecidableEq D] (cs : CacheSys C K S) (ident : C → D) (k : K) (contacts : List C) (vecs : List (List S)) : Prop :=
  (∀ (i : Nat) c c' n r, contacts[i]? = some c → ident c = ident c' → cs.get k c' n = .ok r → vecs[i]? = some r) ∧
  (∀ c' n r, (∀ c ∈ contacts, ident c ≠ ident c') → cs.get k c' n = .ok r → r = List.replicate n 0)

theorem kept_clear [Zero S] [DecidableEq D] {cs : CacheSys C K S} {ident : C → D} (h : cs.Lawful ident) : Kept cs ident cs.clear [] [] := by
  obtain ⟨Inv, look, ⟨h1, h2⟩, _, h4⟩ := h
  refine ⟨by simp, fun c' n r _ hg => ?_⟩
  rw [h4 _ _ _ _ h1 hg, h2]; rfl

theorem storeAll_look [Zero S] [DecidableEq D] {cs : CacheSys C K S} {ident : C → D} {Inv : K → Prop} {look : K → D → Option (List S)}
    (hs : ∀ k c r k', Inv k → cs.store k c r = .ok k' → Inv k' ∧ ∀ d, look k' d = if d = ident c then (look k d).or (some r) else look k d)
    {contacts : List C} {vecs : List (List S)} {k k' : K} (hk : Inv k) (hd : (contacts.map ident).Nodup)
    (h : storeAll cs k contacts vecs = .ok k') :
    Inv k' ∧ (∀ (i : Nat) c, contacts[i]? = some c → look k (ident c) = none → ∃ r, vecs[i]? = some r ∧ look k' (ident c) = some r) ∧
      ∀ d, (∀ c ∈ contacts, ident c ≠ d) → look k' d = look k d := by
  induction contacts generalizing k vecs with
  | nil => simp only [storeAll, Outcome.ok.injEq] at h; subst h; exact ⟨hk, by simp, fun _ _ => rfl⟩
  | cons c cs' ih =>
    cases vecs with
    | nil => simp [storeAll] at h
    | cons r rs =>
      rw [storeAll] at h
      obtain ⟨k1, h1, h2⟩ := Outcome.bind_ok_iff.mp h
      obtain ⟨hk1, hl1⟩ := hs k c r k1 hk h1
      rw [List.map_cons, List.nodup_cons] at hd
      obtain ⟨hk', ha, hb⟩ := ih hk1 hd.2 h2
      have hc : ∀ c' ∈ cs', ident c' ≠ ident c := fun c' hm e => hd.1 (List.mem_map.mpr ⟨c', hm, e⟩)
      refine ⟨hk', fun i c' hi hn => ?_, fun d hd' => ?_⟩
      · cases i with
        | zero =>
          simp only [List.getElem?_cons_zero, Option.some.injEq] at hi
          subst hi
          exact ⟨r, rfl, by rw [hb _ hc, hl1, if_pos rfl, hn]; rfl⟩
        | succ i =>
          simp only [List.getElem?_cons_succ] at hi ⊢
          exact ha i c' hi (by rw [hl1, if_neg (hc c' (List.mem_of_getElem? hi)), hn])
      · rw [hb d fun c' hm => hd' c' (List.mem_cons_of_mem _ hm), hl1, if_neg fun e => hd' c List.mem_cons_self e.symm]

theorem kept_storeAll [Zero S] [DecidableEq D] {cs : CacheSys C K S} {ident : C → D} (hl : cs.Lawful ident) {contacts : List C}
    {vecs : List (List S)} {k : K} (hd : DifferentContacts ident contacts) (h : storeAll cs cs.clear contacts vecs = .ok k) :
    Kept cs ident k contacts vecs := by
  obtain ⟨Inv, look, ⟨h1, h2⟩, h3, h4⟩ := hl
  obtain ⟨hk, ha, hb⟩ := storeAll_look h3 h1 hd h
  refine ⟨fun i c c' n r hi he hg => ?_, fun c' n r hn hg => ?_⟩
  · obtain ⟨r', hr, hlk⟩ := ha i c hi (h2 _)
    rw [h4 _ _ _ _ hk hg, ← he, hlk]
    exact hr
  · rw [h4 _ _ _ _ hk hg, hb _ hn, h2]; rfl

/-- the vectors kept for the problem of the previous step -/
def KeptRecord [Zero S] [DecidableEq D] (cs : CacheSys C K S) (ident : C → D) (vecs : SolveRecord Q V C S → List (List S)) (k : K) :
    Option (SolveRecord Q V C S) → Prop
  | none => Kept cs ident k [] []
  | some p => Kept cs ident k p.contacts (vecs p)

theorem KeptRecord.same [Zero S] [DecidableEq D] {cs : CacheSys C K S} {ident : C → D} {vecs : SolveRecord Q V C S → List (List S)} {k : K}
    {p : SolveRecord Q V C S} (h : KeptRecord cs ident vecs k (some p)) {i n : Nat} {c c' : C} {r : List S} (hi : p.contacts[i]? = some c)
    (he : ident c = ident c') (hg : cs.get k c' n = .ok r) : (vecs p)[i]? = some r := h.1 i c c' n r hi he hg

theorem KeptRecord.new [Zero S] [DecidableEq D] {cs : CacheSys C K S} {ident : C → D} {vecs : SolveRecord Q V C S → List (List S)} {k : K}
    {prev : Option (SolveRecord Q V C S)} (h : KeptRecord cs ident vecs k prev) {n : Nat} {c' : C} {r : List S}
    (hn : ∀ p, prev = some p → ∀ c ∈ p.contacts, ident c ≠ ident c') (hg : cs.get k c' n = .ok r) : r = List.replicate n 0 := by
  cases prev with
  | none => exact h.2 c' n r (by simp) hg
  | some p => exact h.2 c' n r (hn p rfl) hg

/-- reading normal impulses from what was kept -/
theorem warm_of_normal [Zero S] [DecidableEq D] {cs : CacheSys C K S} {ident : C → D} {k : K} {prev : Option (SolveRecord Q V C S)}
    (hk : KeptRecord cs ident (fun p => p.final.alpha.map fun a => [a]) k prev) {r : SolveRecord Q V C S}
    (h : decacheNormal cs k r.contacts = .ok r.start.alpha) : WarmNormal ident prev r := by
  obtain ⟨_, h2⟩ := forEach_ok h
  constructor
  · rintro p i j rfl ⟨c, c', hi, hj, he⟩
    obtain ⟨b, hb, hf⟩ := h2 j c' hj
    obtain ⟨v, hg, hv⟩ := Outcome.bind_ok_iff.mp hf
    have := hk.same hi he hg
    simp only [List.getElem?_map, Option.map_eq_some_iff] at this
    obtain ⟨a, ha, rfl⟩ := this
    have := entry_ok hv
    simp only [List.getElem?_cons_zero, Option.some.injEq] at this
    subst this
    exact ⟨a, ha, hb⟩
  · rintro j ⟨c', hj, hn⟩
    obtain ⟨b, hb, hf⟩ := h2 j c' hj
    obtain ⟨v, hg, hv⟩ := Outcome.bind_ok_iff.mp hf
    rw [hk.new hn hg] at hv
    have := entry_ok hv
    simp only [List.replicate_one, List.getElem?_cons_zero, Option.some.injEq] at this
    rw [hb, this]

/-- reading pairs from what was kept -/
theorem warm_of_pairs [Zero S] [DecidableEq D] {e : FrictionEnv Q V C K S P} {ident : C → D} {k : K} {prev : Option (SolveRecord Q V C S)}
    (hk : KeptRecord e.cache ident (fun p => pairVectors p.final) k prev) {r : SolveRecord Q V C S}
    (h : decachePairs e k r.contacts = .ok r.start) : WarmNormal ident prev r ∧ WarmFriction ident prev r := by
  unfold decachePairs at h
  obtain ⟨ab, h1, h⟩ := Outcome.bind_ok_iff.mp h
  split at h
  case isFalse => cases h
  simp only [Outcome.ok.injEq] at h
  obtain ⟨_, h2⟩ := forEach_ok h1
  have key : ∀ (j : Nat) c', r.contacts[j]? = some c' → ∃ a b v, r.start.alpha[j]? = some a ∧ r.start.beta[j]? = some b ∧
      e.cache.get k c' 2 = .ok v ∧ v[0]? = some a ∧ v[1]? = some b := by
    intro j c' hj
    obtain ⟨⟨a, b⟩, hb, hf⟩ := h2 j c' hj
    obtain ⟨v, hg, hv⟩ := Outcome.bind_ok_iff.mp hf
    obtain ⟨a', ha, hv⟩ := Outcome.bind_ok_iff.mp hv
    obtain ⟨b', hb', hv⟩ := Outcome.bind_ok_iff.mp hv
    cases hv
    refine ⟨a, b, v, ?_, ?_, hg, entry_ok ha, entry_ok hb'⟩ <;> rw [← h] <;> simp [hb]
  have same : ∀ p i j, prev = some p → SamePlace ident p r i j → ∃ a b, p.final.alpha[i]? = some a ∧ p.final.beta[i]? = some b ∧
      r.start.alpha[j]? = some a ∧ r.start.beta[j]? = some b := by
    rintro p i j rfl ⟨c, c', hi, hj, he⟩
    obtain ⟨a, b, v, ha, hb, hg, hv0, hv1⟩ := key j c' hj
    have := hk.same hi he hg
    simp only [pairVectors, List.getElem?_zipWith] at this
    cases hpa : p.final.alpha[i]? with
    | none => simp [hpa] at this
    | some a' =>
      cases hpb : p.final.beta[i]? with
      | none => simp [hpa, hpb] at this
      | some b' =>
        simp only [hpa, hpb, Option.some.injEq] at this
        subst this
        simp only [List.getElem?_cons_zero, List.getElem?_cons_succ, Option.some.injEq] at hv0 hv1
        subst hv0; subst hv1
        exact ⟨_, _, rfl, rfl, ha, hb⟩
  have new : ∀ j, NewPlace ident prev r j → r.start.alpha[j]? = some 0 ∧ r.start.beta[j]? = some 0 := by
    rintro j ⟨c', hj, hn⟩
    obtain ⟨a, b, v, ha, hb, hg, hv0, hv1⟩ := key j c' hj
    rw [hk.new hn hg] at hv0 hv1
    simp only [List.replicate, List.getElem?_cons_zero, List.getElem?_cons_succ, Option.some.injEq] at hv0 hv1
    subst hv0; subst hv1
    exact ⟨ha, hb⟩
  refine ⟨⟨fun p i j hp hs => ?_, fun j hj => (new j hj).1⟩, ⟨fun p i j hp hs => ?_, fun j hj => (new j hj).2⟩⟩
  · obtain ⟨a, b, h1, _, h3, _⟩ := same p i j hp hs; exact ⟨a, h1, h3⟩
  · obtain ⟨a, b, _, h2, _, h4⟩ := same p i j hp hs; exact ⟨b, h2, h4⟩

theorem tripleVectors_get (e : FrictionEnv Q V C K S P) (q : Q) (v : V) {cs : List C} {as bs : List S} {i : Nat} {w : List S}
    (h : (tripleVectors e q v cs as bs)[i]? = some w) : ∃ c x, cs[i]? = some c ∧ (⟨as, bs⟩ : Impulses S).HasTriple i x ∧ w = e.encache3 q v c x := by
  induction i generalizing cs as bs with
  | zero =>
    match cs, as, bs with
    | c :: cs, a :: as, b0 :: b1 :: bs =>
      simp only [tripleVectors, List.getElem?_cons_zero, Option.some.injEq] at h
      exact ⟨c, (a, b0, b1), rfl, ⟨rfl, rfl, rfl⟩, h.symm⟩
    | [], _, _ => simp [tripleVectors] at h
    | _ :: _, [], _ => simp [tripleVectors] at h
    | _ :: _, _ :: _, [] => simp [tripleVectors] at h
    | _ :: _, _ :: _, [_] => simp [tripleVectors] at h
  | succ i ih =>
    match cs, as, bs with
    | c :: cs, a :: as, b0 :: b1 :: bs =>
      simp only [tripleVectors, List.getElem?_cons_succ] at h
      obtain ⟨c, x, h1, ⟨h2, h3, h4⟩, h5⟩ := ih h
      exact ⟨c, x, h1, ⟨h2, h3, h4⟩, h5⟩
    | [], _, _ => simp [tripleVectors] at h
    | _ :: _, [], _ => simp [tripleVectors] at h
    | _ :: _, _ :: _, [] => simp [tripleVectors] at h
    | _ :: _, _ :: _, [_] => simp [tripleVectors] at h

theorem flatMap_pair_get {α : Type} (l : List (α × α × α)) (j : Nat) (x : α × α × α) (h : l[j]? = some x) :
    (l.flatMap fun x => [x.2.1, x.2.2])[2 * j]? = some x.2.1 ∧ (l.flatMap fun x => [x.2.1, x.2.2])[2 * j + 1]? = some x.2.2 := by
  induction l generalizing j with
  | nil => simp at h
  | cons y l ih =>
    cases j with
    | zero => simp only [List.getElem?_cons_zero, Option.some.injEq] at h; subst h; exact ⟨rfl, rfl⟩
    | succ j => exact ih j h

/-- reading triples from what was kept -/
theorem warm_of_triples [Zero S] [DecidableEq S] [DecidableEq D] {e : FrictionEnv Q V C K S P} {ident : C → D} {k : K}
    {prev : Option (SolveRecord Q V C S)} (rel : Q → V → C → S × S × S → Q → V → C → S × S × S → Prop)
    (hrel : ∀ q v c x q' v' c' y, (if ∀ z ∈ e.encache3 q v c x, z = 0 then .ok (0, 0, 0) else e.decache3 q' v' c' (e.encache3 q v c x)) = .ok y →
      rel q v c x q' v' c' y)
    (hk : KeptRecord e.cache ident (fun p => tripleVectors e p.q p.v p.contacts p.final.alpha p.final.beta) k prev) {r : SolveRecord Q V C S}
    (h : decacheTriples e r.q r.v k r.contacts = .ok r.start) : WarmTriple ident rel prev r := by
  unfold decacheTriples at h
  obtain ⟨abb, h1, h⟩ := Outcome.bind_ok_iff.mp h
  split at h
  case isFalse => cases h
  simp only [Outcome.ok.injEq] at h
  obtain ⟨_, h2⟩ := forEach_ok h1
  have key : ∀ (j : Nat) c', r.contacts[j]? = some c' → ∃ y v, r.start.HasTriple j y ∧ e.cache.get k c' 6 = .ok v ∧
      (if ∀ z ∈ v, z = 0 then .ok (0, 0, 0) else e.decache3 r.q r.v c' v) = .ok y := by
    intro j c' hj
    obtain ⟨y, hb, hf⟩ := h2 j c' hj
    obtain ⟨v, hg, hv⟩ := Outcome.bind_ok_iff.mp hf
    have := flatMap_pair_get abb j y hb
    refine ⟨y, v, ⟨?_, ?_, ?_⟩, hg, hv⟩
    · rw [← h]; simp [hb]
    · rw [← h]; exact this.1
    · rw [← h]; exact this.2
  constructor
  · rintro p i j c c' rfl hi hj he
    obtain ⟨y, v, hy, hg, hv⟩ := key j c' hj
    obtain ⟨c2, x, hc2, hx, hw⟩ := tripleVectors_get e _ _ (hk.same hi he hg)
    rw [hi] at hc2
    cases hc2
    subst hw
    exact ⟨x, y, hx, hy, hrel _ _ _ _ _ _ _ _ hv⟩
  · rintro j ⟨c', hj, hn⟩
    obtain ⟨y, v, hy, hg, hv⟩ := key j c' hj
    rw [hk.new hn hg, if_pos (fun z hz => List.eq_of_mem_replicate hz)] at hv
    cases hv
    exact hy

/-- two consecutive results of a run come from two consecutive steps -/
theorem runMap_consecutive {σ R : Type} {flow : Nat → σ → Outcome (σ × R)} {start N : Nat} {s s' : σ} {rs : List R}
    (h : runMap flow start N s = .ok (s', rs)) : rs.length = N ∧ ∀ (t : Nat) r, rs[t]? = some r → ∃ a b it, flow it a = .ok (b, r) ∧
      (∀ r', rs[t + 1]? = some r' → ∃ c it', flow it' b = .ok (c, r')) ∧ (t + 1 = N → b = s') := by
  induction N generalizing s' rs with
  | zero => simp only [runMap, Outcome.ok.injEq, Prod.mk.injEq] at h; obtain ⟨_, rfl⟩ := h; simp
  | succ N ih =>
    rw [runMap] at h
    obtain ⟨⟨s1, rs1⟩, h1, h⟩ := Outcome.bind_ok_iff.mp h
    obtain ⟨⟨s2, r2⟩, h2, h⟩ := Outcome.bind_ok_iff.mp h
    cases h
    obtain ⟨hl, ih⟩ := ih h1
    refine ⟨by simp [hl], fun t r ht => ?_⟩
    by_cases hlt : t < N
    · rw [List.getElem?_append_left (by omega)] at ht
      obtain ⟨a, b, it, hf, hn, hlast⟩ := ih t r ht
      refine ⟨a, b, it, hf, fun r' hr' => ?_, by omega⟩
      by_cases hlt' : t + 1 < N
      · rw [List.getElem?_append_left (by omega)] at hr'
        exact hn r' hr'
      · have e : t + 1 = N := by omega
        rw [List.getElem?_append_right (by omega), hl, e, Nat.sub_self] at hr'
        simp only [List.getElem?_cons_zero, Option.some.injEq] at hr'
        subst hr'
        exact ⟨_, _, by rw [hlast e]; exact h2⟩
    · rw [List.getElem?_append_right (by omega)] at ht
      have e : t = N := by
        by_contra hne
        have : t - rs1.length ≥ 1 := by omega
        rw [List.getElem?_eq_none (by simpa using this)] at ht
        cases ht
      subst e
      rw [hl, Nat.sub_self] at ht
      simp only [List.getElem?_cons_zero, Option.some.injEq] at ht
      subst ht
      refine ⟨s1, _, _, h2, fun r' hr' => ?_, fun _ => rfl⟩
      rw [List.getElem?_eq_none (by simp [hl])] at hr'
      cases hr'

theorem consecutive_of_step {σ R : Type} {flow : Nat → σ → Outcome (σ × Option R)} {start N : Nat} {s s' : σ} {rs : List (Option R)}
    (h : runMap flow start N s = .ok (s', rs)) (rel : Option R → R → Prop)
    (hstep : ∀ it it' a b c prev r, flow it a = .ok (b, prev) → flow it' b = .ok (c, some r) → rel prev r) : Consecutive rs rel := by
  intro t prev r h1 h2
  obtain ⟨a, b, it, hf, hn, _⟩ := (runMap_consecutive h).2 t prev h1
  obtain ⟨c, it', hc⟩ := hn _ h2
  exact hstep it it' a b c prev r hf hc

/-! ## Rotating a cached force to the new contact normal -/

def dot3 (a b : Vec3) : ℝ := a 0 * b 0 + a 1 * b 1 + a 2 * b 2

theorem dot3_eq (a b : Vec3) : a ⬝ᵥ b = dot3 a b := by simp [dotProduct, Fin.sum_univ_three, dot3]

theorem cross3_0 (a b : Vec3) : crossProduct a b 0 = a 1 * b 2 - a 2 * b 1 := by simp [cross_apply]
theorem cross3_1 (a b : Vec3) : crossProduct a b 1 = a 2 * b 0 - a 0 * b 2 := by simp [cross_apply]
theorem cross3_2 (a b : Vec3) : crossProduct a b 2 = a 0 * b 1 - a 1 * b 0 := by simp [cross_apply]

theorem rotate_0 (q : Quat) (v : Vec3) : q.rotate v 0 = v 0 + q.w * (2 * (q.y * v 2 - q.z * v 1)) +
    (q.y * (2 * (q.x * v 1 - q.y * v 0)) - q.z * (2 * (q.z * v 0 - q.x * v 2))) := by
  simp only [Quat.rotate, Pi.add_apply, Pi.smul_apply, cross3_0, cross3_1, cross3_2, smul_eq_mul]; rfl
theorem rotate_1 (q : Quat) (v : Vec3) : q.rotate v 1 = v 1 + q.w * (2 * (q.z * v 0 - q.x * v 2)) +
    (q.z * (2 * (q.y * v 2 - q.z * v 1)) - q.x * (2 * (q.x * v 1 - q.y * v 0))) := by
  simp only [Quat.rotate, Pi.add_apply, Pi.smul_apply, cross3_0, cross3_1, cross3_2, smul_eq_mul]; rfl
theorem rotate_2 (q : Quat) (v : Vec3) : q.rotate v 2 = v 2 + q.w * (2 * (q.x * v 1 - q.y * v 0)) +
    (q.x * (2 * (q.z * v 0 - q.x * v 2)) - q.y * (2 * (q.y * v 2 - q.z * v 1))) := by
  simp only [Quat.rotate, Pi.add_apply, Pi.smul_apply, cross3_0, cross3_1, cross3_2, smul_eq_mul]; rfl

/-- unit quaternions preserve the scalar product -/
theorem rotate_dot (q : Quat) (hq : q.w ^ 2 + q.x ^ 2 + q.y ^ 2 + q.z ^ 2 = 1) (v v' : Vec3) : dot3 (q.rotate v) (q.rotate v') = dot3 v v' := by
  simp only [dot3, rotate_0, rotate_1, rotate_2]
  linear_combination (4 * ((q.y * v 2 - q.z * v 1) * (q.y * v' 2 - q.z * v' 1) + (q.z * v 0 - q.x * v 2) * (q.z * v' 0 - q.x * v' 2) +
    (q.x * v 1 - q.y * v 0) * (q.x * v' 1 - q.y * v' 0))) * hq

theorem normalized3_unit {v : Vec3} (h : dot3 v v = 1) : normalized3 v = v := by
  have : norm3 v = 1 := by
    unfold norm3
    have : v 0 * v 0 + v 1 * v 1 + v 2 * v 2 = 1 := h
    rw [this, Real.sqrt_one]
  unfold normalized3
  rw [this, if_pos one_pos]
  funext k
  simp

/-- away from opposite directions the quaternion is a unit quaternion that turns the first vector into the second -/
theorem fromTwoVectors_spec (axis : Vec3 → Vec3 → Vec3) {a b : Vec3} (ha : dot3 a a = 1) (hb : dot3 b b = 1)
    (hc : -1 + 1 / 1000000000000 ≤ dot3 b a) :
    let q := Quat.fromTwoVectors axis a b
    (q.w ^ 2 + q.x ^ 2 + q.y ^ 2 + q.z ^ 2 = 1) ∧ q.rotate a = b := by
  simp only [Quat.fromTwoVectors, normalized3_unit ha, normalized3_unit hb, dot3_eq, if_neg (not_lt.mpr hc)]
  have hpos : 0 < (1 + dot3 b a) * 2 := by have : (0 : ℝ) < 1 / 1000000000000 := by norm_num
                                           linarith
  set s := Real.sqrt ((1 + dot3 b a) * 2) with hs
  have hs2 : s * s = (1 + dot3 b a) * 2 := Real.mul_self_sqrt hpos.le
  have hsp : 0 < s := Real.sqrt_pos.mpr hpos
  have hinv : s * (1 / s) = 1 := by field_simp
  set k := 1 / s with hk
  simp only [cross3_0, cross3_1, cross3_2]
  simp only [dot3] at ha hb hs2
  have hk2 : k * k * ((1 + (b 0 * a 0 + b 1 * a 1 + b 2 * a 2)) * 2) = 1 := by
    rw [← hs2]; linear_combination (s * k + 1) * hinv
  constructor
  · have h1 : (a 1 * b 2 - a 2 * b 1) ^ 2 + (a 2 * b 0 - a 0 * b 2) ^ 2 + (a 0 * b 1 - a 1 * b 0) ^ 2 =
        1 - (b 0 * a 0 + b 1 * a 1 + b 2 * a 2) ^ 2 := by
      linear_combination (b 0 * b 0 + b 1 * b 1 + b 2 * b 2) * ha + hb
    linear_combination k ^ 2 * h1 + (1 / 4) * hs2 + (1 - (b 0 * a 0 + b 1 * a 1 + b 2 * a 2)) / 2 * hk2
  · have e : ∀ i, i = 0 ∨ i = 1 ∨ i = 2 → Quat.rotate ⟨s * (1 / 2), (a 1 * b 2 - a 2 * b 1) * k, (a 2 * b 0 - a 0 * b 2) * k, (a 0 * b 1 - a 1 * b 0) * k⟩ a i =
        b i := by
      intro i hi
      rcases hi with rfl | rfl | rfl
      · rw [rotate_0]
        linear_combination (b 0 - (b 0 * a 0 + b 1 * a 1 + b 2 * a 2) * a 0) * hinv + s * k * b 0 * ha +
          a 0 * ((b 0 * a 0 + b 1 * a 1 + b 2 * a 2) - 1) * hk2 +
          2 * k ^ 2 * (-(a 0) * (b 0 * b 0 + b 1 * b 1 + b 2 * b 2)) * ha +
          2 * k ^ 2 * (-(a 0)) * hb
      · rw [rotate_1]
        linear_combination (b 1 - (b 0 * a 0 + b 1 * a 1 + b 2 * a 2) * a 1) * hinv + s * k * b 1 * ha +
          a 1 * ((b 0 * a 0 + b 1 * a 1 + b 2 * a 2) - 1) * hk2 +
          2 * k ^ 2 * (-(a 1) * (b 0 * b 0 + b 1 * b 1 + b 2 * b 2)) * ha +
          2 * k ^ 2 * (-(a 1)) * hb
      · rw [rotate_2]
        linear_combination (b 2 - (b 0 * a 0 + b 1 * a 1 + b 2 * a 2) * a 2) * hinv + s * k * b 2 * ha +
          a 2 * ((b 0 * a 0 + b 1 * a 1 + b 2 * a 2) - 1) * hk2 +
          2 * k ^ 2 * (-(a 2) * (b 0 * b 0 + b 1 * b 1 + b 2 * b 2)) * ha +
          2 * k ^ 2 * (-(a 2)) * hb
    funext i
    apply e
    fin_cases i <;> simp

end Scisim
