import Verif.Spec.ForceOutput
import Verif.Lemmas.Maps
/-!
# Lemmas about the force files
-/

namespace Scisim
namespace Forces

variable {V : Type} [Add V] [SMul ℝ V]

theorem forEach_all {A B : Type} {f : A → Outcome B} : ∀ {l : List A}, (∀ a ∈ l, ∃ b, f a = .ok b) → ∃ bs, forEach f l = .ok bs
  | [], _ => ⟨[], rfl⟩
  | a :: l, h => by
    obtain ⟨b, hb⟩ := h a (by simp)
    obtain ⟨bs, hbs⟩ := forEach_all (l := l) fun a' ha' => h a' (by simp [ha'])
    exact ⟨b :: bs, by rw [forEach, hb, Outcome.bind, hbs]; rfl⟩

theorem entry_some {S : Type} {l : List S} {i : Nat} {x : S} (h : l[i]? = some x) : entry l i = .ok x := by unfold entry; rw [h]

/-- The file in terms of the contacts -/
theorem export_ok {dims : Nat} {cons : List (View V)} {bases : List V} {alpha beta : List ℝ} {dt : ℝ} {f : File V}
    (h : exportForces dims cons bases alpha beta dt = .ok f) :
    f.Regular ∧ f.count = cons.length ∧ ∀ k c, cons[k]? = some c → ∃ i p n g, f.column k = some ⟨i.1, i.2, p, n, g⟩ ∧ collisionIndices c = .ok i ∧ c.point = .ok p ∧
      bases[dims * k]? = some n ∧ forceColumn dims bases alpha beta k = .ok g := by
  unfold exportForces at h
  split at h
  · rename_i h0
    cases h
    refine ⟨rfl, h0.symm, fun k c hk => ?_⟩
    rw [List.length_eq_zero_iff.mp h0] at hk
    cases hk
  · rename_i h0
    obtain ⟨is, h1, h⟩ := Outcome.bind_ok_iff.mp h
    obtain ⟨ps, h2, h⟩ := Outcome.bind_ok_iff.mp h
    obtain ⟨ns, h3, h⟩ := Outcome.bind_ok_iff.mp h
    obtain ⟨gs, h4, h⟩ := Outcome.bind_ok_iff.mp h
    cases h
    obtain ⟨l1, e1⟩ := forEach_ok h1
    obtain ⟨l2, e2⟩ := forEach_ok h2
    obtain ⟨l3, e3⟩ := forEach_ok h3
    obtain ⟨l4, e4⟩ := forEach_ok h4
    rw [List.length_range] at l3 l4
    refine ⟨⟨h0, l1, l2, l3, l4⟩, rfl, fun k c hk => ?_⟩
    have hr : (List.range cons.length)[k]? = some k := List.getElem?_range (List.getElem?_eq_some_iff.mp hk).1
    obtain ⟨i, hi1, hi2⟩ := e1 k c hk
    obtain ⟨p, hp1, hp2⟩ := e2 k c hk
    obtain ⟨n, hn1, hn2⟩ := e3 k k hr
    obtain ⟨g, hg1, hg2⟩ := e4 k k hr
    exact ⟨i, p, n, g, by simp only [File.column, hi1, hp1, hn1, hg1], hi2, hp2, entry_ok hn2, hg2⟩

/-- The same for the file of a step without friction -/
theorem exportImpacts_ok {cons : List (View V)} {alpha : List ℝ} {dt : ℝ} {f : File V} (h : exportImpacts cons alpha dt = .ok f) :
    f.Regular ∧ f.count = cons.length ∧ ∀ k c, cons[k]? = some c → ∃ i p n a, f.column k = some ⟨i.1, i.2, p, n, a • n⟩ ∧ collisionIndices c = .ok i ∧
      c.point = .ok p ∧ c.normal = .ok n ∧ alpha[k]? = some a := by
  unfold exportImpacts at h
  split at h
  · rename_i h0
    cases h
    refine ⟨rfl, h0.symm, fun k c hk => ?_⟩
    rw [List.length_eq_zero_iff.mp h0] at hk
    cases hk
  · rename_i h0
    obtain ⟨ns, h3, h⟩ := Outcome.bind_ok_iff.mp h
    obtain ⟨is, h1, h⟩ := Outcome.bind_ok_iff.mp h
    obtain ⟨ps, h2, h⟩ := Outcome.bind_ok_iff.mp h
    obtain ⟨gs, h4, h⟩ := Outcome.bind_ok_iff.mp h
    cases h
    unfold impactBases at h3
    obtain ⟨l1, e1⟩ := forEach_ok h1
    obtain ⟨l2, e2⟩ := forEach_ok h2
    obtain ⟨l3, e3⟩ := forEach_ok h3
    obtain ⟨l4, e4⟩ := forEach_ok h4
    rw [List.length_range] at l4
    refine ⟨⟨h0, l1, l2, l3, l4⟩, rfl, fun k c hk => ?_⟩
    have hr : (List.range cons.length)[k]? = some k := List.getElem?_range (List.getElem?_eq_some_iff.mp hk).1
    obtain ⟨i, hi1, hi2⟩ := e1 k c hk
    obtain ⟨p, hp1, hp2⟩ := e2 k c hk
    obtain ⟨n, hn1, hn2⟩ := e3 k c hk
    obtain ⟨g, hg1, hg2⟩ := e4 k k hr
    obtain ⟨a, ha, hg2⟩ := Outcome.bind_ok_iff.mp hg2
    obtain ⟨n', hn', hg2⟩ := Outcome.bind_ok_iff.mp hg2
    cases hg2
    have hnn : n' = n := Option.some.inj ((entry_ok hn').symm.trans hn1)
    subst hnn
    exact ⟨i, p, n', a, by simp only [File.column, hi1, hp1, hn1, hg1], hi2, hp2, hn2, entry_ok ha⟩

theorem forceColumn3 {bases : List Vec3} {alpha beta : List ℝ} {k : Nat} {g : Vec3} (h : forceColumn 3 bases alpha beta k = .ok g) :
    ∃ a b1 b2 n t1 t2, alpha[k]? = some a ∧ beta[2 * k]? = some b1 ∧ beta[2 * k + 1]? = some b2 ∧ bases[3 * k]? = some n ∧ bases[3 * k + 1]? = some t1 ∧
      bases[3 * k + 2]? = some t2 ∧ g = a • n + b1 • t1 + b2 • t2 := by
  unfold forceColumn at h
  obtain ⟨a, ha, h⟩ := Outcome.bind_ok_iff.mp h
  obtain ⟨n, hn, h⟩ := Outcome.bind_ok_iff.mp h
  have hr : List.range (3 - 1) = [0, 1] := by decide
  rw [hr, List.foldl, List.foldl, List.foldl] at h
  obtain ⟨f2, h2, h⟩ := Outcome.bind_ok_iff.mp h
  obtain ⟨f1, h1, h2⟩ := Outcome.bind_ok_iff.mp h2
  cases h1
  obtain ⟨b1, hb1, h2⟩ := Outcome.bind_ok_iff.mp h2
  obtain ⟨t1, ht1, h2⟩ := Outcome.bind_ok_iff.mp h2
  cases h2
  obtain ⟨b2, hb2, h⟩ := Outcome.bind_ok_iff.mp h
  obtain ⟨t2, ht2, h⟩ := Outcome.bind_ok_iff.mp h
  cases h
  exact ⟨a, b1, b2, n, t1, t2, entry_ok ha, entry_ok hb1, entry_ok hb2, entry_ok hn, entry_ok ht1, entry_ok ht2, rfl⟩

theorem forceColumn2 {bases : List (V2 ℝ)} {alpha beta : List ℝ} {k : Nat} {g : V2 ℝ} (h : forceColumn 2 bases alpha beta k = .ok g) :
    ∃ a b n t, alpha[k]? = some a ∧ beta[k]? = some b ∧ bases[2 * k]? = some n ∧ bases[2 * k + 1]? = some t ∧ g = a • n + b • t := by
  unfold forceColumn at h
  obtain ⟨a, ha, h⟩ := Outcome.bind_ok_iff.mp h
  obtain ⟨n, hn, h⟩ := Outcome.bind_ok_iff.mp h
  have hr : List.range (2 - 1) = [0] := by decide
  rw [hr, List.foldl, List.foldl] at h
  obtain ⟨f1, h1, h⟩ := Outcome.bind_ok_iff.mp h
  cases h1
  obtain ⟨b, hb, h⟩ := Outcome.bind_ok_iff.mp h
  obtain ⟨t, ht, h⟩ := Outcome.bind_ok_iff.mp h
  cases h
  have hk : (2 - 1) * k + 0 = k := by omega
  rw [hk] at hb
  exact ⟨a, b, n, t, entry_ok ha, entry_ok hb, entry_ok hn, entry_ok ht, rfl⟩

theorem bases3_get {A : Type} (f : A → V × V × V) : ∀ (l : List A) (k : Nat) (a : A), l[k]? = some a →
    (l.flatMap fun a => [(f a).1, (f a).2.1, (f a).2.2])[3 * k]? = some (f a).1 ∧
    (l.flatMap fun a => [(f a).1, (f a).2.1, (f a).2.2])[3 * k + 1]? = some (f a).2.1 ∧
    (l.flatMap fun a => [(f a).1, (f a).2.1, (f a).2.2])[3 * k + 2]? = some (f a).2.2
  | [], k, a, h => by cases h
  | b :: l, 0, a, h => by cases h; exact ⟨rfl, rfl, rfl⟩
  | b :: l, k + 1, a, h => by
    obtain ⟨h1, h2, h3⟩ := bases3_get f l k a h
    rw [show 3 * (k + 1) = 3 * k + 3 from by omega]
    exact ⟨h1, h2, h3⟩

theorem bases2_get {A : Type} (f g : A → V) : ∀ (l : List A) (k : Nat) (a : A), l[k]? = some a →
    (l.flatMap fun a => [f a, g a])[2 * k]? = some (f a) ∧ (l.flatMap fun a => [f a, g a])[2 * k + 1]? = some (g a)
  | [], k, a, h => by cases h
  | b :: l, 0, a, h => by cases h; exact ⟨rfl, rfl⟩
  | b :: l, k + 1, a, h => by
    obtain ⟨h1, h2⟩ := bases2_get f g l k a h
    rw [show 2 * (k + 1) = 2 * k + 2 from by omega]
    exact ⟨h1, h2⟩

/-- Two sums over the contacts agree if they do contact by contact. -/
theorem total_eq {C V W : Type} [AddCommMonoid W] {effect : Column V → W} {f : File V} {cs : List C} (hn : f.count = cs.length) (term : Nat → W)
    (h : ∀ k c, cs[k]? = some c → ∃ col, f.column k = some col ∧ effect col = term k) : f.total effect = ∑ k ∈ Finset.range cs.length, term k := by
  unfold File.total
  rw [hn]
  refine Finset.sum_congr rfl fun k hk => ?_
  obtain ⟨col, h1, h2⟩ := h k _ (List.getElem?_eq_getElem (Finset.mem_range.mp hk))
  rw [h1]
  exact h2

end Forces

/-- A matrix times a vector, as a sum over the columns -/
theorem mulColumns_eq {ι V : Type} [AddCommMonoid V] [SMul ℝ V] (b : ι) : ∀ (cols : List (ι → V)) (x : List ℝ), cols.length = x.length →
    mulColumns cols x b = columnsTimes cols x b
  | [], [], _ => rfl
  | c :: cols, a :: x, h => by
    have ih := mulColumns_eq b cols x (by simpa using h)
    unfold mulColumns columnsTimes at ih ⊢
    rw [List.length_cons, Finset.sum_range_succ', List.zipWith_cons_cons, List.sum_cons, ih, add_comm]
    rfl

/-- The same for a matrix with two columns for each contact -/
theorem columnsTimes_pairs {ι V : Type} [AddCommMonoid V] [SMul ℝ V] (b : ι) : ∀ (l : List (List (ι → V))) (x : List ℝ), (∀ p ∈ l, p.length = 2) →
    2 * l.length = x.length → columnsTimes l.flatten x b = ∑ k ∈ Finset.range l.length, match l[k]?, x[2 * k]?, x[2 * k + 1]? with
      | some [c, d], some y, some z => y • c b + z • d b
      | _, _, _ => 0
  | [], x, _, _ => rfl
  | p :: l, x, hp, hx => by
    obtain ⟨c, d, rfl⟩ := List.length_eq_two.mp (hp p (by simp))
    obtain ⟨y, z, x, rfl⟩ : ∃ y z x', x = y :: z :: x' := by
      match x, hx with
      | [], h => simp at h
      | [_], h => simp at h
      | y :: z :: x', _ => exact ⟨y, z, x', rfl⟩
    have ih := columnsTimes_pairs b l x (fun p h => hp p (by simp [h])) (by simp at hx; omega)
    unfold columnsTimes at ih ⊢
    rw [List.flatten_cons, List.length_cons, Finset.sum_range_succ' (n := l.length)]
    have e : ([c, d] ++ l.flatten).length = l.flatten.length + 1 + 1 := rfl
    rw [e, Finset.sum_range_succ', Finset.sum_range_succ']
    have e1 : ∀ k, ([c, d] ++ l.flatten)[k + 1 + 1]? = l.flatten[k]? := fun k => rfl
    have e2 : ∀ k, (y :: z :: x)[k + 1 + 1]? = x[k]? := fun k => rfl
    have e3 : ∀ k, (y :: z :: x)[2 * (k + 1)]? = x[2 * k]? := fun k => by rw [show 2 * (k + 1) = 2 * k + 1 + 1 by omega]; rfl
    have e4 : ∀ k, (y :: z :: x)[2 * (k + 1) + 1]? = x[2 * k + 1]? := fun k => by rw [show 2 * (k + 1) + 1 = 2 * k + 1 + 1 + 1 by omega]; rfl
    have e5 : ∀ k, ([c, d] :: l)[k + 1]? = l[k]? := fun k => rfl
    simp only [e1, e2, e3, e4, e5]
    rw [ih, add_assoc]
    congr 1
    exact add_comm _ _

end Scisim
