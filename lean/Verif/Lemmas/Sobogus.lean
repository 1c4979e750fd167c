import Mathlib.Tactic.FinCases
import Mathlib.Tactic.Ring
import Mathlib.Tactic.LinearCombination
import Verif.Spec.Sobogus
/-!
# Lemmas about the So-bogus wrapper
-/

namespace Scisim
namespace Sobogus

open Matrix

variable {K : Type} {k : Kind}

/-! ## Vectors and loops -/

theorem DVec.get_ok {x : DVec K} {i : Nat} (h : i < x.size) : x.get i = .ok (x.val i) := by simp [DVec.get, h]

theorem DVec.block_ok {d : Nat} {x : DVec K} {idx : Fin d → Nat} (h : ∀ c, idx c < x.size) : x.block idx = .ok fun c => x.val (idx c) := by
  simp [DVec.block, h]

theorem DVec.set_ok {x : DVec K} {i : Nat} (a : K) (h : i < x.size) : x.set i a = .ok { x with val := Function.update x.val i a } := by
  simp [DVec.set, h]

theorem loop_inv {S : Type} {body : Nat → S → Outcome S} {n : Nat} {s : S} (P : Nat → S → Prop) (h0 : P 0 s)
    (hs : ∀ i < n, ∀ t, P i t → ∃ t', body i t = .ok t' ∧ P (i + 1) t') : ∃ t, loopTo body n s = .ok t ∧ P n t := by
  induction n with
  | zero => exact ⟨s, rfl, h0⟩
  | succ n ih =>
    obtain ⟨t, ht, hP⟩ := ih fun i hi => hs i (by omega)
    obtain ⟨t', ht', hP'⟩ := hs n (by omega) t hP
    exact ⟨t', by simp [loopTo, ht, Outcome.bind, ht'], hP'⟩

theorem setMany_spec (l : List (Nat × K)) (x : DVec K) (hlt : ∀ p ∈ l, p.1 < x.size) (hnd : (l.map Prod.fst).Nodup) :
    ∃ y, x.setMany l = .ok y ∧ y.size = x.size ∧ (∀ p ∈ l, y.val p.1 = p.2) ∧ ∀ a, (∀ p ∈ l, p.1 ≠ a) → y.val a = x.val a := by
  induction l generalizing x with
  | nil => exact ⟨x, rfl, rfl, by simp, fun _ _ => rfl⟩
  | cons p l ih =>
    obtain ⟨i, a⟩ := p
    simp only [List.map_cons, List.nodup_cons] at hnd
    obtain ⟨y, hy, hsz, hin, hout⟩ := ih { x with val := Function.update x.val i a } (fun p hp => hlt p (by simp [hp])) hnd.2
    refine ⟨y, ?_, hsz, ?_, ?_⟩
    · simp only [DVec.setMany]
      rw [DVec.set_ok a (hlt (i, a) (by simp))]
      exact hy
    · intro p hp
      rcases List.mem_cons.mp hp with rfl | hp
      · have := hout i fun p hp heq => hnd.1 (List.mem_map.mpr ⟨p, hp, heq⟩)
        simpa using this
      · exact hin p hp
    · intro b hb
      rw [hout b fun p hp => hb p (by simp [hp])]
      have : b ≠ i := fun h => hb (i, a) (by simp) h.symm
      simp [Function.update_of_ne this]

theorem setBlock_spec {d : Nat} (x : DVec K) (idx : Fin d → Nat) (b : Fin d → K) (hlt : ∀ c, idx c < x.size) (hinj : Function.Injective idx) :
    ∃ y, x.setBlock idx b = .ok y ∧ y.size = x.size ∧ (∀ c, y.val (idx c) = b c) ∧ ∀ a, (∀ c, idx c ≠ a) → y.val a = x.val a := by
  obtain ⟨y, hy, hsz, hin, hout⟩ := setMany_spec (List.ofFn fun c => (idx c, b c)) x
    (by simpa [List.mem_ofFn, Set.forall_mem_range] using hlt)
    (by simpa [List.map_ofFn, Function.comp_def, List.nodup_ofFn] using hinj)
  refine ⟨y, hy, hsz, fun c => hin (idx c, b c) (List.mem_ofFn.mpr ⟨c, rfl⟩), fun a ha => hout a ?_⟩
  simpa [List.mem_ofFn, Set.forall_mem_range] using ha

/-- A loop whose steps write disjoint blocks -/
theorem loop_setBlock {d : Nat} (idx : Nat → Fin d → Nat) (val : Nat → Fin d → K) (n : Nat) (x : DVec K) (body : Nat → DVec K → Outcome (DVec K))
    (hb : ∀ i < n, ∀ s, s.size = x.size → body i s = s.setBlock (idx i) (val i)) (hlt : ∀ i < n, ∀ c, idx i c < x.size)
    (hinj : ∀ i < n, ∀ i' < n, ∀ c c', idx i c = idx i' c' → i = i' ∧ c = c') :
    ∃ y, loopTo body n x = .ok y ∧ y.size = x.size ∧ (∀ i < n, ∀ c, y.val (idx i c) = val i c) ∧
      ∀ a, (∀ i < n, ∀ c, idx i c ≠ a) → y.val a = x.val a := by
  obtain ⟨y, hy, hsz, hin, hout⟩ := loop_inv (body := body) (n := n) (s := x)
    (fun m y => y.size = x.size ∧ (∀ i < m, i < n → ∀ c, y.val (idx i c) = val i c) ∧ ∀ a, (∀ i < m, i < n → ∀ c, idx i c ≠ a) → y.val a = x.val a)
    ⟨rfl, by omega, fun _ _ => rfl⟩ (by
      rintro m hm y ⟨hsz, hin, hout⟩
      obtain ⟨z, hz, hzs, hzin, hzout⟩ := setBlock_spec y (idx m) (val m) (fun c => by rw [hsz]; exact hlt m hm c)
        (fun c c' h => (hinj m hm m hm c c' h).2)
      refine ⟨z, by rw [hb m hm y hsz, hz], by rw [hzs, hsz], fun i hi hin' c => ?_, fun a ha => ?_⟩
      · rcases Nat.lt_succ_iff_lt_or_eq.mp hi with hi | rfl
        · rw [hzout _ fun c' h => by have := (hinj m hm i (by omega) c' c h).1; omega]
          exact hin i hi hin' c
        · exact hzin c
      · rw [hzout a (ha m (by omega) hm), hout a fun i hi hi' => ha i (by omega) hi'])
  exact ⟨y, hy, hsz, fun i hi => hin i hi hi, fun a ha => hout a fun i hi _ => ha i hi⟩

theorem mapO_ok {α β : Type} {f : α → Outcome β} {l : List α} (g : α → β) (h : ∀ a ∈ l, f a = .ok (g a)) : mapO f l = .ok (l.map g) := by
  induction l with
  | nil => rfl
  | cons a l ih =>
    simp only [mapO, h a (by simp), Outcome.bind, List.map_cons]
    rw [ih fun b hb => h b (by simp [hb])]

/-! ## Layout -/

theorem dof_pos (k : Kind) : 0 < k.dof := by cases k <;> decide

theorem vIdx_lt (k : Kind) {n b c : Nat} (hb : b < n) (hc : c < k.dof) : k.vIdx n b c < k.dof * n := by
  cases k <;> simp only [Kind.vIdx, Kind.dof] at *
  · omega
  · omega
  · split <;> omega

theorem vIdx_inj (k : Kind) {n b b' c c' : Nat} (hb : b < n) (hb' : b' < n) (hc : c < k.dof) (hc' : c' < k.dof)
    (h : k.vIdx n b c = k.vIdx n b' c') : b = b' ∧ c = c' := by
  cases k <;> simp only [Kind.vIdx, Kind.dof] at *
  · omega
  · omega
  · split at h <;> split at h <;> omega

theorem qIdx_lt (k : Kind) {n b c : Nat} (hb : b < n) (hc : c < k.qdof) : k.qIdx n b c < k.qdof * n := by
  cases k <;> simp only [Kind.qIdx, Kind.qdof] at *
  · omega
  · omega
  · split <;> omega

theorem qIdx_inj (k : Kind) {n b b' c c' : Nat} (hb : b < n) (hb' : b' < n) (hc : c < k.qdof) (hc' : c' < k.qdof)
    (h : k.qIdx n b c = k.qIdx n b' c') : b = b' ∧ c = c' := by
  cases k <;> simp only [Kind.qIdx, Kind.qdof] at *
  · omega
  · omega
  · split at h <;> split at h <;> omega

theorem flat_lt {d n b c : Nat} (hb : b < n) (hc : c < d) : d * b + c < d * n := by
  calc d * b + c < d * b + d := by omega
    _ = d * (b + 1) := by ring
    _ ≤ d * n := Nat.mul_le_mul_left d (by omega)

theorem flat_inj {d b b' c c' : Nat} (hc : c < d) (hc' : c' < d) (h : d * b + c = d * b' + c') : b = b' ∧ c = c' := by
  have h1 := congrArg (· / d) h
  have h2 := congrArg (· % d) h
  simp only [Nat.mul_add_div (by omega : 0 < d), Nat.div_eq_of_lt hc, Nat.div_eq_of_lt hc'] at h1
  simp only [Nat.mul_add_mod, Nat.mod_eq_of_lt hc, Nat.mod_eq_of_lt hc'] at h2
  omega

theorem bodyVel_eq (n : Nat) (v : DVec K) (b : Nat) (c : Fin k.dof) : bodyVel k n v b c = v.val (k.vIdx n b c) := by
  cases k
  · change Fin 2 at c; fin_cases c <;> rfl
  · change Fin 3 at c; fin_cases c <;> rfl
  · change Fin 6 at c; fin_cases c <;> rfl

theorem bodyPos_eq (n : Nat) (q : DVec K) (b : Nat) (c : Fin k.qdof) : bodyPos k n q b c = q.val (k.qIdx n b c) := by
  cases k
  · change Fin 2 at c; fin_cases c <;> rfl
  · change Fin 3 at c; fin_cases c <;> rfl
  · change Fin 12 at c; fin_cases c <;> rfl

/-! ## Renumbering -/

theorem markPresent_spec {n : Nat} (active : List (Contact K k)) (p : DVec Bool) (hn : p.size = n)
    (h0 : ∀ c ∈ active, c.body0 < n) (h1 : ∀ c ∈ active, ∀ b, c.body1 = some b → b < n) :
    ∃ p', markPresent active p = .ok p' ∧ ∀ b, p'.val b = true ↔ p.val b = true ∨ ∃ c ∈ active, c.Touches b := by
  induction active generalizing p with
  | nil => exact ⟨p, rfl, by simp⟩
  | cons c cs ih =>
    have hc : c.body0 < p.size := by rw [hn]; exact h0 c (by simp)
    simp only [markPresent, DVec.set_ok true hc, Outcome.bind]
    cases hb : c.body1 with
    | none =>
      obtain ⟨p', hp', hv⟩ := ih { p with val := Function.update p.val c.body0 true } hn (fun c hc => h0 c (by simp [hc])) (fun c hc => h1 c (by simp [hc]))
      refine ⟨p', hp', fun b => ?_⟩
      rw [hv]
      by_cases hbc : b = c.body0
      · subst hbc; simp [Contact.Touches]
      · have : c.body0 ≠ b := fun h => hbc h.symm
        simp [Function.update_of_ne hbc, Contact.Touches, hb, this]
    | some b1 =>
      have hb1 : b1 < p.size := by rw [hn]; exact h1 c (by simp) b1 hb
      simp only [DVec.set_ok (x := { p with val := Function.update p.val c.body0 true }) true hb1]
      obtain ⟨p', hp', hv⟩ := ih { p with val := Function.update (Function.update p.val c.body0 true) b1 true } hn
        (fun c hc => h0 c (by simp [hc])) (fun c hc => h1 c (by simp [hc]))
      refine ⟨p', hp', fun b => ?_⟩
      rw [hv]
      by_cases hbb : b = b1
      · subst hbb; simp [Contact.Touches, hb]
      · have hbb' : b1 ≠ b := fun h => hbb h.symm
        by_cases hbc : b = c.body0
        · subst hbc; simp [Contact.Touches, Function.update_of_ne hbb]
        · have : c.body0 ≠ b := fun h => hbc h.symm
          simp [Function.update_of_ne hbc, Function.update_of_ne hbb, Contact.Touches, hb, this, hbb']

/-- What the renumbering knows -/
structure LtgOk (n : Nat) (active : List (Contact K k)) (ltg : List Nat) : Prop where
  nodup : ltg.Nodup
  mem : ∀ b, b ∈ ltg ↔ b < n ∧ ∃ c ∈ active, c.Touches b

theorem buildLtg_spec {n : Nat} (active : List (Contact K k)) (h0 : ∀ c ∈ active, c.body0 < n) (h1 : ∀ c ∈ active, ∀ b, c.body1 = some b → b < n) :
    ∃ ltg, buildLtg n active = .ok ltg ∧ LtgOk n active ltg := by
  obtain ⟨p, hp, hv⟩ := markPresent_spec active ⟨n, fun _ => false⟩ rfl h0 h1
  refine ⟨_, by simp only [buildLtg, hp, Outcome.bind]; rfl, List.Nodup.filter _ List.nodup_range, fun b => ?_⟩
  simp [hv]

/-- The local index of a body -/
def loc (ltg : List Nat) (g : Nat) : Nat := ltg.findIdx (fun x => x == g)

theorem loc_lt {ltg : List Nat} {g : Nat} (h : g ∈ ltg) : loc ltg g < ltg.length :=
  List.findIdx_lt_length_of_exists ⟨g, h, by simp⟩

theorem ltg_loc {ltg : List Nat} {g : Nat} (h : g ∈ ltg) : ltg[loc ltg g]? = some g := by
  have hl := loc_lt h
  rw [List.getElem?_eq_getElem hl]
  have : (fun x => x == g) ltg[loc ltg g] = true := List.findIdx_getElem (w := hl)
  simpa using this

theorem gtlFind_ok {ltg : List Nat} {g : Nat} (h : g ∈ ltg) : gtlFind ltg g = .ok (loc ltg g) := by
  have : ltg.findIdx? (fun x => x == g) = some (loc ltg g) := by
    rw [List.findIdx?_eq_some_iff_findIdx_eq]
    exact ⟨loc_lt h, rfl⟩
  simp [gtlFind, this]

theorem ltgGet_loc {ltg : List Nat} {g : Nat} (h : g ∈ ltg) : ltgGet ltg (loc ltg g) = .ok g := by
  simp [ltgGet, ltg_loc h]

theorem ltgGet_ok {ltg : List Nat} {l : Nat} (h : l < ltg.length) : ltgGet ltg l = .ok (ltg.getD l 0) := by
  simp [ltgGet, List.getElem?_eq_getElem h]

theorem getD_mem {ltg : List Nat} {l : Nat} (h : l < ltg.length) : ltg.getD l 0 ∈ ltg := by
  simp [List.getElem?_eq_getElem h]

theorem getD_loc {ltg : List Nat} {g : Nat} (h : g ∈ ltg) : ltg.getD (loc ltg g) 0 = g := by
  simp [ltg_loc h]

theorem loc_getD {ltg : List Nat} (hnd : ltg.Nodup) {l : Nat} (h : l < ltg.length) : loc ltg (ltg.getD l 0) = l := by
  have hm := getD_mem h
  have hl := loc_lt hm
  have h1 := getD_loc hm
  have h2 : ltg[loc ltg (ltg.getD l 0)]'hl = ltg[l] := by
    have h3 := ltg_loc hm
    rw [List.getElem?_eq_getElem hl] at h3
    have h4 : ltg.getD l 0 = ltg[l] := by simp [List.getElem?_eq_getElem h]
    rw [← h4]
    exact Option.some.inj h3
  exact (List.Nodup.getElem_inj_iff hnd).mp h2

theorem loc_inj {ltg : List Nat} {g g' : Nat} (h : g ∈ ltg) (h' : g' ∈ ltg) (e : loc ltg g = loc ltg g') : g = g' := by
  rw [← getD_loc h, e, getD_loc h']

/-- The contact with its bodies renumbered -/
def Contact.local (ltg : List Nat) (c : Contact K k) : Contact K k := { c with body0 := loc ltg c.body0, body1 := c.body1.map (loc ltg) }

theorem remap_local {n : Nat} {active : List (Contact K k)} {ltg : List Nat} (hl : LtgOk n active ltg)
    (h0 : ∀ c ∈ active, c.body0 < n) (h1 : ∀ c ∈ active, ∀ b, c.body1 = some b → b < n) :
    mapO (Contact.remap (gtlFind ltg)) active = .ok (active.map (Contact.local ltg)) := by
  refine mapO_ok _ fun c hc => ?_
  have m0 : c.body0 ∈ ltg := (hl.mem _).mpr ⟨h0 c hc, c, hc, .inl rfl⟩
  simp only [Contact.remap, gtlFind_ok m0, Outcome.bind]
  cases hb : c.body1 with
  | none => simp [Contact.local, hb]
  | some b =>
    have m1 : b ∈ ltg := (hl.mem _).mpr ⟨h1 c hc b hb, c, hc, .inr hb⟩
    simp [gtlFind_ok m1, Contact.local, hb]

theorem remap_back {n : Nat} {active : List (Contact K k)} {ltg : List Nat} (hl : LtgOk n active ltg)
    (h0 : ∀ c ∈ active, c.body0 < n) (h1 : ∀ c ∈ active, ∀ b, c.body1 = some b → b < n) :
    mapO (Contact.remap (ltgGet ltg)) (active.map (Contact.local ltg)) = .ok active := by
  have : active = (active.map (Contact.local ltg)).map fun c => { c with body0 := ltg.getD c.body0 0, body1 := c.body1.map fun b => ltg.getD b 0 } := by
    rw [List.map_map]
    conv_lhs => rw [← List.map_id active]
    refine List.map_congr_left fun c hc => ?_
    have m0 : c.body0 ∈ ltg := (hl.mem _).mpr ⟨h0 c hc, c, hc, .inl rfl⟩
    simp only [Function.comp, Contact.local, getD_loc m0, id]
    cases hb : c.body1 with
    | none => cases c; simp_all
    | some b =>
      have m1 : b ∈ ltg := (hl.mem _).mpr ⟨h1 c hc b hb, c, hc, .inr hb⟩
      simp only [Option.map_some, getD_loc m1]
      cases c; simp_all
  conv_rhs => rw [this]
  refine mapO_ok _ fun c hc => ?_
  obtain ⟨c, hc', rfl⟩ := List.mem_map.mp hc
  clear hc
  have hc := hc'
  have m0 : c.body0 ∈ ltg := (hl.mem _).mpr ⟨h0 c hc, c, hc, .inl rfl⟩
  simp only [Contact.remap, Contact.local, ltgGet_loc m0, Outcome.bind, getD_loc m0]
  cases hb : c.body1 with
  | none => simp
  | some b =>
    have m1 : b ∈ ltg := (hl.mem _).mpr ⟨h1 c hc b hb, c, hc, .inr hb⟩
    simp [ltgGet_loc m1, ltg_loc m1]

end Sobogus
end Scisim
