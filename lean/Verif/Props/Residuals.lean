import Verif.Model.Residuals
import Verif.Spec.Residuals
import Verif.Lemmas.Solvers
import Mathlib.Tactic.FieldSimp
import Mathlib.Tactic.LinearCombination
/-!
# C37: residuals
-/

namespace Scisim

theorem foldl_keepLarger (l : List ℝ) (a : ℝ) : a ≤ l.foldl keepLarger a ∧ (∀ b ∈ l, b ≤ l.foldl keepLarger a) ∧
    (l.foldl keepLarger a = a ∨ l.foldl keepLarger a ∈ l) := by
  induction l generalizing a with
  | nil => simp
  | cons b l ih =>
    rw [List.foldl_cons]
    obtain ⟨h1, h2, h3⟩ := ih (keepLarger a b)
    have hk : a ≤ keepLarger a b ∧ b ≤ keepLarger a b ∧ (keepLarger a b = a ∨ keepLarger a b = b) := by
      unfold keepLarger
      split
      · next h => exact ⟨h.le, le_rfl, Or.inr rfl⟩
      · next h => exact ⟨le_rfl, not_lt.mp h, Or.inl rfl⟩
    refine ⟨hk.1.trans h1, ?_, ?_⟩
    · intro c hc
      rcases List.mem_cons.mp hc with rfl | hc
      · exact hk.2.1.trans h1
      · exact h2 c hc
    · rcases h3 with h3 | h3
      · rcases hk.2.2 with h | h
        · left; rw [h3, h]
        · right; rw [h3, h]; exact List.mem_cons_self
      · right; exact List.mem_cons_of_mem _ h3

theorem keepLarger_largest {n : Nat} (f : Fin n → ℝ) (hf : ∀ i, 0 ≤ f i) : IsLargest f ((List.ofFn f).foldl keepLarger 0) := by
  obtain ⟨h1, h2, h3⟩ := foldl_keepLarger (List.ofFn f) 0
  refine ⟨fun i => h2 _ (List.mem_ofFn.mpr ⟨i, rfl⟩), ?_⟩
  rcases h3 with h3 | h3
  · rcases Nat.eq_zero_or_pos n with rfl | hn
    · left; exact ⟨rfl, h3⟩
    · right
      refine ⟨⟨0, hn⟩, le_antisymm ?_ (h2 _ (List.mem_ofFn.mpr ⟨_, rfl⟩))⟩
      rw [h3]; exact hf _
  · right
    obtain ⟨i, hi⟩ := List.mem_ofFn.mp h3
    exact ⟨i, hi.symm⟩

theorem largest_zero_iff {n : Nat} {f : Fin n → ℝ} {r : ℝ} (hf : ∀ i, 0 ≤ f i) (h : IsLargest f r) : r = 0 ↔ ∀ i, f i = 0 := by
  constructor
  · intro hr i
    exact le_antisymm (hr ▸ h.1 i) (hf i)
  · intro hz
    rcases h.2 with ⟨_, h⟩ | ⟨i, hi⟩
    · exact h
    · rw [hi, hz]

theorem fbTerm_nonneg (x y : ℝ) : 0 ≤ fbTerm x y := abs_nonneg _

/-- The Fischer-Burmeister function vanishes exactly on complementary pairs -/
theorem fbTerm_zero (x y : ℝ) : fbTerm x y = 0 ↔ 0 ≤ x ∧ 0 ≤ y ∧ x * y = 0 := by
  unfold fbTerm
  rw [abs_eq_zero]
  have hnn : 0 ≤ x * x + y * y := by nlinarith [mul_self_nonneg x, mul_self_nonneg y]
  constructor
  · intro h
    have hs : Real.sqrt (x * x + y * y) = x + y := by linarith
    have h0 : 0 ≤ x + y := hs ▸ Real.sqrt_nonneg _
    have h2 : x * x + y * y = (x + y) * (x + y) := by rw [← hs, Real.mul_self_sqrt hnn]
    have hxy : x * y = 0 := by nlinarith
    rcases mul_eq_zero.mp hxy with rfl | rfl
    · exact ⟨le_rfl, by linarith, by ring⟩
    · exact ⟨by linarith, le_rfl, by ring⟩
  · rintro ⟨hx, hy, hxy⟩
    have : x * x + y * y = (x + y) * (x + y) := by nlinarith
    rw [this, Real.sqrt_mul_self (by linarith)]
    ring

/-- **C37, impact.** The Fischer-Burmeister residual is zero exactly for solutions of the complementarity problem, … -/
theorem C37_fischer_burmeister {n : Nat} (x y : Fin n → ℝ) : fischerBurmeisterImpact x y = 0 ↔ Complementary x y := by
  rw [fischerBurmeisterImpact, largest_zero_iff (fun i => fbTerm_nonneg _ _) (keepLarger_largest _ fun i => fbTerm_nonneg _ _)]
  exact forall_congr' fun i => fbTerm_zero _ _

/-- … and otherwise the largest violation over the contacts. -/
theorem C37_fischer_burmeister_largest {n : Nat} (x y : Fin n → ℝ) :
    IsLargest (fun i => |Real.sqrt (x i ^ 2 + y i ^ 2) - x i - y i|) (fischerBurmeisterImpact x y) := by
  have := keepLarger_largest (fun i => fbTerm (x i) (y i)) (fun i => fbTerm_nonneg _ _)
  have e : (fun i => |Real.sqrt (x i ^ 2 + y i ^ 2) - x i - y i|) = fun i => fbTerm (x i) (y i) := by
    funext i; unfold fbTerm; rw [pow_two, pow_two]
  rw [e]
  exact this

theorem stdMax_real (a b : ℝ) : stdMax a b = keepLarger a b := rfl

theorem stdMin_real (a b : ℝ) : stdMin a b = min a b := by
  unfold stdMin
  split
  · next h => rw [min_eq_right h.le]
  · next h => rw [min_eq_left (not_lt.mp h)]

/-- The min-map residual is the largest `|min(x, y)|` over the contacts … -/
theorem C37_min_map_largest {n : Nat} (x y : Fin n → ℝ) : IsLargest (fun i => |min (x i) (y i)|) (minMapImpact x y) := by
  have := keepLarger_largest (fun i => |min (x i) (y i)|) (fun i => abs_nonneg _)
  unfold minMapImpact
  simp only [stdMin_real]
  exact this

/-- … and zero exactly for solutions of the complementarity problem. -/
theorem C37_min_map {n : Nat} (x y : Fin n → ℝ) : minMapImpact x y = 0 ↔ Complementary x y := by
  rw [largest_zero_iff (fun i => abs_nonneg _) (C37_min_map_largest x y)]
  refine forall_congr' fun i => ?_
  rw [abs_eq_zero]
  constructor
  · intro h
    rcases le_total (x i) (y i) with hxy | hxy
    · rw [min_eq_left hxy] at h
      exact ⟨h.ge, h ▸ hxy, by rw [h, zero_mul]⟩
    · rw [min_eq_right hxy] at h
      exact ⟨h ▸ hxy, h.ge, by rw [h, mul_zero]⟩
  · rintro ⟨hx, hy, hxy⟩
    rcases mul_eq_zero.mp hxy with h | h
    · rw [h, min_eq_left hy]
    · rw [h, min_eq_right hx]

/-- The residual the projected gradient solver reports (C35) is zero exactly for solutions of the linear complementarity problem of the impact -/
theorem C37_lcp {n : Nat} (A : Fin n → Fin n → ℝ) (hA : ∀ i j, A i j = A j i) (b x : Fin n → ℝ) :
    minMapImpact x (qpGrad A b x) = 0 ↔ Complementary x (fun i => ∑ j, A i j * x j + b i) := by
  rw [C37_min_map]
  have : qpGrad A b x = fun i => ∑ j, A i j * x j + b i := by
    funext i
    unfold qpGrad
    rw [mulT_eq]
    congr 1
    exact Finset.sum_congr rfl fun j _ => by rw [hA]
  rw [this]

/-! ### Friction -/

theorem V2.normSq_nonneg' (a : V2 ℝ) : 0 ≤ a.normSq := by
  unfold V2.normSq; nlinarith [mul_self_nonneg a.x, mul_self_nonneg a.y]

theorem V2.norm_nonneg' (a : V2 ℝ) : 0 ≤ a.norm := Real.sqrt_nonneg _

theorem V2.norm_sq (a : V2 ℝ) : a.norm ^ 2 = a.normSq := Real.sq_sqrt a.normSq_nonneg'

theorem V2.norm_eq_zero' {a : V2 ℝ} : a.norm = 0 ↔ a = 0 := by
  constructor
  · intro h
    have h2 : a.normSq = 0 := by rw [← a.norm_sq, h]; ring
    unfold V2.normSq at h2
    have hx : a.x = 0 := by nlinarith [mul_self_nonneg a.x, mul_self_nonneg a.y]
    have hy : a.y = 0 := by nlinarith [mul_self_nonneg a.x, mul_self_nonneg a.y]
    ext
    · exact hx
    · exact hy
  · rintro rfl
    simp [V2.norm, V2.normSq]

theorem V2.norm_le_iff {a : V2 ℝ} {c : ℝ} (hc : 0 ≤ c) : a.norm ≤ c ↔ a.normSq ≤ c ^ 2 := by
  rw [← a.norm_sq]
  exact ⟨fun h => by nlinarith [a.norm_nonneg'], fun h => by nlinarith [a.norm_nonneg', sq_nonneg (a.norm - c)]⟩

theorem mostDissipative_iff {c : ℝ} (hc : 0 < c) (beta v : V2 ℝ) :
    MostDissipative c beta v ↔ beta.norm ≤ c ∧ (v = 0 ∨ (beta.norm = c ∧ ∃ k : ℝ, 0 ≤ k ∧ v = -(k • beta))) := by
  unfold MostDissipative
  rw [← V2.norm_le_iff hc.le]
  refine and_congr_right fun hb => ?_
  constructor
  · intro h
    by_cases hv : v = 0
    · left; exact hv
    · right
      have hvn : 0 < v.norm := lt_of_le_of_ne v.norm_nonneg' fun h => hv (V2.norm_eq_zero'.mp h.symm)
      -- compare with the impulse that opposes the velocity
      have hw := h (-((c / v.norm) • v)) (by
        have : (-((c / v.norm) • v)).normSq = (c / v.norm) ^ 2 * v.normSq := by simp [V2.normSq]; ring
        rw [this, ← v.norm_sq]
        have : (c / v.norm) ^ 2 * v.norm ^ 2 = c ^ 2 := by field_simp
        rw [this])
      have hdw : v.dot (-((c / v.norm) • v)) = -(c * v.norm) := by
        have : v.dot (-((c / v.norm) • v)) = -(c / v.norm * v.normSq) := by simp [V2.dot, V2.normSq]; ring
        rw [this, ← v.norm_sq]
        field_simp
      rw [hdw] at hw
      -- equality in Cauchy-Schwarz
      have hcs : (v.x * beta.y - v.y * beta.x) ^ 2 + v.dot beta ^ 2 = v.norm ^ 2 * beta.norm ^ 2 := by
        rw [v.norm_sq, beta.norm_sq]; unfold V2.dot V2.normSq; ring
      have hbn := beta.norm_nonneg'
      have hd2 : (c * v.norm) ^ 2 ≤ v.dot beta ^ 2 := by
        have : 0 < c * v.norm := mul_pos hc hvn
        nlinarith
      have hb2 : beta.norm ^ 2 ≤ c ^ 2 := by nlinarith
      have hcross : v.x * beta.y - v.y * beta.x = 0 := by
        have : (v.x * beta.y - v.y * beta.x) ^ 2 ≤ 0 := by nlinarith [sq_nonneg v.norm]
        exact pow_eq_zero_iff (two_ne_zero) |>.mp (le_antisymm this (sq_nonneg _))
      have hbc : beta.norm = c := by
        have h3 : v.norm ^ 2 * c ^ 2 ≤ v.norm ^ 2 * beta.norm ^ 2 := by nlinarith
        have h4 : c ^ 2 ≤ beta.norm ^ 2 := le_of_mul_le_mul_left h3 (by positivity)
        nlinarith
      refine ⟨hbc, v.norm / c, by positivity, ?_⟩
      have hdot : v.dot beta = -(c * v.norm) := by
        have h5 : v.dot beta ^ 2 = (c * v.norm) ^ 2 := by nlinarith
        have h6 : 0 < c * v.norm := mul_pos hc hvn
        nlinarith
      have hbb : beta.x * beta.x + beta.y * beta.y = c ^ 2 := by
        have := beta.norm_sq; rw [hbc] at this; rw [this]; rfl
      unfold V2.dot at hdot
      have hx : v.x * c ^ 2 = -(v.norm * c) * beta.x := by
        rw [← hbb]; linear_combination beta.x * hdot + beta.y * hcross
      have hy : v.y * c ^ 2 = -(v.norm * c) * beta.y := by
        rw [← hbb]; linear_combination beta.y * hdot - beta.x * hcross
      ext
      · simp only [V2.neg_x, V2.smul_x]
        field_simp
        have := mul_right_cancel₀ hc.ne' (show v.x * c * c = -(v.norm * beta.x) * c by linear_combination hx)
        linarith
      · simp only [V2.neg_y, V2.smul_y]
        field_simp
        have := mul_right_cancel₀ hc.ne' (show v.y * c * c = -(v.norm * beta.y) * c by linear_combination hy)
        linarith
  · rintro (rfl | ⟨hbc, k, hk, rfl⟩) w hw
    · simp [V2.dot]
    · have hbb := beta.norm_sq
      rw [hbc] at hbb
      have h1 : (-(k • beta)).dot beta = -(k * beta.normSq) := by simp [V2.dot, V2.normSq]; ring
      have h2 : (-(k • beta)).dot w = -(k * beta.dot w) := by simp [V2.dot]; ring
      rw [h1, h2, ← hbb]
      have h3 : beta.dot w ≤ c ^ 2 := by
        have : beta.dot w ^ 2 ≤ beta.normSq * w.normSq := by
          unfold V2.dot V2.normSq; nlinarith [sq_nonneg (beta.x * w.y - beta.y * w.x)]
        have h4 : beta.dot w ^ 2 ≤ (c ^ 2) ^ 2 := by rw [← hbb] at this; nlinarith [sq_nonneg c]
        exact le_of_sq_le_sq' h4 (sq_nonneg c)
      nlinarith
where
  le_of_sq_le_sq' {a b : ℝ} (h : a ^ 2 ≤ b ^ 2) (hb : 0 ≤ b) : a ≤ b := abs_le_of_sq_le_sq' h hb |>.2

theorem mostDissipative_zero (beta v : V2 ℝ) : MostDissipative 0 beta v ↔ beta.norm = 0 := by
  unfold MostDissipative
  rw [← V2.norm_le_iff le_rfl]
  constructor
  · rintro ⟨h, _⟩
    exact le_antisymm h beta.norm_nonneg'
  · intro h
    refine ⟨h.le, fun w hw => ?_⟩
    rw [← V2.norm_le_iff le_rfl] at hw
    rw [V2.norm_eq_zero'.mp h, V2.norm_eq_zero'.mp (le_antisymm hw w.norm_nonneg')]

theorem V2.norm_neg' (v : V2 ℝ) : (-v).norm = v.norm := by unfold V2.norm V2.normSq; simp

theorem smoothTerm_zero {c : ℝ} (hc : 0 ≤ c) (beta v : V2 ℝ) :
    smoothTerm c beta v = 0 ↔ MostDissipative c beta v ∨ MostDissipative c beta (-v) := by
  unfold smoothTerm
  rw [fbTerm_zero]
  rcases hc.eq_or_lt with rfl | hc
  · rw [mostDissipative_zero, mostDissipative_zero, or_self]
    constructor
    · rintro ⟨_, h, _⟩
      exact le_antisymm (by linarith) beta.norm_nonneg'
    · intro h
      unfold signedTangentMagnitude
      rw [if_pos beta.norm_nonneg', if_neg (by rw [h]; exact lt_irrefl _), if_pos rfl, h]
      simp
  · rw [mostDissipative_iff hc, mostDissipative_iff hc]
    unfold signedTangentMagnitude
    by_cases hb : c ≤ beta.norm
    · have hbp : 0 < beta.norm := hc.trans_le hb
      rw [if_pos hb, if_pos hbp]
      set t : V2 ℝ := v - v.dot ((1 / beta.norm) • beta) • ((1 / beta.norm) • beta) with ht
      have hkey : t = v - (v.dot beta / beta.normSq) • beta := by
        have h2 := beta.norm_sq
        have h3 : beta.normSq ≠ 0 := by rw [← h2]; positivity
        have h4 : v.dot ((1 / beta.norm) • beta) = v.dot beta / beta.norm := by simp [V2.dot]; field_simp
        rw [ht, h4]
        have h5 : v.dot beta / beta.norm * (1 / beta.norm) = v.dot beta / beta.normSq := by rw [← h2]; field_simp
        ext
        · simp only [V2.sub_x, V2.smul_x]; rw [← mul_assoc, h5]
        · simp only [V2.sub_y, V2.smul_y]; rw [← mul_assoc, h5]
      constructor
      · rintro ⟨h1, h2, _⟩
        have ht0 : t = 0 := V2.norm_eq_zero'.mp (le_antisymm (by linarith) t.norm_nonneg')
        have hbc : beta.norm = c := le_antisymm (by linarith) hb
        rw [hkey] at ht0
        have hx := congrArg V2.x ht0
        have hy := congrArg V2.y ht0
        simp only [V2.sub_x, V2.smul_x, V2.zero_x, V2.sub_y, V2.smul_y, V2.zero_y] at hx hy
        rcases le_total (v.dot beta / beta.normSq) 0 with hk | hk
        · left
          refine ⟨hbc.le, Or.inr ⟨hbc, -(v.dot beta / beta.normSq), by linarith, ?_⟩⟩
          ext
          · simp only [V2.neg_x, V2.smul_x]; linarith
          · simp only [V2.neg_y, V2.smul_y]; linarith
        · right
          refine ⟨hbc.le, Or.inr ⟨hbc, v.dot beta / beta.normSq, hk, ?_⟩⟩
          ext
          · simp only [V2.neg_x, V2.smul_x]; linarith
          · simp only [V2.neg_y, V2.smul_y]; linarith
      · have hfin : ∀ k : ℝ, v = k • beta → beta.norm ≤ c → 0 ≤ -t.norm ∧ 0 ≤ c - beta.norm ∧ -t.norm * (c - beta.norm) = 0 := by
          intro k hk hle
          have hbn : beta.normSq ≠ 0 := by rw [← beta.norm_sq]; positivity
          have hd : v.dot beta / beta.normSq = k := by
            rw [hk, div_eq_iff hbn]
            simp [V2.dot, V2.normSq]; ring
          have ht0 : t = 0 := by
            rw [hkey, hd, hk]
            ext
            · simp
            · simp
          have : t.norm = 0 := V2.norm_eq_zero'.mpr ht0
          rw [this, le_antisymm hle hb]
          simp
        have hneg : ∀ k : ℝ, v = -(k • beta) → v = (-k) • beta := by
          intro k hk
          rw [hk]
          ext
          · simp
          · simp
        rintro (⟨hle, rfl | ⟨_, k, _, hk⟩⟩ | ⟨hle, hz | ⟨_, k, _, hk⟩⟩)
        · refine hfin 0 ?_ hle
          ext
          · simp
          · simp
        · exact hfin _ (hneg k hk) hle
        · refine hfin 0 ?_ hle
          have hx := congrArg V2.x hz
          have hy := congrArg V2.y hz
          simp only [V2.neg_x, V2.zero_x, V2.neg_y, V2.zero_y] at hx hy
          ext
          · simp; linarith
          · simp; linarith
        · refine hfin k ?_ hle
          have hx := congrArg V2.x hk
          have hy := congrArg V2.y hk
          simp only [V2.neg_x, V2.smul_x, V2.neg_y, V2.smul_y] at hx hy
          ext
          · simp; linarith
          · simp; linarith
    · rw [if_neg hb]
      have hlt := not_le.mp hb
      constructor
      · rintro ⟨_, _, h⟩
        have : v.norm = 0 := by
          rcases mul_eq_zero.mp h with h | h
          · exact h
          · linarith
        left
        exact ⟨hlt.le, Or.inl (V2.norm_eq_zero'.mp this)⟩
      · intro h
        have hv : v.norm = 0 := by
          rcases h with ⟨_, h | ⟨h, _⟩⟩ | ⟨_, h | ⟨h, _⟩⟩
          · exact V2.norm_eq_zero'.mpr h
          · linarith
          · rw [← V2.norm_neg']; exact V2.norm_eq_zero'.mpr h
          · linarith
        rw [hv]
        exact ⟨le_rfl, by linarith, by ring⟩

theorem smoothTerm_nonneg (c : ℝ) (beta v : V2 ℝ) : 0 ≤ smoothTerm c beta v := fbTerm_nonneg _ _

/-- **C37, friction disk, the part that holds.** The residual of friction impulses is zero exactly if at every contact the impulse is most dissipative
for the sliding velocity *or for the opposite velocity*. In particular it is zero for every solution. What is missing: on the boundary of the disk the
sign of the velocity is not looked at (`C37_smooth_false`). -/
theorem C37_smooth_partial {n : Nat} (c : Fin n → ℝ) (hc : ∀ i, 0 ≤ c i) (beta vrel : Fin n → V2 ℝ) :
    fischerBurmeisterSmooth c beta vrel = 0 ↔
      ∀ i, MostDissipative (c i) (beta i) (vrel i) ∨ MostDissipative (c i) (beta i) (-(vrel i)) := by
  rw [fischerBurmeisterSmooth, largest_zero_iff (fun i => smoothTerm_nonneg _ _ _) (keepLarger_largest _ fun i => smoothTerm_nonneg _ _ _)]
  exact forall_congr' fun i => smoothTerm_zero (hc i) _ _

/-- **C37 is false of the smooth friction residual.** A friction impulse of the largest permitted size that pushes a sliding contact along, instead of
braking it, has residual zero. -/
theorem C37_smooth_false : fischerBurmeisterSmooth (n := 1) (fun _ => 1) (fun _ => ⟨1, 0⟩) (fun _ => ⟨1, 0⟩) = 0 ∧
    ¬ MostDissipative 1 ⟨1, 0⟩ ⟨1, 0⟩ := by
  constructor
  · rw [C37_smooth_partial _ fun _ => zero_le_one]
    intro i
    right
    refine ⟨by norm_num [V2.normSq], fun w hw => ?_⟩
    simp only [V2.normSq, V2.dot, V2.neg_x, V2.neg_y] at *
    nlinarith [mul_self_nonneg w.y, mul_self_nonneg (w.x - 1)]
  · rintro ⟨_, h⟩
    have := h ⟨-1, 0⟩ (by norm_num [V2.normSq])
    norm_num [V2.dot] at this

/-- The reported error is the largest of the errors of the single contacts. -/
theorem C37_smooth_largest {n : Nat} (c : Fin n → ℝ) (beta vrel : Fin n → V2 ℝ) :
    IsLargest (fun i => fischerBurmeisterSmooth (n := 1) (fun _ => c i) (fun _ => beta i) (fun _ => vrel i)) (fischerBurmeisterSmooth c beta vrel) := by
  have h := keepLarger_largest (fun i => smoothTerm (c i) (beta i) (vrel i)) (fun i => fbTerm_nonneg _ _)
  have e : (fun i => fischerBurmeisterSmooth (n := 1) (fun _ => c i) (fun _ => beta i) (fun _ => vrel i)) = fun i => smoothTerm (c i) (beta i) (vrel i) := by
    funext i
    have h1 := keepLarger_largest (fun _ : Fin 1 => smoothTerm (c i) (beta i) (vrel i)) (fun i => fbTerm_nonneg _ _)
    rcases h1.2 with ⟨h, _⟩ | ⟨_, h⟩
    · exact absurd h one_ne_zero
    · exact h
  rw [e]
  exact h

theorem boundTerm_zero {c : ℝ} (hc : 0 ≤ c) (beta v : ℝ) :
    fbTerm (boundLambda c beta v) (c - |beta|) = 0 ↔ MostDissipative1 c beta v ∨ beta = c := by
  rw [fbTerm_zero]
  unfold MostDissipative1
  constructor
  · rintro ⟨h1, h2, h3⟩
    have hb : |beta| ≤ c := by linarith
    unfold boundLambda at h1 h3
    by_cases h0 : c = 0
    · right
      rw [h0] at hb ⊢
      exact abs_eq_zero.mp (le_antisymm hb (abs_nonneg _))
    rw [if_neg h0] at h1 h3
    by_cases hlo : beta ≤ -c
    · left
      rw [if_pos hlo] at h1
      have hv : 0 ≤ v := (le_min_iff.mp h1).1
      refine ⟨hb, fun w hw => ?_⟩
      have := (abs_le.mp hw).1
      exact mul_le_mul_of_nonneg_left (by linarith) hv
    rw [if_neg hlo] at h1 h3
    by_cases hhi : c ≤ beta
    · right
      exact le_antisymm ((le_abs_self _).trans hb) hhi
    rw [if_neg hhi] at h1 h3
    left
    have hlt : |beta| < c := abs_lt.mpr ⟨by linarith, by linarith⟩
    have hv : v = 0 := by
      rcases mul_eq_zero.mp h3 with h | h
      · exact h
      · linarith
    refine ⟨hb, fun w _ => ?_⟩
    rw [hv]; simp
  · intro h
    have hb : |beta| ≤ c := by
      rcases h with h | h
      · exact h.1
      · rw [h, abs_of_nonneg hc]
    unfold boundLambda
    by_cases h0 : c = 0
    · rw [if_pos h0]
      exact ⟨le_rfl, by linarith, by ring⟩
    rw [if_neg h0]
    have hcp : 0 < c := lt_of_le_of_ne hc (Ne.symm h0)
    by_cases hlo : beta ≤ -c
    · rw [if_pos hlo]
      have hbe : beta = -c := le_antisymm hlo (by linarith [(abs_le.mp hb).1])
      have hv : 0 ≤ v := by
        rcases h with ⟨_, h⟩ | h
        · have := h c (by rw [abs_of_pos hcp])
          rw [hbe] at this
          nlinarith
        · linarith
      have : c - |beta| = 0 := by rw [hbe, abs_neg, abs_of_pos hcp]; ring
      rw [this, min_eq_right hv]
      simp
    rw [if_neg hlo]
    by_cases hhi : c ≤ beta
    · rw [if_pos hhi]
      have hbe : beta = c := le_antisymm ((le_abs_self _).trans hb) hhi
      have : c - |beta| = 0 := by rw [hbe, abs_of_pos hcp]; ring
      rw [this]
      exact ⟨le_max_right _ _, le_rfl, by ring⟩
    rw [if_neg hhi]
    rcases h with ⟨_, h⟩ | h
    · have hv : v = 0 := by
        have h1 := h c (by rw [abs_of_pos hcp])
        have h2 := h (-c) (by rw [abs_neg, abs_of_pos hcp])
        rw [not_le] at hlo hhi
        rcases lt_trichotomy v 0 with hv | hv | hv
        · nlinarith
        · exact hv
        · nlinarith
      rw [hv]
      exact ⟨le_rfl, by linarith, by ring⟩
    · exact absurd h.ge hhi

/-- **C37, one friction direction, the part that holds.** The residual is zero exactly if at every contact the impulse is most dissipative *or equal to its
upper bound*. What is missing: at the upper bound the velocity is not looked at (`C37_bound_false`). -/
theorem C37_bound_partial {n : Nat} (c : Fin n → ℝ) (hc : ∀ i, 0 ≤ c i) (beta vrel : Fin n → ℝ) :
    fischerBurmeisterBound c beta vrel = 0 ↔ ∀ i, MostDissipative1 (c i) (beta i) (vrel i) ∨ beta i = c i := by
  rw [fischerBurmeisterBound, fischerBurmeisterImpact,
    largest_zero_iff (fun i => fbTerm_nonneg _ _) (keepLarger_largest _ fun i => fbTerm_nonneg _ _)]
  exact forall_congr' fun i => boundTerm_zero (hc i) _ _

/-- **C37 is false of the bound constrained friction residual.** A friction impulse equal to its upper bound has residual zero although it drives the contact
in the direction in which it already slides. -/
theorem C37_bound_false : fischerBurmeisterBound (n := 1) (fun _ => 1) (fun _ => 1) (fun _ => 1) = 0 ∧ ¬ MostDissipative1 1 1 1 := by
  constructor
  · rw [C37_bound_partial _ fun _ => zero_le_one]
    exact fun _ => Or.inr rfl
  · rintro ⟨_, h⟩
    have := h (-1) (by norm_num)
    norm_num at this

/-- The reported error is the largest of the errors of the single contacts. -/
theorem C37_bound_largest {n : Nat} (c beta vrel : Fin n → ℝ) :
    IsLargest (fun i => fischerBurmeisterBound (n := 1) (fun _ => c i) (fun _ => beta i) (fun _ => vrel i)) (fischerBurmeisterBound c beta vrel) := by
  have h := keepLarger_largest (fun i => fbTerm (boundLambda (c i) (beta i) (vrel i)) (c i - |beta i|)) (fun i => fbTerm_nonneg _ _)
  have e : (fun i => fischerBurmeisterBound (n := 1) (fun _ => c i) (fun _ => beta i) (fun _ => vrel i)) =
      fun i => fbTerm (boundLambda (c i) (beta i) (vrel i)) (c i - |beta i|) := by
    funext i
    have h1 := keepLarger_largest (fun _ : Fin 1 => fbTerm (boundLambda (c i) (beta i) (vrel i)) (c i - |beta i|)) (fun i => fbTerm_nonneg _ _)
    rcases h1.2 with ⟨h, _⟩ | ⟨_, h⟩
    · exact absurd h one_ne_zero
    · exact h
  rw [e]
  exact h

/-- The equivalences are not vacuous: a contact at rest on a plane and a separating contact solve the complementarity problem, a sliding contact that is
braked with the full impulse is most dissipative. -/
example : Complementary ![2, 0] ![0, 3] ∧ MostDissipative 1 ⟨-1, 0⟩ ⟨2, 0⟩ ∧ MostDissipative1 1 (-1) 2 := by
  refine ⟨fun i => ?_, ⟨by norm_num [V2.normSq], fun w hw => ?_⟩, ⟨by norm_num, fun w hw => ?_⟩⟩
  · match i with
    | 0 => simp
    | 1 => simp
  · simp only [V2.normSq, V2.dot] at *
    nlinarith [mul_self_nonneg w.y, mul_self_nonneg (w.x + 1)]
  · have := (abs_le.mp hw).1
    linarith

end Scisim
