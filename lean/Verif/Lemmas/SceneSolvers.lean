import Verif.Spec.SceneSolvers
import Verif.Lemmas.SceneReading
/-!
# Loading solvers: helper lemmas
-/

namespace Scisim

theorem bind_failIf {β : Type} (c : Bool) (f : Unit → Outcome β) (r : β) : (failIf c >>= f) = .ok r ↔ c = false ∧ f () = .ok r := by
  cases c <;> simp [failIf]

theorem words_ok (nd : XmlNode) (l : List (List Char)) : loadLinearSolvers nd = .ok l ↔ nd.Words "linear_solvers" l ∧ l ≠ [] := by
  simp only [loadLinearSolvers, Outcome.bind_eq_ok, require_ok, ↓bind_failIf, Outcome.ok.injEq, XmlNode.Words]
  constructor
  · rintro ⟨t, ht, he, rfl⟩
    refine ⟨⟨t, ht, (streamWords_iff _ _).mp rfl⟩, ?_⟩
    intro h
    rw [h] at he
    cases he
  · rintro ⟨⟨t, ht, hw⟩, hne⟩
    have := (streamWords_iff _ _).mpr hw
    refine ⟨t, ht, ?_, this⟩
    rw [this]
    cases l
    · exact absurd rfl hne
    · rfl

theorem loadLcpSolver_ok (b : Build) (p : SceneProgram) (nd : XmlNode) (l : LcpChoice) :
    loadLcpSolver b p nd = .ok l ↔ NamesLcp lenientReading b p nd l := by
  simp only [loadLcpSolver, Outcome.bind_eq_ok, require_ok]
  constructor
  · rintro ⟨name, hn, h⟩
    split at h
    · rename_i hc
      obtain ⟨rfl, rfl⟩ := hc
      simp only [Outcome.bind_eq_ok, ↓bind_failIf, scalar_ok, unsigned_ok, Outcome.ok.injEq, decide_eq_false_iff_not, not_le] at h
      obtain ⟨tol, ht, hpos, n, hi, rfl⟩ := h
      exact .apgd rfl hn ht hpos hi
    · split at h
      · rename_i hc
        obtain ⟨rfl, hb⟩ := hc
        simp only [Outcome.bind_eq_ok, scalar_ok, Outcome.ok.injEq] at h
        obtain ⟨tol, ht, rfl⟩ := h
        exact .qlVp hb hn ht
      · split at h
        · rename_i hc
          obtain ⟨rfl, hb⟩ := hc
          simp only [Outcome.bind_eq_ok, scalar_ok, Outcome.ok.injEq] at h
          obtain ⟨tol, ht, rfl⟩ := h
          exact .ql hb hn ht
        · split at h
          · rename_i hc
            obtain ⟨rfl, hb⟩ := hc
            simp only [Outcome.bind_eq_ok, ↓bind_failIf, scalar_ok, words_ok, Outcome.ok.injEq, decide_eq_false_iff_not, not_le] at h
            obtain ⟨l, ⟨hl, hne⟩, tol, ht, hpos, rfl⟩ := h
            exact .ipopt hb hn hl hne ht hpos
          · cases h
  · intro h
    cases h with
    | apgd hp hn ht hpos hi =>
      refine ⟨_, hn, ?_⟩
      rw [if_pos ⟨rfl, hp⟩]
      simp only [Outcome.bind_eq_ok, ↓bind_failIf, scalar_ok, unsigned_ok, decide_eq_false_iff_not, not_le]
      exact ⟨_, ht, hpos, _, hi, rfl⟩
    | qlVp hb hn ht =>
      refine ⟨_, hn, ?_⟩
      rw [if_neg (fun h => absurd h.1 (by decide)), if_pos ⟨rfl, hb⟩]
      simp only [Outcome.bind_eq_ok, scalar_ok]
      exact ⟨_, ht, rfl⟩
    | ql hb hn ht =>
      refine ⟨_, hn, ?_⟩
      rw [if_neg (fun h => absurd h.1 (by decide)), if_neg (fun h => absurd h.1 (by decide)), if_pos ⟨rfl, hb⟩]
      simp only [Outcome.bind_eq_ok, scalar_ok]
      exact ⟨_, ht, rfl⟩
    | ipopt hb hn hl hne ht hpos =>
      refine ⟨_, hn, ?_⟩
      rw [if_neg (fun h => absurd h.1 (by decide)), if_neg (fun h => absurd h.1 (by decide)), if_neg (fun h => absurd h.1 (by decide)), if_pos ⟨rfl, hb⟩]
      simp only [Outcome.bind_eq_ok, ↓bind_failIf, scalar_ok, words_ok, decide_eq_false_iff_not, not_le]
      exact ⟨_, ⟨hl, hne⟩, _, ht, hpos, rfl⟩

theorem loadVTol_ok (nd : XmlNode) (tol : ℚ) : loadVTol nd = .ok tol ↔ nd.Number lenientReading "v_tol" tol ∧ 0 ≤ tol := by
  simp only [loadVTol, Outcome.bind_eq_ok, ↓bind_failIf, scalar_ok, Outcome.ok.injEq, decide_eq_false_iff_not, not_lt]
  constructor
  · rintro ⟨x, hx, h0, rfl⟩
    exact ⟨hx, h0⟩
  · rintro ⟨hx, h0⟩
    exact ⟨tol, hx, h0, rfl⟩

/-! ### Depth of elements -/

theorem depth_mem (c : XmlNode) : ∀ l : List XmlNode, c ∈ l → c.depth ≤ XmlNode.depthList l
  | [], h => by cases h
  | a :: l, h => by
    rw [XmlNode.depthList]
    rcases List.mem_cons.mp h with rfl | h
    · exact le_max_left _ _
    · exact (depth_mem c l h).trans (le_max_right _ _)

theorem depth_first {nd c : XmlNode} {a : String} (h : nd.first a = some c) : c.depth < nd.depth := by
  have hm : c ∈ nd.children := List.mem_of_find?_eq_some h
  cases nd with
  | mk n as cs =>
    rw [XmlNode.depth]
    exact Nat.lt_succ_of_le (depth_mem c cs hm)

theorem loadImpactAux_ok (b : Build) (p : SceneProgram) : ∀ (fuel : ℕ) (nd : XmlNode) (op : ImpactChoice), nd.depth ≤ fuel →
    (loadImpactAux b p fuel nd = .ok op ↔ NamesImpact lenientReading b p nd op)
  | 0, nd, op, hf => by
    cases nd
    rw [XmlNode.depth] at hf
    omega
  | fuel + 1, nd, op, hf => by
    have ih : ∀ a c op, nd.first a = some c → (loadImpactAux b p fuel c = .ok op ↔ NamesImpact lenientReading b p c op) :=
      fun a c op h => loadImpactAux_ok b p fuel c op (by have := depth_first h; omega)
    rw [loadImpactAux]
    simp only [Outcome.bind_eq_ok, require_ok]
    constructor
    · rintro ⟨type, hn, h⟩
      split at h
      · rename_i hc
        subst hc
        simp only [Outcome.bind_eq_ok, loadVTol_ok, Outcome.ok.injEq] at h
        obtain ⟨tol, ⟨ht, h0⟩, rfl⟩ := h
        exact .gaussSeidel hn ht h0
      · split at h
        · rename_i hc
          subst hc
          simp only [Outcome.bind_eq_ok, loadVTol_ok, Outcome.ok.injEq] at h
          obtain ⟨tol, ⟨ht, h0⟩, rfl⟩ := h
          exact .jacobi hn ht h0
        · split at h
          · rename_i hc
            subst hc
            simp only [Outcome.bind_eq_ok, requireChild_ok, loadLcpSolver_ok, Outcome.ok.injEq] at h
            obtain ⟨c, hc, s, hs, rfl⟩ := h
            exact .lcp hn hc hs
          · split at h
            · rename_i hc
              subst hc
              simp only [Outcome.bind_eq_ok, requireChild_ok, loadLcpSolver_ok, loadVTol_ok, Outcome.ok.injEq] at h
              obtain ⟨tol, ⟨ht, h0⟩, c, hc, s, hs, rfl⟩ := h
              exact .gr hn ht h0 hc hs
            · split at h
              · rename_i hc
                subst hc
                simp only [Outcome.bind_eq_ok, requireChild_ok, Outcome.ok.injEq] at h
                obtain ⟨c, hc, e, he, d, hd, i, hi, rfl⟩ := h
                exact .grr hn hc hd ((ih _ _ _ hc).mp he) ((ih _ _ _ hd).mp hi)
              · cases h
    · intro h
      cases h with
      | gaussSeidel hn ht h0 =>
        refine ⟨_, hn, ?_⟩
        rw [if_pos rfl]
        simp only [Outcome.bind_eq_ok, loadVTol_ok]
        exact ⟨_, ⟨ht, h0⟩, rfl⟩
      | jacobi hn ht h0 =>
        refine ⟨_, hn, ?_⟩
        rw [if_neg (by decide), if_pos rfl]
        simp only [Outcome.bind_eq_ok, loadVTol_ok]
        exact ⟨_, ⟨ht, h0⟩, rfl⟩
      | lcp hn hc hl =>
        refine ⟨_, hn, ?_⟩
        rw [if_neg (by decide), if_neg (by decide), if_pos rfl]
        simp only [Outcome.bind_eq_ok, requireChild_ok, loadLcpSolver_ok]
        exact ⟨_, hc, _, hl, rfl⟩
      | gr hn ht h0 hc hl =>
        refine ⟨_, hn, ?_⟩
        rw [if_neg (by decide), if_neg (by decide), if_neg (by decide), if_pos rfl]
        simp only [Outcome.bind_eq_ok, requireChild_ok, loadLcpSolver_ok, loadVTol_ok]
        exact ⟨_, ⟨ht, h0⟩, _, hc, _, hl, rfl⟩
      | grr hn hc hd he hi =>
        refine ⟨_, hn, ?_⟩
        rw [if_neg (by decide), if_neg (by decide), if_neg (by decide), if_neg (by decide), if_pos rfl]
        simp only [Outcome.bind_eq_ok, requireChild_ok]
        exact ⟨_, hc, _, (ih _ _ _ hc).mpr he, _, hd, _, (ih _ _ _ hd).mpr hi, rfl⟩

theorem loadImpactOperator_ok (b : Build) (p : SceneProgram) (nd : XmlNode) (op : ImpactChoice) :
    loadImpactOperator b p nd = .ok op ↔ NamesImpact lenientReading b p nd op := loadImpactAux_ok b p _ nd op le_rfl

theorem loadFrictionOperator_ok (b : Build) (p : SceneProgram) (nd : XmlNode) (f : FrictionOpChoice) :
    loadFrictionOperator b p nd = .ok f ↔ NamesFrictionOp lenientReading b nd p f := by
  cases p with
  | balls2D =>
    simp only [loadFrictionOperator, Outcome.bind_eq_ok, require_ok]
    constructor
    · rintro ⟨name, hn, h⟩
      split at h
      · rename_i hc
        obtain ⟨rfl, hb⟩ := hc
        simp only [Outcome.bind_eq_ok, ↓bind_failIf, scalar_ok, Outcome.ok.injEq, decide_eq_false_iff_not, not_lt] at h
        obtain ⟨tol, ht, h0, rfl⟩ := h
        exact .ql hb hn ht h0
      · cases h
    · intro h
      cases h with
      | ql hb hn ht h0 =>
        refine ⟨_, hn, ?_⟩
        rw [if_pos ⟨rfl, hb⟩]
        simp only [Outcome.bind_eq_ok, ↓bind_failIf, scalar_ok, decide_eq_false_iff_not, not_lt]
        exact ⟨_, ht, h0, rfl⟩
  | rigidBody2D =>
    simp only [loadFrictionOperator, reduceCtorEq, false_iff]
    intro h
    cases h
  | rigidBody3D =>
    simp only [loadFrictionOperator, Outcome.bind_eq_ok, require_ok]
    constructor
    · rintro ⟨name, hn, h⟩
      split at h
      · rename_i hc
        obtain ⟨rfl, hb⟩ := hc
        simp only [Outcome.bind_eq_ok, ↓bind_failIf, scalar_ok, words_ok, Outcome.ok.injEq, decide_eq_false_iff_not, not_lt] at h
        obtain ⟨l, ⟨hl, hne⟩, tol, ht, h0, rfl⟩ := h
        exact .ipopt hb hn hl hne ht h0
      · cases h
    · intro h
      cases h with
      | ipopt hb hn hl hne ht h0 =>
        refine ⟨_, hn, ?_⟩
        rw [if_pos ⟨rfl, hb⟩]
        simp only [Outcome.bind_eq_ok, ↓bind_failIf, scalar_ok, words_ok, decide_eq_false_iff_not, not_lt]
        exact ⟨_, ⟨hl, hne⟩, _, ht, h0, rfl⟩

theorem loadMu_ok (nd : XmlNode) (x : ℚ) : loadMu nd = .ok x ↔ nd.Number lenientReading "mu" x ∧ 0 ≤ x := by
  simp only [loadMu, Outcome.bind_eq_ok, ↓bind_failIf, scalar_ok, Outcome.ok.injEq, decide_eq_false_iff_not, not_lt]
  constructor
  · rintro ⟨x, hx, h0, rfl⟩
    exact ⟨hx, h0⟩
  · rintro ⟨hx, h0⟩
    exact ⟨_, hx, h0, rfl⟩

theorem loadCoR_ok (nd : XmlNode) (x : ℚ) : loadCoR nd = .ok x ↔ nd.Number lenientReading "CoR" x ∧ 0 ≤ x ∧ x ≤ 1 := by
  simp only [loadCoR, Outcome.bind_eq_ok, ↓bind_failIf, scalar_ok, Outcome.ok.injEq, Bool.or_eq_false_iff, decide_eq_false_iff_not, not_lt, gt_iff_lt]
  constructor
  · rintro ⟨x, hx, h0, rfl⟩
    exact ⟨hx, h0⟩
  · rintro ⟨hx, h0⟩
    exact ⟨_, hx, h0, rfl⟩

theorem loadMapTol_ok (nd : XmlNode) (x : ℚ) : loadMapTol nd = .ok x ↔ nd.Number lenientReading "tol" x ∧ 0 ≤ x := by
  simp only [loadMapTol, Outcome.bind_eq_ok, ↓bind_failIf, scalar_ok, Outcome.ok.injEq, decide_eq_false_iff_not, not_lt]
  constructor
  · rintro ⟨x, hx, h0, rfl⟩
    exact ⟨hx, h0⟩
  · rintro ⟨hx, h0⟩
    exact ⟨_, hx, h0, rfl⟩

theorem loadThreshold_ok (nd : XmlNode) (x : ℚ) : loadThreshold nd = .ok x ↔ nd.Number lenientReading "penetration_threshold" x ∧ 0 ≤ x := by
  simp only [loadThreshold, Outcome.bind_eq_ok, ↓bind_failIf, scalar_ok, Outcome.ok.injEq, decide_eq_false_iff_not, not_lt]
  constructor
  · rintro ⟨x, hx, h0, rfl⟩
    exact ⟨hx, h0⟩
  · rintro ⟨hx, h0⟩
    exact ⟨_, hx, h0, rfl⟩

theorem loadMaxIters_ok (nd : XmlNode) (n : ℕ) : loadMaxIters nd = .ok n ↔ nd.Int lenientReading "max_iters" n ∧ 0 < n := by
  simp only [loadMaxIters, Outcome.bind_eq_ok, ↓bind_failIf, int_ok, Outcome.ok.injEq, decide_eq_false_iff_not, not_le]
  constructor
  · rintro ⟨x, hx, h0, rfl⟩
    have : ((x.toNat : ℕ) : ℤ) = x := Int.toNat_of_nonneg h0.le
    rw [XmlNode.Int, this]
    exact ⟨hx, by omega⟩
  · rintro ⟨hx, h0⟩
    exact ⟨n, hx, by exact_mod_cast h0, by simp⟩

theorem loadEvalEvery_ok (nd : XmlNode) (k n : ℕ) : loadEvalEvery nd k = .ok n ↔ nd.Int lenientReading "eval_every" n ∧ 0 < n ∧ n ≤ k := by
  simp only [loadEvalEvery, Outcome.bind_eq_ok, ↓bind_failIf, int_ok, Outcome.ok.injEq, decide_eq_false_iff_not, not_le, gt_iff_lt, not_lt]
  constructor
  · rintro ⟨x, hx, h0, h1, rfl⟩
    have : ((x.toNat : ℕ) : ℤ) = x := Int.toNat_of_nonneg h0.le
    rw [XmlNode.Int, this]
    exact ⟨hx, by omega, by omega⟩
  · rintro ⟨hx, h0, h1⟩
    exact ⟨n, hx, by exact_mod_cast h0, by exact_mod_cast h1, by simp⟩

theorem loadStaggered_ok (b : Build) (p : SceneProgram) (nd : XmlNode) (f : FrictionSetup) :
    loadStaggered b p nd = .ok f ↔ DescribesStaggered lenientReading b p nd f := by
  simp only [loadStaggered, Outcome.bind_eq_ok, require_ok, requireChild_ok, loadMu_ok, loadCoR_ok, loadMapTol_ok, loadMaxIters_ok, flag_ok,
    loadLcpSolver_ok, loadFrictionOperator_ok]
  constructor
  · rintro ⟨mu, hmu, cor, hcor, wa, hwa, wb, hwb, ic, hic, lcp, hlcp, fc, hfc, fr, hfr, st, hst, tol, htol, n, hn, h⟩
    split at h
    · rename_i hs
      subst hs
      cases h
      exact ⟨wa, wb, ic, fc, lcp, fr, tol, n, ⟨hmu.1, hmu.2, hcor.1, hcor.2⟩, hwa, hwb, hic, hlcp, hfc, hfr, ⟨htol.1, htol.2, hn.1, hn.2⟩, rfl,
        Or.inl ⟨hst, rfl⟩⟩
    · split at h
      · rename_i hs
        subst hs
        cases h
        exact ⟨wa, wb, ic, fc, lcp, fr, tol, n, ⟨hmu.1, hmu.2, hcor.1, hcor.2⟩, hwa, hwb, hic, hlcp, hfc, hfr, ⟨htol.1, htol.2, hn.1, hn.2⟩, rfl,
          Or.inr ⟨hst, rfl⟩⟩
      · cases h
  · obtain ⟨mu, cor, solver, map⟩ := f
    rintro ⟨wa, wb, ic, fc, lcp, fr, tol, n, ⟨hm1, hm2, hc1, hc2⟩, hwa, hwb, hic, hlcp, hfc, hfr, ⟨ht1, ht2, hn1, hn2⟩, hsol, hmap⟩
    simp only at hsol
    subst hsol
    rcases hmap with ⟨hst, hm⟩ | ⟨hst, hm⟩
    · simp only at hm
      subst hm
      exact ⟨mu, ⟨hm1, hm2⟩, cor, ⟨hc1, hc2⟩, wa, hwa, wb, hwb, ic, hic, lcp, hlcp, fc, hfc, fr, hfr, _, hst, tol, ⟨ht1, ht2⟩, n, ⟨hn1, hn2⟩, by rw [if_pos rfl]⟩
    · simp only at hm
      subst hm
      exact ⟨mu, ⟨hm1, hm2⟩, cor, ⟨hc1, hc2⟩, wa, hwa, wb, hwb, ic, hic, lcp, hlcp, fc, hfc, fr, hfr, _, hst, tol, ⟨ht1, ht2⟩, n, ⟨hn1, hn2⟩, by
        rw [if_neg (by decide), if_pos rfl]⟩

theorem loadCache_ok (nd : XmlNode) (c : CacheChoice) : loadCache nd = .ok c ↔ NamesCache nd c := by
  simp only [loadCache, Outcome.bind_eq_ok, require_ok]
  constructor
  · rintro ⟨t, ht, h⟩
    split at h
    · rename_i hs; subst hs; cases h; exact ht
    · split at h
      · rename_i hs; subst hs; cases h; exact ht
      · split at h
        · rename_i hs; subst hs; cases h; exact ht
        · cases h
  · intro h
    cases c with
    | none => exact ⟨_, h, by rw [if_pos rfl]⟩
    | normal => exact ⟨_, h, by rw [if_neg (by decide), if_pos rfl]⟩
    | normalAndFriction => exact ⟨_, h, by rw [if_neg (by decide), if_neg (by decide), if_pos rfl]⟩

theorem loadSobogusMap_ok (p : SceneProgram) (nd : XmlNode) (cor tol : ℚ) (n : ℕ) (m : IfMapChoice) :
    loadSobogusMap p nd cor tol n = .ok m ↔ DescribesSobogusMap lenientReading nd cor tol n p m := by
  cases p with
  | balls2D =>
    simp only [loadSobogusMap, Outcome.bind_eq_ok, require_ok, loadCache_ok]
    constructor
    · rintro ⟨c, hc, st, hst, h⟩
      split at h
      · rename_i hs; subst hs; cases h; exact .geometric (by decide) hst hc
      · split at h
        · rename_i hs; subst hs
          simp only [Outcome.bind_eq_ok, ↓bind_failIf, flag_ok, loadThreshold_ok, Outcome.ok.injEq, decide_eq_false_iff_not, not_not] at h
          obtain ⟨h0, s, hs, thr, ht, rfl⟩ := h
          exact .symplecticEuler (by decide) hst h0 hc hs ht.1 ht.2
        · split at h
          · rename_i hs; subst hs
            split at h
            · rename_i hcn; subst hcn; cases h
              exact .stabilized hst (fun _ => hc) (fun h => by cases h)
            · cases h
          · cases h
    · intro h
      cases h with
      | geometric hp hst hc => exact ⟨_, hc, _, hst, by rw [if_pos rfl]⟩
      | symplecticEuler hp hst h0 hc hs ht hn =>
        refine ⟨_, hc, _, hst, ?_⟩
        rw [if_neg (by decide), if_pos rfl]
        simp only [Outcome.bind_eq_ok, ↓bind_failIf, flag_ok, loadThreshold_ok, decide_eq_false_iff_not, not_not]
        exact ⟨h0, _, hs, _, ⟨ht, hn⟩, rfl⟩
      | stabilized hst h1 h2 => exact ⟨_, h1 rfl, _, hst, by rw [if_neg (by decide), if_neg (by decide), if_pos rfl, if_pos rfl]⟩
  | rigidBody2D =>
    simp only [loadSobogusMap, Outcome.bind_eq_ok, require_ok, loadCache_ok]
    constructor
    · rintro ⟨c, hc, st, hst, h⟩
      split at h
      · rename_i hs; subst hs; cases h; exact .geometric (by decide) hst hc
      · split at h
        · rename_i hs; subst hs; cases h
          exact .stabilized hst (fun h => by cases h) (fun _ => ⟨c, hc⟩)
        · cases h
    · intro h
      cases h with
      | geometric hp hst hc => exact ⟨_, hc, _, hst, by rw [if_pos rfl]⟩
      | symplecticEuler hp hst h0 hc hs ht hn => exact absurd rfl hp
      | stabilized hst h1 h2 =>
        obtain ⟨c, hc⟩ := h2 rfl
        exact ⟨_, hc, _, hst, by rw [if_neg (by decide), if_pos rfl]⟩
  | rigidBody3D =>
    simp only [loadSobogusMap, Outcome.bind_eq_ok, require_ok]
    constructor
    · rintro ⟨st, hst, h⟩
      split at h
      · rename_i hs; subst hs; cases h; exact .geometric3 hst
      · split at h
        · rename_i hs; subst hs
          simp only [Outcome.bind_eq_ok, ↓bind_failIf, flag_ok, loadThreshold_ok, loadCache_ok, Outcome.ok.injEq, decide_eq_false_iff_not, not_not] at h
          obtain ⟨h0, s, hs, thr, ht, c, hc, rfl⟩ := h
          exact .symplecticEuler (by decide) hst h0 hc hs ht.1 ht.2
        · split at h
          · rename_i hs; subst hs; cases h
            exact .stabilized hst (fun h => by cases h) (fun h => by cases h)
          · cases h
    · intro h
      cases h with
      | geometric hp hst hc => exact absurd rfl hp
      | geometric3 hst => exact ⟨_, hst, by rw [if_pos rfl]⟩
      | symplecticEuler hp hst h0 hc hs ht hn =>
        refine ⟨_, hst, ?_⟩
        rw [if_neg (by decide), if_pos rfl]
        simp only [Outcome.bind_eq_ok, ↓bind_failIf, flag_ok, loadThreshold_ok, loadCache_ok, decide_eq_false_iff_not, not_not]
        exact ⟨h0, _, hs, _, ⟨ht, hn⟩, _, hc, rfl⟩
      | stabilized hst h1 h2 => exact ⟨_, hst, by rw [if_neg (by decide), if_neg (by decide), if_pos rfl]⟩

theorem loadSobogus_ok (p : SceneProgram) (nd : XmlNode) (f : FrictionSetup) : loadSobogus p nd = .ok f ↔ DescribesSobogus lenientReading p nd f := by
  simp only [loadSobogus, Outcome.bind_eq_ok, loadMu_ok, loadCoR_ok, loadMapTol_ok, loadMaxIters_ok, loadEvalEvery_ok, loadSobogusMap_ok, Outcome.ok.injEq]
  constructor
  · rintro ⟨mu, hmu, cor, hcor, n, hn, ev, hev, tol, htol, m, hm, rfl⟩
    exact ⟨tol, n, ev, ⟨hmu.1, hmu.2, hcor.1, hcor.2⟩, ⟨htol.1, htol.2, hn.1, hn.2⟩, hev.1, hev.2.1, hev.2.2, rfl, hm⟩
  · obtain ⟨mu, cor, solver, map⟩ := f
    rintro ⟨tol, n, ev, ⟨hm1, hm2, hc1, hc2⟩, ⟨ht1, ht2, hn1, hn2⟩, he1, he2, he3, hs, hm⟩
    simp only at hs
    subst hs
    exact ⟨mu, ⟨hm1, hm2⟩, cor, ⟨hc1, hc2⟩, n, ⟨hn1, hn2⟩, ev, ⟨he1, he2, he3⟩, tol, ⟨ht1, ht2⟩, map, hm, rfl⟩

theorem loadGrrFriction_ok (b : Build) (nd : XmlNode) (f : FrictionSetup) : loadGrrFriction b nd = .ok f ↔ DescribesGrr lenientReading b nd f := by
  simp only [loadGrrFriction, Outcome.bind_eq_ok, require_ok, requireChild_ok, loadMu_ok, loadCoR_ok, loadImpactOperator_ok, loadFrictionOperator_ok]
  constructor
  · rintro ⟨mu, hmu, cor, hcor, ic, hic, im, him, fc, hfc, fr, hfr, st, hst, h⟩
    split at h
    · rename_i hs
      subst hs
      cases h
      exact ⟨ic, fc, im, fr, ⟨hmu.1, hmu.2, hcor.1, hcor.2⟩, hic, him, hfc, hfr, rfl, Or.inl ⟨hst, rfl⟩⟩
    · split at h
      · rename_i hs
        subst hs
        cases h
        exact ⟨ic, fc, im, fr, ⟨hmu.1, hmu.2, hcor.1, hcor.2⟩, hic, him, hfc, hfr, rfl, Or.inr ⟨hst, rfl⟩⟩
      · cases h
  · obtain ⟨mu, cor, solver, map⟩ := f
    rintro ⟨ic, fc, im, fr, ⟨hm1, hm2, hc1, hc2⟩, hic, him, hfc, hfr, hs, hmap⟩
    simp only at hs
    subst hs
    rcases hmap with ⟨hst, hm⟩ | ⟨hst, hm⟩
    · simp only at hm
      subst hm
      exact ⟨mu, ⟨hm1, hm2⟩, cor, ⟨hc1, hc2⟩, ic, hic, im, him, fc, hfc, fr, hfr, _, hst, by rw [if_pos rfl]⟩
    · simp only at hm
      subst hm
      exact ⟨mu, ⟨hm1, hm2⟩, cor, ⟨hc1, hc2⟩, ic, hic, im, him, fc, hfc, fr, hfr, _, hst, by rw [if_neg (by decide), if_pos rfl]⟩

theorem loadImpactSetup_ok (b : Build) (p : SceneProgram) (root : XmlNode) (s : SolverSetup) :
    loadImpactSetup b p root = .ok s ↔ (root.first "impact_operator" = none ∧ s = ContactChoice.setup .ignored) ∨
      ∃ nd op cache cor, root.first "impact_operator" = some nd ∧ nd.Number lenientReading "CoR" cor ∧
        (if p = .rigidBody3D then cache = none else ∃ c, nd.Flag lenientReading "cache_impulses" c ∧ cache = some c) ∧
        NamesImpact lenientReading b p nd op ∧ s = ContactChoice.setup (.impact op cache cor) := by
  unfold loadImpactSetup
  cases h : root.first "impact_operator" with
  | none =>
    simp only [Outcome.ok.injEq, true_and, reduceCtorEq, false_and, exists_false, or_false]
    exact eq_comm
  | some nd =>
    simp only [reduceCtorEq, false_and, false_or, Option.some.injEq]
    by_cases hp : p = SceneProgram.rigidBody3D
    · simp only [if_pos hp, Outcome.bind_eq_ok, scalar_ok, loadImpactOperator_ok, Outcome.ok.injEq]
      constructor
      · rintro ⟨cor, hcor, cache, hca, op, hop, rfl⟩
        exact ⟨nd, op, cache, cor, rfl, hcor, hca.symm, hop, rfl⟩
      · rintro ⟨_, op, cache, cor, rfl, hcor, rfl, hop, rfl⟩
        exact ⟨cor, hcor, none, rfl, op, hop, rfl⟩
    · simp only [if_neg hp, Outcome.bind_eq_ok, scalar_ok, flag_ok, loadImpactOperator_ok, Outcome.ok.injEq]
      constructor
      · rintro ⟨cor, hcor, cache, ⟨c, hc, rfl⟩, op, hop, rfl⟩
        exact ⟨nd, op, some c, cor, rfl, hcor, ⟨c, hc, rfl⟩, hop, rfl⟩
      · rintro ⟨_, op, cache, cor, rfl, hcor, ⟨c, hc, rfl⟩, hop, rfl⟩
        exact ⟨cor, hcor, some c, ⟨c, hc, rfl⟩, op, hop, rfl⟩

theorem loadFrictionSetup_ok (root : XmlNode) (name : String) (load : XmlNode → Outcome FrictionSetup) (s s' : SolverSetup) :
    loadFrictionSetup root name load s = .ok s' ↔ (root.first name = none ∧ s' = s) ∨
      ∃ nd f, root.first name = some nd ∧ s.impactOperator = none ∧ s.impactMap = none ∧ s.frictionSolver = none ∧ load nd = .ok f ∧
        s' = ⟨none, none, some f.CoR, some f.solver, some f.mu, some f.map⟩ := by
  unfold loadFrictionSetup
  cases h : root.first name with
  | none =>
    simp only [Outcome.ok.injEq, true_and, reduceCtorEq, false_and, exists_false, or_false]
    exact eq_comm
  | some nd =>
    simp only [reduceCtorEq, false_and, false_or, Option.some.injEq, ↓bind_failIf, Outcome.bind_eq_ok, Bool.or_eq_false_iff, Option.isSome_eq_false_iff, Option.isNone_iff_eq_none,
      Outcome.ok.injEq]
    constructor
    · rintro ⟨⟨h1, h2⟩, h3, f, hf, rfl⟩
      exact ⟨nd, f, rfl, h1, h2, h3, hf, by rw [h1, h2]⟩
    · rintro ⟨_, f, rfl, h1, h2, h3, hf, rfl⟩
      exact ⟨⟨h1, h2⟩, h3, f, hf, by rw [h1, h2]⟩

theorem loadSolvers_ok (b : Build) (p : SceneProgram) (root : XmlNode) (s : SolverSetup) :
    loadSolvers b p root = .ok s ↔ ∃ c, DescribesContacts lenientReading b p root c ∧ s = c.setup := by
  simp only [loadSolvers, Outcome.bind_eq_ok, loadImpactSetup_ok, loadFrictionSetup_ok, loadStaggered_ok, loadSobogus_ok]
  have hlast : ∀ s1 : SolverSetup, ((if p = .rigidBody3D then loadFrictionSetup root "grr_friction_solver" (loadGrrFriction b) s1 else .ok s1) = .ok s) ↔
      (((p = .rigidBody3D → root.first "grr_friction_solver" = none) ∧ s = s1) ∨
        (p = .rigidBody3D ∧ ∃ nd f, root.first "grr_friction_solver" = some nd ∧ s1.impactOperator = none ∧ s1.impactMap = none ∧ s1.frictionSolver = none ∧
          DescribesGrr lenientReading b nd f ∧ s = ⟨none, none, some f.CoR, some f.solver, some f.mu, some f.map⟩)) := by
    intro s1
    by_cases hp : p = .rigidBody3D
    · rw [if_pos hp, loadFrictionSetup_ok]
      simp only [loadGrrFriction_ok, hp, true_implies, true_and]
    · rw [if_neg hp]
      simp only [hp, false_implies, true_and, false_and, or_false, Outcome.ok.injEq]
      exact eq_comm
  simp only [hlast]
  constructor
  · rintro ⟨s0, h0, s1, h1, s2, h2, h3⟩
    rcases h0 with ⟨hi, rfl⟩ | ⟨nd, op, cache, cor, hi, hcor, hca, hop, rfl⟩
    · rcases h1 with ⟨hs, rfl⟩ | ⟨nd, f, hs, -, -, -, hf, rfl⟩
      · rcases h2 with ⟨hb, rfl⟩ | ⟨nd, f, hb, -, -, -, hf, rfl⟩
        · rcases h3 with ⟨hg, rfl⟩ | ⟨hp, nd, f, hg, -, -, -, hf, rfl⟩
          · exact ⟨.ignored, .ignored hi hs hb hg, rfl⟩
          · exact ⟨.friction f, .grr hp hi hs hb hg hf, rfl⟩
        · rcases h3 with ⟨hg, rfl⟩ | ⟨hp, nd', f', hg, -, -, h3, -⟩
          · exact ⟨.friction f, .sobogus hi hs hb hg hf, rfl⟩
          · cases h3
      · rcases h2 with ⟨hb, rfl⟩ | ⟨nd', f', hb, -, -, h3', -⟩
        · rcases h3 with ⟨hg, rfl⟩ | ⟨hp, nd', f', hg, -, -, h3, -⟩
          · exact ⟨.friction f, .staggered hi hs hb hg hf, rfl⟩
          · cases h3
        · cases h3'
    · rcases h1 with ⟨hs, rfl⟩ | ⟨nd', f, hs, h, -⟩
      · rcases h2 with ⟨hb, rfl⟩ | ⟨nd', f, hb, h, -⟩
        · rcases h3 with ⟨hg, rfl⟩ | ⟨hp, nd', f, hg, h, -⟩
          · exact ⟨.impact op cache cor, .impact hi hs hb hg hcor hca hop, rfl⟩
          · cases h
        · cases h
      · cases h
  · rintro ⟨c, hc, rfl⟩
    cases hc with
    | ignored h1 h2 h3 h4 => exact ⟨_, Or.inl ⟨h1, rfl⟩, _, Or.inl ⟨h2, rfl⟩, _, Or.inl ⟨h3, rfl⟩, Or.inl ⟨h4, rfl⟩⟩
    | impact h1 h2 h3 h4 hc hca ho =>
      exact ⟨_, Or.inr ⟨_, _, _, _, h1, hc, hca, ho, rfl⟩, _, Or.inl ⟨h2, rfl⟩, _, Or.inl ⟨h3, rfl⟩, Or.inl ⟨h4, rfl⟩⟩
    | staggered h1 h2 h3 h4 hf =>
      exact ⟨_, Or.inl ⟨h1, rfl⟩, _, Or.inr ⟨_, _, h2, rfl, rfl, rfl, hf, rfl⟩, _, Or.inl ⟨h3, rfl⟩, Or.inl ⟨h4, rfl⟩⟩
    | sobogus h1 h2 h3 h4 hf =>
      exact ⟨_, Or.inl ⟨h1, rfl⟩, _, Or.inl ⟨h2, rfl⟩, _, Or.inr ⟨_, _, h3, rfl, rfl, rfl, hf, rfl⟩, Or.inl ⟨h4, rfl⟩⟩
    | grr hp h1 h2 h3 h4 hf =>
      exact ⟨_, Or.inl ⟨h1, rfl⟩, _, Or.inl ⟨h2, rfl⟩, _, Or.inl ⟨h3, rfl⟩, Or.inr ⟨hp, _, _, h4, rfl, rfl, rfl, hf, rfl⟩⟩

/-! ## A reading that understands more describes more -/

section Mono
variable {R R' : SceneReading} (h : R.Le R')
include h

theorem Number.mono {nd : XmlNode} {a : String} {q : ℚ} (hn : nd.Number R a q) : nd.Number R' a q := by
  obtain ⟨t, ht, hq⟩ := hn
  exact ⟨t, ht, h.number _ _ hq⟩

theorem BareNumber.mono {nd : XmlNode} {a : String} {q : ℚ} (hn : nd.BareNumber R a q) : nd.BareNumber R' a q := by
  obtain ⟨t, ht, hq⟩ := hn
  exact ⟨t, ht, h.bareNumber _ _ hq⟩

theorem Flag.mono {nd : XmlNode} {a : String} {q : Bool} (hn : nd.Flag R a q) : nd.Flag R' a q := by
  obtain ⟨t, ht, hq⟩ := hn
  exact ⟨t, ht, h.flag _ _ hq⟩

theorem BareFlag.mono {nd : XmlNode} {a : String} {q : Bool} (hn : nd.BareFlag R a q) : nd.BareFlag R' a q := by
  obtain ⟨t, ht, hq⟩ := hn
  exact ⟨t, ht, h.bareFlag _ _ hq⟩

theorem Int.mono' {nd : XmlNode} {a : String} {q : ℤ} (hn : nd.Int R a q) : nd.Int R' a q := by
  obtain ⟨t, ht, hq⟩ := hn
  exact ⟨t, ht, h.int _ _ hq⟩

theorem Unsigned.mono {nd : XmlNode} {a : String} {q : ℕ} (hn : nd.Unsigned R a q) : nd.Unsigned R' a q := by
  obtain ⟨t, ht, hq⟩ := hn
  exact ⟨t, ht, h.unsigned _ _ hq⟩

theorem NamesLcp.mono {b : Build} {p : SceneProgram} {nd : XmlNode} {l : LcpChoice} (hl : NamesLcp R b p nd l) : NamesLcp R' b p nd l := by
  cases hl with
  | apgd hp hn ht hpos hi => exact .apgd hp hn (Number.mono h ht) hpos (Unsigned.mono h hi)
  | qlVp hb hn ht => exact .qlVp hb hn (Number.mono h ht)
  | ql hb hn ht => exact .ql hb hn (Number.mono h ht)
  | ipopt hb hn hl hne ht hpos => exact .ipopt hb hn hl hne (Number.mono h ht) hpos

theorem NamesImpact.mono {b : Build} {p : SceneProgram} {nd : XmlNode} {l : ImpactChoice} (hl : NamesImpact R b p nd l) : NamesImpact R' b p nd l := by
  induction hl with
  | gaussSeidel hn ht h0 => exact .gaussSeidel hn (Number.mono h ht) h0
  | jacobi hn ht h0 => exact .jacobi hn (Number.mono h ht) h0
  | lcp hn hc hl => exact .lcp hn hc (NamesLcp.mono h hl)
  | gr hn ht h0 hc hl => exact .gr hn (Number.mono h ht) h0 hc (NamesLcp.mono h hl)
  | grr hn hc hd _ _ ihe ihi => exact .grr hn hc hd ihe ihi

theorem NamesFrictionOp.mono {b : Build} {p : SceneProgram} {nd : XmlNode} {l : FrictionOpChoice} (hl : NamesFrictionOp R b nd p l) :
    NamesFrictionOp R' b nd p l := by
  cases hl with
  | ql hb hn ht h0 => exact .ql hb hn (Number.mono h ht) h0
  | ipopt hb hn hl hne ht h0 => exact .ipopt hb hn hl hne (Number.mono h ht) h0

theorem Coefficients.mono {nd : XmlNode} {mu cor : ℚ} (hc : Coefficients R nd mu cor) : Coefficients R' nd mu cor :=
  ⟨Number.mono h hc.1, hc.2.1, Number.mono h hc.2.2.1, hc.2.2.2⟩

theorem Termination.mono {nd : XmlNode} {tol : ℚ} {n : ℕ} (hc : Termination R nd tol n) : Termination R' nd tol n :=
  ⟨Number.mono h hc.1, hc.2.1, Int.mono' h hc.2.2.1, hc.2.2.2⟩

theorem DescribesStaggered.mono {b : Build} {p : SceneProgram} {nd : XmlNode} {f : FrictionSetup} (hf : DescribesStaggered R b p nd f) :
    DescribesStaggered R' b p nd f := by
  obtain ⟨wa, wb, ic, fc, lcp, fr, tol, n, hc, hwa, hwb, hic, hl, hfc, hfr, ht, hrest⟩ := hf
  exact ⟨wa, wb, ic, fc, lcp, fr, tol, n, Coefficients.mono h hc, Flag.mono h hwa, Flag.mono h hwb, hic, NamesLcp.mono h hl, hfc, NamesFrictionOp.mono h hfr,
    Termination.mono h ht, hrest⟩

theorem DescribesSobogusMap.mono {nd : XmlNode} {cor tol : ℚ} {n : ℕ} {p : SceneProgram} {m : IfMapChoice} (hm : DescribesSobogusMap R nd cor tol n p m) :
    DescribesSobogusMap R' nd cor tol n p m := by
  cases hm with
  | geometric hp hs hc => exact .geometric hp hs hc
  | geometric3 hs => exact .geometric3 hs
  | symplecticEuler hp hs h0 hc hst ht hn => exact .symplecticEuler hp hs h0 hc (Flag.mono h hst) (Number.mono h ht) hn
  | stabilized hs h1 h2 => exact .stabilized hs h1 h2

theorem DescribesSobogus.mono {p : SceneProgram} {nd : XmlNode} {f : FrictionSetup} (hf : DescribesSobogus R p nd f) : DescribesSobogus R' p nd f := by
  obtain ⟨tol, n, ev, hc, ht, he, h1, h2, hs, hm⟩ := hf
  exact ⟨tol, n, ev, Coefficients.mono h hc, Termination.mono h ht, Int.mono' h he, h1, h2, hs, DescribesSobogusMap.mono h hm⟩

theorem DescribesGrr.mono {b : Build} {nd : XmlNode} {f : FrictionSetup} (hf : DescribesGrr R b nd f) : DescribesGrr R' b nd f := by
  obtain ⟨ic, fc, im, fr, hc, hic, him, hfc, hfr, hrest⟩ := hf
  exact ⟨ic, fc, im, fr, Coefficients.mono h hc, hic, NamesImpact.mono h him, hfc, NamesFrictionOp.mono h hfr, hrest⟩

theorem DescribesContacts.mono {b : Build} {p : SceneProgram} {root : XmlNode} {c : ContactChoice} (hc : DescribesContacts R b p root c) :
    DescribesContacts R' b p root c := by
  cases hc with
  | ignored h1 h2 h3 h4 => exact .ignored h1 h2 h3 h4
  | impact h1 h2 h3 h4 hc hca ho =>
    refine .impact h1 h2 h3 h4 (Number.mono h hc) ?_ (NamesImpact.mono h ho)
    split
    · rename_i hp
      rwa [if_pos hp] at hca
    · rename_i hp
      rw [if_neg hp] at hca
      obtain ⟨x, hx, rfl⟩ := hca
      exact ⟨x, Flag.mono h hx, rfl⟩
  | staggered h1 h2 h3 h4 hf => exact .staggered h1 h2 h3 h4 (DescribesStaggered.mono h hf)
  | sobogus h1 h2 h3 h4 hf => exact .sobogus h1 h2 h3 h4 (DescribesSobogus.mono h hf)
  | grr hp h1 h2 h3 h4 hf => exact .grr hp h1 h2 h3 h4 (DescribesGrr.mono h hf)

end Mono

end Scisim
