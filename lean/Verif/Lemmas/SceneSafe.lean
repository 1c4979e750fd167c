import Verif.Lemmas.SceneSolvers
import Verif.Spec.SceneSafe
/-!
# Reading solvers from scene files ends in success or in a reported error: helper lemmas
-/

namespace Scisim

theorem Outcome.Returns.ok {α : Type} (a : α) : (Outcome.ok a).Returns := Or.inr ⟨a, rfl⟩

theorem Outcome.Returns.fail {α : Type} : (Outcome.fail : Outcome α).Returns := Or.inl rfl

theorem Outcome.Returns.bind {α β : Type} {o : Outcome α} {f : α → Outcome β} (ho : o.Returns) (hf : ∀ a, o = .ok a → (f a).Returns) : (o >>= f).Returns := by
  rcases ho with rfl | ⟨a, rfl⟩
  · exact Or.inl rfl
  · exact hf a rfl

theorem failIf_returns (c : Bool) : (failIf c).Returns := by
  unfold failIf
  split
  · exact Outcome.Returns.fail
  · exact Outcome.Returns.ok _

theorem checked_returns {α : Type} (x : Extracted α) : x.checked.Returns := by
  cases x
  · exact Outcome.Returns.fail
  · exact Outcome.Returns.fail
  · exact Outcome.Returns.ok _

theorem unchecked_returns {α : Type} {x : Extracted α} (h : x ≠ .nothing) : x.unchecked.Returns := by
  cases x
  · exact absurd rfl h
  · exact Outcome.Returns.ok _
  · exact Outcome.Returns.ok _

theorem require_returns (nd : XmlNode) (a : String) : (nd.require a).Returns := by
  unfold XmlNode.require
  split
  · exact Outcome.Returns.ok _
  · exact Outcome.Returns.fail

theorem requireChild_returns (nd : XmlNode) (a : String) : (nd.requireChild a).Returns := by
  unfold XmlNode.requireChild
  split
  · exact Outcome.Returns.ok _
  · exact Outcome.Returns.fail

theorem scalar_returns (nd : XmlNode) (a : String) : (nd.scalar a).Returns := (require_returns nd a).bind fun _ _ => checked_returns _
theorem flag_returns (nd : XmlNode) (a : String) : (nd.flag a).Returns := (require_returns nd a).bind fun _ _ => checked_returns _
theorem int_returns (nd : XmlNode) (a : String) : (nd.int a).Returns := (require_returns nd a).bind fun _ _ => checked_returns _
theorem unsigned_returns (nd : XmlNode) (a : String) : (nd.unsigned a).Returns := (require_returns nd a).bind fun _ _ => checked_returns _
theorem size_returns (nd : XmlNode) (a : String) : (nd.size a).Returns := (require_returns nd a).bind fun _ _ => checked_returns _

theorem scalarUnchecked_returns (nd : XmlNode) (a : String) (h : ∀ t, nd.attr a = some t → ¬ Blank t.toList) : (nd.scalarUnchecked a).Returns :=
  (require_returns nd a).bind fun t ht => unchecked_returns fun hn => h t ((require_ok nd a t).mp ht) ((extractScalar_nothing _).mp hn)

theorem flagUnchecked_returns (nd : XmlNode) (a : String) (h : ∀ t, nd.attr a = some t → ¬ Blank t.toList) : (nd.flagUnchecked a).Returns :=
  (require_returns nd a).bind fun t ht => unchecked_returns fun hn => h t ((require_ok nd a t).mp ht) ((extractBool_nothing _).mp hn)

theorem mapNodes_returns {α β : Type} (f : α → Outcome β) : ∀ l : List α, (∀ a ∈ l, (f a).Returns) → (mapNodes f l).Returns
  | [], _ => Outcome.Returns.ok _
  | a :: l, h => (h a (by simp)).bind fun _ _ => (mapNodes_returns f l fun x hx => h x (by simp [hx])).bind fun _ _ => Outcome.Returns.ok _

theorem linearSolvers_returns (nd : XmlNode) : (loadLinearSolvers nd).Returns :=
  (require_returns _ _).bind fun _ _ => (failIf_returns _).bind fun _ _ => Outcome.Returns.ok _

theorem loadLcpSolver_returns (b : Build) (p : SceneProgram) (nd : XmlNode) : (loadLcpSolver b p nd).Returns := by
  refine (require_returns _ _).bind fun name _ => ?_
  split_ifs
  · exact (scalar_returns _ _).bind fun _ _ => (failIf_returns _).bind fun _ _ => (unsigned_returns _ _).bind fun _ _ => Outcome.Returns.ok _
  · exact (scalar_returns _ _).bind fun _ _ => Outcome.Returns.ok _
  · exact (scalar_returns _ _).bind fun _ _ => Outcome.Returns.ok _
  · exact (linearSolvers_returns _).bind fun _ _ => (scalar_returns _ _).bind fun _ _ => (failIf_returns _).bind fun _ _ => Outcome.Returns.ok _
  · exact Outcome.Returns.fail

theorem loadVTol_returns (nd : XmlNode) : (loadVTol nd).Returns := (scalar_returns _ _).bind fun _ _ => (failIf_returns _).bind fun _ _ => Outcome.Returns.ok _

theorem loadImpactAux_returns (b : Build) (p : SceneProgram) : ∀ (fuel : ℕ) (nd : XmlNode), nd.depth ≤ fuel → (loadImpactAux b p fuel nd).Returns
  | 0, nd, h => by
    cases nd
    simp [XmlNode.depth] at h
  | fuel + 1, nd, h => by
    refine (require_returns _ _).bind fun type _ => ?_
    split_ifs
    · exact (loadVTol_returns _).bind fun _ _ => Outcome.Returns.ok _
    · exact (loadVTol_returns _).bind fun _ _ => Outcome.Returns.ok _
    · exact (requireChild_returns _ _).bind fun _ _ => (loadLcpSolver_returns _ _ _).bind fun _ _ => Outcome.Returns.ok _
    · exact (loadVTol_returns _).bind fun _ _ => (requireChild_returns _ _).bind fun _ _ => (loadLcpSolver_returns _ _ _).bind fun _ _ => Outcome.Returns.ok _
    · refine (requireChild_returns _ _).bind fun e he => (loadImpactAux_returns b p fuel e ?_).bind fun _ _ => (requireChild_returns _ _).bind fun i hi =>
        (loadImpactAux_returns b p fuel i ?_).bind fun _ _ => Outcome.Returns.ok _
      · have := depth_first ((requireChild_ok _ _ _).mp he)
        omega
      · have := depth_first ((requireChild_ok _ _ _).mp hi)
        omega
    · exact Outcome.Returns.fail

theorem loadImpactOperator_returns (b : Build) (p : SceneProgram) (nd : XmlNode) : (loadImpactOperator b p nd).Returns :=
  loadImpactAux_returns b p _ nd le_rfl

theorem loadFrictionOperator_returns (b : Build) (p : SceneProgram) (hp : p ≠ .rigidBody2D) (nd : XmlNode) : (loadFrictionOperator b p nd).Returns := by
  cases p
  · refine (require_returns _ _).bind fun name _ => ?_
    split_ifs
    · exact (scalar_returns _ _).bind fun _ _ => (failIf_returns _).bind fun _ _ => Outcome.Returns.ok _
    · exact Outcome.Returns.fail
  · exact absurd rfl hp
  · refine (require_returns _ _).bind fun name _ => ?_
    split_ifs
    · exact (linearSolvers_returns _).bind fun _ _ => (scalar_returns _ _).bind fun _ _ => (failIf_returns _).bind fun _ _ => Outcome.Returns.ok _
    · exact Outcome.Returns.fail

theorem loadMu_returns (nd : XmlNode) : (loadMu nd).Returns := (scalar_returns _ _).bind fun _ _ => (failIf_returns _).bind fun _ _ => Outcome.Returns.ok _
theorem loadCoR_returns (nd : XmlNode) : (loadCoR nd).Returns := (scalar_returns _ _).bind fun _ _ => (failIf_returns _).bind fun _ _ => Outcome.Returns.ok _
theorem loadMapTol_returns (nd : XmlNode) : (loadMapTol nd).Returns := (scalar_returns _ _).bind fun _ _ => (failIf_returns _).bind fun _ _ => Outcome.Returns.ok _
theorem loadThreshold_returns (nd : XmlNode) : (loadThreshold nd).Returns := (scalar_returns _ _).bind fun _ _ => (failIf_returns _).bind fun _ _ => Outcome.Returns.ok _
theorem loadMaxIters_returns (nd : XmlNode) : (loadMaxIters nd).Returns := (int_returns _ _).bind fun _ _ => (failIf_returns _).bind fun _ _ => Outcome.Returns.ok _
theorem loadEvalEvery_returns (nd : XmlNode) (k : ℕ) : (loadEvalEvery nd k).Returns :=
  (int_returns _ _).bind fun _ _ => (failIf_returns _).bind fun _ _ => (failIf_returns _).bind fun _ _ => Outcome.Returns.ok _

theorem loadStaggered_returns (b : Build) (p : SceneProgram) (hp : p ≠ .rigidBody2D) (nd : XmlNode) : (loadStaggered b p nd).Returns := by
  refine (loadMu_returns _).bind fun _ _ => (loadCoR_returns _).bind fun _ _ => (flag_returns _ _).bind fun _ _ => (flag_returns _ _).bind fun _ _ =>
    (requireChild_returns _ _).bind fun _ _ => (loadLcpSolver_returns _ _ _).bind fun _ _ => (requireChild_returns _ _).bind fun _ _ =>
    (loadFrictionOperator_returns _ _ hp _).bind fun _ _ => (require_returns _ _).bind fun _ _ => (loadMapTol_returns _).bind fun _ _ =>
    (loadMaxIters_returns _).bind fun _ _ => ?_
  split_ifs
  · exact Outcome.Returns.ok _
  · exact Outcome.Returns.ok _
  · exact Outcome.Returns.fail

theorem loadCache_returns (nd : XmlNode) (h : ∀ t, nd.attr "cache_impulses" = some t → t = "none" ∨ t = "normal" ∨ t = "normal_and_friction") : (loadCache nd).Returns := by
  refine (require_returns _ _).bind fun t ht => ?_
  split_ifs with h1 h2 h3
  · exact Outcome.Returns.ok _
  · exact Outcome.Returns.ok _
  · exact Outcome.Returns.ok _
  · rcases h t ((require_ok _ _ _).mp ht) with rfl | rfl | rfl
    · exact absurd rfl h1
    · exact absurd rfl h2
    · exact absurd rfl h3

theorem loadSobogusMap_returns (p : SceneProgram) (nd : XmlNode) (cor tol : ℚ) (n : ℕ)
    (h : ∀ t, nd.attr "cache_impulses" = some t → t = "none" ∨ t = "normal" ∨ t = "normal_and_friction")
    (hst : p = .balls2D → nd.attr "staggering" = some "stabilized" → ∀ t, nd.attr "cache_impulses" = some t → t = "none") : (loadSobogusMap p nd cor tol n).Returns := by
  cases p
  · refine (loadCache_returns nd h).bind fun c hc => (require_returns _ _).bind fun st hs => ?_
    split_ifs with h1 h2 h3 h4
    · exact Outcome.Returns.ok _
    · exact (failIf_returns _).bind fun _ _ => (flag_returns _ _).bind fun _ _ => (loadThreshold_returns _).bind fun _ _ => Outcome.Returns.ok _
    · exact Outcome.Returns.ok _
    · exfalso
      have hs' := (require_ok _ _ _).mp hs
      rw [h3] at hs'
      have hc' := (loadCache_ok _ _).mp hc
      cases c
      · exact h4 rfl
      · exact absurd (hst rfl hs' _ hc') (by decide)
      · exact absurd (hst rfl hs' _ hc') (by decide)
    · exact Outcome.Returns.fail
  · refine (loadCache_returns nd h).bind fun c hc => (require_returns _ _).bind fun st hs => ?_
    split_ifs
    · exact Outcome.Returns.ok _
    · exact Outcome.Returns.ok _
    · exact Outcome.Returns.fail
  · refine (require_returns _ _).bind fun st hs => ?_
    split_ifs
    · exact Outcome.Returns.ok _
    · exact (failIf_returns _).bind fun _ _ => (flag_returns _ _).bind fun _ _ => (loadThreshold_returns _).bind fun _ _ =>
        (loadCache_returns nd h).bind fun _ _ => Outcome.Returns.ok _
    · exact Outcome.Returns.ok _
    · exact Outcome.Returns.fail

theorem loadSobogus_returns (p : SceneProgram) (nd : XmlNode)
    (h : ∀ t, nd.attr "cache_impulses" = some t → t = "none" ∨ t = "normal" ∨ t = "normal_and_friction")
    (hst : p = .balls2D → nd.attr "staggering" = some "stabilized" → ∀ t, nd.attr "cache_impulses" = some t → t = "none") : (loadSobogus p nd).Returns :=
  (loadMu_returns _).bind fun _ _ => (loadCoR_returns _).bind fun _ _ => (loadMaxIters_returns _).bind fun _ _ => (loadEvalEvery_returns _ _).bind fun _ _ =>
    (loadMapTol_returns _).bind fun _ _ => (loadSobogusMap_returns p nd _ _ _ h hst).bind fun _ _ => Outcome.Returns.ok _

theorem loadGrrFriction_returns (b : Build) (nd : XmlNode) : (loadGrrFriction b nd).Returns := by
  refine (loadMu_returns _).bind fun _ _ => (loadCoR_returns _).bind fun _ _ => (requireChild_returns _ _).bind fun _ _ =>
    (loadImpactOperator_returns _ _ _).bind fun _ _ => (requireChild_returns _ _).bind fun _ _ => (loadFrictionOperator_returns _ _ (by decide) _).bind fun _ _ =>
    (require_returns _ _).bind fun _ _ => ?_
  split_ifs
  · exact Outcome.Returns.ok _
  · exact Outcome.Returns.ok _
  · exact Outcome.Returns.fail

theorem loadImpactSetup_returns (b : Build) (p : SceneProgram) (root : XmlNode) : (loadImpactSetup b p root).Returns := by
  unfold loadImpactSetup
  split
  · exact Outcome.Returns.ok _
  · refine (scalar_returns _ _).bind fun _ _ => ?_
    dsimp only
    split_ifs
    · exact (Outcome.Returns.ok _).bind fun _ _ => (loadImpactOperator_returns _ _ _).bind fun _ _ => Outcome.Returns.ok _
    · exact Outcome.Returns.bind ((flag_returns _ _).bind fun _ _ => Outcome.Returns.ok _) fun _ _ => (loadImpactOperator_returns _ _ _).bind fun _ _ => Outcome.Returns.ok _

theorem loadFrictionSetup_returns (root : XmlNode) (name : String) (load : XmlNode → Outcome FrictionSetup) (s : SolverSetup)
    (h : ∀ nd, root.first name = some nd → (load nd).Returns) : (loadFrictionSetup root name load s).Returns := by
  unfold loadFrictionSetup
  split
  · exact Outcome.Returns.ok _
  · rename_i nd hnd
    exact (failIf_returns _).bind fun _ _ => (failIf_returns _).bind fun _ _ => (h nd hnd).bind fun _ _ => Outcome.Returns.ok _

theorem loadSolvers_returns (b : Build) (p : SceneProgram) (root : XmlNode) (h : SolverOptionsKnown p root) : (loadSolvers b p root).Returns := by
  refine (loadImpactSetup_returns b p root).bind fun s _ => Outcome.Returns.bind (loadFrictionSetup_returns root _ _ s fun nd hnd => ?_) fun s' _ =>
    Outcome.Returns.bind (loadFrictionSetup_returns root _ _ s' fun nd hnd => ?_) fun s'' _ => ?_
  · refine loadStaggered_returns b p (fun hp => ?_) nd
    rw [h.1 hp] at hnd
    cases hnd
  · exact loadSobogus_returns p nd (h.2 nd hnd).1 (h.2 nd hnd).2
  · split_ifs
    · exact loadFrictionSetup_returns root _ _ s'' fun nd _ => loadGrrFriction_returns b nd
    · exact Outcome.Returns.ok _

end Scisim
