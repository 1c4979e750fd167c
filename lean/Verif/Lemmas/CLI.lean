import Verif.Spec.CLI
import Verif.Lemmas.Snapshot
/-!
# Lemmas about the main loop
-/

namespace Scisim

variable {Sim : Type}

/-- the globals after a successful flow, before exporting -/
def stepped (g : Snapshot Sim) (r : Sim × ImpactFrictionMapCfg) : Snapshot Sim :=
  { g with sim := r.1, impactFrictionMap := r.2, iteration := g.iteration + 1 }

def forceEvents (g : Snapshot Sim) : List (Event Sim) :=
  if g.outputForces ∧ g.iteration % g.stepsPerSave = 0 then [.forces (forceFileName g) g] else []

theorem stepSystem_ok {p : Program Sim} {g : Snapshot Sim} {r : Sim × ImpactFrictionMapCfg} (h : flowStep p g.input = .ok r) :
    stepSystem p g = (forceEvents g ++ (exportConfig p (stepped g r)).1, (exportConfig p (stepped g r)).2) := by
  obtain ⟨s, ifm⟩ := r
  unfold stepSystem
  rw [h]; rfl

theorem stepSystem_events_of_not_ok {p : Program Sim} {g : Snapshot Sim}
    (h : ∀ r, flowStep p g.input ≠ .ok r) :
    (stepSystem p g).1 = forceEvents g ∧ ∀ g', (stepSystem p g).2 ≠ .ok g' := by
  unfold stepSystem
  cases hf : flowStep p g.input with
  | ok r => exact absurd hf (h r)
  | fail => exact ⟨rfl, fun _ => by simp⟩
  | exit => exact ⟨rfl, fun _ => by simp⟩
  | ub => exact ⟨rfl, fun _ => by simp⟩

/-- the configuration file of an export -/
def cfgEvents (g : Snapshot Sim) : List (Event Sim) :=
  if g.outputDir = [] then [] else [.config (configFileName g (ascii "config") (ascii "h5")) g]

/-- All ways an export can go. -/
theorem exportConfig_cases (p : Program Sim) (g : Snapshot Sim) :
    (g.stepsPerSave = 0 ∧ exportConfig p g = ([], .ub)) ∨
    (g.stepsPerSave ≠ 0 ∧ g.iteration % g.stepsPerSave ≠ 0 ∧ exportConfig p g = ([], .ok g)) ∨
    (g.stepsPerSave ≠ 0 ∧ g.iteration % g.stepsPerSave = 0 ∧ g.serializeSnapshots = false ∧
      exportConfig p g = (cfgEvents g, .ok { g with outputFrame := g.outputFrame + 1 })) ∨
    (g.stepsPerSave ≠ 0 ∧ g.iteration % g.stepsPerSave = 0 ∧ g.serializeSnapshots = true ∧
      ∃ d, serSnapshot p.format p.git g = .ok d ∧
      exportConfig p g = (cfgEvents g ++ [.snapshot (snapshotFileName g) d],
        .ok { g with outputFrame := g.outputFrame + 1 })) ∨
    (g.stepsPerSave ≠ 0 ∧ g.iteration % g.stepsPerSave = 0 ∧ g.serializeSnapshots = true ∧
      (∀ d, serSnapshot p.format p.git g ≠ .ok d) ∧
      (exportConfig p g).1 = cfgEvents g ∧ ∀ g', (exportConfig p g).2 ≠ .ok g') := by
  unfold exportConfig
  by_cases h0 : g.stepsPerSave = 0
  · left; exact ⟨h0, by rw [if_pos h0]⟩
  right
  rw [if_neg h0]
  by_cases hm : g.iteration % g.stepsPerSave = 0
  · right
    rw [if_pos hm]
    by_cases hs : g.serializeSnapshots = true
    · right
      rw [if_pos hs]
      cases hd : serSnapshot p.format p.git g with
      | ok d => left; exact ⟨h0, hm, hs, d, rfl, rfl⟩
      | fail => right; exact ⟨h0, hm, hs, fun _ => by simp, rfl, fun _ => by simp⟩
      | exit => right; exact ⟨h0, hm, hs, fun _ => by simp, rfl, fun _ => by simp⟩
      | ub => right; exact ⟨h0, hm, hs, fun _ => by simp, rfl, fun _ => by simp⟩
    · left
      rw [if_neg hs]
      exact ⟨h0, hm, by simpa using hs, rfl⟩
  · left
    rw [if_neg hm]
    exact ⟨h0, hm, rfl⟩

theorem exportConfig_ok {p : Program Sim} {g g' : Snapshot Sim} (h : (exportConfig p g).2 = .ok g') :
    (g.iteration % g.stepsPerSave = 0 ∧ g' = { g with outputFrame := g.outputFrame + 1 }) ∨
    (g.iteration % g.stepsPerSave ≠ 0 ∧ g' = g) := by
  rcases exportConfig_cases p g with ⟨_, e⟩ | ⟨_, hm, e⟩ | ⟨_, hm, _, e⟩ | ⟨_, hm, _, d, _, e⟩ | ⟨_, _, _, _, _, e⟩
  · rw [e] at h; simp at h
  · rw [e] at h; simp only [Outcome.ok.injEq] at h; exact Or.inr ⟨hm, h.symm⟩
  · rw [e] at h; simp only [Outcome.ok.injEq] at h; exact Or.inl ⟨hm, h.symm⟩
  · rw [e] at h; simp only [Outcome.ok.injEq] at h; exact Or.inl ⟨hm, h.symm⟩
  · exact absurd h (e g')

theorem cfgEvents_no_snapshot (g : Snapshot Sim) (f d : Bytes) : Event.snapshot f d ∉ cfgEvents g := by
  unfold cfgEvents
  split <;> simp

theorem mem_exportConfig_snapshot {p : Program Sim} {g : Snapshot Sim} {f d : Bytes}
    (h : Event.snapshot f d ∈ (exportConfig p g).1) :
    serSnapshot p.format p.git g = .ok d ∧ f = snapshotFileName g := by
  rcases exportConfig_cases p g with ⟨_, e⟩ | ⟨_, hm, e⟩ | ⟨_, hm, _, e⟩ | ⟨_, hm, _, d', hd, e⟩ | ⟨_, _, _, _, e, _⟩
  · rw [e] at h; simp at h
  · rw [e] at h; simp at h
  · rw [e] at h; exact absurd h (cfgEvents_no_snapshot g f d)
  · rw [e] at h
    rcases List.mem_append.mp h with h | h
    · exact absurd h (cfgEvents_no_snapshot g f d)
    · simp only [List.mem_singleton, Event.snapshot.injEq] at h
      exact ⟨by rw [hd, h.2], h.1⟩
  · rw [e] at h; exact absurd h (cfgEvents_no_snapshot g f d)

theorem forceEvents_no_snapshot (g : Snapshot Sim) (f d : Bytes) : Event.snapshot f d ∉ forceEvents g := by
  unfold forceEvents
  split <;> simp

/-- Where the snapshots of the loop come from. -/
theorem simLoop_snapshot {p : Program Sim} {I : Snapshot Sim → Prop} (hI : Restorable p I) (f d : Bytes) :
    ∀ (fuel : Nat) (g : Snapshot Sim), I g → g.iteration.toNat + fuel < 4294967296 →
      Event.snapshot f d ∈ (simLoop p fuel g).1 →
    ∃ g', I g' ∧ g'.dtNum = g.dtNum ∧ g'.dtDen = g.dtDen ∧ g'.endTime = g.endTime ∧ g'.hdf5 = g.hdf5 ∧
      serSnapshot p.format p.git g' = .ok d ∧ f = snapshotFileName g' ∧ 0 < g'.iteration.toNat ∧
      ((∃ fuel' pre, fuel' + g'.iteration.toNat = fuel + g.iteration.toNat ∧
          simLoop p fuel g = (pre ++ (executeSimLoop p fuel' g').1, (executeSimLoop p fuel' g').2)) ∨
       (g'.outputForces = true ∧ p.reached g'.dtNum g'.dtDen g'.endTime (g'.iteration - 1) = true)) := by
  intro fuel
  induction fuel with
  | zero => intro g _ _ h; simp [simLoop] at h
  | succ fuel ih =>
    intro g hg hb h
    have hit : (g.iteration + 1).toNat = g.iteration.toNat + 1 := by
      rw [UInt32.toNat_add]; exact Nat.mod_eq_of_lt (by show _ + 1 < 4294967296; omega)
    have hstep : ∀ r, flowStep p g.input = .ok r → Event.snapshot f d ∈ (stepSystem p g).1 →
        serSnapshot p.format p.git (stepped g r) = .ok d ∧ f = snapshotFileName (stepped g r) := by
      intro r hr hm
      rw [stepSystem_ok hr] at hm
      rcases List.mem_append.mp hm with hm | hm
      · exact absurd hm (forceEvents_no_snapshot g f d)
      · exact mem_exportConfig_snapshot hm
    have hnostep : (∀ r, flowStep p g.input ≠ .ok r) → Event.snapshot f d ∉ (stepSystem p g).1 := by
      intro hr hm
      rw [(stepSystem_events_of_not_ok hr).1] at hm
      exact forceEvents_no_snapshot g f d hm
    have hpos : ∀ r, 0 < (stepped g r).iteration.toNat := fun r => by
      show 0 < (g.iteration + 1).toNat; omega
    unfold simLoop at h ⊢
    by_cases hr : endReached p g = true
    · simp only [hr, if_true] at h ⊢
      by_cases hfo : g.outputForces = true
      · simp only [hfo, if_true] at h ⊢
        by_cases hflow : ∃ r, flowStep p g.input = .ok r
        · obtain ⟨r, hr'⟩ := hflow
          obtain ⟨h1, h2⟩ := hstep r hr' h
          refine ⟨stepped g r, hI.step _ _ _ hg hr', rfl, rfl, rfl, rfl, h1, h2, hpos r, Or.inr ⟨hfo, ?_⟩⟩
          show p.reached _ _ _ (g.iteration + 1 - 1) = true
          rw [UInt32.add_sub_cancel]; exact hr
        · exact absurd h (hnostep (fun r hr' => hflow ⟨r, hr'⟩))
      · simp [hfo] at h
    · simp only [hr] at h ⊢
      by_cases hflow : ∃ r, flowStep p g.input = .ok r
      · obtain ⟨r, hr'⟩ := hflow
        have hs := stepSystem_ok hr'
        by_cases hm : Event.snapshot f d ∈ (stepSystem p g).1
        · obtain ⟨h1, h2⟩ := hstep r hr' hm
          refine ⟨stepped g r, hI.step _ _ _ hg hr', rfl, rfl, rfl, rfl, h1, h2, hpos r,
            Or.inl ⟨fuel, forceEvents g, ?_, ?_⟩⟩
          · show fuel + (g.iteration + 1).toNat = _; omega
          · rw [hs]
            unfold executeSimLoop
            simp only [Bool.false_eq_true, if_false]
            cases ho : (exportConfig p (stepped g r)).2 <;> simp
        · -- the snapshot comes later
          rw [hs] at h hm ⊢
          simp only [Bool.false_eq_true, if_false] at h ⊢
          cases ho : (exportConfig p (stepped g r)).2 with
          | ok g1 =>
            simp only [ho] at h ⊢
            have hm' : Event.snapshot f d ∈ (simLoop p fuel g1).1 := by
              rcases List.mem_append.mp h with h | h
              · exact absurd h hm
              · exact h
            have hg1 : I g1 ∧ g1.iteration = g.iteration + 1 ∧ g1.dtNum = g.dtNum ∧ g1.dtDen = g.dtDen ∧
                g1.endTime = g.endTime ∧ g1.hdf5 = g.hdf5 := by
              rcases exportConfig_ok ho with ⟨_, e⟩ | ⟨_, e⟩
              · subst e
                exact ⟨hI.frame _ (hI.step _ _ _ hg hr'), rfl, rfl, rfl, rfl, rfl⟩
              · subst e
                exact ⟨hI.step _ _ _ hg hr', rfl, rfl, rfl, rfl, rfl⟩
            obtain ⟨hIg1, e1, e2, e3, e4, e5⟩ := hg1
            obtain ⟨g', a1, a2, a3, a4, a5, a6, a7, a8, a9⟩ := ih g1 hIg1 (by rw [e1, hit]; omega) hm'
            refine ⟨g', a1, a2.trans e2, a3.trans e3, a4.trans e4, a5.trans e5, a6, a7, a8, ?_⟩
            rcases a9 with ⟨fuel', pre, b1, b2⟩ | b
            · refine Or.inl ⟨fuel', (forceEvents g ++ (exportConfig p (stepped g r)).1) ++ pre, ?_, ?_⟩
              · rw [e1, hit] at b1; omega
              · rw [b2]; simp [List.append_assoc]
            · exact Or.inr b
          | fail => simp only [ho] at h; exact absurd h hm
          | exit => simp only [ho] at h; exact absurd h hm
          | ub => simp only [ho] at h; exact absurd h hm
      · have hno : ∀ r, flowStep p g.input ≠ .ok r := fun r hr' => hflow ⟨r, hr'⟩
        have hm := hnostep hno
        have hne := (stepSystem_events_of_not_ok hno).2
        simp only [Bool.false_eq_true, if_false] at h
        cases ho : (stepSystem p g).2 with
        | ok g1 => exact absurd ho (hne g1)
        | fail => simp only [ho] at h; exact absurd h hm
        | exit => simp only [ho] at h; exact absurd h hm
        | ub => simp only [ho] at h; exact absurd h hm

/-- Observing a run longer only adds to what was observed. -/
theorem simLoop_prefix (p : Program Sim) (fuel : Nat) (g : Snapshot Sim) :
    (simLoop p fuel g).1 <+: (simLoop p (fuel + 1) g).1 := by
  induction fuel generalizing g with
  | zero => simp [simLoop]
  | succ fuel ih =>
    rw [simLoop.eq_def p (fuel + 1) g, simLoop.eq_def p (fuel + 1 + 1) g]
    simp only
    split
    · split <;> simp
    · cases ho : (stepSystem p g).2 <;> simp
      exact ih _

/-! ### Frames -/

/-- `g` differs from `g0` only in what a run changes. -/
def SameRun (g0 g : Snapshot Sim) : Prop :=
  g = { g0 with sim := g.sim, impactFrictionMap := g.impactFrictionMap, iteration := g.iteration,
                outputFrame := g.outputFrame }

/-- The globals when the configuration file of iteration `k` is written. -/
structure AtExport (p : Program Sim) (g0 : Snapshot Sim) (k : Nat) (g : Snapshot Sim) : Prop where
  same : SameRun g0 g
  it : g.iteration.toNat = k
  frame : g.outputFrame.toNat = (k + g0.stepsPerSave.toNat - 1) / g0.stepsPerSave.toNat
  traj : trajectory p g0.input k = .ok g.input

/-- The globals of the loop at iteration `k`, after exporting. -/
structure AtLoop (p : Program Sim) (g0 : Snapshot Sim) (k : Nat) (g : Snapshot Sim) : Prop where
  same : SameRun g0 g
  it : g.iteration.toNat = k
  frame : g.outputFrame.toNat = k / g0.stepsPerSave.toNat + 1
  traj : trajectory p g0.input k = .ok g.input

theorem configs_append (a b : List (Event Sim)) : configs (a ++ b) = configs a ++ configs b := by
  simp [configs]

theorem configs_forceEvents (g : Snapshot Sim) : configs (forceEvents g) = [] := by
  unfold forceEvents
  split <;> simp [configs]

theorem configs_cfgEvents (g : Snapshot Sim) :
    configs (cfgEvents g) = if g.outputDir = [] then [] else [(configFileName g (ascii "config") (ascii "h5"), g)] := by
  unfold cfgEvents
  split <;> simp [configs]

theorem mod_zero_iff {g : Snapshot Sim} : g.iteration % g.stepsPerSave = 0 ↔ g.iteration.toNat % g.stepsPerSave.toNat = 0 := by
  rw [← UInt32.toNat_inj, UInt32.toNat_mod]; rfl

/-- One export. -/
theorem export_step {p : Program Sim} {g0 g : Snapshot Sim} {k : Nat} (hn : 0 < g0.stepsPerSave.toNat)
    (hk : k + 1 < 4294967296) (h : AtExport p g0 k g) :
    (configs (exportConfig p g).1 =
      if k % g0.stepsPerSave.toNat = 0 ∧ g0.outputDir ≠ [] then [(configFileName g (ascii "config") (ascii "h5"), g)] else []) ∧
    ∀ g', (exportConfig p g).2 = .ok g' → AtLoop p g0 k g' := by
  have hs : g.stepsPerSave = g0.stepsPerSave := by rw [h.same]
  have hd : g.outputDir = g0.outputDir := by rw [h.same]; rfl
  have hmod := @mod_zero_iff _ g
  rw [h.it, hs] at hmod
  have hfr : (g.outputFrame + 1).toNat = g.outputFrame.toNat + 1 := by
    rw [UInt32.toNat_add]
    refine Nat.mod_eq_of_lt ?_
    show _ + 1 < 4294967296
    rw [h.frame]
    have := Nat.div_le_self (k + g0.stepsPerSave.toNat - 1) g0.stepsPerSave.toNat
    have h2 : (k + g0.stepsPerSave.toNat - 1) / g0.stepsPerSave.toNat ≤ k := by
      rw [Nat.div_le_iff_le_mul_add_pred hn]
      have : k ≤ g0.stepsPerSave.toNat * k := Nat.le_mul_of_pos_left k hn
      omega
    omega
  have hceil0 : k % g0.stepsPerSave.toNat = 0 → (k + g0.stepsPerSave.toNat - 1) / g0.stepsPerSave.toNat = k / g0.stepsPerSave.toNat := by
    intro hm
    obtain ⟨q, rfl⟩ := Nat.dvd_of_mod_eq_zero hm
    rw [Nat.mul_div_cancel_left q hn, Nat.div_eq_iff hn]
    constructor
    · rw [Nat.mul_comm]; all_goals omega
    · rw [Nat.mul_comm q]; all_goals omega
  have hceil1 : k % g0.stepsPerSave.toNat ≠ 0 → (k + g0.stepsPerSave.toNat - 1) / g0.stepsPerSave.toNat = k / g0.stepsPerSave.toNat + 1 := by
    intro hm
    rw [Nat.div_eq_iff hn]
    have := Nat.div_add_mod k g0.stepsPerSave.toNat
    have hlt := Nat.mod_lt k hn
    rw [Nat.add_mul, Nat.mul_comm (k / _)]
    constructor <;> omega
  have hn0 : g.stepsPerSave ≠ 0 := by
    intro e; rw [hs] at e; rw [e] at hn; exact absurd hn (by decide)
  have hsave : k % g0.stepsPerSave.toNat = 0 → AtLoop p g0 k { g with outputFrame := g.outputFrame + 1 } := by
    intro hm
    refine ⟨?_, h.it, ?_, h.traj⟩
    · have := h.same
      unfold SameRun at this ⊢
      rw [this]
    · show (g.outputFrame + 1).toNat = _
      rw [hfr, h.frame, hceil0 hm]
  rcases exportConfig_cases p g with ⟨e0, e⟩ | ⟨_, hm, e⟩ | ⟨_, hm, _, e⟩ | ⟨_, hm, _, d, _, e⟩ | ⟨_, hm, _, _, e, e'⟩
  · exact absurd e0 hn0
  · rw [hs] at hm
    have hm' : k % g0.stepsPerSave.toNat ≠ 0 := fun h0 => hm (hmod.mpr h0)
    rw [e]
    refine ⟨by simp [configs, hm'], fun g' hg' => ?_⟩
    simp only [Outcome.ok.injEq] at hg'
    subst hg'
    exact ⟨h.same, h.it, by rw [h.frame, hceil1 hm'], h.traj⟩
  · rw [hs] at hm
    have hm' := hmod.mp hm
    rw [e]
    refine ⟨?_, fun g' hg' => ?_⟩
    · simp only [configs_cfgEvents, hd, hm']; by_cases hd0 : g0.outputDir = [] <;> simp [hd0]
    · simp only [Outcome.ok.injEq] at hg'; subst hg'; exact hsave hm'
  · rw [hs] at hm
    have hm' := hmod.mp hm
    rw [e]
    refine ⟨?_, fun g' hg' => ?_⟩
    · simp only [configs_append, configs_cfgEvents, hd, hm']; by_cases hd0 : g0.outputDir = [] <;> simp [hd0, configs]
    · simp only [Outcome.ok.injEq] at hg'; subst hg'; exact hsave hm'
  · rw [hs] at hm
    have hm' := hmod.mp hm
    rw [e]
    refine ⟨?_, fun g' hg' => absurd hg' (e' g')⟩
    simp only [configs_cfgEvents, hd, hm']; by_cases hd0 : g0.outputDir = [] <;> simp [hd0]

/-- One successful flow. -/
theorem flow_step {p : Program Sim} {g0 g : Snapshot Sim} {k : Nat} {r : Sim × ImpactFrictionMapCfg}
    (hn : 0 < g0.stepsPerSave.toNat) (hk : k + 1 < 4294967296) (h : AtLoop p g0 k g) (hr : flowStep p g.input = .ok r) :
    AtExport p g0 (k + 1) (stepped g r) := by
  refine ⟨?_, ?_, ?_, ?_⟩
  · have := h.same
    unfold SameRun stepped at *
    rw [this]
  · show (g.iteration + 1).toNat = _
    rw [UInt32.toNat_add, h.it]; exact Nat.mod_eq_of_lt (by show k + 1 < 4294967296; omega)
  · show g.outputFrame.toNat = _
    rw [h.frame, show k + 1 + g0.stepsPerSave.toNat - 1 = k + g0.stepsPerSave.toNat by omega, Nat.add_div_right _ hn]
  · show (trajectory p g0.input k).bind (advance p) = _
    rw [h.traj]
    show advance p g.input = _
    unfold advance
    rw [hr]; rfl

/-- The file name and globals of a configuration file written at iteration `m * n`. -/
structure IsFrame (p : Program Sim) (g0 : Snapshot Sim) (m : Nat) (c : Bytes × Snapshot Sim) : Prop where
  file : c.1 = configFileName c.2 (ascii "config") (ascii "h5")
  same : SameRun g0 c.2
  frame : c.2.outputFrame.toNat = m
  it : c.2.iteration.toNat = m * g0.stepsPerSave.toNat
  traj : trajectory p g0.input (m * g0.stepsPerSave.toNat) = .ok c.2.input

theorem AtExport.isFrame {p : Program Sim} {g0 g : Snapshot Sim} {k : Nat} (hn : 0 < g0.stepsPerSave.toNat)
    (h : AtExport p g0 k g) (hm : k % g0.stepsPerSave.toNat = 0) :
    IsFrame p g0 (k / g0.stepsPerSave.toNat) (configFileName g (ascii "config") (ascii "h5"), g) := by
  have hk : k / g0.stepsPerSave.toNat * g0.stepsPerSave.toNat = k := Nat.div_mul_cancel (Nat.dvd_of_mod_eq_zero hm)
  refine ⟨rfl, h.same, ?_, by rw [hk]; exact h.it, by rw [hk]; exact h.traj⟩
  show g.outputFrame.toNat = _
  rw [h.frame]
  obtain ⟨q, rfl⟩ := Nat.dvd_of_mod_eq_zero hm
  rw [Nat.mul_div_cancel_left q hn, Nat.div_eq_iff hn]
  constructor
  · rw [Nat.mul_comm]; all_goals omega
  · rw [Nat.mul_comm q]; all_goals omega

theorem succ_div_of_mod {n k : Nat} (_hn : 0 < n) (h : (k + 1) % n = 0) : (k + 1) / n = k / n + 1 := by
  rw [Nat.succ_div, if_pos (Nat.dvd_of_mod_eq_zero h)]

theorem succ_div_of_mod_ne {n k : Nat} (h : (k + 1) % n ≠ 0) : (k + 1) / n = k / n := by
  rw [Nat.succ_div, if_neg (fun hd => h (Nat.mod_eq_zero_of_dvd hd))]; rfl

/-- One step: its frames and its end. -/
theorem loop_step {p : Program Sim} {g0 g : Snapshot Sim} {k : Nat} (hn : 0 < g0.stepsPerSave.toNat)
    (hk : k + 2 < 4294967296) (h : AtLoop p g0 k g) :
    (∀ j c, (configs (stepSystem p g).1)[j]? = some c → IsFrame p g0 (k / g0.stepsPerSave.toNat + 1 + j) c) ∧
    ∀ g', (stepSystem p g).2 = .ok g' → AtLoop p g0 (k + 1) g' ∧
      (g0.outputDir ≠ [] →
        k / g0.stepsPerSave.toNat + (configs (stepSystem p g).1).length = (k + 1) / g0.stepsPerSave.toNat) := by
  by_cases hf : ∃ r, flowStep p g.input = .ok r
  · obtain ⟨r, hr⟩ := hf
    have hE := flow_step hn (by omega) h hr
    obtain ⟨h1, h2⟩ := export_step hn (by omega) hE
    rw [stepSystem_ok hr]
    simp only [configs_append, configs_forceEvents, List.nil_append, h1]
    constructor
    · intro j c hc
      split at hc
      · rename_i hcond
        cases j with
        | zero =>
          simp only [List.getElem?_cons_zero, Option.some.injEq] at hc
          subst hc
          have := hE.isFrame hn hcond.1
          rw [succ_div_of_mod hn hcond.1] at this
          exact this
        | succ j => simp at hc
      · simp at hc
    · intro g' hg'
      refine ⟨h2 g' hg', fun hd => ?_⟩
      by_cases hm : (k + 1) % g0.stepsPerSave.toNat = 0
      · rw [if_pos ⟨hm, hd⟩, succ_div_of_mod hn hm]; rfl
      · rw [if_neg (fun hc => hm hc.1), succ_div_of_mod_ne hm]; rfl
  · have hno : ∀ r, flowStep p g.input ≠ .ok r := fun r hr => hf ⟨r, hr⟩
    obtain ⟨h1, h2⟩ := stepSystem_events_of_not_ok hno
    rw [h1, configs_forceEvents]
    exact ⟨fun j c hc => by simp at hc, fun g' hg' => absurd hg' (h2 g')⟩

theorem AtLoop.reached_eq {p : Program Sim} {g0 g : Snapshot Sim} {k : Nat} (h : AtLoop p g0 k g) :
    endReached p g = p.reached g0.dtNum g0.dtDen g0.endTime (UInt32.ofNat k) := by
  have h1 : g.dtNum = g0.dtNum := by rw [h.same]
  have h2 : g.dtDen = g0.dtDen := by rw [h.same]
  have h3 : g.endTime = g0.endTime := by rw [h.same]
  have h4 : g.iteration = UInt32.ofNat k := by rw [← h.it, UInt32.ofNat_toNat]
  unfold endReached
  rw [h1, h2, h3, h4]

theorem AtLoop.forces_eq {p : Program Sim} {g0 g : Snapshot Sim} {k : Nat} (h : AtLoop p g0 k g) :
    g.outputForces = g0.outputForces := by rw [h.same]; rfl

/-- The loop: frames are contiguous. -/
theorem loop_frames {p : Program Sim} {g0 : Snapshot Sim} (hn : 0 < g0.stepsPerSave.toNat) :
    ∀ (fuel : Nat) (k : Nat) (g : Snapshot Sim), AtLoop p g0 k g → k + fuel + 2 < 4294967296 →
    ∀ j c, (configs (simLoop p fuel g).1)[j]? = some c → IsFrame p g0 (k / g0.stepsPerSave.toNat + 1 + j) c := by
  intro fuel
  induction fuel with
  | zero => intro k g _ _ j c hc; simp [simLoop, configs] at hc
  | succ fuel ih =>
    intro k g h hk j c hc
    obtain ⟨hfr, hok⟩ := loop_step hn (by omega) h
    -- the number of frames in a step is at most one, and exactly accounts for the frame counter
    unfold simLoop at hc
    by_cases hr : endReached p g = true
    · simp only [hr, if_true] at hc
      split at hc
      · exact hfr j c hc
      · simp [configs] at hc
    · simp only [hr, Bool.false_eq_true, if_false] at hc
      cases ho : (stepSystem p g).2 with
      | ok g' =>
        obtain ⟨hL, hlen⟩ := hok g' ho
        simp only [ho, configs_append] at hc
        by_cases hd : g0.outputDir = []
        · -- without output directory there are no frames at all
          rw [List.getElem?_append] at hc
          split at hc
          · exact hfr j c hc
          · rename_i hj
            have hlen0 : (configs (stepSystem p g).1).length = 0 := by
              by_cases hf : ∃ r, flowStep p g.input = .ok r
              · obtain ⟨r, hr'⟩ := hf
                have hE := flow_step hn (by omega) h hr'
                obtain ⟨h1, _⟩ := export_step hn (by omega) hE
                rw [stepSystem_ok hr', configs_append, configs_forceEvents, h1, if_neg (fun hc => hc.2 hd)]; rfl
              · rw [(stepSystem_events_of_not_ok fun r hr' => hf ⟨r, hr'⟩).1, configs_forceEvents]; rfl
            exfalso
            -- the rest has no frames either: it is the loop again
            have : ∀ (f : Nat) (k' : Nat) (g' : Snapshot Sim), AtLoop p g0 k' g' → k' + f + 2 < 4294967296 →
                configs (simLoop p f g').1 = [] := by
              intro f
              induction f with
              | zero => intro k' g' _ _; simp [simLoop, configs]
              | succ f ihf =>
                intro k' g' hL' hk'
                have hz : configs (stepSystem p g').1 = [] := by
                  by_cases hf : ∃ r, flowStep p g'.input = .ok r
                  · obtain ⟨r, hr'⟩ := hf
                    have hE := flow_step hn (by omega) hL' hr'
                    obtain ⟨h1, _⟩ := export_step hn (by omega) hE
                    rw [stepSystem_ok hr', configs_append, configs_forceEvents, h1, if_neg (fun hc => hc.2 hd)]; rfl
                  · rw [(stepSystem_events_of_not_ok fun r hr' => hf ⟨r, hr'⟩).1, configs_forceEvents]
                unfold simLoop
                simp only
                split
                · split
                  · exact hz
                  · simp [configs]
                · cases ho' : (stepSystem p g').2 with
                  | ok g'' =>
                    simp only [configs_append, hz, List.nil_append]
                    exact ihf (k' + 1) g'' ((loop_step hn (by omega) hL').2 g'' ho').1 (by omega)
                  | fail => exact hz
                  | exit => exact hz
                  | ub => exact hz
            rw [this fuel (k + 1) g' hL (by omega)] at hc
            simp at hc
        · rw [List.getElem?_append] at hc
          split at hc
          · exact hfr j c hc
          · rename_i hj
            have := ih (k + 1) g' hL (by omega) _ c hc
            have hl := hlen hd
            rw [← hl] at this
            have e : k / g0.stepsPerSave.toNat + (configs (stepSystem p g).1).length + 1 + (j - (configs (stepSystem p g).1).length)
                = k / g0.stepsPerSave.toNat + 1 + j := by omega
            rw [e] at this
            exact this
      | fail => simp only [ho] at hc; exact hfr j c hc
      | exit => simp only [ho] at hc; exact hfr j c hc
      | ub => simp only [ho] at hc; exact hfr j c hc

/-- The loop: a run that ends by itself ended at the right step and wrote every frame. -/
theorem loop_end {p : Program Sim} {g0 : Snapshot Sim} (hn : 0 < g0.stepsPerSave.toNat) :
    ∀ (fuel : Nat) (k : Nat) (g gf : Snapshot Sim), AtLoop p g0 k g → k + fuel + 2 < 4294967296 →
    (simLoop p fuel g).2 = some (.ok gf) →
    ∃ N, k ≤ N ∧ N < k + fuel ∧ p.reached g0.dtNum g0.dtDen g0.endTime (UInt32.ofNat N) = true ∧
      (∀ j, k ≤ j → j < N → p.reached g0.dtNum g0.dtDen g0.endTime (UInt32.ofNat j) = false) ∧
      AtLoop p g0 (lastStep g0 N) gf ∧
      (g0.outputDir ≠ [] → k / g0.stepsPerSave.toNat + (configs (simLoop p fuel g).1).length =
        lastStep g0 N / g0.stepsPerSave.toNat) := by
  intro fuel
  induction fuel with
  | zero => intro k g gf _ _ h; simp [simLoop] at h
  | succ fuel ih =>
    intro k g gf h hk hs
    obtain ⟨_, hok⟩ := loop_step hn (by omega) h
    unfold simLoop at hs ⊢
    by_cases hr : endReached p g = true
    · have hr' := hr
      rw [h.reached_eq] at hr'
      simp only [hr, if_true] at hs ⊢
      refine ⟨k, Nat.le_refl k, by omega, hr', fun j h1 h2 => by omega, ?_⟩
      by_cases hf : g.outputForces = true
      · have hf0 : g0.outputForces = true := by rw [← h.forces_eq]; exact hf
        simp only [hf, if_true, Option.some.injEq] at hs ⊢
        simp only [lastStep, hf0, if_true]
        exact hok gf hs
      · have hf0 : ¬ g0.outputForces = true := by rw [← h.forces_eq]; exact hf
        simp only [hf, if_false, Bool.false_eq_true, Option.some.injEq, Outcome.ok.injEq] at hs ⊢
        subst hs
        simp only [lastStep, hf0, if_false, Bool.false_eq_true]
        exact ⟨h, fun _ => by simp [configs]⟩
    · have hr' := hr
      rw [h.reached_eq] at hr'
      simp only [hr, Bool.false_eq_true, if_false] at hs ⊢
      cases ho : (stepSystem p g).2 with
      | ok g' =>
        obtain ⟨hL, hlen⟩ := hok g' ho
        simp only [ho] at hs ⊢
        obtain ⟨N, a1, a2, a3, a4, a5, a6⟩ := ih (k + 1) g' gf hL (by omega) hs
        refine ⟨N, by omega, by omega, a3, fun j h1 h2 => ?_, a5, fun hd => ?_⟩
        · by_cases hj : j = k
          · subst hj; simpa using hr'
          · exact a4 j (by omega) h2
        · have := a6 hd
          have := hlen hd
          rw [configs_append, List.length_append]; omega
      | fail => simp [ho] at hs
      | exit => simp [ho] at hs
      | ub => simp [ho] at hs

theorem serSnapshot_savable (fmt : Format Sim) (git : Bytes) (g : Snapshot Sim) (h1 : g.impactOp.Savable) (h2 : g.frictionSolver.Savable)
    (h3 : ∃ d, fmt.serSim g.sim = .ok d) : ∃ d, serSnapshot fmt git g = .ok d := by
  obtain ⟨c, hc⟩ := h3
  obtain ⟨a, ha⟩ := serImpactOp_savable _ h1
  obtain ⟨b, hb⟩ := serFrictionSolver_savable _ h2
  exact ⟨_, by unfold serSnapshot; rw [hc, ha, hb]; rfl⟩

theorem exportConfig_succeeds (p : Program Sim) (g : Snapshot Sim) (hn : g.stepsPerSave ≠ 0)
    (hs : g.serializeSnapshots = true → g.impactOp.Savable ∧ g.frictionSolver.Savable ∧ ∃ d, p.format.serSim g.sim = .ok d) :
    ∃ g', (exportConfig p g).2 = .ok g' := by
  rcases exportConfig_cases p g with ⟨e0, e⟩ | ⟨_, hm, e⟩ | ⟨_, hm, _, e⟩ | ⟨_, hm, _, d, _, e⟩ | ⟨_, hm, hs', hno, e, e'⟩
  · exact absurd e0 hn
  · exact ⟨_, by rw [e]⟩
  · exact ⟨_, by rw [e]⟩
  · exact ⟨_, by rw [e]⟩
  · obtain ⟨d, hd⟩ := serSnapshot_savable p.format p.git g (hs hs').1 (hs hs').2.1 (hs hs').2.2
    exact absurd hd (hno d)

theorem step_succeeds {p : Program Sim} {g0 g : Snapshot Sim} {k : Nat} (hn : 0 < g0.stepsPerSave.toNat)
    (hk : k + 2 < 4294967296) (h : AtLoop p g0 k g)
    (hs : g0.serializeSnapshots = true → g0.impactOp.Savable ∧ g0.frictionSolver.Savable ∧
      ∀ j i, trajectory p g0.input j = .ok i → ∃ d, p.format.serSim i.sim = .ok d)
    (ht : ∃ i, trajectory p g0.input (k + 1) = .ok i) : ∃ g', (stepSystem p g).2 = .ok g' := by
  have hflow : ∃ r, flowStep p g.input = .ok r := by
    obtain ⟨i, hi⟩ := ht
    have : (trajectory p g0.input k).bind (advance p) = .ok i := hi
    rw [h.traj] at this
    have h2 : (flowStep p g.input).bind _ = Outcome.ok i := this
    cases hf : flowStep p g.input with
    | ok r => exact ⟨r, rfl⟩
    | fail => rw [hf] at h2; simp [Outcome.bind] at h2
    | exit => rw [hf] at h2; simp [Outcome.bind] at h2
    | ub => rw [hf] at h2; simp [Outcome.bind] at h2
  obtain ⟨r, hr⟩ := hflow
  rw [stepSystem_ok hr]
  have hE := flow_step hn (by omega) h hr
  apply exportConfig_succeeds
  · rw [hE.same]
    intro e
    have : g0.stepsPerSave = 0 := e
    rw [this] at hn
    exact absurd hn (by decide)
  · have h1 := hE.same
    have h2 := hE.traj
    intro e
    have e0 : g0.serializeSnapshots = true := by rw [h1] at e; exact e
    refine ⟨?_, ?_, (hs e0).2.2 _ _ h2⟩
    · rw [h1]; exact (hs e0).1
    · rw [h1]; exact (hs e0).2.1

/-- The loop: if the end is reached at `N` and all steps up to it succeed, the run ends by itself. -/
theorem loop_terminates {p : Program Sim} {g0 : Snapshot Sim} (hn : 0 < g0.stepsPerSave.toNat)
    (hs : g0.serializeSnapshots = true → g0.impactOp.Savable ∧ g0.frictionSolver.Savable ∧
      ∀ j i, trajectory p g0.input j = .ok i → ∃ d, p.format.serSim i.sim = .ok d) (N : Nat)
    (hreach : p.reached g0.dtNum g0.dtDen g0.endTime (UInt32.ofNat N) = true)
    (ht : ∀ j ≤ N + 1, ∃ i, trajectory p g0.input j = .ok i) :
    ∀ (fuel : Nat) (k : Nat) (g : Snapshot Sim), AtLoop p g0 k g → k ≤ N → N < k + fuel → N + 2 < 4294967296 →
    ∃ gf, (simLoop p fuel g).2 = some (.ok gf) := by
  intro fuel
  induction fuel with
  | zero => intro k g _ h1 h2; omega
  | succ fuel ih =>
    intro k g h h1 h2 h3
    obtain ⟨g', hg'⟩ := step_succeeds hn (by omega) h hs (ht (k + 1) (by omega))
    have hL := ((loop_step hn (by omega) h).2 g' hg').1
    unfold simLoop
    by_cases hr : endReached p g = true
    · simp only [hr, if_true]
      split
      · exact ⟨g', by rw [hg']⟩
      · exact ⟨g, rfl⟩
    · have hkN : k ≠ N := by
        intro e
        subst e
        rw [h.reached_eq] at hr
        exact hr hreach
      simp only [hr, Bool.false_eq_true, if_false, hg']
      exact ih (k + 1) g' hL (by omega) (by omega) h3

/-! ### Exports: where configuration files and snapshots of a run come from -/

/-- the configuration file of an export -/
def cfgOf (g : Snapshot Sim) : Option (Bytes × Snapshot Sim) :=
  if g.outputDir = [] then none else some (configFileName g (ascii "config") (ascii "h5"), g)

/-- the snapshot file of an export -/
def snapOf (p : Program Sim) (g : Snapshot Sim) : Option (Bytes × Bytes) :=
  if g.serializeSnapshots then
    match serSnapshot p.format p.git g with
    | .ok d => some (snapshotFileName g, d)
    | _ => none
  else none

/-- what one export writes -/
def exportEvents (p : Program Sim) (g : Snapshot Sim) : List (Event Sim) :=
  cfgEvents g ++ ((snapOf p g).map fun s => Event.snapshot s.1 s.2).toList

theorem snapshots_append (a b : List (Event Sim)) : snapshots (a ++ b) = snapshots a ++ snapshots b := by
  simp [snapshots]

theorem snapshots_forceEvents (g : Snapshot Sim) : snapshots (forceEvents g) = [] := by
  unfold forceEvents
  split <;> simp [snapshots]

theorem snapshots_cfgEvents (g : Snapshot Sim) : snapshots (cfgEvents g) = [] := by
  unfold cfgEvents
  split <;> simp [snapshots]

/-- One export: either nothing, or the files of this export. -/
theorem export_events {p : Program Sim} {g : Snapshot Sim} (h0 : g.stepsPerSave ≠ 0) :
    configs (exportConfig p g).1 = (if g.iteration % g.stepsPerSave = 0 then [g] else []).filterMap cfgOf ∧
    snapshots (exportConfig p g).1 = (if g.iteration % g.stepsPerSave = 0 then [g] else []).filterMap (snapOf p) := by
  have hc : configs (cfgEvents g) = [g].filterMap cfgOf := by
    rw [configs_cfgEvents]
    unfold cfgOf
    by_cases hd : g.outputDir = [] <;> simp [hd]
  rcases exportConfig_cases p g with ⟨e0, e⟩ | ⟨_, hm, e⟩ | ⟨_, hm, hs, e⟩ | ⟨_, hm, hs, d, hd, e⟩ | ⟨_, hm, hs, hno, e, e'⟩
  · exact absurd e0 h0
  · rw [e, if_neg hm]; simp [configs, snapshots]
  · rw [e, if_pos hm]
    refine ⟨hc, ?_⟩
    rw [snapshots_cfgEvents]; simp [snapOf, hs]
  · rw [e, if_pos hm]
    refine ⟨?_, ?_⟩
    · rw [configs_append, hc]; simp [configs]
    · rw [snapshots_append, snapshots_cfgEvents]; simp [snapOf, hs, hd, snapshots]
  · rw [e, if_pos hm]
    refine ⟨hc, ?_⟩
    rw [snapshots_cfgEvents]
    have : snapOf p g = none := by
      unfold snapOf
      rw [if_pos hs]
      cases hd : serSnapshot p.format p.git g with
      | ok d => exact absurd hd (hno d)
      | fail => rfl
      | exit => rfl
      | ub => rfl
    simp [this]

/-- The exports behind a list of events, numbered from `m`. -/
def ExportsFrom (p : Program Sim) (g0 : Snapshot Sim) (m : Nat) (evs : List (Event Sim)) (exps : List (Snapshot Sim)) : Prop :=
  (∀ (j : Nat) (c : Snapshot Sim), exps[j]? = some c → AtExport p g0 ((m + j) * g0.stepsPerSave.toNat) c) ∧
    configs evs = exps.filterMap cfgOf ∧ snapshots evs = exps.filterMap (snapOf p)

theorem step_exports {p : Program Sim} {g0 g : Snapshot Sim} {k : Nat} (hn : 0 < g0.stepsPerSave.toNat)
    (hk : k + 2 < 4294967296) (h : AtLoop p g0 k g) :
    ∃ exps, ExportsFrom p g0 (k / g0.stepsPerSave.toNat + 1) (stepSystem p g).1 exps ∧
      k / g0.stepsPerSave.toNat + exps.length ≤ (k + 1) / g0.stepsPerSave.toNat ∧
      ∀ g', (stepSystem p g).2 = .ok g' → AtLoop p g0 (k + 1) g' ∧
        k / g0.stepsPerSave.toNat + exps.length = (k + 1) / g0.stepsPerSave.toNat := by
  by_cases hf : ∃ r, flowStep p g.input = .ok r
  · obtain ⟨r, hr⟩ := hf
    have hE := flow_step hn (by omega) h hr
    have h2 := (export_step hn (by omega) hE).2
    have hs : (stepped g r).stepsPerSave = g0.stepsPerSave := by rw [hE.same]
    have h0 : (stepped g r).stepsPerSave ≠ 0 := by
      intro e; rw [hs] at e; rw [e] at hn; exact absurd hn (by decide)
    obtain ⟨e1, e2⟩ := export_events (p := p) h0
    have hmod := @mod_zero_iff _ (stepped g r)
    rw [hs, hE.it] at hmod
    rw [hs] at e1 e2
    rw [stepSystem_ok hr]
    have hlen : k / g0.stepsPerSave.toNat +
        (if (stepped g r).iteration % g0.stepsPerSave = 0 then [stepped g r] else []).length =
        (k + 1) / g0.stepsPerSave.toNat := by
      by_cases hm : (k + 1) % g0.stepsPerSave.toNat = 0
      · rw [if_pos (hmod.mpr hm), succ_div_of_mod hn hm]; rfl
      · rw [if_neg (fun hc => hm (hmod.mp hc)), succ_div_of_mod_ne hm]; rfl
    refine ⟨if (stepped g r).iteration % g0.stepsPerSave = 0 then [stepped g r] else [], ⟨?_, ?_, ?_⟩, Nat.le_of_eq hlen, ?_⟩
    · intro j c hc
      split at hc
      · rename_i hm
        cases j with
        | zero =>
          simp only [List.getElem?_cons_zero, Option.some.injEq] at hc
          subst hc
          have hm' := hmod.mp hm
          have hk' : (k / g0.stepsPerSave.toNat + 1 + 0) * g0.stepsPerSave.toNat = k + 1 := by
            rw [Nat.add_zero, ← succ_div_of_mod hn hm']
            exact Nat.div_mul_cancel (Nat.dvd_of_mod_eq_zero hm')
          rw [hk']; exact hE
        | succ j => simp at hc
      · simp at hc
    · simp only [configs_append, configs_forceEvents, List.nil_append, e1]
    · simp only [snapshots_append, snapshots_forceEvents, List.nil_append, e2]
    · exact fun g' hg' => ⟨h2 g' hg', hlen⟩
  · have hno : ∀ r, flowStep p g.input ≠ .ok r := fun r hr => hf ⟨r, hr⟩
    obtain ⟨h1, h2⟩ := stepSystem_events_of_not_ok hno
    refine ⟨[], ⟨fun j c hc => by simp at hc, ?_, ?_⟩, Nat.div_le_div_right (Nat.le_succ k),
      fun g' hg' => absurd hg' (h2 g')⟩
    · rw [h1, configs_forceEvents]; rfl
    · rw [h1, snapshots_forceEvents]; rfl

theorem exportsFrom_nil (p : Program Sim) (g0 : Snapshot Sim) (m : Nat) : ExportsFrom p g0 m [] [] :=
  ⟨fun j c hc => by simp at hc, rfl, rfl⟩

theorem ExportsFrom.append {p : Program Sim} {g0 : Snapshot Sim} {m : Nat} {e1 e2 : List (Event Sim)}
    {x1 x2 : List (Snapshot Sim)} (h1 : ExportsFrom p g0 m e1 x1) (h2 : ExportsFrom p g0 (m + x1.length) e2 x2) :
    ExportsFrom p g0 m (e1 ++ e2) (x1 ++ x2) := by
  refine ⟨fun j c hc => ?_, ?_, ?_⟩
  · rw [List.getElem?_append] at hc
    split at hc
    · exact h1.1 j c hc
    · have := h2.1 _ c hc
      rw [show m + x1.length + (j - x1.length) = m + j by omega] at this
      exact this
  · rw [configs_append, List.filterMap_append, h1.2.1, h2.2.1]
  · rw [snapshots_append, List.filterMap_append, h1.2.2, h2.2.2]

/-- No export of the loop comes after step `B`, the end of the run. -/
def EndsBy (p : Program Sim) (g0 : Snapshot Sim) (k C : Nat) : Prop :=
  k ≤ C ∧ p.reached g0.dtNum g0.dtDen g0.endTime (UInt32.ofNat C) = true

theorem loop_exports {p : Program Sim} {g0 : Snapshot Sim} (hn : 0 < g0.stepsPerSave.toNat) :
    ∀ (fuel : Nat) (k : Nat) (g : Snapshot Sim), AtLoop p g0 k g → k + fuel + 2 < 4294967296 →
    ∃ exps, ExportsFrom p g0 (k / g0.stepsPerSave.toNat + 1) (simLoop p fuel g).1 exps ∧
      ∀ C, EndsBy p g0 k C → k / g0.stepsPerSave.toNat + exps.length ≤ (C + 1) / g0.stepsPerSave.toNat := by
  intro fuel
  induction fuel with
  | zero =>
    intro k g _ _
    exact ⟨[], exportsFrom_nil p g0 _, fun C hC => Nat.div_le_div_right (Nat.le_succ_of_le hC.1)⟩
  | succ fuel ih =>
    intro k g h hk
    obtain ⟨x, hx, hle, hok⟩ := step_exports hn (by omega) h
    have hx' : ∀ C, EndsBy p g0 k C → k / g0.stepsPerSave.toNat + x.length ≤ (C + 1) / g0.stepsPerSave.toNat :=
      fun C hC => Nat.le_trans hle (Nat.div_le_div_right (Nat.succ_le_succ hC.1))
    unfold simLoop
    simp only
    split
    · split
      · exact ⟨x, hx, hx'⟩
      · exact ⟨[], exportsFrom_nil p g0 _, fun C hC => Nat.div_le_div_right (Nat.le_succ_of_le hC.1)⟩
    · rename_i hnr
      rw [h.reached_eq] at hnr
      cases ho : (stepSystem p g).2 with
      | ok g' =>
        obtain ⟨hL, hlen⟩ := hok g' ho
        obtain ⟨y, hy, hyb⟩ := ih (k + 1) g' hL (by omega)
        refine ⟨x ++ y, hx.append ?_, fun C hC => ?_⟩
        · rw [show k / g0.stepsPerSave.toNat + 1 + x.length = (k + 1) / g0.stepsPerSave.toNat + 1 by omega]
          exact hy
        · have hne : k ≠ C := by
            rintro rfl
            exact hnr hC.2
          have := hyb C ⟨by have := hC.1; omega, hC.2⟩
          rw [List.length_append]; omega
      | fail => exact ⟨x, hx, hx'⟩
      | exit => exact ⟨x, hx, hx'⟩
      | ub => exact ⟨x, hx, hx'⟩

/-- A fresh start is the export of iteration zero. -/
theorem FreshStart.atExport {p : Program Sim} {g0 : Snapshot Sim} (h : FreshStart g0) : AtExport p g0 0 g0 := by
  refine ⟨rfl, by rw [h.iteration]; rfl, ?_, rfl⟩
  rw [h.frame]
  have := h.steps
  exact (Nat.div_eq_of_lt (by omega)).symm

theorem run_exports {p : Program Sim} {g0 : Snapshot Sim} (h : FreshStart g0) (fuel : Nat) (hf : fuel + 2 < 4294967296) :
    ∃ exps, ExportsFrom p g0 0 (executeSimLoop p fuel g0).1 exps ∧
      ∀ C, EndsBy p g0 0 C → exps.length ≤ (C + 1) / g0.stepsPerSave.toNat + 1 := by
  have hn := h.steps
  have hE := h.atExport (p := p)
  have h0 : g0.stepsPerSave ≠ 0 := by intro e; rw [e] at hn; exact absurd hn (by decide)
  have hm : g0.iteration % g0.stepsPerSave = 0 := by
    rw [mod_zero_iff, h.iteration]; exact Nat.zero_mod _
  obtain ⟨e1, e2⟩ := export_events (p := p) h0
  rw [if_pos hm] at e1 e2
  have hx : ExportsFrom p g0 0 (exportConfig p g0).1 [g0] := by
    refine ⟨fun j c hc => ?_, e1, e2⟩
    cases j with
    | zero =>
      simp only [List.getElem?_cons_zero, Option.some.injEq] at hc
      subst hc
      simpa using hE
    | succ j => simp at hc
  have hx' : ∀ C, EndsBy p g0 0 C → [g0].length ≤ (C + 1) / g0.stepsPerSave.toNat + 1 :=
    fun C _ => Nat.le_add_left _ _
  have hok := (export_step hn (by omega) hE).2
  unfold executeSimLoop
  simp only
  cases ho : (exportConfig p g0).2 with
  | ok g' =>
    have hL := hok g' ho
    obtain ⟨y, hy, hyb⟩ := loop_exports hn fuel 0 g' hL (by omega)
    rw [Nat.zero_div] at hy
    refine ⟨[g0] ++ y, hx.append (by simpa using hy), fun C hC => ?_⟩
    have := hyb C hC
    rw [Nat.zero_div] at this
    simp only [List.length_append, List.length_singleton]; omega
  | fail => exact ⟨_, hx, hx'⟩
  | exit => exact ⟨_, hx, hx'⟩
  | ub => exact ⟨_, hx, hx'⟩

/-- Which exports belong to which frame. -/
theorem AtExport.frame_eq {p : Program Sim} {g0 g : Snapshot Sim} {m : Nat} (hn : 0 < g0.stepsPerSave.toNat)
    (h : AtExport p g0 (m * g0.stepsPerSave.toNat) g) : g.outputFrame.toNat = m := by
  have := (h.isFrame hn (by simp)).frame
  rwa [Nat.mul_div_cancel _ hn] at this

/-- In a list whose `j`-th element carries number `j`, different positions carry different numbers, in order. -/
theorem pairwise_of_numbered {α : Type} {num : α → Nat} {l : List α} (m : Nat)
    (h : ∀ (j : Nat) (c : α), l[j]? = some c → num c = m + j) : l.Pairwise (fun a b => num a < num b) := by
  rw [List.pairwise_iff_getElem]
  intro i j hi hj hij
  have h1 := h i l[i] (by rw [List.getElem?_eq_getElem hi])
  have h2 := h j l[j] (by rw [List.getElem?_eq_getElem hj])
  omega

/-! ### Force files -/

theorem forceFiles_append (a b : List (Event Sim)) : forceFiles (a ++ b) = forceFiles a ++ forceFiles b := by
  simp [forceFiles]

theorem forceFiles_export (p : Program Sim) (g : Snapshot Sim) : forceFiles (exportConfig p g).1 = [] := by
  have hc : forceFiles (cfgEvents g) = [] := by
    unfold cfgEvents
    split <;> simp [forceFiles]
  rcases exportConfig_cases p g with ⟨_, e⟩ | ⟨_, hm, e⟩ | ⟨_, hm, hs, e⟩ | ⟨_, hm, hs, d, hd, e⟩ | ⟨_, hm, hs, hno, e, e'⟩
  · rw [e]; rfl
  · rw [e]; rfl
  · rw [e]; exact hc
  · rw [e]; simp only [forceFiles_append, hc]; rfl
  · rw [e]; exact hc

theorem forceFiles_step {p : Program Sim} {g : Snapshot Sim} :
    forceFiles (stepSystem p g).1 =
      if g.outputForces ∧ g.iteration % g.stepsPerSave = 0 then [(forceFileName g, g)] else [] := by
  have h : forceFiles (forceEvents g) =
      if g.outputForces ∧ g.iteration % g.stepsPerSave = 0 then [(forceFileName g, g)] else [] := by
    unfold forceEvents
    split <;> simp [forceFiles]
  by_cases hf : ∃ r, flowStep p g.input = .ok r
  · obtain ⟨r, hr⟩ := hf
    rw [stepSystem_ok hr]
    simp only [forceFiles_append, forceFiles_export, List.append_nil, h]
  · rw [(stepSystem_events_of_not_ok fun r hr => hf ⟨r, hr⟩).1, h]

theorem ceil_div_of_mod {n k : Nat} (hn : 0 < n) (h : k % n = 0) : (k + n - 1) / n = k / n := by
  obtain ⟨q, rfl⟩ := Nat.dvd_of_mod_eq_zero h
  rw [Nat.mul_div_cancel_left q hn, Nat.div_eq_iff hn]
  constructor
  · rw [Nat.mul_comm]; all_goals omega
  · rw [Nat.mul_comm q]; all_goals omega

theorem ceil_succ_div {n k : Nat} (hn : 0 < n) : (k + 1 + n - 1) / n = k / n + 1 := by
  rw [show k + 1 + n - 1 = k + n by omega, Nat.add_div_right _ hn]

theorem ceil_div_of_mod_ne {n k : Nat} (hn : 0 < n) (h : k % n ≠ 0) : (k + n - 1) / n = k / n + 1 := by
  have h1 := Nat.div_add_mod k n
  have h2 := Nat.mod_lt k hn
  rw [Nat.div_eq_iff hn]
  constructor
  · rw [Nat.mul_comm, Nat.mul_add]; omega
  · rw [Nat.mul_comm, Nat.mul_add]; omega

theorem AtLoop.forceFile {p : Program Sim} {g0 g : Snapshot Sim} {k : Nat} (_hn : 0 < g0.stepsPerSave.toNat)
    (h : AtLoop p g0 k g) (hm : k % g0.stepsPerSave.toNat = 0) :
    IsForceFrame p g0 (k / g0.stepsPerSave.toNat) (forceFileName g, g) := by
  have hk : k / g0.stepsPerSave.toNat * g0.stepsPerSave.toNat = k := Nat.div_mul_cancel (Nat.dvd_of_mod_eq_zero hm)
  have hd : g.outputDir = g0.outputDir := by rw [h.same]; rfl
  have hw : g.saveNumberWidth = g0.saveNumberWidth := by rw [h.same]
  have h1 : (1 : UInt32) ≤ g.outputFrame := by
    rw [UInt32.le_iff_toNat_le, h.frame]
    exact Nat.le_add_left 1 _
  refine ⟨?_, by rw [hk]; exact h.it, by rw [hk]; exact h.traj⟩
  show forceFileName g = _
  unfold forceFileName
  rw [hd, hw, UInt32.toNat_sub_of_le _ _ h1, h.frame]
  rfl

theorem loop_forces {p : Program Sim} {g0 : Snapshot Sim} (hn : 0 < g0.stepsPerSave.toNat) :
    ∀ (fuel : Nat) (k : Nat) (g : Snapshot Sim), AtLoop p g0 k g → k + fuel + 2 < 4294967296 →
    ∀ j c, (forceFiles (simLoop p fuel g).1)[j]? = some c →
      IsForceFrame p g0 ((k + g0.stepsPerSave.toNat - 1) / g0.stepsPerSave.toNat + j) c := by
  intro fuel
  induction fuel with
  | zero => intro k g _ _ j c hc; simp [simLoop, forceFiles] at hc
  | succ fuel ih =>
    intro k g h hk j c hc
    have hs : g.stepsPerSave = g0.stepsPerSave := by rw [h.same]
    have hfo := h.forces_eq
    have hmod := @mod_zero_iff _ g
    rw [h.it, hs] at hmod
    have hst := @forceFiles_step _ p g
    rw [hs] at hst
    -- the force file of this step
    have hthis : ∀ j c, (forceFiles (stepSystem p g).1)[j]? = some c →
        IsForceFrame p g0 ((k + g0.stepsPerSave.toNat - 1) / g0.stepsPerSave.toNat + j) c := by
      intro j c hc
      rw [hst] at hc
      split at hc
      · rename_i hcond
        have hm := hmod.mp hcond.2
        cases j with
        | zero =>
          simp only [List.getElem?_cons_zero, Option.some.injEq] at hc
          subst hc
          rw [ceil_div_of_mod hn hm]
          exact h.forceFile hn hm
        | succ j => simp at hc
      · simp at hc
    unfold simLoop at hc
    by_cases hr : endReached p g = true
    · simp only [hr, if_true] at hc
      split at hc
      · exact hthis j c hc
      · simp [forceFiles] at hc
    · simp only [hr, Bool.false_eq_true, if_false] at hc
      cases ho : (stepSystem p g).2 with
      | ok g' =>
        have hL := ((loop_step hn (by omega) h).2 g' ho).1
        simp only [ho, forceFiles_append] at hc
        rw [List.getElem?_append] at hc
        split at hc
        · exact hthis j c hc
        · rename_i hj
          have := ih (k + 1) g' hL (by omega) _ c hc
          rw [ceil_succ_div hn] at this
          by_cases hf0 : g0.outputForces = true
          · by_cases hm : k % g0.stepsPerSave.toNat = 0
            · rw [ceil_div_of_mod hn hm]
              rw [hst, if_pos ⟨by rw [hfo]; exact hf0, hmod.mpr hm⟩] at this hj
              simp only [List.length_singleton] at this hj
              rw [show k / g0.stepsPerSave.toNat + 1 + (j - 1) = k / g0.stepsPerSave.toNat + j by omega] at this
              exact this
            · rw [ceil_div_of_mod_ne hn hm]
              rw [hst, if_neg (fun hc => hm (hmod.mp hc.2))] at this
              simpa using this
          · exfalso
            have : ∀ (f : Nat) (k' : Nat) (g' : Snapshot Sim), AtLoop p g0 k' g' → k' + f + 2 < 4294967296 →
                forceFiles (simLoop p f g').1 = [] := by
              intro f
              induction f with
              | zero => intro k' g' _ _; simp [simLoop, forceFiles]
              | succ f ihf =>
                intro k' g' hL' hk'
                have hz : forceFiles (stepSystem p g').1 = [] := by
                  rw [forceFiles_step, if_neg (fun hc => hf0 (by rw [← hL'.forces_eq]; exact hc.1))]
                unfold simLoop
                simp only
                split
                · split
                  · exact hz
                  · simp [forceFiles]
                · cases ho' : (stepSystem p g').2 with
                  | ok g'' =>
                    simp only [forceFiles_append, hz, List.nil_append]
                    exact ihf (k' + 1) g'' ((loop_step hn (by omega) hL').2 g'' ho').1 (by omega)
                  | fail => exact hz
                  | exit => exact hz
                  | ub => exact hz
            rw [this fuel (k + 1) g' hL (by omega)] at hc
            simp at hc
      | fail => simp only [ho] at hc; exact hthis j c hc
      | exit => simp only [ho] at hc; exact hthis j c hc
      | ub => simp only [ho] at hc; exact hthis j c hc

end Scisim
