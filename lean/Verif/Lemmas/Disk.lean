import Verif.Lemmas.CLI
import Verif.Lemmas.Digits
/-!
# File names of a run, and what a crash leaves on disk
-/

namespace Scisim

variable {Sim : Type}

/-! ### Names -/

/-- the file name with its parts explicit -/
def frameName (dir : Bytes) (w m : Nat) (pre ext : Bytes) : Bytes :=
  (if dir = [] then [] else dir ++ ascii "/") ++ (pre ++ ascii "_" ++ padded w m ++ ascii "." ++ ext)

theorem configFileName_eq {g0 g : Snapshot Sim} (h : SameRun g0 g) (pre ext : Bytes) :
    configFileName g pre ext = frameName g0.outputDir g0.saveNumberWidth.toNat g.outputFrame.toNat pre ext := by
  have hd : g.outputDir = g0.outputDir := by rw [h]; rfl
  have hw : g.saveNumberWidth = g0.saveNumberWidth := by rw [h]
  unfold configFileName frameName
  rw [hd, hw]

theorem frameName_lt {dir pre ext : Bytes} {w m n : Nat} (hw : 0 < w) (h : m < n) (hn : computeNumDigits n ≤ w) :
    frameName dir w m pre ext < frameName dir w n pre ext := by
  unfold frameName
  have hm : computeNumDigits m ≤ w := Nat.le_trans (computeNumDigits_mono (by omega)) hn
  refine lex_append_left _ ?_
  refine lex_append_right ?_ ?_ _ _
  · refine lex_append_right ?_ ?_ _ _
    · exact lex_append_left _ (padded_lt hw h hn)
    · simp [padded_length _ _ hm, padded_length _ _ hn]
  · simp [padded_length _ _ hm, padded_length _ _ hn]

theorem frameName_length {dir pre ext : Bytes} {w m n : Nat} (hm : computeNumDigits m ≤ w) (hn : computeNumDigits n ≤ w) :
    (frameName dir w m pre ext).length = (frameName dir w n pre ext).length := by
  unfold frameName
  simp [padded_length _ _ hm, padded_length _ _ hn]

theorem frameName_inj {dir pre ext : Bytes} {w m n : Nat} (h : frameName dir w m pre ext = frameName dir w n pre ext) : m = n := by
  unfold frameName at h
  have h1 := List.append_cancel_left h
  have h2 : pre ++ ascii "_" ++ padded w m = pre ++ ascii "_" ++ padded w n := by
    rw [List.append_assoc _ (ascii ".") ext, List.append_assoc _ (ascii ".") ext] at h1
    exact List.append_cancel_right h1
  exact padded_injective (List.append_cancel_left h2)

/-- the exports of a run are numbered consecutively -/
theorem exports_pairwise {p : Program Sim} {g0 : Snapshot Sim} {evs : List (Event Sim)} {exps : List (Snapshot Sim)}
    (hn : 0 < g0.stepsPerSave.toNat) (h : ExportsFrom p g0 0 evs exps) :
    exps.Pairwise fun a b => SameRun g0 a ∧ SameRun g0 b ∧ a.outputFrame.toNat < b.outputFrame.toNat ∧
      b.outputFrame.toNat < exps.length := by
  rw [List.pairwise_iff_getElem]
  intro i j hi hj hij
  have h1 := h.1 i exps[i] (by rw [List.getElem?_eq_getElem hi])
  have h2 := h.1 j exps[j] (by rw [List.getElem?_eq_getElem hj])
  rw [Nat.zero_add] at h1 h2
  refine ⟨h1.same, h2.same, ?_, ?_⟩
  · rw [h1.frame_eq hn, h2.frame_eq hn]; exact hij
  · rw [h2.frame_eq hn]; exact hj

theorem cfgOf_some {g : Snapshot Sim} {c : Bytes × Snapshot Sim} (h : cfgOf g = some c) :
    c = (configFileName g (ascii "config") (ascii "h5"), g) ∧ g.outputDir ≠ [] := by
  unfold cfgOf at h
  split at h
  · simp at h
  · rename_i hd
    exact ⟨(Option.some.inj h).symm, hd⟩

theorem snapOf_some {p : Program Sim} {g : Snapshot Sim} {c : Bytes × Bytes} (h : snapOf p g = some c) :
    c.1 = snapshotFileName g ∧ serSnapshot p.format p.git g = .ok c.2 := by
  unfold snapOf at h
  split at h
  · cases hd : serSnapshot p.format p.git g with
    | ok d =>
      rw [hd] at h
      cases Option.some.inj h
      exact ⟨rfl, rfl⟩
    | fail => rw [hd] at h; simp at h
    | exit => rw [hd] at h; simp at h
    | ub => rw [hd] at h; simp at h
  · simp at h

theorem snapshotFileName_eq {g0 g : Snapshot Sim} (h : SameRun g0 g) (ho : g0.overwriteSnapshots = false) :
    snapshotFileName g =
      frameName g0.outputDir g0.saveNumberWidth.toNat g.outputFrame.toNat (ascii "serial") (ascii "bin") := by
  have : g.overwriteSnapshots = false := by rw [h]; exact ho
  unfold snapshotFileName
  rw [this, configFileName_eq h]; rfl

/-! ### Force files of a whole run -/

theorem run_forces {p : Program Sim} {g0 : Snapshot Sim} (h : FreshStart g0) (fuel : Nat) (hf : fuel + 2 < 4294967296)
    (j : Nat) (c : Bytes × Snapshot Sim) (hc : (forceFiles (executeSimLoop p fuel g0).1)[j]? = some c) :
    IsForceFrame p g0 j c := by
  have hn := h.steps
  have hok := (export_step hn (by omega) (h.atExport (p := p))).2
  unfold executeSimLoop at hc
  simp only at hc
  have hz := forceFiles_export p g0
  cases ho : (exportConfig p g0).2 with
  | ok g' =>
    rw [ho] at hc
    simp only [forceFiles_append, hz, List.nil_append] at hc
    have := loop_forces hn fuel 0 g' (hok g' ho) (by omega) j c hc
    rwa [show (0 + g0.stepsPerSave.toNat - 1) / g0.stepsPerSave.toNat + j = j by
      rw [Nat.div_eq_of_lt (by omega), Nat.zero_add]] at this
  | fail => rw [ho] at hc; simp [hz] at hc
  | exit => rw [ho] at hc; simp [hz] at hc
  | ub => rw [ho] at hc; simp [hz] at hc

/-! ### Disks -/

/-- the file an operation touches -/
def DiskOp.file : DiskOp → Bytes
  | .truncate f => f
  | .append f _ => f

theorem apply_other (d : Disk) (op : DiskOp) (f : Bytes) (h : op.file ≠ f) : d.apply op f = d f := by
  cases op with
  | truncate g => simp [Disk.apply]; intro e; exact absurd e.symm h
  | append g b => simp [Disk.apply]; intro e; exact absurd e.symm h

theorem applyAll_other (ops : List DiskOp) (d : Disk) (f : Bytes) (h : ∀ op ∈ ops, op.file ≠ f) : d.applyAll ops f = d f := by
  induction ops generalizing d with
  | nil => rfl
  | cons op ops ih =>
    show (d.apply op).applyAll ops f = d f
    rw [ih _ (fun o ho => h o (List.mem_cons_of_mem _ ho)), apply_other _ _ _ (h op List.mem_cons_self)]

theorem applyAll_append (a b : List DiskOp) (d : Disk) : d.applyAll (a ++ b) = (d.applyAll a).applyAll b := by
  unfold Disk.applyAll; rw [List.foldl_append]

theorem applyAll_appends (f : Bytes) (data : Bytes) (d : Disk) (c : Bytes) (h : d f = some c) :
    d.applyAll (data.map (.append f)) f = some (c ++ data) := by
  induction data generalizing d c with
  | nil => simp [Disk.applyAll, h]
  | cons b data ih =>
    show (d.apply (.append f b)).applyAll (data.map (.append f)) f = _
    rw [ih _ (c ++ [b]) (by simp [Disk.apply, h])]
    simp

theorem applyAll_writeOps (f data : Bytes) (d : Disk) : d.applyAll (writeOps f data) f = some data := by
  show (d.apply (.truncate f)).applyAll (data.map (.append f)) f = _
  rw [applyAll_appends f data _ [] (by simp [Disk.apply])]
  rfl

theorem writeOps_file {f data : Bytes} {op : DiskOp} (h : op ∈ writeOps f data) : op.file = f := by
  unfold writeOps at h
  rcases List.mem_cons.mp h with rfl | h
  · rfl
  · obtain ⟨b, _, rfl⟩ := List.mem_map.mp h
    rfl

/-- the file an event writes -/
def Event.file : Event Sim → Bytes
  | .config f _ => f
  | .snapshot f _ => f
  | .forces f _ => f

theorem diskOps_file {content : Snapshot Sim → Bytes} {e : Event Sim} {op : DiskOp} (h : op ∈ e.diskOps content) :
    op.file = e.file := by
  cases e <;> exact writeOps_file h

theorem diskOpsOf_append (content : Snapshot Sim → Bytes) (a b : List (Event Sim)) :
    diskOpsOf content (a ++ b) = diskOpsOf content a ++ diskOpsOf content b := by
  simp [diskOpsOf]

theorem diskOpsOf_file {content : Snapshot Sim → Bytes} {evs : List (Event Sim)} {op : DiskOp} (h : op ∈ diskOpsOf content evs) :
    ∃ e ∈ evs, op.file = e.file := by
  obtain ⟨e, he, ho⟩ := List.mem_flatMap.mp h
  exact ⟨e, he, diskOps_file ho⟩

/-- A file that later events leave alone survives any later crash. -/
theorem file_survives (content : Snapshot Sim → Bytes) (pre post : List (Event Sim)) (f data : Bytes) (d : Disk) (n : Nat)
    (hn : (diskOpsOf content (pre ++ [.snapshot f data])).length ≤ n) (h : ∀ e ∈ post, e.file ≠ f) :
    d.applyAll ((diskOpsOf content (pre ++ .snapshot f data :: post)).take n) f = some data := by
  have e1 : diskOpsOf content (pre ++ .snapshot f data :: post) =
      diskOpsOf content (pre ++ [.snapshot f data]) ++ diskOpsOf content post := by
    rw [← diskOpsOf_append]; simp
  rw [e1, List.take_append, applyAll_append, applyAll_other _ _ f, List.take_of_length_le hn, diskOpsOf_append, applyAll_append]
  · have : diskOpsOf content [Event.snapshot f data] = writeOps f data := by simp [diskOpsOf, Event.diskOps]
    rw [this, applyAll_writeOps]
  · intro op ho
    obtain ⟨e, he, ho'⟩ := diskOpsOf_file (List.mem_of_mem_take ho)
    rw [ho']; exact h e he

end Scisim
