import Verif.Lemmas.Handles
/-!
# C89 and C90: identifiers and failures of the HDF5 library
-/

namespace Scisim.Handles

/-! ## C89: whatever happens, what is taken from the library is given back once -/

/-- A world in which nothing fails -/
def fair : World := fun _ => true

/-- Whatever is written to a file or read from it, and whichever calls of the library fail: afterwards, with or without an exception, the same identifiers are in use as before, and none that was not in use has been
closed -/
theorem C89_use (w : World) (file : ℤ) (items : List Item) (l : Lib) (hl : Sane l) :
    (runItems w file items l).2.opened = l.opened ∧ (runItems w file items l).2.misused = l.misused :=
  ⟨(keeps_runItems file items l hl).1, (keeps_runItems file items l hl).2.1⟩

/-- The hypothesis holds, and the same list ends with and without an exception -/
example : Sane ⟨[3], 4, false, []⟩ ∧ (runItems fair 3 [.string none, .records (some true) [.array, .text] false 2, .read true true] ⟨[3], 4, false, []⟩).1 = .ok () ∧
    (runItems (fun n => n != 25) 3 [.string none, .records (some true) [.array, .text] false 2, .read true true] ⟨[3], 4, false, []⟩).1 = .thrown := by
  refine ⟨⟨by decide, by decide⟩, ?_, ?_⟩
  · rw [show fair = fun _ => true from rfl]
    handles_eval
  · handles_eval

/-- In every history of constructions, openings, moves, assignments, uses and destructions of files that opens no file with an object that has one, the files that are open in the library are, at the
end and thus at any time, exactly those that the objects have, each has one, and nothing was closed twice -/
theorem C89_files_partial (w : World) (ops : List Op) (h : NeverReopens w .start ops) :
    (∀ n : ℕ, n ∈ (run w .start ops).lib.opened ↔ ∃ i, (run w .start ops).objs i = some (n : ℤ)) ∧
      (∀ (i j n : ℕ), (run w .start ops).objs i = some (n : ℤ) → (run w .start ops).objs j = some (n : ℤ) → i = j) ∧ (run w .start ops).lib.misused = false := by
  obtain ⟨_, h2, h3, h4⟩ := held_run (w := w) held_start h
  exact ⟨h3, h4, h2⟩

/-- When all objects are gone, nothing is left in use -/
theorem C89_end_partial (w : World) (ops : List Op) (h : NeverReopens w .start ops) (hgone : ∀ i, (run w .start ops).objs i = none) : (run w .start ops).lib.opened = [] := by
  refine List.eq_nil_iff_forall_not_mem.mpr fun n hn => ?_
  obtain ⟨i, hi⟩ := ((C89_files_partial w ops h).1 n).mp hn
  rw [hgone i] at hi
  simp at hi

/-- The hypotheses hold for a history with a failed opening, a move, an assignment and uses -/
example : NeverReopens (fun n => n != 0) .start [.constructOpen 0, .construct 0, .open' 0, .use 0 [.dense none], .move 1 0, .constructOpen 2, .assign 2 1, .open' 0, .destroy 1, .destroy 0, .destroy 2] ∧
    (run (fun n => n != 0) .start [.constructOpen 0, .construct 0, .open' 0, .use 0 [.dense none], .move 1 0, .constructOpen 2, .assign 2 1, .open' 0, .destroy 1, .destroy 0, .destroy 2]).lib.opened = [] := by
  refine ⟨?_, by decide +kernel⟩
  simp only [NeverReopens, and_true]
  refine ⟨by simp, by simp, ?_, by simp, by simp, by simp, by simp, ?_, by simp, by simp, by simp⟩ <;>
  · intro i hi
    cases hi
    decide +kernel

/-- The statement without the hypothesis is false: an object that opens a second file forgets the first, which is never closed -/
theorem C89_reopen_false : ¬ ∀ (w : World) (ops : List Op), (∀ i, (run w .start ops).objs i = none) → (run w .start ops).lib.opened = [] := by
  intro h
  have := h fair [.constructOpen 0, .open' 0, .destroy 0] (by
    intro i
    simp only [run, step, State.start, openFile, acquire, fair, List.all_nil, Bool.and_self, if_true]
    by_cases hi : i = 0
    · subst hi; simp
    · simp)
  revert this
  decide +kernel

/-- A file that is not open can be neither written nor read: there is an exception -/
theorem C89_not_open (w : World) (ops : List Op) (i : ℕ) (h : ℤ) (hobj : (run w .start ops).objs i = some h) (hclosed : (run w .start ops).isOpen i = false) (item : Item) :
    (item.run w h (run w .start ops).lib).1 = .thrown := by
  have : h < 0 := by simpa [State.isOpen, hobj] using hclosed
  exact throws_item this item _

/-- An object that has been moved from is such an object -/
example : (run fair .start [.constructOpen 0, .move 1 0]).objs 0 = some (-1) ∧ (run fair .start [.constructOpen 0, .move 1 0]).isOpen 0 = false ∧ (run fair .start [.constructOpen 0, .move 1 0]).isOpen 1 = true := by
  decide +kernel

/-- A run that saves any number of files of states and forces leaves nothing in use, whatever fails, unless it is ended by an exception that nobody catches -/
theorem C89_run (w : World) (files : List (Option (Maps × ℕ) × List Item)) (l : Lib) (hl : Sane l) : (saveAll w files l).2.opened = l.opened ∧ (saveAll w files l).2.misused = l.misused :=
  ⟨(same_saveAll files hl).1, (same_saveAll files hl).2.1⟩

/-! ## C90: failures are noticed -/

/-- A run reports success only if each call of the library in which data can get lost has succeeded, apart from selections of a part of a file and closing -/
theorem C90_noticed_partial (w : World) (files : List (Option (Maps × ℕ) × List Item)) (hi : ∀ f ∈ files, ∀ i ∈ f.2, NotEmpty i) (l l' : Lib) (h : saveAll w files l = (.success, l')) :
    ∃ calls, Made l l' calls ∧ ∀ c ∈ calls, Matters c.1 → c.2 = true :=
  fine_saveAll files hi h

/-- A run reports success only if every value of every file has been written -/
theorem C90_complete (w : World) (files : List (Option (Maps × ℕ) × List Item)) (l l' : Lib) (h : saveAll w files l = (.success, l')) :
    l'.trace.count (.write, true) = l.trace.count (.write, true) + dataOfRun files :=
  written_saveAll files h

/-- These are 22 values for two steps, one of them with forces -/
example : dataOfRun [(none, [Item.indices (some false) 2, .records (some true) [.array] false 2]), (some (Maps.impact, 3), [.dense none])] = 22 := rfl

/-- If no call fails, a run reports success -/
theorem C90_success (w : World) (hw : ∀ n, w n = true) (files : List (Option (Maps × ℕ) × List Item)) (hi : ∀ f ∈ files, ∀ i ∈ f.2, Fits i) (l : Lib) (hl : Sane l) :
    (saveAll w files l).1 = .success :=
  saveAll_success hw files hi hl

/-- The hypotheses hold for files of a run with two steps, in which something is written -/
example : (∀ n, fair n = true) ∧ (∀ f ∈ [(none, [Item.indices (some false) 2, .records (some true) [.array] false 2]), (some (Maps.impact, 3), [.dense none])], ∀ i ∈ f.2, Fits i ∧ NotEmpty i) ∧
    Sane ⟨[], 0, false, []⟩ ∧
    ((saveAll fair [(none, [Item.indices (some false) 2, .records (some true) [.array] false 2]), (some (Maps.impact, 3), [.dense none])] ⟨[], 0, false, []⟩).2.trace.filter (·.1 = .write)).length = 22 := by
  refine ⟨fun _ => rfl, ?_, ⟨by decide, by decide⟩, ?_⟩
  · simp [Fits, NotEmpty]
  · rw [show fair = fun _ => true from rfl]
    handles_eval

/-- Without friction a run always ends with a status -/
theorem C90_status_partial (w : World) (files : List (Option (Maps × ℕ) × List Item)) (l : Lib) (h : ∀ f ∈ files, ∀ n, f.1 ≠ some (.friction, n)) :
    (saveAll w files l).1 = .success ∨ (saveAll w files l).1 = .failure := by
  have := saveAll_not_terminated (w := w) files l h
  revert this
  cases (saveAll w files l).1 <;> simp

/-- The hypothesis holds for a run in which the eleventh call fails, which is noticed -/
example : (∀ f ∈ [(some (Maps.impact, 3), ([] : List Item))], ∀ n, f.1 ≠ some (.friction, n)) ∧ (saveAll (fun n => n != 10) [(some (Maps.impact, 3), [])] ⟨[], 0, false, []⟩).1 = .failure :=
  ⟨by simp, by handles_eval⟩

/-- With friction it does not: if the file of forces cannot be written, the program is ended by `std::terminate` -/
theorem C90_friction_false : ¬ ∀ (w : World) (files : List (Option (Maps × ℕ) × List Item)) (l : Lib), (saveAll w files l).1 = .success ∨ (saveAll w files l).1 = .failure := by
  intro h
  have := h (fun n => n != 42) [(some (.friction, 1), [])] ⟨[], 0, false, []⟩
  revert this
  handles_eval

/-- A file that cannot be closed, which is when a full disk may show, is not noticed -/
theorem C90_close_false : ¬ ∀ (w : World) (items : List Item) (l l' : Lib), saveState w items l = (.success, l') → ∃ calls, Made l l' calls ∧ ∀ c ∈ calls, c.1 = .close → c.2 = true := by
  intro h
  obtain ⟨l', hrun⟩ : ∃ l', saveState (fun n => n != 35) [] ⟨[], 0, false, []⟩ = (.success, l') ∧ (.close, false) ∈ l'.trace := by
    refine ⟨_, eq_of_fst ?_, ?_⟩ <;> handles_eval
  obtain ⟨calls, hm, hc⟩ := h _ _ _ _ hrun.1
  simp only [Made, List.append_nil] at hm
  have := hc (.close, false) (by rw [← hm]; exact hrun.2) rfl
  simp at this

/-- Nor is a selection that fails, after which data are written to another place of the file, or to no place -/
theorem C90_select_false : ¬ ∀ (w : World) (items : List Item) (l l' : Lib), (∀ i ∈ items, NotEmpty i) → saveState w items l = (.success, l') → ∃ calls, Made l l' calls ∧ ∀ c ∈ calls, c.1 = .select → c.2 = true := by
  intro h
  obtain ⟨l', hrun⟩ : ∃ l', saveState (fun n => n != 39) [.indices none 1] ⟨[], 0, false, []⟩ = (.success, l') ∧ (.select, false) ∈ l'.trace := by
    refine ⟨_, eq_of_fst ?_, ?_⟩ <;> handles_eval
  obtain ⟨calls, hm, hc⟩ := h _ _ _ _ (by simp [NotEmpty]) hrun.1
  simp only [Made, List.append_nil] at hm
  have := hc (.select, false) (by rw [← hm]; exact hrun.2) rfl
  simp at this

end Scisim.Handles
