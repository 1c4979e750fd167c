import Verif.Lemmas.PythonRefs
/-!
# C85: references to Python objects are given back, once and in time
-/

namespace Scisim
namespace PythonRefs

/-- **C85, owning.** Whatever scenes are opened and whatever callbacks are made, at any time the program owns exactly the module and the functions of the scene it has, each as often as it
refers to it, and one more reference to a module for every time it was loaded. No function is called that may have been destroyed, and nothing is given back twice (no undefined behaviour). -/
theorem C85_owned (es : List Event) :
    (∃ s m, run es .empty .start = .exited s m) ∨ ∃ s m, run es .empty .start = .returned s m ∧ m.running = true ∧ Owned (modulesLoaded es) s m := by
  simpa using run_ok es [] .empty .start rfl owned_start

/-- **C85, the interactive programs.** No run has undefined behaviour. When a run is over, all references have been given back but one to a module for every time it was loaded. -/
theorem C85_window_partial (es : List Event) :
    ∃ m, windowProgram es = .ok () m ∧ ((∃ s m', run es .empty .start = .returned s m') → ∀ o, m.refs o = (modulesLoaded es).count o) := by
  unfold windowProgram
  rcases C85_owned es with ⟨s, m, e⟩ | ⟨s, m, e, hr, ho⟩
  · rw [e]
    exact ⟨_, rfl, by rintro ⟨_, _, h⟩; cases h⟩
  · rw [e]
    obtain ⟨m1, e1, r1, c1⟩ := destroy_ok s m hr fun x => by rw [ho x]; omega
    simp only [e1, Res.bind]
    refine ⟨_, rfl, fun _ o => ?_⟩
    have := c1 o
    have := ho o
    show m1.refs o = _
    omega

/-- **The full statement is false**: opening a scene with a script `n` times loses `n` references to its module. -/
theorem C85_leak_false (l : Load) (o : Obj) (hl : l.reloaded = some o) (n : ℕ) (m : Mem) (h : windowProgram (List.replicate n (.openScene (some l))) = .ok () m)
    (hr : ∃ s m', run (List.replicate n (.openScene (some l))) .empty .start = .returned s m') : m.refs o = n := by
  obtain ⟨m', e, hm⟩ := C85_window_partial (List.replicate n (.openScene (some l)))
  rw [h] at e
  cases e
  rw [hm hr o]
  have : ∀ n, modulesLoaded (List.replicate n (Event.openScene (some l))) = List.replicate n o := by
    intro n
    induction n with
    | zero => rfl
    | succ n ih => rw [List.replicate_succ, modulesLoaded_cons, ih]; simp [modulesLoaded, hl, List.replicate_succ]
  rw [this, List.count_replicate_self]

/-- **C85, the command line programs, without a script.** A run in which no script has been loaded ends without undefined behaviour. -/
theorem C85_command_line_partial (es : List Event) (h : ∀ l, Event.openScene (some l) ∉ es) : ∃ m, commandLineProgram es = .ok () m ∧ ∀ o, m.refs o = 0 := by
  have key : ∀ es : List Event, (∀ l, Event.openScene (some l) ∉ es) → run es .empty .start = .returned .empty .start := by
    intro es
    induction es with
    | nil => intro _; rfl
    | cons e es ih =>
      intro h
      have ih := ih fun l hl => h l (.tail _ hl)
      cases e with
      | openScene l =>
        cases l with
        | none => exact ih
        | some l => exact absurd (.head _) (h l)
      | callback w v => exact ih
  unfold commandLineProgram
  rw [key es h]
  exact ⟨_, rfl, fun _ => rfl⟩

/-- **The full statement is false**: with a script, every run of a command line program ends in undefined behaviour. The program gives back its references after the interpreter has shut down, whether
it comes to its end or is ended by an error in the script. -/
theorem C85_command_line_false (es : List Event) (s : Scripting) (m : Mem) (h : run es .empty .start = .returned s m ∨ run es .empty .start = .exited s m) (hs : ∃ o, some o ∈ s.objects) :
    commandLineProgram es = .ub := by
  unfold commandLineProgram
  rcases h with h | h <;> rw [h] <;> exact destroy_final s (finalize m) rfl hs

/-- **C85, assignment.** What the target owned is given back, what the source owned goes to the target, for any two objects. -/
theorem C85_assign (this other : Option Obj) (m : Mem) (hr : m.running = true) (h : ∀ x, [this, other].count (some x) ≤ m.refs x) :
    ∃ m', moveAssign false this other m = .ok (other, none) m' ∧ ∀ x, m'.refs x + [this].count (some x) = m.refs x := by
  obtain ⟨m', e, -, c⟩ := xdecref_ok this m hr fun x => Nat.le_trans (by simp [List.count_cons]) (h x)
  refine ⟨m', ?_, c⟩
  simp [moveAssign, e, Res.bind]

/-- **C85, loading a function.** Whatever the object owned before: it owns the new function if the module has it, and the old one is given back. -/
theorem C85_function (attr : Option (Obj × Bool)) (slot : Option Obj) (m : Mem) (hr : m.running = true) (h : ∀ x, [slot].count (some x) ≤ m.refs x) :
    (∃ m', loadFunction attr slot m = .exit m') ∨
    ∃ m', loadFunction attr slot m = .ok (attr.map (·.1)) m' ∧ ∀ x, m'.refs x + [slot].count (some x) = m.refs x + [attr.map (·.1)].count (some x) := by
  obtain ⟨m1, e1, r1, c1⟩ := newRef_ok (attr.map (·.1)) m hr
  unfold loadFunction
  rw [e1]
  simp only [Res.bind, swapObj_eq]
  split_ifs with hx
  · exact Or.inl ⟨_, rfl⟩
  · obtain ⟨m2, e2, -, c2⟩ := xdecref_ok slot m1 r1 fun x => Nat.le_trans (h x) (by rw [c1]; omega)
    rw [e2]
    exact Or.inr ⟨m2, rfl, fun x => by rw [c2, c1]⟩

/-- Moving an object to itself keeps it. -/
theorem C85_self (a : Option Obj) (m : Mem) : moveAssign true a a m = .ok (a, a) m := rfl

/-! ## Examples -/

/-- A script with two functions -/
def exampleLoad : Load := ⟨true, true, some 1, some 1, some (2, true), none, some (3, true), none, none, none⟩

/-- A scene with a script, a callback that returns `None`, the same scene again, a scene without a script -/
def exampleEvents : List Event := [.openScene (some exampleLoad), .callback .startOfSim (some 7), .callback .friction none, .openScene (some exampleLoad), .openScene none]

example : ∃ s m, run exampleEvents .empty .start = .returned s m := ⟨_, _, rfl⟩

example : modulesLoaded exampleEvents = [1, 1] := rfl

/-- The program owns objects 4 and 5; assigning gives back 4, loading another function for it as well. -/
example : (∃ m', moveAssign false (some 4) (some 5) ⟨fun x => if x = 4 ∨ x = 5 then 1 else 0, true⟩ = .ok (some 5, none) m' ∧ m'.refs 4 = 0 ∧ m'.refs 5 = 1) ∧
    ∃ m', loadFunction (some (6, true)) (some 4) ⟨fun x => if x = 4 then 1 else 0, true⟩ = .ok (some 6) m' ∧ m'.refs 4 = 0 ∧ m'.refs 6 = 1 :=
  ⟨⟨_, rfl, rfl, rfl⟩, ⟨_, rfl, rfl, rfl⟩⟩

example : ∃ m, windowProgram exampleEvents = .ok () m ∧ m.refs 1 = 2 ∧ m.refs 2 = 0 ∧ m.refs 7 = 0 := ⟨_, rfl, by decide, by decide, by decide⟩

/-- A run of one scene with a script, which ends in undefined behaviour -/
example : commandLineProgram [.openScene (some exampleLoad), .callback .startOfStep (some 7)] = .ub :=
  C85_command_line_false _ _ _ (Or.inl rfl) ⟨2, by decide⟩

/-- A script whose function raises an exception: the same -/
example : commandLineProgram [.openScene (some exampleLoad), .callback .startOfStep none] = .ub :=
  C85_command_line_false _ _ _ (Or.inr rfl) ⟨2, by decide⟩

example : ∃ m, windowProgram (List.replicate 3 (.openScene (some exampleLoad))) = .ok () m ∧ m.refs 1 = 3 :=
  ⟨_, rfl, C85_leak_false exampleLoad 1 rfl 3 _ rfl ⟨_, _, rfl⟩⟩

end PythonRefs
end Scisim
