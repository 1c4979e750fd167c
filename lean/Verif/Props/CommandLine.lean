import Verif.Lemmas.CommandLine
/-!
# C86: a run starts as the command line says

`Says hdf5 args settings words`: the line asks for these settings and contains these other words (Spec/CommandLine).
-/

namespace Scisim.CommandLine

theorem setting_argument {hdf5 : Bool} {args : List Word} {S : List Setting} {W : List Word} (h : Says hdf5 args S W) {s : Setting} (hs : s ∈ S) :
    s.Alone ∨ ∃ v, s.Argument v := by
  obtain ⟨gs, hgs, -⟩ := says_gets h
  clear h
  induction hgs with
  | nil => simp at hs
  | cons hg _ ih =>
    rcases List.mem_cons.mp hs with rfl | hs
    · obtain ⟨v, -, hv | hv⟩ := hg
      · exact .inr ⟨v, hv⟩
      · exact .inl hv
    · exact ih hs

theorem askedFile_ne {hdf5 : Bool} {args : List Word} {S : List Setting} {W : List Word} (h : Says hdf5 args S W) {f : List Char} (hf : askedFile S = some f) :
    f ≠ [] := by
  have := List.mem_of_getLast? hf
  obtain ⟨s, hs, he⟩ := List.mem_filterMap.mp this
  cases s <;> simp at he
  subst he
  rcases setting_argument h hs with ha | ⟨v, -, hv⟩
  · exact absurd ha id
  · exact hv

theorem askedDir_ne {hdf5 : Bool} {args : List Word} {S : List Setting} {W : List Word} (h : Says hdf5 args S W) {d : List Char} (hd : askedDir S = some d) :
    d ≠ [] := by
  have := List.mem_of_getLast? hd
  obtain ⟨s, hs, he⟩ := List.mem_filterMap.mp this
  cases s <;> simp at he
  subst he
  rcases setting_argument h hs with ha | ⟨v, -, hv⟩
  · exact absurd ha id
  · exact hv

theorem askedEnd_pos {hdf5 : Bool} {args : List Word} {S : List Setting} {W : List Word} (h : Says hdf5 args S W) {t : ℚ} (ht : askedEnd S = some t) : 0 < t := by
  have := List.mem_of_getLast? ht
  obtain ⟨s, hs, he⟩ := List.mem_filterMap.mp this
  cases s <;> simp at he
  subst he
  rcases setting_argument h hs with ha | ⟨v, -, hv⟩
  · exact absurd ha id
  · exact hv

theorem askedFrequency_pos {hdf5 : Bool} {args : List Word} {S : List Setting} {W : List Word} (h : Says hdf5 args S W) {n : ℕ} (hn : askedFrequency S = some n) :
    0 < n := by
  have := List.mem_of_getLast? hn
  obtain ⟨s, hs, he⟩ := List.mem_filterMap.mp this
  cases s <;> simp at he
  subst he
  rcases setting_argument h hs with ha | ⟨v, -, hv⟩
  · exact absurd ha id
  · exact hv

/-- **C86, help.** Wherever it is asked for in the line: nothing is simulated. -/
theorem C86_help {hdf5 : Bool} (load : Word → Outcome (Rat64 × Option ℚ)) {args : List Word} {S : List Setting} {W : List Word} (h : Says hdf5 args S W)
    (hh : Setting.help ∈ S) : main hdf5 load args = .ok .usage := by
  rw [main, parse_says h]
  simp only [Outcome.bind]
  rw [if_pos ((effects_help S {}).mpr (.inr hh))]

/-- What `main` does with a scene, in terms of the settings -/
def startScene (load : Word → Outcome (Rat64 × Option ℚ)) (S : List Setting) : List Word → Outcome Start
  | [scene] => (load scene).bind fun s =>
    (stepsPerSaveOf s.1 ((askedFrequency S).getD 0)).bind fun n =>
      (ceilSteps ((askedEnd S).or s.2) s.1).bind fun c =>
        (saveNumberWidth c n.toNat).bind fun w =>
          .ok (.run ⟨scene, (askedEnd S).or s.2, n, w, (askedDir S).getD [], decide (Setting.impulses ∈ S), (askedSnapshots S).isSome,
            decide (askedSnapshots S ≠ some true)⟩)
  | _ => .fail

theorem startScene_one (load : Word → Outcome (Rat64 × Option ℚ)) (S : List Setting) (scene : Word) : startScene load S [scene] =
    (load scene).bind fun s =>
    (stepsPerSaveOf s.1 ((askedFrequency S).getD 0)).bind fun n =>
      (ceilSteps ((askedEnd S).or s.2) s.1).bind fun c =>
        (saveNumberWidth c n.toNat).bind fun w =>
          .ok (.run ⟨scene, (askedEnd S).or s.2, n, w, (askedDir S).getD [], decide (Setting.impulses ∈ S), (askedSnapshots S).isSome,
            decide (askedSnapshots S ≠ some true)⟩) := rfl

theorem main_past_help {hdf5 : Bool} (load : Word → Outcome (Rat64 × Option ℚ)) {args : List Word} {S : List Setting} {W : List Word} (h : Says hdf5 args S W)
    (hh : Setting.help ∉ S) (hi : Setting.impulses ∈ S → askedDir S ≠ none) :
    main hdf5 load args =
      if askedFile S ≠ none then .ok (.resume ((askedFile S).getD []))
      else startScene load S W := by
  rw [main, parse_says h]
  simp only [Outcome.bind]
  have e1 : ¬ (S.foldl effect {}).help = true := by rw [effects_help]; simpa using hh
  have e2 : (S.foldl effect {}).outputForces = decide (Setting.impulses ∈ S) := by
    rw [Bool.eq_iff_iff, effects_forces]; simp
  have e3 : (S.foldl effect {}).outputDir = (askedDir S).getD [] := effects_dir S {}
  have e4 : (S.foldl effect {}).serializedFileName = (askedFile S).getD [] := effects_file S {}
  have e5 : (S.foldl effect {}).endTimeOverride = (askedEnd S).getD (-1) := effects_end S {}
  have e6 : (S.foldl effect {}).outputFrequency = (askedFrequency S).getD 0 := effects_frequency S {}
  have e7 : (S.foldl effect {}).serializeSnapshots = (askedSnapshots S).isSome := by rw [effects_serialize]; rfl
  have e8 : (S.foldl effect {}).overwriteSnapshots = decide (askedSnapshots S ≠ some true) := by
    rw [effects_overwrite]
    cases askedSnapshots S with
    | none => rfl
    | some b => cases b <;> rfl
  have e9 : ¬ ((S.foldl effect {}).outputForces = true ∧ (S.foldl effect {}).outputDir = []) := by
    rw [e2, e3]
    rintro ⟨h1, h2⟩
    cases hd : askedDir S with
    | none => exact hi (by simpa using h1) hd
    | some d => rw [hd] at h2; exact askedDir_ne h hd h2
  have e10 : ∀ e : Option ℚ, (if 0 < (S.foldl effect {}).endTimeOverride then some (S.foldl effect {}).endTimeOverride else e) = (askedEnd S).or e := by
    intro e
    rw [e5]
    cases ht : askedEnd S with
    | none => simp
    | some t => simp [askedEnd_pos h ht]
  rw [if_neg e1, if_neg e9]
  by_cases hf : askedFile S = none
  · rw [if_neg (by simp [e4, hf]), if_neg (by simp [hf])]
    match W with
    | [] => rfl
    | [scene] => simp only [startScene, Outcome.bind, e10, e2, e3, e6, e7, e8]
    | _ :: _ :: _ => rfl
  · obtain ⟨f, hf'⟩ := Option.ne_none_iff_exists'.mp hf
    rw [if_pos (by rw [e4, hf']; exact askedFile_ne h hf'), if_pos hf, e4]

/-- **C86, starting a simulation (part).** The line asks for no help and no snapshot to be resumed, names one scene that can be loaded, and asks for impulses only
together with a directory. Let `q` be the time step of the scene, `t` the end time that was asked for, or else that of the scene, and `k` the number of steps between two
saves that the frequency asks for, or one. Then the simulation of this scene starts with exactly what was asked for, and with enough digits, and not more than are needed, for the number
of the last save. What is missing: scenes without end time (`C86_endless_false`), more than 2^32 steps, numerators and denominators that do not fit in machine integers. -/
theorem C86_run_partial {hdf5 : Bool} {load : Word → Outcome (Rat64 × Option ℚ)} {args : List Word} {S : List Setting} {scene : Word} (h : Says hdf5 args S [scene])
    (hh : Setting.help ∉ S) (hr : askedFile S = none) (hi : Setting.impulses ∈ S → askedDir S ≠ none)
    {dt : Rat64} {q : ℚ} {e : Option ℚ} (hl : load scene = .ok (dt, e)) (hdt : Represents dt q) (hq : 0 < q)
    {t : ℚ} (hend : askedEnd S = some t ∨ (askedEnd S = none ∧ e = some t)) (ht : 0 < t) (hfit : t / q ≤ 4294967294)
    {k : UInt32} (hk : (askedFrequency S = none ∧ k = 1) ∨ ∃ f, askedFrequency S = some f ∧ (k.toNat : ℚ) * q * f = 1 ∧ Fits (q.num * f) ∧ Fits (q.den : ℤ)) :
    ∃ w, main hdf5 load args = .ok (.run {
        scene := scene
        endTime := some t
        stepsPerSave := k
        saveNumberWidth := w
        outputDir := (askedDir S).getD []
        outputForces := decide (Setting.impulses ∈ S)
        serializeSnapshots := (askedSnapshots S).isSome
        overwriteSnapshots := decide (askedSnapshots S ≠ some true) }) ∧
      1 + ⌈t / q⌉.toNat / k.toNat < 10 ^ w ∧ (1 < w → 10 ^ (w - 1) ≤ 1 + ⌈t / q⌉.toNat / k.toNat) := by
  have hor : (askedEnd S).or e = some t := by
    rcases hend with h1 | ⟨h1, h2⟩
    · rw [h1]; rfl
    · rw [h1, h2]; rfl
  have hk0 : k.toNat ≠ 0 := by
    rcases hk with ⟨-, rfl⟩ | ⟨f, -, h1, -⟩
    · decide
    · intro h0; rw [h0] at h1; simp at h1
  have hs : stepsPerSaveOf dt ((askedFrequency S).getD 0) = .ok k := by
    rcases hk with ⟨h1, rfl⟩ | ⟨f, h1, h2, h3, h4⟩
    · rw [h1]; rfl
    · rw [h1]; exact stepsPerSave_ok hdt hq (askedFrequency_pos h h1) h3 h4 h2
  have hc : ⌈t / q⌉.toNat ≤ 4294967294 := by
    have : ⌈t / q⌉ ≤ 4294967294 := Int.ceil_le.mpr (by exact_mod_cast hfit)
    omega
  have hlt : 1 + ⌈t / q⌉.toNat / k.toNat < 4294967296 := by
    have := Nat.div_le_self ⌈t / q⌉.toNat k.toNat
    omega
  have hw : saveNumberWidth ⌈t / q⌉.toNat k.toNat = .ok (computeNumDigits (1 + ⌈t / q⌉.toNat / k.toNat)) := by
    rw [saveNumberWidth, if_neg hk0, Nat.mod_eq_of_lt hlt]
  refine ⟨computeNumDigits (1 + ⌈t / q⌉.toNat / k.toNat), ?_, ?_, ?_⟩
  · rw [main_past_help load h hh hi, if_neg (by simp [hr]), startScene_one, hl]
    simp only [Outcome.bind, hs, hor, ceilSteps_some hdt hq ht (by linarith), hw]
  · refine (computeNumDigits_le_iff _ _ ?_).mp le_rfl
    rw [← decDigits_length]
    rw [decDigits.eq_def]; split <;> simp
  · intro h1
    by_contra h2
    have := (computeNumDigits_le_iff _ _ (by omega)).mpr (not_le.mp h2)
    omega

/-- **C86, resuming.** The snapshot that was asked for is used. -/
theorem C86_resume {hdf5 : Bool} (load : Word → Outcome (Rat64 × Option ℚ)) {args : List Word} {S : List Setting} {W : List Word} (h : Says hdf5 args S W)
    (hh : Setting.help ∉ S) (hi : Setting.impulses ∈ S → askedDir S ≠ none) {f : List Char} (hr : askedFile S = some f) :
    main hdf5 load args = .ok (.resume f) := by
  rw [main_past_help load h hh hi, if_pos (by simp [hr]), hr]
  rfl

/-- **C86, mistakes in options.** An unknown option, also one joined to others, one without its argument, one with an argument that it does not take, or a value that is not even the beginning
of what it should be: the program ends with an error, whatever comes before (help included) and after. -/
theorem C86_rejects_options {hdf5 : Bool} (load : Word → Outcome (Rat64 × Option ℚ)) {args wrong : List Word} {S : List Setting} {W : List Word}
    (h : Line hdf5 args S W) (hw : Wrong hdf5 wrong) : main hdf5 load (args ++ wrong) = .fail := by
  rw [main, parse_wrong h hw]
  rfl

/-- **C86, other mistakes.** Impulses without a directory; no scene, or more than one; a scene that cannot be loaded; a frequency at which the time between two saves is not a whole
number of steps: the program ends with an error. -/
theorem C86_rejects {hdf5 : Bool} {load : Word → Outcome (Rat64 × Option ℚ)} {args : List Word} {S : List Setting} {W : List Word} (h : Says hdf5 args S W)
    (hh : Setting.help ∉ S) :
    (Setting.impulses ∈ S → askedDir S = none → main hdf5 load args = .fail) ∧
    ((Setting.impulses ∈ S → askedDir S ≠ none) → askedFile S = none →
      (W.length ≠ 1 → main hdf5 load args = .fail) ∧
      ∀ scene, W = [scene] → (load scene = .fail → main hdf5 load args = .fail) ∧
        ∀ dt q e f, load scene = .ok (dt, e) → Represents dt q → 0 < q → askedFrequency S = some f → Fits (q.num * f) → Fits (q.den : ℤ) →
          (¬ ∃ k : ℕ, (k : ℚ) * q * f = 1) → main hdf5 load args = .fail) := by
  refine ⟨fun h1 h2 => ?_, fun hi hr => ⟨fun hW => ?_, fun scene hW => ⟨fun hl => ?_, fun dt q e f hl hdt hq hf h1 h2 hk => ?_⟩⟩⟩
  · rw [main, parse_says h]
    simp only [Outcome.bind]
    rw [if_neg (by rw [effects_help]; simpa using hh), if_pos ⟨(effects_forces S {}).mpr (.inr h1), by rw [effects_dir, h2]; rfl⟩]
  · rw [main_past_help load h hh hi, if_neg (by simp [hr])]
    match W, hW with
    | [], _ => rfl
    | [_], hW => exact absurd rfl hW
    | _ :: _ :: _, _ => rfl
  · subst hW
    rw [main_past_help load h hh hi, if_neg (by simp [hr]), startScene_one, hl]
    rfl
  · subst hW
    rw [main_past_help load h hh hi, if_neg (by simp [hr]), startScene_one, hl]
    simp only [Outcome.bind]
    rw [hf]
    simp only [Option.getD_some]
    rw [stepsPerSave_fail hdt hq (askedFrequency_pos h hf) h1 h2 hk]

/-! ## The property is false -/

/-- **C86 is false: no end time.** A scene without end time, which is to run indefinitely, and no end time asked for: the number of steps to infinity is converted to an `unsigned`, which
is undefined. -/
theorem C86_endless_false {hdf5 : Bool} {load : Word → Outcome (Rat64 × Option ℚ)} {args : List Word} {S : List Setting} {scene : Word} (h : Says hdf5 args S [scene])
    (hh : Setting.help ∉ S) (hr : askedFile S = none) (hi : Setting.impulses ∈ S → askedDir S ≠ none)
    {dt : Rat64} (hl : load scene = .ok (dt, none)) (he : askedEnd S = none) (hf : askedFrequency S = none) : main hdf5 load args = .ub := by
  rw [main_past_help load h hh hi, if_neg (by simp [hr]), startScene_one, hl]
  simp only [Outcome.bind]
  rw [hf, he]
  rfl

/-- **C86 is false: options when resuming.** Any two lines that resume the same snapshot do the same: another end time, directory, frequency or kind of snapshots that are asked for are
silently ignored. -/
theorem C86_resume_false {hdf5 : Bool} (load : Word → Outcome (Rat64 × Option ℚ)) {args args' : List Word} {S S' : List Setting} {W W' : List Word}
    (h : Says hdf5 args S W) (h' : Says hdf5 args' S' W') (hh : Setting.help ∉ S) (hh' : Setting.help ∉ S')
    (hi : Setting.impulses ∈ S → askedDir S ≠ none) (hi' : Setting.impulses ∈ S' → askedDir S' ≠ none)
    {f : List Char} (hr : askedFile S = some f) (hr' : askedFile S' = some f) : main hdf5 load args = main hdf5 load args' := by
  rw [C86_resume load h hh hi hr, C86_resume load h' hh' hi' hr']

/-- A scene with a step of a hundredth of a second that ends after ten seconds -/
def exampleLoad : Word → Outcome (Rat64 × Option ℚ) := fun w => if w = ['s'] then .ok (⟨1, 100⟩, some 10) else .fail

/-- **C86 is false: the frequency.** The help says that it is ignored if there is no directory. It is not: the program fails if it does not fit the time step, and snapshots
(`-s 0`) are saved at this frequency. Nor must it be a frequency: `-4294967271` is taken for 25, `0` for one save in each step. -/
theorem C86_frequency_false :
    main true exampleLoad [['s'], ['-', 'f', '3', '0']] = .fail ∧
    (∃ cfg, main true exampleLoad [['s'], ['-', 's', '0'], ['-', 'f', '2', '5']] = .ok (.run cfg) ∧ cfg.outputDir = [] ∧ cfg.stepsPerSave = 4) ∧
    main true exampleLoad [['s'], ['-', 'f'], ['-', '4', '2', '9', '4', '9', '6', '7', '2', '7', '1']] = main true exampleLoad [['s'], ['-', 'f', '2', '5']] ∧
    main true exampleLoad [['s'], ['-', 'f', '0']] = main true exampleLoad [['s']] := by
  refine ⟨by decide +kernel, ⟨⟨['s'], some 10, 4, 3, [], false, true, true⟩, by decide +kernel, rfl, rfl⟩, by decide +kernel, by decide +kernel⟩

/-- **C86 is false: numbers.** What follows a number is ignored: `-e 5min` is taken for five seconds. -/
theorem C86_number_false :
    main true exampleLoad [['s'], ['-', 'e'], ['5', 'm', 'i', 'n']] = main true exampleLoad [['s'], ['-', 'e'], ['5']] := by
  decide +kernel

/-! ## Examples -/

theorem number_five : IsNumber ['5'] 5 := ⟨[], (extractScalar_value _ _ _).mp (by decide +kernel), by simp [Blank]⟩

theorem unsigned_25 : IsUnsigned ['2', '5'] 25 :=
  ⟨.none, [2, 5], [], ⟨[], by simp [Blank], by decide, by simp, by simp⟩, by simp [Blank], by simp, by decide, by norm_num⟩

theorem flag_one : IsFlag ['1'] true :=
  ⟨.none, [1], [], ⟨[], by simp [Blank], by decide, by simp, by simp⟩, by simp [Blank], by decide⟩

/-- `-e 5 s --freq=25 --output_dir d -is1` -/
def exampleArgs : List Word :=
  [['-', 'e'], ['5'], ['s'], ['-', '-', 'f', 'r', 'e', 'q', '=', '2', '5'],
    ['-', '-', 'o', 'u', 't', 'p', 'u', 't', '_', 'd', 'i', 'r'], ['d'], ['-', 'i', 's', '1']]

def exampleSettings : List Setting := [.endTime 5, .frequency 25, .outputDir ['d'], .impulses, .snapshots true]

theorem example_says : Says true exampleArgs exampleSettings [['s']] :=
  .inl (.option (s := .endTime 5) (words := [['-', 'e'], ['5']]) (.shortApart ⟨number_five, by norm_num⟩) trivial
    (.word (by simp)
      (.option (s := .frequency 25) (words := [['-', '-', 'f', 'r', 'e', 'q', '=', '2', '5']]) (.longJoined (n := ['f', 'r', 'e', 'q']) ⟨unsigned_25, by norm_num⟩ ⟨by simp, by decide⟩) trivial
        (.option (s := .outputDir ['d']) (words := [['-', '-', 'o', 'u', 't', 'p', 'u', 't', '_', 'd', 'i', 'r'], ['d']]) (.longApart ⟨rfl, by simp⟩ ⟨by simp, by decide⟩) rfl
          (.joined (s := .impulses) (c := 's') trivial rfl (by decide)
            (.option (s := .snapshots true) (words := [['-', 's', '1']]) (.shortJoined flag_one (by simp)) trivial .nil))))))

example : ∃ w, main true exampleLoad exampleArgs = .ok (.run ⟨['s'], some 5, 4, w, ['d'], true, true, false⟩) ∧ 1 + ⌈(5 : ℚ) / (1 / 100)⌉.toNat / 4 < 10 ^ w := by
  obtain ⟨w, h, h1, -⟩ := C86_run_partial (load := exampleLoad) (dt := ⟨1, 100⟩) (q := 1 / 100) (e := some 10) (t := 5) (k := 4) example_says (by decide) (by decide)
    (by decide) rfl ⟨by decide +kernel, by decide +kernel⟩ (by norm_num) (.inl (by decide)) (by norm_num) (by norm_num)
    (.inr ⟨25, by decide, by norm_num [show (4 : UInt32).toNat = 4 from rfl], by unfold Fits; decide +kernel, by unfold Fits; decide +kernel⟩)
  exact ⟨w, h, h1⟩

/-- `-h` after a scene, and `-r d -e 5` -/
example : main true exampleLoad [['s'], ['-', 'h']] = .ok .usage :=
  C86_help exampleLoad (S := [.help]) (W := [['s']]) (.inl (.word (by simp) (.option (s := .help) (words := [['-', 'h']]) (.short trivial) trivial .nil))) (by simp)

example : main true exampleLoad [['-', 'r', 'd'], ['-', 'e'], ['5']] = main true exampleLoad [['-', '-', 'r', 'e', 's', 'u', 'm', 'e'], ['d']] :=
  C86_resume_false exampleLoad (S := [.resume ['d'], .endTime 5]) (S' := [.resume ['d']]) (W := []) (W' := []) (f := ['d'])
    (.inl (.option (s := .resume ['d']) (words := [['-', 'r', 'd']]) (.shortJoined ⟨rfl, by simp⟩ (by simp)) trivial
      (.option (s := .endTime 5) (words := [['-', 'e'], ['5']]) (.shortApart ⟨number_five, by norm_num⟩) trivial .nil)))
    (.inl (.option (s := .resume ['d']) (words := [['-', '-', 'r', 'e', 's', 'u', 'm', 'e'], ['d']]) (.longApart ⟨rfl, by simp⟩ ⟨by simp, by decide⟩) trivial .nil))
    (by decide) (by decide) (by decide) (by decide) rfl rfl

/-- `-- -x` after options names the scene `-x`; without `--` it is an unknown option, even after `-h` -/
example : Says true [['-', 'h'], ['-', '-'], ['-', 'x']] [.help] [['-', 'x']] ∧ main true exampleLoad ([['-', 'h']] ++ [['-', 'x']]) = .fail :=
  ⟨.inr ⟨[['-', 'h']], [], [['-', 'x']], rfl, rfl, .option (s := .help) (words := [['-', 'h']]) (.short trivial) trivial .nil⟩,
    C86_rejects_options exampleLoad (S := [.help]) (W := []) (.option (s := .help) (words := [['-', 'h']]) (.short trivial) trivial .nil)
      (.letter (by decide) (by intro s _; cases s <;> simp [Setting.letter]))⟩

end Scisim.CommandLine
