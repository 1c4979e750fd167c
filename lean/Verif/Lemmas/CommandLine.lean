import Verif.Model.CommandLine
import Verif.Spec.CommandLine
import Verif.Lemmas.SceneText
import Verif.Lemmas.Digits
import Verif.Props.Rational
import Mathlib.Tactic.FieldSimp
import Mathlib.Data.List.Infix
/-!
# Lemmas about the command line
-/

namespace Scisim.CommandLine

/-- Whether an option stands alone, as a boolean -/
def Setting.alone : Setting → Bool
  | help => true
  | impulses => true
  | _ => false

theorem Setting.alone_iff (s : Setting) : s.alone = true ↔ s.Alone := by cases s <;> simp [alone, Alone]

theorem Setting.letter_ne (s : Setting) : s.letter ≠ '-' := by cases s <;> simp [letter]

theorem lookupShort_letter {hdf5 : Bool} {s : Setting} (ha : s.Available hdf5) : lookupShort (shortOptions hdf5) s.letter = some (!s.alone) := by
  cases hdf5 <;> cases s <;> first | rfl | simp [Setting.Available] at ha

theorem Setting.Called.ne {s : Setting} {n : List Char} (h : s.Called n) : n ≠ [] := h.1

/-- All abbreviations of all names -/
theorem lookupLong_all : ∀ hdf5 : Bool, ∀ s ∈ [Setting.help, .resume [], .endTime 0, .frequency 0, .snapshots true] ++ (if hdf5 then [.impulses, .outputDir []] else []),
    ∀ n ∈ s.name.inits, n ≠ [] →
      (lookupLong (longOptions hdf5) n).map (fun o => (o.name, o.takesArgument, o.letter)) = some (s.name, !s.alone, s.letter) := by
  decide +kernel

theorem Setting.representative {hdf5 : Bool} {s : Setting} (ha : s.Available hdf5) :
    ∃ s' ∈ [Setting.help, .resume [], .endTime 0, .frequency 0, .snapshots true] ++ (if hdf5 then [.impulses, .outputDir []] else []),
      s'.name = s.name ∧ s'.alone = s.alone ∧ s'.letter = s.letter := by
  cases s with
  | help => exact ⟨.help, by simp, rfl, rfl, rfl⟩
  | resume f => exact ⟨.resume [], by simp, rfl, rfl, rfl⟩
  | endTime t => exact ⟨.endTime 0, by simp, rfl, rfl, rfl⟩
  | frequency n => exact ⟨.frequency 0, by simp, rfl, rfl, rfl⟩
  | snapshots b => exact ⟨.snapshots true, by simp, rfl, rfl, rfl⟩
  | impulses => cases hdf5 with
    | false => simp [Available] at ha
    | true => exact ⟨.impulses, by simp, rfl, rfl, rfl⟩
  | outputDir d => cases hdf5 with
    | false => simp [Available] at ha
    | true => exact ⟨.outputDir [], by simp, rfl, rfl, rfl⟩

theorem lookupLong_name {hdf5 : Bool} {s : Setting} (ha : s.Available hdf5) {n : List Char} (hn : s.Called n) :
    lookupLong (longOptions hdf5) n = some ⟨s.name, !s.alone, s.letter⟩ := by
  obtain ⟨s', hm, h1, h2, h3⟩ := Setting.representative ha
  have h := lookupLong_all hdf5 s' hm n ((List.mem_inits _ _).mpr (by rw [h1]; exact hn.2)) hn.1
  rw [h1, h2, h3] at h
  cases hl : lookupLong (longOptions hdf5) n with
  | none => rw [hl] at h; simp at h
  | some o =>
    rw [hl] at h
    cases o
    simp only [Option.map_some, Option.some.injEq, Prod.mk.injEq] at h
    obtain ⟨rfl, rfl, rfl⟩ := h
    rfl

theorem called_no_eq {s : Setting} {n : List Char} (hn : s.Called n) : ∀ c ∈ n, decide (c ≠ '=') = true := by
  intro c hc
  have : c ∈ s.name := hn.2.subset hc
  rw [decide_eq_true_iff]
  rintro rfl
  cases s <;> simp [Setting.name] at this

theorem takeWhile_name {s : Setting} {n : List Char} (hn : s.Called n) (v : List Char) : (n ++ '=' :: v).takeWhile (· ≠ '=') = n := by
  rw [List.takeWhile_append_of_pos (called_no_eq hn)]
  simp

theorem dropWhile_name {s : Setting} {n : List Char} (hn : s.Called n) (v : List Char) : (n ++ '=' :: v).dropWhile (· ≠ '=') = '=' :: v := by
  rw [List.dropWhile_append_of_pos (called_no_eq hn)]
  simp

theorem takeWhile_name' {s : Setting} {n : List Char} (hn : s.Called n) : n.takeWhile (· ≠ '=') = n := by
  have := List.takeWhile_append_of_pos (l₂ := []) (called_no_eq hn)
  simpa using this

theorem dropWhile_name' {s : Setting} {n : List Char} (hn : s.Called n) : n.dropWhile (· ≠ '=') = [] := by
  have := List.dropWhile_append_of_pos (l₂ := []) (called_no_eq hn)
  simpa using this

/-! ## One call -/

theorem long_alone {hdf5 : Bool} {s : Setting} (ha : s.Available hdf5) (h : s.Alone) {n : List Char} (hn : s.Called n) (next : Option Word) :
    long (longOptions hdf5) next n = ([.option s.letter []], false) := by
  rw [long, takeWhile_name' hn, lookupLong_name ha hn]
  simp only [dropWhile_name' hn, (s.alone_iff).mpr h, Bool.not_true]

theorem long_joined {hdf5 : Bool} {s : Setting} (ha : s.Available hdf5) (h : s.alone = false) {n : List Char} (hn : s.Called n) (next : Option Word) (v : Word) :
    long (longOptions hdf5) next (n ++ '=' :: v) = ([.option s.letter v], false) := by
  rw [long, takeWhile_name hn, lookupLong_name ha hn]
  simp only [dropWhile_name hn, h, Bool.not_true, Bool.not_false]

theorem long_superfluous {hdf5 : Bool} {s : Setting} (ha : s.Available hdf5) (h : s.alone = true) {n : List Char} (hn : s.Called n) (next : Option Word) (v : Word) :
    long (longOptions hdf5) next (n ++ '=' :: v) = ([.bad], false) := by
  rw [long, takeWhile_name hn, lookupLong_name ha hn]
  simp only [dropWhile_name hn, h, Bool.not_true, Bool.not_false]

theorem long_apart {hdf5 : Bool} {s : Setting} (ha : s.Available hdf5) (h : s.alone = false) {n : List Char} (hn : s.Called n) (v : Word) :
    long (longOptions hdf5) (some v) n = ([.option s.letter v], true) := by
  rw [long, takeWhile_name' hn, lookupLong_name ha hn]
  simp only [dropWhile_name' hn, h, Bool.not_false]

theorem long_missing {hdf5 : Bool} {s : Setting} (ha : s.Available hdf5) (h : s.alone = false) {n : List Char} (hn : s.Called n) :
    long (longOptions hdf5) none n = ([.bad], false) := by
  rw [long, takeWhile_name' hn, lookupLong_name ha hn]
  simp only [dropWhile_name' hn, h, Bool.not_false]

theorem long_unnamed (hdf5 : Bool) (next : Option Word) (v : Word) : long (longOptions hdf5) next ('=' :: v) = ([.bad], false) := by
  cases hdf5 <;> simp [long, lookupLong, longOptions]

theorem cluster_alone {hdf5 : Bool} {s : Setting} (ha : s.Available hdf5) (h : s.Alone) (next : Option Word) :
    cluster (shortOptions hdf5) next [s.letter] = ([.option s.letter []], false) := by
  simp [cluster, lookupShort_letter ha, (s.alone_iff).mpr h]

theorem cluster_joined {hdf5 : Bool} {s : Setting} (ha : s.Available hdf5) (h : s.alone = false) (next : Option Word) {v : Word} (hv : v ≠ []) :
    cluster (shortOptions hdf5) next (s.letter :: v) = ([.option s.letter v], false) := by
  simp [cluster, lookupShort_letter ha, h, hv]

theorem cluster_apart {hdf5 : Bool} {s : Setting} (ha : s.Available hdf5) (h : s.alone = false) (v : Word) :
    cluster (shortOptions hdf5) (some v) [s.letter] = ([.option s.letter v], true) := by
  simp [cluster, lookupShort_letter ha, h]

theorem cluster_missing {hdf5 : Bool} {s : Setting} (ha : s.Available hdf5) (h : s.alone = false) :
    cluster (shortOptions hdf5) none [s.letter] = ([.bad], false) := by
  simp [cluster, lookupShort_letter ha, h]

theorem cluster_more {hdf5 : Bool} {s : Setting} (ha : s.Available hdf5) (h : s.Alone) (next : Option Word) (t : List Char) :
    cluster (shortOptions hdf5) next (s.letter :: t) =
      (.option s.letter [] :: (cluster (shortOptions hdf5) next t).1, (cluster (shortOptions hdf5) next t).2) := by
  simp [cluster, lookupShort_letter ha, (s.alone_iff).mpr h]

/-! ## All calls -/

theorem getopt_joined {hdf5 : Bool} {s : Setting} (ha : s.Available hdf5) (h : s.Alone) {c : Char} (hc : c ≠ '-') (t : Word) (ws : List Word) :
    getoptLong hdf5 (('-' :: s.letter :: c :: t) :: ws) =
      (.option s.letter [] :: (getoptLong hdf5 (('-' :: c :: t) :: ws)).1, (getoptLong hdf5 (('-' :: c :: t) :: ws)).2) := by
  have e : '-' :: c :: t ≠ ['-', '-'] := by simp [hc]
  rw [getoptLong, if_neg (by simp)]
  rw [getoptLong, if_neg e]
  simp only [hc, s.letter_ne, if_false, cluster_more ha h]
  cases (cluster (shortOptions hdf5) ws.head? (c :: t)).2 <;> cases ws <;> rfl

theorem getopt_long_word (hdf5 : Bool) {t : Word} (ht : t ≠ []) (ws : List Word) {g : List Got}
    (h : long (longOptions hdf5) ws.head? t = (g, false)) :
    getoptLong hdf5 (('-' :: '-' :: t) :: ws) = (g ++ (getoptLong hdf5 ws).1, (getoptLong hdf5 ws).2) := by
  rw [getoptLong, if_neg (by simpa using ht)]
  simp [h]

theorem getopt_long_apart (hdf5 : Bool) {t w : Word} (ht : t ≠ []) (ws : List Word) {g : List Got}
    (h : long (longOptions hdf5) (some w) t = (g, true)) :
    getoptLong hdf5 (('-' :: '-' :: t) :: w :: ws) = (g ++ (getoptLong hdf5 ws).1, (getoptLong hdf5 ws).2) := by
  rw [getoptLong, if_neg (by simpa using ht)]
  simp [h]

theorem getopt_short_word (hdf5 : Bool) {c : Char} {t : Word} (hc : c ≠ '-') (ws : List Word) {g : List Got}
    (h : cluster (shortOptions hdf5) ws.head? (c :: t) = (g, false)) :
    getoptLong hdf5 (('-' :: c :: t) :: ws) = (g ++ (getoptLong hdf5 ws).1, (getoptLong hdf5 ws).2) := by
  rw [getoptLong, if_neg (by simp [hc])]
  simp [h, hc]

theorem getopt_short_apart (hdf5 : Bool) {c : Char} {t w : Word} (hc : c ≠ '-') (ws : List Word) {g : List Got}
    (h : cluster (shortOptions hdf5) (some w) (c :: t) = (g, true)) :
    getoptLong hdf5 (('-' :: c :: t) :: w :: ws) = (g ++ (getoptLong hdf5 ws).1, (getoptLong hdf5 ws).2) := by
  rw [getoptLong, if_neg (by simp [hc])]
  simp [h, hc]

theorem getopt_word (hdf5 : Bool) {w : Word} (hw : w.head? ≠ some '-' ∨ w = ['-']) (ws : List Word) :
    getoptLong hdf5 (w :: ws) = ((getoptLong hdf5 ws).1, w :: (getoptLong hdf5 ws).2) := by
  rcases hw with hw | rfl
  · cases w with
    | nil => simp [getoptLong]
    | cons a t =>
      have ha : a ≠ '-' := by simpa using hw
      rw [getoptLong, if_neg (by simp [ha])]
      intro c t' heq
      exact ha (List.cons.inj heq).1
  · simp [getoptLong]

theorem getopt_end (hdf5 : Bool) (ws : List Word) : getoptLong hdf5 (['-', '-'] :: ws) = ([], ws) := by
  simp [getoptLong]

/-- What `getopt_long` returns for a setting -/
def Means (s : Setting) (g : Got) : Prop := ∃ v, g = .option s.letter v ∧ (s.Argument v ∨ s.Alone)

theorem Setting.alone_of_argument {s : Setting} {v : List Char} (h : s.Argument v) : s.alone = false := by
  cases s <;> first | rfl | exact absurd h (by simp [Argument])

theorem written_gets {hdf5 : Bool} {s : Setting} {ws : List Word} (h : Written s ws) (ha : s.Available hdf5) :
    ∃ g, Means s g ∧ ∀ more, getoptLong hdf5 (ws ++ more) = (g :: (getoptLong hdf5 more).1, (getoptLong hdf5 more).2) := by
  cases h with
  | short h => exact ⟨_, ⟨_, rfl, .inr h⟩, fun more => getopt_short_word hdf5 s.letter_ne more (cluster_alone ha h _)⟩
  | long h hn => exact ⟨_, ⟨_, rfl, .inr h⟩, fun more => getopt_long_word hdf5 hn.ne more (long_alone ha h hn _)⟩
  | shortApart h => exact ⟨_, ⟨_, rfl, .inl h⟩, fun more => getopt_short_apart hdf5 s.letter_ne more (cluster_apart ha (Setting.alone_of_argument h) _)⟩
  | shortJoined h hv => exact ⟨_, ⟨_, rfl, .inl h⟩, fun more => getopt_short_word hdf5 s.letter_ne more (cluster_joined ha (Setting.alone_of_argument h) _ hv)⟩
  | longApart h hn => exact ⟨_, ⟨_, rfl, .inl h⟩, fun more => getopt_long_apart hdf5 hn.ne more (long_apart ha (Setting.alone_of_argument h) hn _)⟩
  | longJoined h hn =>
    exact ⟨_, ⟨_, rfl, .inl h⟩, fun more => getopt_long_word hdf5 (by simp) more (long_joined ha (Setting.alone_of_argument h) hn _ _)⟩

theorem line_gets {hdf5 : Bool} {args : List Word} {S : List Setting} {W : List Word} (h : Line hdf5 args S W) :
    ∃ gs, List.Forall₂ Means S gs ∧ ∀ more, getoptLong hdf5 (args ++ more) = (gs ++ (getoptLong hdf5 more).1, W ++ (getoptLong hdf5 more).2) := by
  induction h with
  | nil => exact ⟨[], .nil, fun more => rfl⟩
  | option h ha t ih =>
    obtain ⟨gs, hgs, hm⟩ := ih
    obtain ⟨g, hg, hw⟩ := written_gets h ha
    refine ⟨g :: gs, .cons hg hgs, fun more => ?_⟩
    rw [List.append_assoc, hw, hm]
    rfl
  | joined h ha hc t ih =>
    obtain ⟨gs, hgs, hm⟩ := ih
    refine ⟨_ :: gs, .cons ⟨[], rfl, .inr h⟩ hgs, fun more => ?_⟩
    rw [List.cons_append, getopt_joined ha h hc, ← List.cons_append, hm]
    rfl
  | word h t ih =>
    obtain ⟨gs, hgs, hm⟩ := ih
    refine ⟨gs, hgs, fun more => ?_⟩
    rw [List.cons_append, getopt_word hdf5 h, hm]
    rfl

theorem says_gets {hdf5 : Bool} {args : List Word} {S : List Setting} {W : List Word} (h : Says hdf5 args S W) :
    ∃ gs, List.Forall₂ Means S gs ∧ getoptLong hdf5 args = (gs, W) := by
  rcases h with h | ⟨args', W', rest, rfl, rfl, h⟩
  · obtain ⟨gs, hgs, hm⟩ := line_gets h
    refine ⟨gs, hgs, ?_⟩
    have := hm []
    simpa [getoptLong] using this
  · obtain ⟨gs, hgs, hm⟩ := line_gets h
    refine ⟨gs, hgs, ?_⟩
    rw [hm, getopt_end]
    simp

/-! ## What the options do -/

/-- What a setting changes -/
def effect (o : Options) : Setting → Options
  | .help => { o with help := true }
  | .resume f => { o with serializedFileName := f }
  | .endTime t => { o with endTimeOverride := t }
  | .impulses => { o with outputForces := true }
  | .outputDir d => { o with outputDir := d }
  | .frequency n => { o with outputFrequency := n }
  | .snapshots b => { o with serializeSnapshots := true, overwriteSnapshots := !b }

theorem unsigned_begins {v : List Char} {n : ℕ} (h : IsUnsigned v n) : BeginsWithUnsigned v n := by
  obtain ⟨sg, ds, rest, hb, -, hs, rfl, hn⟩ := h
  refine ⟨sg, ds, rest, hb, hn, ?_⟩
  have : sg.factor = 1 := by cases sg <;> first | rfl | exact absurd rfl hs
  rw [this, one_mul]
  exact (Int.emod_eq_of_lt (by omega) (by exact_mod_cast hn)).symm

theorem checked_of_value {α : Type} {e : Extracted α} {a : α} (h : ∃ rest, e = .value a rest) : e.checked = .ok a := by
  obtain ⟨rest, rfl⟩ := h; rfl

theorem handle_means {s : Setting} {g : Got} (h : Means s g) (o : Options) : handle o g = .ok (effect o s) := by
  obtain ⟨v, rfl, h⟩ := h
  cases s with
  | help => rfl
  | impulses => rfl
  | resume f =>
    obtain ⟨rfl, -⟩ := h.resolve_right id
    rfl
  | outputDir d =>
    obtain ⟨rfl, -⟩ := h.resolve_right id
    rfl
  | endTime t =>
    obtain ⟨⟨rest, hn, -⟩, ht⟩ := h.resolve_right id
    have : (extractScalar v).checked = .ok t := checked_of_value ⟨rest, (extractScalar_value v t rest).mpr hn⟩
    simp [handle, Setting.letter, this, Outcome.bind, not_le.mpr ht, effect]
  | frequency n =>
    obtain ⟨hn, -⟩ := h.resolve_right id
    have : (extractUnsigned v).checked = .ok n := checked_of_value ((extractUnsigned_value v n).mpr (unsigned_begins hn))
    simp [handle, Setting.letter, this, Outcome.bind, effect]
  | snapshots b =>
    obtain ⟨sg, ds, rest, hb, -, hv⟩ := h.resolve_right id
    have : (extractBool v).checked = .ok b := checked_of_value ((extractBool_value v b).mpr ⟨sg, ds, rest, hb, hv⟩)
    simp [handle, Setting.letter, this, Outcome.bind, effect]

theorem handleAll_means {S : List Setting} {gs : List Got} (h : List.Forall₂ Means S gs) (o : Options) (more : List Got) :
    handleAll o (gs ++ more) = handleAll (S.foldl effect o) more := by
  induction h generalizing o with
  | nil => rfl
  | cons hg _ ih =>
    rw [List.cons_append, handleAll, handle_means hg]
    exact ih _

theorem parse_says {hdf5 : Bool} {args : List Word} {S : List Setting} {W : List Word} (h : Says hdf5 args S W) :
    parseCommandLineOptions hdf5 args = .ok (S.foldl effect {}, W) := by
  obtain ⟨gs, hgs, hg⟩ := says_gets h
  have := handleAll_means hgs {} []
  rw [List.append_nil] at this
  rw [parseCommandLineOptions, hg, this]
  rfl

theorem getLast?_cons_getD {α : Type} (a b : α) (l : List α) : ((a :: l).getLast?).getD b = (l.getLast?).getD a := by
  cases l with
  | nil => rfl
  | cons c t => simp [List.getLast?_cons]

theorem effects_help (S : List Setting) (o : Options) : (S.foldl effect o).help = true ↔ o.help = true ∨ Setting.help ∈ S := by
  induction S generalizing o with
  | nil => simp
  | cons s t ih => rw [List.foldl_cons, ih]; cases s <;> simp [effect]

theorem effects_forces (S : List Setting) (o : Options) : (S.foldl effect o).outputForces = true ↔ o.outputForces = true ∨ Setting.impulses ∈ S := by
  induction S generalizing o with
  | nil => simp
  | cons s t ih => rw [List.foldl_cons, ih]; cases s <;> simp [effect]

theorem effects_end (S : List Setting) (o : Options) : (S.foldl effect o).endTimeOverride = (askedEnd S).getD o.endTimeOverride := by
  induction S generalizing o with
  | nil => rfl
  | cons s t ih =>
    rw [List.foldl_cons, ih]
    cases s <;> simp only [effect, askedEnd, List.filterMap_cons] <;> rw [getLast?_cons_getD]

theorem effects_frequency (S : List Setting) (o : Options) : (S.foldl effect o).outputFrequency = (askedFrequency S).getD o.outputFrequency := by
  induction S generalizing o with
  | nil => rfl
  | cons s t ih =>
    rw [List.foldl_cons, ih]
    cases s <;> simp only [effect, askedFrequency, List.filterMap_cons] <;> rw [getLast?_cons_getD]

theorem effects_file (S : List Setting) (o : Options) : (S.foldl effect o).serializedFileName = (askedFile S).getD o.serializedFileName := by
  induction S generalizing o with
  | nil => rfl
  | cons s t ih =>
    rw [List.foldl_cons, ih]
    cases s <;> simp only [effect, askedFile, List.filterMap_cons] <;> rw [getLast?_cons_getD]

theorem effects_dir (S : List Setting) (o : Options) : (S.foldl effect o).outputDir = (askedDir S).getD o.outputDir := by
  induction S generalizing o with
  | nil => rfl
  | cons s t ih =>
    rw [List.foldl_cons, ih]
    cases s <;> simp only [effect, askedDir, List.filterMap_cons] <;> rw [getLast?_cons_getD]

theorem effects_overwrite (S : List Setting) (o : Options) :
    (S.foldl effect o).overwriteSnapshots = ((askedSnapshots S).map (!·)).getD o.overwriteSnapshots := by
  induction S generalizing o with
  | nil => rfl
  | cons s t ih =>
    rw [List.foldl_cons, ih]
    cases s with
    | snapshots b =>
      simp only [effect, askedSnapshots, List.filterMap_cons]
      cases hl : (List.filterMap (fun x => match x with | Setting.snapshots b => some b | _ => none) t) with
      | nil => rfl
      | cons a u => simp [List.getLast?_cons]
    | _ => simp only [effect, askedSnapshots, List.filterMap_cons]

theorem effects_serialize (S : List Setting) (o : Options) :
    (S.foldl effect o).serializeSnapshots = (o.serializeSnapshots || (askedSnapshots S).isSome) := by
  induction S generalizing o with
  | nil => simp [askedSnapshots]
  | cons s t ih =>
    rw [List.foldl_cons, ih]
    cases s with
    | snapshots b => simp [effect, askedSnapshots, List.getLast?_cons]
    | _ => simp only [effect, askedSnapshots, List.filterMap_cons]

/-! ## What is rejected -/

theorem lookupLong_none {opts : List LongOption} {name : Word} (h : ∀ o ∈ opts, ¬ name <+: o.name) : lookupLong opts name = none := by
  have h1 : opts.find? (fun o => o.name = name) = none := by
    rw [List.find?_eq_none]
    intro o ho hn
    exact h o ho (of_decide_eq_true hn ▸ List.prefix_refl _)
  have h2 : opts.filter (fun o => name.isPrefixOf o.name) = [] := by
    rw [List.filter_eq_nil_iff]
    intro o ho hn
    exact h o ho (List.isPrefixOf_iff_prefix.mp hn)
  rw [lookupLong, h1, h2]

theorem longOption_setting {hdf5 : Bool} {o : LongOption} (h : o ∈ longOptions hdf5) : ∃ s : Setting, s.Available hdf5 ∧ s.name = o.name := by
  cases hdf5 <;> simp only [longOptions, List.mem_append, List.mem_cons, List.not_mem_nil, or_false, if_true, Bool.false_eq_true, if_false] at h
  · rcases h with (rfl | rfl | rfl | rfl) | rfl
    exacts [⟨.help, trivial, rfl⟩, ⟨.snapshots true, trivial, rfl⟩, ⟨.resume [], trivial, rfl⟩, ⟨.endTime 0, trivial, rfl⟩, ⟨.frequency 0, trivial, rfl⟩]
  · rcases h with ((rfl | rfl | rfl | rfl) | rfl | rfl) | rfl
    exacts [⟨.help, trivial, rfl⟩, ⟨.snapshots true, trivial, rfl⟩, ⟨.resume [], trivial, rfl⟩, ⟨.endTime 0, trivial, rfl⟩, ⟨.impulses, rfl, rfl⟩,
      ⟨.outputDir [], rfl, rfl⟩, ⟨.frequency 0, trivial, rfl⟩]

theorem lookupShort_none {hdf5 : Bool} {c : Char} (hc : ∀ s : Setting, s.Available hdf5 → s.letter ≠ c) : lookupShort (shortOptions hdf5) c = none := by
  have hh := hc .help trivial
  have hs := hc (.snapshots true) trivial
  have hr := hc (.resume []) trivial
  have he := hc (.endTime 0) trivial
  have hf := hc (.frequency 0) trivial
  simp only [Setting.letter] at hh hs hr he hf
  cases hdf5 with
  | false => simp [shortOptions, lookupShort, hh, hs, hr, he, hf]
  | true =>
    have hi := hc .impulses rfl
    have ho := hc (.outputDir []) rfl
    simp only [Setting.letter] at hi ho
    simp [shortOptions, lookupShort, hh, hs, hr, he, hf, hi, ho]

theorem checked_fail {α : Type} {e : Extracted α} (h : ¬ ∃ a rest, e = .value a rest) : e.checked = .fail := by
  cases e with
  | value a rest => exact absurd ⟨a, rest, rfl⟩ h
  | _ => rfl

theorem handle_bad {c : Char} {v : List Char} (h : BadArgument c v) (o : Options) : handle o (.option c v) = .fail := by
  rcases h with ⟨rfl, h⟩ | ⟨rfl, h⟩ | ⟨rfl, h⟩
  · cases hx : extractScalar v with
    | value q rest =>
      have hq : q ≤ 0 := by
        by_contra hq
        exact h ⟨q, rest, (extractScalar_value v q rest).mp hx, not_le.mp hq⟩
      simp [handle, hx, Extracted.checked, Outcome.bind, hq]
    | _ => simp [handle, hx, Extracted.checked, Outcome.bind]
  · have : (extractUnsigned v).checked = .fail := checked_fail fun ⟨n, rest, hx⟩ => h ⟨n, (extractUnsigned_value v n).mp ⟨rest, hx⟩⟩
    simp [handle, this, Outcome.bind]
  · have : (extractBool v).checked = .fail := checked_fail fun ⟨b, rest, hx⟩ => h ⟨b, (extractBool_value v b).mp ⟨rest, hx⟩⟩
    simp [handle, this, Outcome.bind]

theorem bad_available {hdf5 : Bool} {s : Setting} {v : List Char} (h : BadArgument s.letter v) : s.Available hdf5 ∧ s.alone = false := by
  cases s <;> simp_all [BadArgument, Setting.letter, Setting.Available, Setting.alone]

theorem wrong_gets {hdf5 : Bool} {args : List Word} (h : Wrong hdf5 args) :
    ∃ gs g gs', (getoptLong hdf5 args).1 = gs ++ g :: gs' ∧ (∀ o, handle o g = .fail) ∧ ∃ S, List.Forall₂ Means S gs := by
  induction h with
  | letter h hc =>
    refine ⟨[], .bad, _, by rw [getopt_short_word hdf5 h _ (g := [.bad])]; · rfl
                            simp [cluster, lookupShort_none hc], fun o => rfl, [], .nil⟩
  | name h hn =>
    refine ⟨[], .bad, _, by rw [getopt_long_word hdf5 h _ (g := [.bad])]; · rfl
                            rw [long, lookupLong_none]
                            intro o ho
                            obtain ⟨s, hs, hsn⟩ := longOption_setting ho
                            rw [← hsn]; exact hn s hs, fun o => rfl, [], .nil⟩
  | unnamed => exact ⟨[], .bad, _, by rw [getopt_long_word hdf5 (by simp) _ (long_unnamed hdf5 _ _)]; rfl, fun o => rfl, [], .nil⟩
  | superfluous h ha hn =>
    exact ⟨[], .bad, _, by rw [getopt_long_word hdf5 (by simp) _ (long_superfluous ha ((Setting.alone_iff _).mpr h) hn _ _)]; rfl, fun o => rfl, [], .nil⟩
  | @missingShort s h ha =>
    have hal : s.alone = false := by rw [← Bool.not_eq_true, s.alone_iff]; exact h
    exact ⟨[], .bad, _, by rw [getopt_short_word hdf5 s.letter_ne [] (cluster_missing ha hal)]; rfl, fun o => rfl, [], .nil⟩
  | @missingLong s n h ha hn =>
    have hal : s.alone = false := by rw [← Bool.not_eq_true, s.alone_iff]; exact h
    exact ⟨[], .bad, _, by rw [getopt_long_word hdf5 hn.ne [] (long_missing ha hal hn)]; rfl, fun o => rfl, [], .nil⟩
  | @shortApart s v _ h =>
    exact ⟨[], _, _, by rw [getopt_short_apart hdf5 s.letter_ne _ (cluster_apart (bad_available h).1 (bad_available (hdf5 := hdf5) h).2 v)]; rfl, handle_bad h, [], .nil⟩
  | @shortJoined s v _ h hv =>
    exact ⟨[], _, _, by rw [getopt_short_word hdf5 s.letter_ne _ (cluster_joined (bad_available h).1 (bad_available (hdf5 := hdf5) h).2 _ hv)]; rfl, handle_bad h, [], .nil⟩
  | @longApart s n v _ h hn =>
    exact ⟨[], _, _, by rw [getopt_long_apart hdf5 hn.ne _ (long_apart (bad_available h).1 (bad_available (hdf5 := hdf5) h).2 hn v)]; rfl, handle_bad h, [], .nil⟩
  | @longJoined s n v _ h hn =>
    exact ⟨[], _, _, by rw [getopt_long_word hdf5 (by simp) _ (long_joined (bad_available h).1 (bad_available (hdf5 := hdf5) h).2 hn _ v)]; rfl, handle_bad h, [], .nil⟩
  | @joined s c w args h ha hc _ ih =>
    obtain ⟨gs, g, gs', e, hg, S, hS⟩ := ih
    refine ⟨.option s.letter [] :: gs, g, gs', ?_, hg, s :: S, .cons ⟨[], rfl, .inr h⟩ hS⟩
    rw [getopt_joined ha h hc, e]
    rfl
  | @joinedDash s w args h ha =>
    have hd : cluster (shortOptions hdf5) args.head? (s.letter :: '-' :: w) = ([.option s.letter [], .bad], false) := by
      rw [cluster_more ha h]
      have : lookupShort (shortOptions hdf5) '-' = none := lookupShort_none fun s _ => s.letter_ne
      simp [cluster, this]
    exact ⟨[.option s.letter []], .bad, _, by rw [getopt_short_word hdf5 s.letter_ne _ hd]; rfl, fun o => rfl, [s], .cons ⟨[], rfl, .inr h⟩ .nil⟩

theorem parse_wrong {hdf5 : Bool} {args wrong : List Word} {S : List Setting} {W : List Word} (h : Line hdf5 args S W) (hw : Wrong hdf5 wrong) :
    parseCommandLineOptions hdf5 (args ++ wrong) = .fail := by
  obtain ⟨gs, hgs, hm⟩ := line_gets h
  obtain ⟨gs₁, g, gs', hg, hf, S', hS'⟩ := wrong_gets hw
  rw [parseCommandLineOptions, hm, hg, handleAll_means hgs, handleAll_means hS', handleAll, hf]
  rfl

/-! ## Steps per save and the width of numbers -/

theorem stepsPerSave_fits {dt : Rat64} {q : ℚ} (hdt : Represents dt q) (hq : 0 < q) {f : ℕ} (hf : 0 < f) (h1 : Fits (q.num * f)) (h2 : Fits (q.den : ℤ)) :
    ∃ r : Rat64, Represents r (1 / (q * f)) ∧ stepsPerSaveOf dt f = if r.isInteger then .ok (UInt32.ofInt r.num) else .fail := by
  have hfq : (0 : ℚ) < f := by exact_mod_cast hf
  have hpos : 0 < q * f := mul_pos hq hfq
  have e1 : dt.num = q.num := hdt.1
  have e2 : dt.den = q.den := hdt.2
  have hfit1 : Fits (dt.num * (f : ℤ)) := by rw [e1]; exact h1
  obtain ⟨d, hd, hdr⟩ := C01_construct_total (n := dt.num * f) (d := dt.den) (by rw [e2]; exact_mod_cast q.den_nz) hfit1 (by rw [e2]; exact h2)
  have hmul : dt.mulInt f = .ok d := by
    unfold Rat64.mulInt
    rw [Outcome.bind_eq_ok]
    exact ⟨_, (chk_eq_ok).mpr ⟨hfit1.inI64, rfl⟩, hd⟩
  have h3 := C01_mulInt hdt hmul
  rw [Int.cast_natCast] at h3
  have hqf : q * f = ((q.num * f : ℤ) : ℚ) / ((q.den : ℤ) : ℚ) := by
    push_cast
    rw [mul_div_right_comm, Rat.num_div_den]
  have n1 : (q * f).num.natAbs ≤ (q.num * f).natAbs := by
    have hdvd : (q * f).num ∣ q.num * f := by
      rw [hqf, ← Rat.divInt_eq_div]; exact Rat.num_dvd _ (by exact_mod_cast q.den_nz)
    exact Nat.le_of_dvd (Int.natAbs_pos.mpr (mul_ne_zero (Rat.num_ne_zero.mpr hq.ne') (by exact_mod_cast hf.ne'))) (Int.natAbs_dvd_natAbs.mpr hdvd)
  have n2 : (q * f).den ≤ q.den := by
    have hdvd : ((q * f).den : ℤ) ∣ (q.den : ℤ) := by
      rw [hqf, ← Rat.divInt_eq_div]; exact Rat.den_dvd _ _
    exact Nat.le_of_dvd q.den_pos (by exact_mod_cast hdvd)
  have hn0 : d.num ≠ 0 := by rw [h3.1]; exact Rat.num_ne_zero.mpr hpos.ne'
  have fn : Fits d.num := by
    rw [h3.1]; exact lt_of_le_of_lt n1 h1
  have fd : Fits (d.den * 1) := by
    rw [h3.2, mul_one]
    unfold Fits at *
    rw [Int.natAbs_natCast] at *
    exact lt_of_le_of_lt n2 h2
  obtain ⟨r, hr, -⟩ := C01_construct_total (n := d.den * 1) (d := d.num) hn0 fd fn
  have hdiv : Rat64.intDiv 1 d = .ok r := by
    unfold Rat64.intDiv
    rw [Outcome.bind_eq_ok]
    exact ⟨_, (chk_eq_ok).mpr ⟨fd.inI64, rfl⟩, hr⟩
  have h4 := C01_intDiv h3 hpos.ne' hdiv
  rw [Int.cast_one] at h4
  refine ⟨r, h4, ?_⟩
  rw [stepsPerSaveOf, if_pos hf.ne', hmul]
  change (Rat64.intDiv 1 d).bind _ = _
  rw [hdiv]
  rfl

theorem stepsPerSave_ok {dt : Rat64} {q : ℚ} (hdt : Represents dt q) (hq : 0 < q) {f : ℕ} (hf : 0 < f) (h1 : Fits (q.num * f)) (h2 : Fits (q.den : ℤ))
    {k : UInt32} (hk : (k.toNat : ℚ) * q * f = 1) : stepsPerSaveOf dt f = .ok k := by
  obtain ⟨r, hr, hs⟩ := stepsPerSave_fits hdt hq hf h1 h2
  have hfq : (0 : ℚ) < f := by exact_mod_cast hf
  have hval : 1 / (q * f) = ((k.toNat : ℤ) : ℚ) := by
    rw [div_eq_iff (mul_pos hq hfq).ne', ← mul_assoc]; exact_mod_cast hk.symm
  have hint : r.isInteger = true := by
    rw [(C01_predicates hr).2.2]
    exact ⟨_, hval⟩
  rw [hs, if_pos hint]
  have hnum : r.num = (k.toNat : ℤ) := by rw [hr.1, hval, Rat.num_intCast]
  rw [hnum]
  congr 1
  apply UInt32.toNat.inj
  unfold UInt32.ofInt
  have hlt := k.toNat_lt
  rw [UInt32.toNat_ofNat', Int.emod_eq_of_lt (by omega) (by exact_mod_cast hlt), Int.toNat_natCast]
  exact Nat.mod_eq_of_lt hlt

theorem stepsPerSave_fail {dt : Rat64} {q : ℚ} (hdt : Represents dt q) (hq : 0 < q) {f : ℕ} (hf : 0 < f) (h1 : Fits (q.num * f)) (h2 : Fits (q.den : ℤ))
    (hk : ¬ ∃ k : ℕ, (k : ℚ) * q * f = 1) : stepsPerSaveOf dt f = .fail := by
  obtain ⟨r, hr, hs⟩ := stepsPerSave_fits hdt hq hf h1 h2
  have hfq : (0 : ℚ) < f := by exact_mod_cast hf
  have hint : ¬ r.isInteger = true := by
    rw [(C01_predicates hr).2.2]
    rintro ⟨k, hkk⟩
    have hk0 : (0 : ℚ) < k := by rw [← hkk]; positivity
    have hk1 : 0 < k := by exact_mod_cast hk0
    refine hk ⟨k.toNat, ?_⟩
    have : ((k.toNat : ℕ) : ℚ) = (k : ℚ) := by
      have h3 : ((k.toNat : ℕ) : ℤ) = k := Int.toNat_of_nonneg hk1.le
      exact_mod_cast congrArg (Int.cast (R := ℚ)) h3
    rw [this, ← hkk, mul_assoc]
    exact one_div_mul_cancel (mul_pos hq hfq).ne'
  rw [hs, if_neg hint]

theorem ceilSteps_some {dt : Rat64} {q : ℚ} (hdt : Represents dt q) (hq : 0 < q) {t : ℚ} (ht : 0 < t) (hfit : t / q ≤ 4294967295) :
    ceilSteps (some t) dt = .ok ⌈t / q⌉.toNat := by
  have : (dt.num : ℚ) / dt.den = q := by
    rw [hdt.1, hdt.2]; exact_mod_cast Rat.num_div_den q
  have h0 : 0 ≤ ⌈t / q⌉ := Int.ceil_nonneg (div_pos ht hq).le
  have h1 : ⌈t / q⌉ ≤ 4294967295 := Int.ceil_le.mpr (by exact_mod_cast hfit)
  simp only [ceilSteps, this]
  rw [if_pos ⟨h0, by omega⟩]

end Scisim.CommandLine
