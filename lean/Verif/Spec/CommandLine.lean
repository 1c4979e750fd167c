import Verif.Spec.SceneText
import Verif.Spec.Rational
/-!
# What a command line says

The options that the help of the programs lists (`printUsage`), the ways to write them, and what they ask for. The parser is not mentioned.
-/

namespace Scisim.CommandLine

/-- What can be asked for -/
inductive Setting where
  | help
  /-- resume from a snapshot -/
  | resume (file : List Char)
  /-- override the end time -/
  | endTime (t : ℚ)
  /-- save the impulses, too -/
  | impulses
  /-- save the states in a directory -/
  | outputDir (dir : List Char)
  /-- save this many times in a second of the simulation -/
  | frequency (hertz : ℕ)
  /-- save snapshots, and keep all or only the last one -/
  | snapshots (keepAll : Bool)
deriving DecidableEq

namespace Setting

/-- The letter of an option -/
def letter : Setting → Char
  | help => 'h'
  | resume _ => 'r'
  | endTime _ => 'e'
  | impulses => 'i'
  | outputDir _ => 'o'
  | frequency _ => 'f'
  | snapshots _ => 's'

/-- The name of an option -/
def name : Setting → List Char
  | help => ['h', 'e', 'l', 'p']
  | resume _ => ['r', 'e', 's', 'u', 'm', 'e']
  | endTime _ => ['e', 'n', 'd']
  | impulses => ['i', 'm', 'p', 'u', 'l', 's', 'e', 's']
  | outputDir _ => ['o', 'u', 't', 'p', 'u', 't', '_', 'd', 'i', 'r']
  | frequency _ => ['f', 'r', 'e', 'q', 'u', 'e', 'n', 'c', 'y']
  | snapshots _ => ['s', 'e', 'r', 'i', 'a', 'l', 'i', 'z', 'e', '_', 's', 'n', 'a', 'p', 's', 'h', 'o', 't', 's']

/-- Options that stand alone -/
def Alone : Setting → Prop
  | help => True
  | impulses => True
  | _ => False

/-- The text after an option, and what it stands for -/
def Argument : Setting → List Char → Prop
  | help, _ => False
  | impulses, _ => False
  | resume file, v => v = file ∧ file ≠ []
  | endTime t, v => IsNumber v t ∧ 0 < t
  | outputDir dir, v => v = dir ∧ dir ≠ []
  | frequency n, v => IsUnsigned v n ∧ 0 < n
  | snapshots b, v => IsFlag v b

/-- Programs built without HDF5 do not have all options -/
def Available (hdf5 : Bool) : Setting → Prop
  | impulses => hdf5 = true
  | outputDir _ => hdf5 = true
  | _ => True

end Setting

/-- A name of an option may be abbreviated -/
def Setting.Called (s : Setting) (n : List Char) : Prop := n ≠ [] ∧ n <+: s.name

/-- The ways to write an option: `-h`, `--help`, `--he`; `-e 5`, `-e5`, `--end 5`, `--end=5`, `--en=5` -/
inductive Written (s : Setting) : List (List Char) → Prop where
  | short (h : s.Alone) : Written s [['-', s.letter]]
  | long {n : List Char} (h : s.Alone) (hn : s.Called n) : Written s ['-' :: '-' :: n]
  | shortApart {v : List Char} (h : s.Argument v) : Written s [['-', s.letter], v]
  | shortJoined {v : List Char} (h : s.Argument v) (hv : v ≠ []) : Written s ['-' :: s.letter :: v]
  | longApart {n v : List Char} (h : s.Argument v) (hn : s.Called n) : Written s ['-' :: '-' :: n, v]
  | longJoined {n v : List Char} (h : s.Argument v) (hn : s.Called n) : Written s ['-' :: '-' :: (n ++ '=' :: v)]

/-- A line of options and other words, in any order. Options that stand alone may be joined to others: `-ihe5` is `-i -h -e5`. -/
inductive Line (hdf5 : Bool) : List (List Char) → List Setting → List (List Char) → Prop where
  | nil : Line hdf5 [] [] []
  | option {s : Setting} {words args rest : List (List Char)} {settings : List Setting} (h : Written s words) (ha : s.Available hdf5)
      (t : Line hdf5 args settings rest) : Line hdf5 (words ++ args) (s :: settings) rest
  | joined {s : Setting} {c : Char} {w : List Char} {args rest : List (List Char)} {settings : List Setting} (h : s.Alone) (ha : s.Available hdf5) (hc : c ≠ '-')
      (t : Line hdf5 (('-' :: c :: w) :: args) settings rest) : Line hdf5 (('-' :: s.letter :: c :: w) :: args) (s :: settings) rest
  | word {w : List Char} {args rest : List (List Char)} {settings : List Setting} (h : w.head? ≠ some '-' ∨ w = ['-'])
      (t : Line hdf5 args settings rest) : Line hdf5 (w :: args) settings (w :: rest)

/-- A command line: what it asks for and the other words. After `--` there are no options. -/
def Says (hdf5 : Bool) (args : List (List Char)) (settings : List Setting) (words : List (List Char)) : Prop :=
  Line hdf5 args settings words ∨ ∃ args' words' rest, args = args' ++ ['-', '-'] :: rest ∧ words = words' ++ rest ∧ Line hdf5 args' settings words'

/-- The end time that is asked for: the last one if there are several -/
def askedEnd (l : List Setting) : Option ℚ := (l.filterMap fun | .endTime t => some t | _ => none).getLast?

/-- The frequency that is asked for -/
def askedFrequency (l : List Setting) : Option ℕ := (l.filterMap fun | .frequency n => some n | _ => none).getLast?

/-- The file that is asked for -/
def askedFile (l : List Setting) : Option (List Char) := (l.filterMap fun | .resume f => some f | _ => none).getLast?

/-- The directory that is asked for -/
def askedDir (l : List Setting) : Option (List Char) := (l.filterMap fun | .outputDir d => some d | _ => none).getLast?

/-- The snapshots that are asked for -/
def askedSnapshots (l : List Setting) : Option Bool := (l.filterMap fun | .snapshots b => some b | _ => none).getLast?

/-- The argument of the option with this letter is not what it should be: it does not even begin with it -/
def BadArgument (c : Char) (v : List Char) : Prop :=
  (c = 'e' ∧ ¬ ∃ t rest, BeginsWithNumber v t rest ∧ 0 < t) ∨ (c = 'f' ∧ ¬ ∃ n, BeginsWithUnsigned v n) ∨ (c = 's' ∧ ¬ ∃ b, BeginsWithFlag v b)

/-- The line begins with something that is not an option -/
inductive Wrong (hdf5 : Bool) : List (List Char) → Prop where
  | letter {c : Char} {t : List Char} {args : List (List Char)} (h : c ≠ '-') (hc : ∀ s : Setting, s.Available hdf5 → s.letter ≠ c) :
      Wrong hdf5 (('-' :: c :: t) :: args)
  | name {body : List Char} {args : List (List Char)} (h : body ≠ [])
      (hn : ∀ s : Setting, s.Available hdf5 → ¬ body.takeWhile (· ≠ '=') <+: s.name) : Wrong hdf5 (('-' :: '-' :: body) :: args)
  | unnamed {v : List Char} {args : List (List Char)} : Wrong hdf5 (('-' :: '-' :: '=' :: v) :: args)
  | superfluous {s : Setting} {n v : List Char} {args : List (List Char)} (h : s.Alone) (ha : s.Available hdf5) (hn : s.Called n) :
      Wrong hdf5 (('-' :: '-' :: (n ++ '=' :: v)) :: args)
  | missingShort {s : Setting} (h : ¬ s.Alone) (ha : s.Available hdf5) : Wrong hdf5 [['-', s.letter]]
  | missingLong {s : Setting} {n : List Char} (h : ¬ s.Alone) (ha : s.Available hdf5) (hn : s.Called n) : Wrong hdf5 ['-' :: '-' :: n]
  | shortApart {s : Setting} {v : List Char} {args : List (List Char)} (h : BadArgument s.letter v) : Wrong hdf5 (['-', s.letter] :: v :: args)
  | shortJoined {s : Setting} {v : List Char} {args : List (List Char)} (h : BadArgument s.letter v) (hv : v ≠ []) :
      Wrong hdf5 (('-' :: s.letter :: v) :: args)
  | longApart {s : Setting} {n v : List Char} {args : List (List Char)} (h : BadArgument s.letter v) (hn : s.Called n) :
      Wrong hdf5 (('-' :: '-' :: n) :: v :: args)
  | longJoined {s : Setting} {n v : List Char} {args : List (List Char)} (h : BadArgument s.letter v) (hn : s.Called n) :
      Wrong hdf5 (('-' :: '-' :: (n ++ '=' :: v)) :: args)
  | joined {s : Setting} {c : Char} {w : List Char} {args : List (List Char)} (h : s.Alone) (ha : s.Available hdf5) (hc : c ≠ '-')
      (t : Wrong hdf5 (('-' :: c :: w) :: args)) : Wrong hdf5 (('-' :: s.letter :: c :: w) :: args)
  | joinedDash {s : Setting} {w : List Char} {args : List (List Char)} (h : s.Alone) (ha : s.Available hdf5) :
      Wrong hdf5 (('-' :: s.letter :: '-' :: w) :: args)

end Scisim.CommandLine
