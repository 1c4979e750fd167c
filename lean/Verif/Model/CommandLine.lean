import Verif.Model.CLI
import Verif.Model.SceneText
import Mathlib.Data.Rat.Floor
/-!
# The command line

`parseCommandLineOptions` and the beginning of `main` of the three command line programs, up to the call of `executeSimLoop` (the rest is in
`Model/CLI`). The line numbers are those of ball2dcli/ball2d_cli.cpp; rigidbody2dcli/rigidbody2d_cli.cpp and rigidbody3dcli/rigidbody3d_cli.cpp differ only in
what they print.

`getopt_long` is that of the GNU C library, with `POSIXLY_CORRECT` not set: options and other words may be mixed, `--` ends the options, names of long options
may be abbreviated. Words are lists of characters; the first word, the name of the program, is left out. Printing and Python are not modelled here, assertions
are not compiled.
-/

namespace Scisim.CommandLine

/-- An argument of the program -/
abbrev Word := List Char

/-- `struct option`: name, `required_argument` or `no_argument`, the letter that is returned -/
structure LongOption where
  name : Word
  takesArgument : Bool
  letter : Char

/-- `long_options`, lines 495-507 -/
def longOptions (hdf5 : Bool) : List LongOption :=
  [⟨['h', 'e', 'l', 'p'], false, 'h'⟩, ⟨['s', 'e', 'r', 'i', 'a', 'l', 'i', 'z', 'e', '_', 's', 'n', 'a', 'p', 's', 'h', 'o', 't', 's'], true, 's'⟩, ⟨['r', 'e', 's', 'u', 'm', 'e'], true, 'r'⟩, ⟨['e', 'n', 'd'], true, 'e'⟩] ++
    (if hdf5 then [⟨['i', 'm', 'p', 'u', 'l', 's', 'e', 's'], false, 'i'⟩, ⟨['o', 'u', 't', 'p', 'u', 't', '_', 'd', 'i', 'r'], true, 'o'⟩] else []) ++
    [⟨['f', 'r', 'e', 'q', 'u', 'e', 'n', 'c', 'y'], true, 'f'⟩]

/-- `command_line_options`, lines 512-516 -/
def shortOptions (hdf5 : Bool) : List Char := if hdf5 then ['h', 'i', 's', ':', 'r', ':', 'e', ':', 'o', ':', 'f', ':'] else ['h', 's', ':', 'r', ':', 'e', ':', 'f', ':']

/-- What `getopt_long` returns: a letter with `optarg`, or `'?'` -/
inductive Got where
  | option (letter : Char) (argument : Word)
  | bad

/-- Whether a letter is in the string of options, and is followed by a colon there -/
def lookupShort : List Char → Char → Option Bool
  | [], _ => none
  | [o], c => if o = c then some false else none
  | o :: x :: t, c =>
    if x = ':' then (if o = c then some true else lookupShort t c)
    else if o = c then some false else lookupShort (x :: t) c

/-- `getopt_long` on the letters of a word that begins with one `-`. `next` is the word after it; the result tells whether it was used as an argument.
After `'?'` the program does not go on. An option without argument has an empty one here, which is not looked at. -/
def cluster (opts : List Char) (next : Option Word) : List Char → List Got × Bool
  | [] => ([], false)
  | c :: t =>
    match lookupShort opts c with
    | none => ([.bad], false)
    | some false => let r := cluster opts next t; (.option c [] :: r.1, r.2)
    | some true =>
      if t = [] then
        match next with
        | none => ([.bad], false)
        | some w => ([.option c w], true)
      else ([.option c t], false)

/-- The long option that is meant: the one with this name, or else the only one that begins with it -/
def lookupLong (opts : List LongOption) (name : Word) : Option LongOption :=
  match opts.find? fun o => o.name = name with
  | some o => some o
  | none =>
    match opts.filter fun o => name.isPrefixOf o.name with
    | [o] => some o
    | _ => none

/-- `getopt_long` on a word that begins with `--`, without these -/
def long (opts : List LongOption) (next : Option Word) (body : Word) : List Got × Bool :=
  match lookupLong opts (body.takeWhile (· ≠ '=')) with
  | none => ([.bad], false)
  | some o =>
    match body.dropWhile (· ≠ '='), o.takesArgument with
    | [], false => ([.option o.letter []], false)
    | _ :: _, false => ([.bad], false)
    | _ :: v, true => ([.option o.letter v], false)
    | [], true =>
      match next with
      | none => ([.bad], false)
      | some w => ([.option o.letter w], true)

/-- All calls of `getopt_long`: the options in the order of the line, and the words that are left, `argv[optind]` to `argv[argc - 1]`, likewise -/
def getoptLong (hdf5 : Bool) : List Word → List Got × List Word
  | [] => ([], [])
  | w :: ws =>
    if w = ['-', '-'] then ([], ws)
    else
      match w with
      | '-' :: c :: t =>
        let g := if c = '-' then long (longOptions hdf5) ws.head? t else cluster (shortOptions hdf5) ws.head? (c :: t)
        match g.2, ws with
        | true, _ :: ws' => let r := getoptLong hdf5 ws'; (g.1 ++ r.1, r.2)
        | _, ws => let r := getoptLong hdf5 ws; (g.1 ++ r.1, r.2)
      | w => let r := getoptLong hdf5 ws; (r.1, w :: r.2)

/-- The variables that options are stored in: those of `main`, lines 604-608, and the globals of lines 57-70 -/
structure Options where
  help : Bool := false
  endTimeOverride : ℚ := -1
  outputFrequency : ℕ := 0
  serializedFileName : Word := []
  outputDir : Word := []
  outputForces : Bool := false
  serializeSnapshots : Bool := false
  overwriteSnapshots : Bool := true
deriving DecidableEq

/-- The `switch`, lines 522-589 -/
def handle (o : Options) : Got → Outcome Options
  | .bad => .fail
  | .option c v =>
    if c = 'h' then .ok { o with help := true }
    else if c = 's' then (extractBool v).checked.bind fun b => .ok { o with serializeSnapshots := true, overwriteSnapshots := !b }
    else if c = 'r' then .ok { o with serializedFileName := v }
    else if c = 'e' then (extractScalar v).checked.bind fun q => if q ≤ 0 then .fail else .ok { o with endTimeOverride := q }
    else if c = 'i' then .ok { o with outputForces := true }
    else if c = 'o' then .ok { o with outputDir := v }
    else if c = 'f' then (extractUnsigned v).checked.bind fun n => .ok { o with outputFrequency := n }
    else .fail

/-- The loop, lines 509-590 -/
def handleAll : Options → List Got → Outcome Options
  | o, [] => .ok o
  | o, g :: gs => (handle o g).bind fun o' => handleAll o' gs

/-- `parseCommandLineOptions`, lines 493-593, with the words that are left -/
def parseCommandLineOptions (hdf5 : Bool) (args : List Word) : Outcome (Options × List Word) :=
  (handleAll {} (getoptLong hdf5 args).1).bind fun o => .ok (o, (getoptLong hdf5 args).2)

/-- What a run starts with: the scene, and the globals that `main` sets. No end time is infinity. -/
structure RunConfig where
  scene : Word
  endTime : Option ℚ
  stepsPerSave : UInt32
  saveNumberWidth : ℕ
  outputDir : Word
  outputForces : Bool
  serializeSnapshots : Bool
  overwriteSnapshots : Bool
deriving DecidableEq

/-- What `main` does in the end: print the usage, go on with a snapshot (`resumeRun`, Model/CLI), or start a simulation -/
inductive Start where
  | usage
  | resume (file : Word)
  | run (cfg : RunConfig)
deriving DecidableEq

/-- `unsigned( ceil( g_end_time / scalar( g_dt ) ) )`, line 698: the conversion is undefined for infinity and for numbers that are too large -/
def ceilSteps (endTime : Option ℚ) (dt : Rat64) : Outcome ℕ :=
  match endTime with
  | none => .ub
  | some t =>
    let c := ⌈t / ((dt.num : ℚ) / dt.den)⌉
    if 0 ≤ c ∧ c < 4294967296 then .ok c.toNat else .ub

/-- Line 698: division by zero is undefined, the sum is modulo 2^32 -/
def saveNumberWidth (ceilSteps stepsPerSave : ℕ) : Outcome ℕ :=
  if stepsPerSave = 0 then .ub else .ok (computeNumDigits ((1 + ceilSteps / stepsPerSave) % 4294967296))

/-- `main`, lines 602-698. `load` is `loadXMLScene`: the time step and the end time of the scene, or failure. -/
def main (hdf5 : Bool) (load : Word → Outcome (Rat64 × Option ℚ)) (args : List Word) : Outcome Start :=
  (parseCommandLineOptions hdf5 args).bind fun p =>
    let o := p.1
    if o.help then .ok .usage
    else if o.outputForces ∧ o.outputDir = [] then .fail
    else if o.serializedFileName ≠ [] then .ok (.resume o.serializedFileName)
    else
      match p.2 with
      | [scene] =>
        (load scene).bind fun s =>
          let endTime := if 0 < o.endTimeOverride then some o.endTimeOverride else s.2
          (stepsPerSaveOf s.1 o.outputFrequency).bind fun n =>
            (ceilSteps endTime s.1).bind fun c =>
              (saveNumberWidth c n.toNat).bind fun w =>
                .ok (.run ⟨scene, endTime, n, w, o.outputDir, o.outputForces, o.serializeSnapshots, o.overwriteSnapshots⟩)
      | _ => .fail

end Scisim.CommandLine
