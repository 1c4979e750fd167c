import Verif.Model.Strings
import Verif.Model.XmlExport
import Mathlib.Data.Rat.Floor
/-!
# Times that are shown, and where scripts are looked for

The small functions around `loadXMLScene` of the command line programs. The line numbers are those of ball2dcli/ball2d_cli.cpp;
rigidbody2dcli/rigidbody2d_cli.cpp:91-156 and rigidbody3dcli/rigidbody3d_cli.cpp:98-169 have the same functions, and so have the `GLWidget.cpp` of the interactive programs
(ball2dqt4/GLWidget.cpp:113-142, rigidbody2dqt4/GLWidget.cpp:176-236, rigidbody3dqt4/GLWidget.cpp:129-143, 168-181). These compute the precision with the time step of the scene before,
which makes no difference: the number of decimals of `std::fixed` does not depend on the number.

Numbers are exact: the rounding of `g_iteration * scalar( g_dt )` to a `double` is not modelled, that of the output to decimals is.
-/

namespace Scisim.Texts

/-- Rounding to the nearest integer, to the even one of two -/
def roundHalfEven (x : ℚ) : ℤ :=
  let f := ⌊x⌋
  if x - f < 1 / 2 then f else if 1 / 2 < x - f then f + 1 else if f % 2 = 0 then f else f + 1

/-- `stream << std::fixed << std::setprecision( p ) << x` for a number that is not negative, as the GNU C library does it. Also `QString::number( x, 'f', p )`,
ball2dqt4/GLWidget.cpp:998. -/
def fixedText (p : ℕ) (x : ℚ) : List Char :=
  let n := (roundHalfEven (x * 10 ^ p)).toNat
  if p = 0 then natText n else natText (n / 10 ^ p) ++ '.' :: padWithZeros (natText (n % 10 ^ p)) p

/-- `computeTimestepDisplayPrecision`, lines 97-111. The default precision of a stream is 6. -/
def computeTimestepDisplayPrecision (dt : ℚ) (dtString : List Char) : ℕ :=
  if '.' ∈ dtString then computeNumCharactersToRight dtString '.' else computeNumCharactersToRight (fixedText 6 dt) '.'

/-- `generateSimulationTimeString`, lines 158-163, and the time in `generateTimeString`, ball2dqt4/GLWidget.cpp:995-1005 -/
def generateSimulationTimeString (precision iteration : ℕ) (dt : ℚ) : List Char := fixedText precision (iteration * dt)

/-- `xmlFilePath`, lines 113-124: the swap leaves the empty name in `path` -/
def xmlFilePath (xmlFileName : List Char) : List Char :=
  let s := splitAtLast xmlFileName '/'
  if s.2 = [] then s.2 else s.1

/-- What Python reads after the opening quote of a literal: its value and the rest. `none` if there is an escape sequence, the line ends, or there is no closing quote. -/
def readLiteral : List Char → Option (List Char × List Char)
  | [] => none
  | c :: t =>
    if c = '\'' then some ([], t)
    else if c = '\\' ∨ c = '\n' then none
    else (readLiteral t).map fun r => (c :: r.1, r.2)

/-- `pythonCommand( "sys.path.insert( 0, '" + path + "' )" )`, scisim/PythonTools.cpp:35: what is inserted. `none` if the command is something else than the insertion of a plain text; what
Python does then is not modelled: it is a syntax error, which ends the program, or an expression or other statements that come from the name of the directory. -/
def insertedPath (path : List Char) : Option (List Char) :=
  match readLiteral (path ++ ['\'', ' ', ')']) with
  | some (v, [' ', ')']) => some v
  | _ => none

/-- Where the module of a scene is looked for first: lines 146-148, ball2d/PythonScripting.cpp:75-87, scisim/PythonTools.cpp:31-36 -/
def scriptDirectory (xmlFileName : List Char) : Option (List Char) := insertedPath (xmlFilePath xmlFileName)

end Scisim.Texts
