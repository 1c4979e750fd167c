import Verif.Model.Rational
import Mathlib.Data.Rat.Defs
/-!
# Texts and elements of scene files

scisim/StringUtilities.h and what the three scene parsers use of rapidxml.

A scene file is the tree that rapidxml makes of it; rapidxml itself is not modelled. `loadTextFileIntoVector` (e.g.
ball2dutils/Ball2DSceneParser.cpp:53-73), which joins the lines of the file without a separator, is `joinLines`.

`std::stringstream >> x` is that of libstdc++ in the "C" locale. Numbers are exact: the rounding of a decimal numeral to a `double` is not modelled,
overflow is.
-/

namespace Scisim

/-- `xml_node`: name, attributes, children -/
inductive XmlNode where
  | mk (name : String) (attributes : List (String × String)) (children : List XmlNode)

namespace XmlNode

/-- `xml_node::name` -/
def name : XmlNode → String
  | mk n _ _ => n

/-- the attributes -/
def attributes : XmlNode → List (String × String)
  | mk _ a _ => a

/-- the child elements -/
def children : XmlNode → List XmlNode
  | mk _ _ c => c

/-- `first_attribute( name )->value()`; `none` if it is `nullptr` -/
def attr (nd : XmlNode) (a : String) : Option String := (nd.attributes.find? fun p => p.1 = a).map (·.2)

/-- `first_node( name )` -/
def first (nd : XmlNode) (n : String) : Option XmlNode := nd.children.find? fun c => c.name = n

/-- The loop `for( nd = node.first_node( name ); nd; nd = nd->next_sibling( name ) )`: the children with this name, in order -/
def all (nd : XmlNode) (n : String) : List XmlNode := nd.children.filter fun c => c.name = n

end XmlNode

/-- `loadTextFileIntoVector`, ball2dutils/Ball2DSceneParser.cpp:53-73: `std::getline` drops the newlines, the lines are joined without a separator -/
def joinLines (file : List Char) : List Char := file.filter (· ≠ '\n')

/-- What `stringstream >> x` does to `x` -/
inductive Extracted (α : Type) where
  /-- the stream has no character that is not white space: the fail bit is set and `x` is not written -/
  | nothing
  /-- the fail bit is set, `x` is written nevertheless -/
  | failed (a : α)
  /-- success, and the characters left in the stream -/
  | value (a : α) (rest : List Char)
deriving DecidableEq

/-- The largest `double` -/
def dblMax : ℚ := (2 ^ 53 - 1) * 2 ^ 971

/-- `strtod` overflows from here on (half a unit in the last place above `dblMax`) -/
def dblOverflow : ℚ := 2 ^ 1024 - 2 ^ 970

/-- 10 to an integer power -/
def pow10 : ℤ → ℚ
  | .ofNat n => ((10 ^ n : ℕ) : ℚ)
  | .negSucc n => 1 / ((10 ^ (n + 1) : ℕ) : ℚ)

/-- The exponent of a decimal numeral: `none` if there is an `e` without digits -/
def scanExponent : List Char → Option (ℤ × List Char)
  | [] => some (0, [])
  | c :: t =>
    if c = 'e' ∨ c = 'E' then
      let (neg, t) := readSign t
      let ds := t.takeWhile isDigitC
      if ds.isEmpty then none else some (if neg then -(digitsVal ds : ℤ) else digitsVal ds, t.dropWhile isDigitC)
    else some (0, c :: t)

/-- The digits after the decimal point -/
def scanFraction : List Char → List Char × List Char
  | [] => ([], [])
  | c :: t => if c = '.' then (t.takeWhile isDigitC, t.dropWhile isDigitC) else ([], c :: t)

/-- `num_get::_M_extract_float` (the longest prefix that may start a decimal numeral) and `strtod` on it -/
def scanScalar (s : List Char) : Option (ℚ × List Char) :=
  let (neg, s) := readSign s
  let ip := s.takeWhile isDigitC
  let (fp, s) := scanFraction (s.dropWhile isDigitC)
  if (ip ++ fp).isEmpty then none
  else match scanExponent s with
    | none => none
    | some (e, rest) =>
      let m : ℚ := (digitsVal (ip ++ fp) : ℚ) * pow10 (e - fp.length)
      some (if neg then -m else m, rest)

/-- `stringstream >> x` for a `double` -/
def extractScalar (s : List Char) : Extracted ℚ :=
  match s.dropWhile isSpace with
  | [] => .nothing
  | c :: t =>
    match scanScalar (c :: t) with
    | none => .failed 0
    | some (q, rest) => if q ≥ dblOverflow then .failed dblMax else if q ≤ -dblOverflow then .failed (-dblMax) else .value q rest

/-- `num_get::_M_extract_int`: sign and digits; `lo` and `hi` are the limits of the type -/
def extractBounded (lo hi : ℤ) (s : List Char) : Extracted ℤ :=
  match s.dropWhile isSpace with
  | [] => .nothing
  | c :: t =>
    let (neg, s) := readSign (c :: t)
    let ds := s.takeWhile isDigitC
    if ds.isEmpty then .failed 0
    else
      let v : ℤ := if neg then -(digitsVal ds : ℤ) else digitsVal ds
      if v < lo then .failed lo else if hi < v then .failed hi else .value v (s.dropWhile isDigitC)

/-- `stringstream >> x` for an `int` -/
def extractInt32 (s : List Char) : Extracted ℤ := extractBounded (-2147483648) 2147483647 s

/-- `stringstream >> x` for an unsigned type with `m` values: the magnitude must fit, a minus sign then negates modulo `m` -/
def extractModular (m : ℕ) (s : List Char) : Extracted ℕ :=
  match s.dropWhile isSpace with
  | [] => .nothing
  | c :: t =>
    let (neg, s) := readSign (c :: t)
    let ds := s.takeWhile isDigitC
    if ds.isEmpty then .failed 0
    else if m - 1 < digitsVal ds then .failed (m - 1)
    else .value (if neg then (m - digitsVal ds) % m else digitsVal ds) (s.dropWhile isDigitC)

/-- `stringstream >> x` for an `unsigned` -/
def extractUnsigned (s : List Char) : Extracted ℕ := extractModular 4294967296 s

/-- `stringstream >> x` for a `size_t` -/
def extractSize (s : List Char) : Extracted ℕ := extractModular 18446744073709551616 s

/-- `stringstream >> x` for a `bool` without `boolalpha`: a `long` is read; 0 and 1 are the values, anything else sets the fail bit and yields `true`.
A text that is no number leaves the `long` zero and the fail bit set: it yields `false`. -/
def extractBool (s : List Char) : Extracted Bool :=
  match extractBounded (-9223372036854775808) 9223372036854775807 s with
  | .nothing => .nothing
  | .failed l => .failed (l ≠ 0)
  | .value l rest => if l = 0 then .value false rest else if l = 1 then .value true rest else .failed true

/-- `if( !StringUtilities::extractFromString( text, x ) ) { return false; }`, scisim/StringUtilities.h:63-69: what is left in the stream is ignored -/
def Extracted.checked {α : Type} : Extracted α → Outcome α
  | .value a _ => .ok a
  | _ => .fail

/-- `StringUtilities::extractFromString( text, x )` with the result ignored, and `x` not initialized before: using it when nothing was written is undefined
behaviour -/
def Extracted.unchecked {α : Type} : Extracted α → Outcome α
  | .value a _ => .ok a
  | .failed a => .ok a
  | .nothing => .ub

namespace XmlNode

/-- An attribute that must be present -/
def require (nd : XmlNode) (a : String) : Outcome String :=
  match nd.attr a with
  | some t => .ok t
  | none => .fail

/-- A number that is checked, e.g. ball2dutils/Ball2DSceneParser.cpp:197-207 -/
def scalar (nd : XmlNode) (a : String) : Outcome ℚ := nd.require a >>= fun t => (extractScalar t.toList).checked

/-- A number that is not checked, e.g. ball2dutils/Ball2DSceneParser.cpp:248-250 -/
def scalarUnchecked (nd : XmlNode) (a : String) : Outcome ℚ := nd.require a >>= fun t => (extractScalar t.toList).unchecked

/-- A flag that is checked, e.g. ball2dutils/Ball2DSceneParser.cpp:916-926 -/
def flag (nd : XmlNode) (a : String) : Outcome Bool := nd.require a >>= fun t => (extractBool t.toList).checked

/-- A flag that is not checked, ball2dutils/Ball2DSceneParser.cpp:281-283 -/
def flagUnchecked (nd : XmlNode) (a : String) : Outcome Bool := nd.require a >>= fun t => (extractBool t.toList).unchecked

/-- An `int`, e.g. ball2dutils/Ball2DSceneParser.cpp:1244-1255 -/
def int (nd : XmlNode) (a : String) : Outcome ℤ := nd.require a >>= fun t => (extractInt32 t.toList).checked

/-- An `unsigned`, e.g. ball2dutils/Ball2DSceneParser.cpp:673-683 -/
def unsigned (nd : XmlNode) (a : String) : Outcome ℕ := nd.require a >>= fun t => (extractUnsigned t.toList).checked

/-- A `size_t`, e.g. rigidbody3dutils/RigidBody3DSceneParser.cpp:803-817 -/
def size (nd : XmlNode) (a : String) : Outcome ℕ := nd.require a >>= fun t => (extractSize t.toList).checked

/-- A child that must be present -/
def requireChild (nd : XmlNode) (n : String) : Outcome XmlNode :=
  match nd.first n with
  | some c => .ok c
  | none => .fail

end XmlNode

/-- `if( cond ) { return false; }` -/
def failIf (b : Bool) : Outcome Unit := if b then .fail else .ok ()

/-- A loop over nodes that appends one object for each -/
def mapNodes {α β : Type} (f : α → Outcome β) : List α → Outcome (List β)
  | [] => .ok []
  | a :: l => f a >>= fun b => mapNodes f l >>= fun bs => .ok (b :: bs)

/-- `while( ss >> component ) { components.emplace_back( component ); }`, e.g. ball2dutils/Ball2DSceneParser.cpp:328-332. `fuel` bounds the number of components; the length
of the text is enough. -/
def components : ℕ → List Char → List ℚ
  | 0, _ => []
  | fuel + 1, s =>
    match extractScalar s with
    | .value q rest => q :: components fuel rest
    | _ => []

/-- `while( ss >> word ) { words.emplace_back( word ); }`, e.g. ball2dutils/Ball2DSceneParser.cpp:736-739. `fuel` as for `components` -/
def streamWords : ℕ → List Char → List (List Char)
  | 0, _ => []
  | fuel + 1, s =>
    match s.dropWhile isSpace with
    | [] => []
    | c :: t => (c :: t).takeWhile (fun x => !isSpace x) :: streamWords fuel ((c :: t).dropWhile fun x => !isSpace x)

/-- A number of a list: `extractScalarFromString` also accepts infinities -/
inductive ListScalar where
  | finite (q : ℚ)
  | inf (negative : Bool)
deriving DecidableEq

/-- `StringUtilities::extractScalarFromString`, scisim/StringUtilities.h:71-92 -/
def extractListScalar (s : List Char) : Outcome ListScalar :=
  match extractScalar s with
  | .value q _ => .ok (.finite q)
  | _ => if s = ['-', 'i', 'n', 'f'] then .ok (.inf true) else if s = ['i', 'n', 'f'] then .ok (.inf false) else .fail

/-- `StringUtilities::readScalarList`, scisim/StringUtilities.h:94-111, with the delimiter `' '` that all callers use -/
def readScalarList (s : List Char) (n : ℕ) : Outcome (List ListScalar) :=
  tokenize s ' ' >>= fun tokens => if tokens.length ≠ n then .fail else mapNodes extractListScalar tokens

/-- A list of `n` numbers in an attribute, e.g. rigidbody2dutils/RigidBody2DSceneParser.cpp:244-254 -/
def XmlNode.scalarList (nd : XmlNode) (a : String) (n : ℕ) : Outcome (List ListScalar) := nd.require a >>= fun t => readScalarList t.toList n

end Scisim
