import Verif.Model.Outcome
/-!
# scisim/StringUtilities

Strings are lists of characters.  `std::isspace` is the "C" locale predicate (space, \t, \n, \v, \f, \r).
-/

namespace Scisim

/-- `std::isspace` in the "C" locale, used at StringUtilities.cpp:88, 95 and 107. -/
def isSpace (c : Char) : Bool :=
  c = ' ' || c = '\t' || c = '\n' || c = '\r' || c = Char.ofNat 11 || c = Char.ofNat 12

/-- `StringUtilities::trimFront`, scisim/StringUtilities.cpp:85-90: erases `[begin, find_if(not space))`. -/
def trimFront (s : List Char) : List Char := s.dropWhile isSpace

/-- `StringUtilities::trimBack`, scisim/StringUtilities.cpp:92-97: the same from the reverse iterators. -/
def trimBack (s : List Char) : List Char := (s.reverse.dropWhile isSpace).reverse

/-- `StringUtilities::trim`, scisim/StringUtilities.cpp:99-102. -/
def trim (s : List Char) : List Char := trimFront (trimBack s)

/-- `StringUtilities::removeWhiteSpace`, scisim/StringUtilities.cpp:104-109 (erase-remove idiom). -/
def removeWhiteSpace (s : List Char) : List Char := s.filter (fun c => !isSpace c)

/-- `StringUtilities::trimCharacterRight`, scisim/StringUtilities.cpp:111-114:
`substr( 0, find_last_not_of( chr ) + 1 )`; when every character is `chr`, `find_last_not_of` is `npos` and
`npos + 1` wraps to 0, so the result is empty. -/
def trimCharacterRight (s : List Char) (chr : Char) : List Char :=
  (s.reverse.dropWhile (· = chr)).reverse

/-- `find_last_of( chr )` as the split it induces: `none` is `npos`.  Helper for
`splitAtLastCharacterOccurence`, scisim/StringUtilities.cpp:63. -/
def splitLast (chr : Char) : List Char → Option (List Char × List Char)
  | [] => none
  | c :: cs =>
    match splitLast chr cs with
    | some (l, r) => some (c :: l, r)
    | none => if c = chr then some ([], cs) else none

/-- `StringUtilities::splitAtLastCharacterOccurence`, scisim/StringUtilities.cpp:61-73
(`substr( 0, npos )` is the whole string). -/
def splitAtLast (s : List Char) (chr : Char) : List Char × List Char :=
  match splitLast chr s with
  | some p => p
  | none => (s, [])

/-- `find_first_of( chr, start )` on the suffix beginning at `start`, as the split it induces: `none` is `npos`.
Helper for `tokenize`, scisim/StringUtilities.cpp:126 and 131. -/
def splitFirst (chr : Char) : List Char → Option (List Char × List Char)
  | [] => none
  | c :: cs =>
    if c = chr then some ([], cs)
    else match splitFirst chr cs with
      | some (l, r) => some (c :: l, r)
      | none => none

theorem splitFirst_length {chr : Char} {s l r : List Char} (h : splitFirst chr s = some (l, r)) :
    r.length < s.length := by
  induction s generalizing l r with
  | nil => simp [splitFirst] at h
  | cons c cs ih =>
    unfold splitFirst at h
    split at h
    · simp only [Option.some.injEq, Prod.mk.injEq] at h
      simp [← h.2]
    · split at h
      · rename_i l' r' heq
        simp only [Option.some.injEq, Prod.mk.injEq] at h
        have := ih heq
        rw [← h.2]; simp; omega
      · simp at h

/-- The `while` loop of `StringUtilities::tokenize`, scisim/StringUtilities.cpp:127-132.  The state is the
suffix from `substring_start` and the tokens emitted so far; the result is both at loop exit. -/
def tokenizeLoop (chr : Char) (rest : List Char) (tokens : List (List Char)) : List Char × List (List Char) :=
  match _h : splitFirst chr rest with
  | some (l, r) => tokenizeLoop chr r (tokens ++ [l])
  | none => (rest, tokens)
termination_by rest.length
decreasing_by exact splitFirst_length _h

/-- `StringUtilities::tokenize`, scisim/StringUtilities.cpp:123-150.  Line 139 calls `str.back()`, which is
undefined for the empty string. -/
def tokenize (str : List Char) (chr : Char) : Outcome (List (List Char)) :=
  let (rest, tokens) := tokenizeLoop chr str []
  -- lines 134-137: the trailing substring, if present
  let tokens := if rest.length > 0 then tokens ++ [rest] else tokens
  -- lines 139-142
  match str.getLast? with
  | none => .ub
  | some c => .ok (if c = chr then tokens ++ [[]] else tokens)

/-- `StringUtilities::padWithZeros`, scisim/StringUtilities.cpp:116-121 (`setfill('0')`, `setw`, right aligned). -/
def padWithZeros (s : List Char) (width : Nat) : List Char :=
  List.replicate (width - s.length) '0' ++ s

/-- `StringUtilities::computeNumCharactersToRight`, scisim/StringUtilities.cpp:75-83. -/
def computeNumCharactersToRight (s : List Char) (chr : Char) : Nat :=
  match splitFirst chr s with
  | none => 0
  | some (l, _) => s.length - l.length - 1

end Scisim
