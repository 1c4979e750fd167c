import Verif.Spec.SceneText
/-!
# Times that are shown, directories of files
-/

namespace Scisim.Texts

/-- A text is a plain decimal number with this many decimals -/
def ShowsDecimal (s : List Char) (decimals : ℕ) (q : ℚ) : Prop :=
  ∃ n : Numeral, s = n.text ∧ n.Grammatical ∧ n.sign = .none ∧ n.exp = none ∧ n.fraction.length = decimals ∧ n.value = q

/-- The directory of a file: everything before the last slash; the root for a file in it; the empty name, which is the current directory, without any slash -/
inductive Directory : List Char → List Char → Prop where
  | here {name : List Char} (h : '/' ∉ name) : Directory name []
  | root {name : List Char} (h : '/' ∉ name) (hn : name ≠ []) : Directory ('/' :: name) ['/']
  | dir {d name : List Char} (h : '/' ∉ name) (hn : name ≠ []) (hd : d ≠ []) : Directory (d ++ '/' :: name) d

/-- No quote, backslash or newline -/
def Plain (s : List Char) : Prop := '\'' ∉ s ∧ '\\' ∉ s ∧ '\n' ∉ s

end Scisim.Texts
