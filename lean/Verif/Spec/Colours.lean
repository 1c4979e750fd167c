import Verif.Model.Colours
/-! # Which colours are meant -/

namespace Scisim.Colours

/-- Neither too dark nor too bright -/
def Visible (c : Colour) : Prop := 1 / 10 ≤ 2126 / 10000 * c.1 + 7152 / 10000 * c.2.1 + 722 / 10000 * c.2.2 ∧ 2126 / 10000 * c.1 + 7152 / 10000 * c.2.1 + 722 / 10000 * c.2.2 ≤ 9 / 10

instance (c) : Decidable (Visible c) := by unfold Visible; infer_instance

/-- Three numbers in a row drawn from `g`, and the state of the generator after them -/
def Gen.triple {G : Type} (D : Gen G) (g : G) : Colour × G :=
  (((D.draw g).1, (D.draw (D.draw g).2).1, (D.draw (D.draw (D.draw g).2).2).1), (D.draw (D.draw (D.draw g).2).2).2)

/-- The first `k` triples of numbers drawn from `g` -/
def Gen.triples {G : Type} (D : Gen G) : ℕ → G → List Colour
  | 0, _ => []
  | k + 1, g => (D.triple g).1 :: Gen.triples D k (D.triple g).2

/-- The colours are the first visible ones among the triples of numbers that the freshly seeded generator draws. -/
def FirstVisible {G : Type} (D : Gen G) (cs : List Colour) : Prop := ∃ k, cs = (D.triples k D.seed).filter fun c => Visible c

/-- From every state, a visible triple comes after some number of triples. -/
def Gen.Lively {G : Type} (D : Gen G) : Prop := ∀ g, ∃ k, ∃ c ∈ D.triples k g, Visible c

/-- The number of bodies after the events -/
def count : List Event → ℕ → ℕ
  | [], n => n
  | .restart m :: es, _ => count es m
  | .step m :: es, _ => count es m

/-- No step removed more bodies than it added, beginning with `n` bodies. -/
def NeverFewer : List Event → ℕ → Prop
  | [], _ => True
  | .restart m :: es, _ => NeverFewer es m
  | .step m :: es, n => n ≤ m ∧ NeverFewer es m

end Scisim.Colours
