import Verif.Model.Text

/-!
# Vocabulary for claims about OUTCAR files

Words of a line and numbers are those of Python (`splitWs`, `parseFloat`); everything else is
said here without the readers.
-/

namespace Verif.Spec

/-- Symbols repeated as often as the counts say (negative: not at all); the longer list is cut. -/
def repeatEach : List Word → List ℤ → List Word
  | s :: ss, c :: cs => List.replicate c.toNat s ++ repeatEach ss cs
  | _, _ => []

/-- A line of a POTCAR block names `s`: the last word but one, up to the first underscore. -/
def NamesSymbol (line : List Char) (s : Word) : Prop :=
  '_' ∉ s ∧ ∃ ws last, splitWs line = ws ++ [s, last] ∨
    ∃ t, splitWs line = ws ++ [s ++ '_' :: t, last]

/-- The first three words of the line are the numbers of `v`. -/
def RowOf (line : List Char) (v : Fin 3 → Num) : Prop :=
  ∃ a b c rest, splitWs line = a :: b :: c :: rest ∧ parseFloat a = some (v 0) ∧
    parseFloat b = some (v 1) ∧ parseFloat c = some (v 2)

/-- An ionic step of a molecular dynamics run: header, separator, one row per atom, other lines. -/
structure Step where
  header : List Char
  sep : List Char
  rows : List (List Char)
  trailing : List (List Char)

/-- Lines of a step. -/
def Step.lines (s : Step) : List (List Char) := s.header :: s.sep :: (s.rows ++ s.trailing)

/-- Steps not marked as machine-learned that follow one marked as such are left out. -/
def kept {α : Type} (ml : α → Bool) (steps : List α) : List α :=
  ((steps.zip (false :: steps.map ml)).filter fun x => ml x.1 || !x.2).map Prod.fst

/-- A phonon mode in the list of eigenvectors: lines before, the line with the frequency, for each
atom some headings and a row, the line after. -/
structure ModeBlock where
  before : List (List Char)
  freq : List Char
  body : List (List (List Char) × List Char)
  after : List Char

/-- Lines of the eigenvector. -/
def bodyLines (body : List (List (List Char) × List Char)) : List (List Char) :=
  body.flatMap fun x => x.1 ++ [x.2]

/-- Lines of a mode. -/
def ModeBlock.lines (m : ModeBlock) : List (List Char) :=
  m.before ++ m.freq :: (bodyLines m.body ++ [m.after])

/-- The line holds the wavenumber `w` of a stable mode (eighth word). -/
def RealFrequency (line : List Char) (w : ℚ) : Prop :=
  ¬ "f/i".toList <:+: line ∧ ∃ x, (splitWs line)[7]? = some x ∧ parseFloat x = some (some w)

/-- The line holds the modulus `w` of the wavenumber of an unstable mode (seventh word). -/
def ImaginaryFrequency (line : List Char) (w : ℚ) : Prop :=
  "f/i".toList <:+: line ∧ ∃ x, (splitWs line)[6]? = some x ∧ parseFloat x = some (some w)

/-- The last three of six words are the numbers of `v`. -/
def EigenRow (line : List Char) (v : Fin 3 → ℚ) : Prop :=
  ∃ p q r a b c, splitWs line = [p, q, r, a, b, c] ∧ parseFloat a = some (some (v 0)) ∧
    parseFloat b = some (some (v 1)) ∧ parseFloat c = some (some (v 2))

end Verif.Spec
