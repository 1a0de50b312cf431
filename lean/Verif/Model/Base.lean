import Mathlib.Algebra.Order.Floor.Ring
import Mathlib.Data.Matrix.Mul
import Mathlib.LinearAlgebra.Matrix.Notation
import Mathlib.Data.Fin.VecNotation
import Mathlib.Data.Rat.Floor
import Mathlib.Algebra.BigOperators.Fin
import Mathlib.Tactic.FinCases
import Mathlib.Tactic.Linarith
import Mathlib.Tactic.Ring
import Mathlib.Tactic.FieldSimp
import Mathlib.Tactic.NormNum
import Mathlib.Tactic.Push
import Mathlib.Tactic.Positivity

/-!
# Shared vocabulary of the model

Python exceptions, Python arithmetic operators and array types used by all model files.
-/

namespace Verif

/-- Exceptions that can leave modelled functions.  `invalidFile`, `incompatible`,
`invalidDOF`, `symmetry`, `userError`, `noMatchingLine` are the classes of
`/repo/ramannoodle/exceptions.py` L8-38, the others are Python/NumPy built-ins.
Messages are dropped, except where the code itself inspects them. -/
inductive PyErr
  | typeError
  | valueError
  | indexError
  | keyError
  | attributeError
  | zeroDivisionError
  | assertionError
  | stopIteration
  | unicodeError
  | notImplementedError
  | linAlgError
  | fileExistsError
  | fileNotFoundError
  | osError
  | noMatchingLine
  | invalidFile
  | incompatible
  | invalidDOF
  | symmetry
  | userError
  /-- `DOFWarning` turned into an exception (warnings filter "error"). -/
  | dofWarning
  /-- Not a Python exception: marks executions that would store NaN arrays (singular lattice)
  and are outside the model. -/
  | unmodelled
  deriving DecidableEq, Repr

/-- Result of a Python call without side effects. -/
abbrev Py (α : Type) := Except PyErr α

/-- Arrays of shape `(N,3)`. -/
abbrev Pos (N : ℕ) (K : Type) := Fin N → Fin 3 → K

/-- Arrays of shape `(3,3)`. -/
abbrev Mat3 (K : Type) := Matrix (Fin 3) (Fin 3) K

section
variable {K : Type} [Field K] [LinearOrder K] [IsStrictOrderedRing K] [FloorRing K]

/-- Python/NumPy floor division `x // y` (exact arithmetic). -/
def pyFloorDiv (x y : K) : K := ((⌊x / y⌋ : ℤ) : K)

/-- Python/NumPy modulo `x % y` (exact arithmetic). -/
def pyMod (x y : K) : K := x - y * pyFloorDiv x y

end

end Verif
