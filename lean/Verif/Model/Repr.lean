import Verif.Model.Art
import Verif.Model.Poscar

/-!
# Model of the string representations of models

`InterpolationModel.__repr__` (`/repo/ramannoodle/pmodel/_interpolation.py` L713-737),
`ARTModel.__repr__`, `_get_directions_str` and `_get_specified_str`
(`/repo/ramannoodle/pmodel/_art.py`).  `tabulate` and `np.array2string` are parameters.
-/

namespace Verif

noncomputable section

variable {N : ℕ}

/-- `ANSICOLORS.OK_GREEN`, constants.py L257. -/
def okGreen : Word := '\x1b' :: "[1;32;49m".toList

/-- `ANSICOLORS.WARNING_YELLOW`, constants.py L258. -/
def warningYellow : Word := '\x1b' :: "[1;33;49m".toList

/-- `ANSICOLORS.ERROR_RED`, constants.py L259. -/
def errorRed : Word := '\x1b' :: "[1;31;49m".toList

/-- `ANSICOLORS.END`, constants.py L260. -/
def endColor : Word := '\x1b' :: "[0m".toList

/-- `f"\n {ANSICOLORS.WARNING_YELLOW} {msg} {ANSICOLORS.END}"`, _interpolation.py L731, L735. -/
def attention (msg : Word) : Word :=
  "\n ".toList ++ warningYellow ++ [' '] ++ msg ++ [' '] ++ endColor

/-- `np.sum(self._mask)`. -/
def numMasked (m : IModel N) : ℕ := m.mask.count true

/-- The two warnings at the end, _interpolation.py L727-735 and _art.py L389-398; `what` names the
degrees of freedom. -/
def reprWarnings (what : Word) (m : IModel N) : Word :=
  (if numMasked m > 0 then
      attention ("ATTENTION: ".toList ++ natStr (numMasked m) ++ ['/'] ++ natStr m.basis.length ++
        [' '] ++ what ++ " are masked.".toList)
    else []) ++
  (if m.dummy then attention "ATTENTION: this is a dummy model.".toList else [])

/-- `InterpolationModel.__repr__`, _interpolation.py L713-737. -/
def IModel.repr (m : IModel N) : Word :=
  let total := 3 * N
  let specified := m.basis.length
  let core := natStr specified ++ ['/'] ++ natStr total
  let core :=
    if specified = total then okGreen ++ core ++ endColor
    else if 1 ≤ specified ∧ specified < total then warningYellow ++ core ++ endColor
    else errorRed ++ core ++ endColor
  "InterpolationModel with ".toList ++ core ++ " degrees of freedom specified.".toList ++
    reprWarnings "degrees of freedom".toList m

/-- `_get_specified_str`, _art.py L38-45. -/
def specifiedStr (n : ℕ) : Word :=
  let core := natStr n ++ "/3".toList
  if n = 3 then okGreen ++ core ++ endColor
  else if 1 ≤ n ∧ n ≤ 2 then warningYellow ++ core ++ endColor
  else errorRed ++ core ++ endColor

/-- `_get_directions_str`, _art.py L28-35. -/
def directionsStr (array2string : Vec3 → Word) (directions : List Vec3) : Word :=
  joinWords ", ".toList (directions.map array2string)

/-- `ARTModel.__repr__`, _art.py L375-400. -/
def IModel.artRepr (array2string : Vec3 → Word) (tabulate : List (List Word) → Word)
    (m : IModel N) : Py Word := do
  let tuples ← m.getSpecificationTuples
  let rows := tuples.map fun t =>
    [natStr t.1, directionsStr array2string t.2.2, specifiedStr t.2.2.length, natStr t.2.1.length]
  let header := ["Atom index".toList, "Directions".toList, "Specified".toList,
    "Equivalent atoms".toList]
  return tabulate (header :: rows) ++ reprWarnings "atomic Raman tensors".toList m

end

end Verif
