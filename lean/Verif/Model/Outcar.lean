import Verif.Model.Poscar
import Verif.Model.Pbc
import Mathlib.Analysis.Real.Sqrt

/-!
# Model of `/repo/ramannoodle/io/vasp/outcar.py`

A file is the list of its unread lines, each with its newline.  Arrays made from lists of rows
are lists of rows of equal length (`npArray`); NumPy refuses other lists with `ValueError`.

Simplifications: numbers are exact; a time step that is not finite is not modelled; progress
bars and messages are left out.  `linAlgIsValue` tells whether `LinAlgError` is a subclass of
`ValueError` (this depends on the version of NumPy).
-/

namespace Verif

/-- Lines of a file, each with its newline (the last one may have none). -/
def linesOf : List Char → List (List Char)
  | [] => []
  | c :: cs =>
    if c = '\n' then [c] :: linesOf cs
    else
      match linesOf cs with
      | [] => [[c]]
      | l :: ls => (c :: l) :: ls

/-- Lines seen by the reader of a file opened in text mode. -/
def fileLines (content : List Char) : List (List Char) := linesOf (universalNewlines content)

/-- `file.readline()` on the unread lines; the empty text at the end of the file. -/
def nextLine : List (List Char) → List Char × List (List Char)
  | [] => ([], [])
  | l :: ls => (l, ls)

/-- `_skip_file_until_line_contains`, _utils.py L28-33: the line found and the rest. -/
def skipUntil (content : List Char) : List (List Char) → Py (List Char × List (List Char))
  | [] => .error .noMatchingLine
  | l :: ls => if contains content l then .ok (l, ls) else skipUntil content ls

/-- `except NoMatchingLineFoundException: raise InvalidFileException`. -/
def orInvalid {α : Type} : Py α → Py α
  | .error .noMatchingLine => .error .invalidFile
  | r => r

/-- Python's `s.split("_")[0]`. -/
def beforeUnderscore (s : Word) : Word := s.takeWhile (· ≠ '_')

/-- `_get_atomic_symbol_from_potcar_line`, outcar.py L27-43; `none` is a `ValueError`. -/
def potcarSymbol (line : List Char) : Option Word :=
  match (splitWs line).reverse with
  | _ :: w :: _ => if knownSymbol (beforeUnderscore w) then some (beforeUnderscore w) else none
  | _ => none

/-- Loop over the POTCAR block, outcar.py L59-62: symbols and the lines after the first line
without `POTCAR`. -/
def potcarLoop : List (List Char) → Py (List Word × List (List Char))
  | [] => .ok ([], [])
  | l :: ls =>
    if ¬ contains "POTCAR".toList l then .ok ([], ls)
    else
      match potcarSymbol l with
      | none => .error .invalidFile
      | some s => do
        let (ss, f) ← potcarLoop ls
        return (s :: ss, f)

/-- POTCAR part of `_read_atomic_symbols`, outcar.py L54-72. -/
def readPotcar (f : List (List Char)) : Py (List Word × List (List Char)) := do
  let (line, f) ← orInvalid (skipUntil "POTCAR:    ".toList f)
  match potcarSymbol line with
  | none => .error .invalidFile
  | some s =>
    let (ss, f) ← potcarLoop f
    let (line, f) := nextLine f
    return (if contains "VRHFIN".toList line then (s :: ss).dropLast else s :: ss, f)

/-- Ion counts, outcar.py L75-81; a word that is not an integer is a `ValueError` nobody
catches. -/
def readIonCounts (f : List (List Char)) : Py (List ℤ × List (List Char)) := do
  let (line, f) ← orInvalid (skipUntil "ions per type".toList f)
  match ((splitWs line).drop 4).mapM parseInt with
  | none => .error .valueError
  | some counts => return (counts, f)

/-- `_read_atomic_symbols`, outcar.py L46-86. -/
def outcarSymbols (f : List (List Char)) : Py (List Word × List (List Char)) := do
  let (symbols, f) ← readPotcar f
  let (counts, f) ← readIonCounts f
  return (expandSymbols symbols counts, f)

/-- `np.array` of a list of rows. -/
def npArray (rows : List (List Num)) : Py (List (List Num)) :=
  match rows with
  | [] => .ok []
  | r :: rs => if ∀ x ∈ rs, x.length = r.length then .ok (r :: rs) else .error .valueError

/-- Loop reading `n` rows of up to three numbers (outcar.py L125-134, L153-161, L185-192,
L230-236, L468-476). -/
def readRows : ℕ → List (List Char) → Py (List (List Num) × List (List Char))
  | 0, f => .ok ([], f)
  | n + 1, f =>
    match readRow (nextLine f).1 with
    | none => .error .invalidFile
    | some r => do
      let (rs, f) ← readRows n (nextLine f).2
      return (r :: rs, f)

/-- Rows read and turned into an array. -/
def readArray (n : ℕ) (f : List (List Char)) : Py (List (List Num) × List (List Char)) := do
  let (rows, f) ← readRows n f
  let a ← npArray rows
  return (a, f)

/-- Text before fractional positions, outcar.py L149. -/
def fracHeader : List Char := "position of ions in fractional coordinates (direct lattice)".toList

/-- `_read_positions`, outcar.py L139-162. -/
def outcarReadPositions (f : List (List Char)) (numAtoms : ℕ) :
    Py (List (List Num) × List (List Char)) := do
  let (_, f) ← orInvalid (skipUntil fracHeader f)
  readArray numAtoms f

/-- `_read_cart_positions`, outcar.py L113-136. -/
def outcarReadCartPositions (f : List (List Char)) (numAtoms : ℕ) :
    Py (List (List Num) × List (List Char)) := do
  let (_, f) ← orInvalid
    (skipUntil "position of ions in cartesian coordinates  (Angst):".toList f)
  readArray numAtoms f

/-- `_read_polarizability`, outcar.py L165-193. -/
def outcarReadPolarizability (f : List (List Char)) :
    Py (List (List Num) × List (List Char)) := do
  let (_, f) ← orInvalid (skipUntil
    "MACROSCOPIC STATIC DIELECTRIC TENSOR (including local field effects".toList f)
  readArray 3 (nextLine f).2

/-- `_read_lattice`, outcar.py L212-241. -/
def outcarReadLattice (f : List (List Char)) : Py (List (List Num) × List (List Char)) := do
  let (_, f) ← orInvalid (skipUntil "Write flags".toList f)
  let (_, f) ← orInvalid (skipUntil "direct lattice vectors      ".toList f)
  readArray 3 f

/-- An array of shape `(3,3)` as a matrix. -/
def toMat (a : List (List Num)) : Option NumMat :=
  match a.mapM toVec with
  | some [v0, v1, v2] => some ![v0, v1, v2]
  | _ => none

/-- `np.linalg.inv` of an array; not square: `LinAlgError`.  Simplification: a square array that is not
3x3 (only a damaged vasprun file has one) is treated alike; NumPy would raise `ValueError`, the parent
class, in the matrix product that follows. -/
def arrayInv (ext : NumMat → Py NumMat) (a : List (List Num)) : Py NumMat :=
  match toMat a with
  | none => .error .linAlgError
  | some m => numInv ext m

/-- `except ValueError: raise InvalidFileException`. -/
def valueAsInvalid {α : Type} (linAlgIsValue : Bool) : Py α → Py α
  | .error .valueError => .error .invalidFile
  | .error .linAlgError => if linAlgIsValue then .error .invalidFile else .error .linAlgError
  | r => r

/-- `vector = [float(item) for item in line.split()[3:]]; vector @ np.linalg.inv(lattice)`,
outcar.py L105-106. -/
def eigenRow (ext : NumMat → Py NumMat) (lattice : List (List Num)) (line : List Char) :
    Py NumVec :=
  match parseFloats ((splitWs line).drop 3) with
  | none => .error .valueError
  | some xs => do
    let inv ← arrayInv ext lattice
    match toVec xs with
    | none => .error .valueError
    | some v => return numVecMul v inv

/-- `_read_eigenvector`, outcar.py L89-110: the loop stops at the line after the last row, which
is lost, or at the end of the file. -/
def readEigenvector (linAlgIsValue : Bool) (ext : NumMat → Py NumMat) (lattice : List (List Num)) :
    ℕ → List (List Char) → Py (List NumVec × List (List Char))
  | _, [] => .ok ([], [])
  | 0, _ :: ls => .ok ([], ls)
  | n + 1, l :: ls =>
    if contains ['X'] l then readEigenvector linAlgIsValue ext lattice (n + 1) ls
    else do
      let v ← valueAsInvalid linAlgIsValue (eigenRow ext lattice l)
      let (vs, f) ← readEigenvector linAlgIsValue ext lattice n ls
      return (v :: vs, f)

/-- Negative of a float. -/
def numNeg (x : Num) : Num := x.map fun q => -q

/-- Wavenumber on a line with `cm-1`, outcar.py L283-289; a missing word is an `IndexError`
(turned into `InvalidFileException`), a word that is not a number an uncaught `ValueError`. -/
def eigenvalue (line : List Char) : Py Num :=
  if contains "f/i".toList line then
    match (splitWs line)[6]? with
    | none => .error .invalidFile
    | some w => match parseFloat w with
      | none => .error .valueError
      | some x => .ok (numNeg x)
  else
    match (splitWs line)[7]? with
    | none => .error .invalidFile
    | some w => match parseFloat w with
      | none => .error .valueError
      | some x => .ok x

/-- Loop over the modes, outcar.py L281-293. -/
def readModes (linAlgIsValue : Bool) (ext : NumMat → Py NumMat) (lattice : List (List Num))
    (numAtoms : ℕ) : ℕ → List (List Char) → Py (List (Num × List NumVec))
  | 0, _ => .ok []
  | k + 1, f => do
    let (line, f) ← orInvalid (skipUntil "cm-1".toList f)
    let w ← eigenvalue line
    let (e, f) ← readEigenvector linAlgIsValue ext lattice numAtoms f
    let ms ← readModes linAlgIsValue ext lattice numAtoms k f
    return ((w, e) :: ms)

/-- `ATOMIC_WEIGHTS[symbol]`. -/
def weightOf (s : Word) : Py ℚ :=
  match dictGet atomicWeights s with
  | none => .error .keyError
  | some w => .ok w

/-- Attributes of the phonons returned by `read_phonons`. -/
structure OutcarPhonons where
  refPositions : List NumVec
  wavenumbers : List Num
  displacements : List (List (Fin 3 → Option ℝ))

/-- `eigenvectors / np.sqrt(atomic_weights)[:, np.newaxis]`, outcar.py L299, for one mode. -/
noncomputable def massScale (weights : List ℚ) (e : List NumVec) : List (Fin 3 → Option ℝ) :=
  (e.zip weights).map fun x i => (x.1 i).map fun q : ℚ => (q : ℝ) / Real.sqrt (x.2 : ℝ)

/-- End of `read_phonons`, outcar.py L295-301, with the constructor of `Phonons`
(_phonon.py L31-46): `np.array(eigenvectors)` refuses modes with different numbers of atoms, the
constructor refuses positions that are not rows of three. -/
noncomputable def makePhonons (weights : List ℚ) (positions : List (List Num))
    (modes : List (Num × List NumVec)) : Py OutcarPhonons :=
  match positions.mapM toVec with
  | none => .error .valueError
  | some ps =>
    if ps = [] ∨ modes.any (fun m => m.2.length ≠ ps.length) then .error .valueError
    else .ok ⟨ps, modes.map (·.1), modes.map fun m => massScale weights m.2⟩

/-- `read_phonons`, outcar.py L244-303. -/
noncomputable def outcarReadPhonons (linAlgIsValue : Bool) (ext : NumMat → Py NumMat)
    (content : List Char) : Py OutcarPhonons := do
  let (symbols, f) ← outcarSymbols (fileLines content)
  let weights ← symbols.mapM weightOf
  let (lattice, f) ← outcarReadLattice f
  let (positions, f) ← outcarReadPositions f symbols.length
  let (_, f) ← orInvalid
    (skipUntil "Eigenvectors and eigenvalues of the dynamical matrix".toList f)
  let modes ← readModes linAlgIsValue ext lattice symbols.length (symbols.length * 3) f
  makePhonons weights positions modes

/-- `read_positions_and_polarizability`, outcar.py L306-337. -/
def outcarPositionsAndPolarizability (content : List Char) :
    Py (List (List Num) × List (List Num)) := do
  let (symbols, f) ← outcarSymbols (fileLines content)
  let (positions, f) ← outcarReadPositions f symbols.length
  let (polarizability, _) ← outcarReadPolarizability f
  return (positions, polarizability)

/-- `read_positions`, outcar.py L340-363. -/
def outcarPositions (content : List Char) : Py (List (List Num)) := do
  let (symbols, f) ← outcarSymbols (fileLines content)
  let (positions, _) ← outcarReadPositions f symbols.length
  return positions

/-- A structure with polarizability, as returned by `read_structure_and_polarizability`. -/
structure OutcarStructure where
  lattice : List (List Num)
  atomicNumbers : List ℕ
  positions : List (List Num)
  polarizability : List (List Num)

/-- `read_structure_and_polarizability`, outcar.py L366-401. -/
def outcarStructureAndPolarizability (content : List Char) : Py OutcarStructure := do
  let (symbols, f) ← outcarSymbols (fileLines content)
  let numbers ← symbols.mapM numberOf
  let (lattice, f) ← outcarReadLattice f
  let (positions, f) ← outcarReadPositions f numbers.length
  let (polarizability, _) ← outcarReadPolarizability f
  return ⟨lattice, numbers, positions, polarizability⟩

/-- `read_ref_structure`, outcar.py L429-454: the arguments given to `ReferenceStructure`. -/
def outcarRefArgs (content : List Char) : Py (List ℕ × List (List Num) × List (List Num)) := do
  let (symbols, f) ← outcarSymbols (fileLines content)
  let numbers ← symbols.mapM numberOf
  let (lattice, f) ← outcarReadLattice f
  let (positions, _) ← outcarReadPositions f symbols.length
  return (numbers, lattice, positions)

/-- `_read_timestep`, outcar.py L480-494; a word that is not a number is an uncaught
`ValueError`. -/
def readTimestep (f : List (List Char)) : Py (Num × List (List Char)) := do
  let (line, f) ← orInvalid (skipUntil "time-step for ionic-motion".toList f)
  match (splitWs line)[2]? with
  | none => .error .invalidFile
  | some w => match parseFloat w with
    | none => .error .valueError
    | some x => return (x, f)

/-- Header of the positions of an ionic step, outcar.py L524. -/
def stepHeader : List Char := "POSITION                                       TOTAL-FORCE ".toList

/-- `_read_next_cart_positions_ts`, outcar.py L457-477. -/
def readNextCart (f : List (List Char)) (numAtoms : ℕ) :
    Py (List (List Num) × List (List Char)) := readArray numAtoms (nextLine f).2

/-- `cart_positions @ np.linalg.inv(lattice)`, outcar.py L534: the inverse is computed first; then
the shape `(N,3)` is needed. -/
def cartToFrac (ext : NumMat → Py NumMat) (lattice cart : List (List Num)) : Py (List NumVec) := do
  let inv ← arrayInv ext lattice
  match cart.mapM toVec with
  | none => .error .valueError
  | some vs => if vs = [] then .error .valueError else return vs.map (numVecMul · inv)

/-- Loop of `read_trajectory`, outcar.py L517-534, with a bound on the number of passes. -/
def stepLoop (ext : NumMat → Py NumMat) (lattice : List (List Num)) (numAtoms : ℕ) :
    ℕ → Bool → List (List Char) → Py (List (List NumVec))
  | 0, _, _ => .error .unmodelled
  | fuel + 1, ml, f =>
    match skipUntil stepHeader f with
    | .error _ => .ok []
    | .ok (line, f) =>
      if ml ∧ ¬ contains "(ML)".toList line then
        stepLoop ext lattice numAtoms fuel (contains "(ML)".toList line) f
      else do
        let (cart, f) ← readNextCart f numAtoms
        let p ← cartToFrac ext lattice cart
        let ps ← stepLoop ext lattice numAtoms fuel (contains "(ML)".toList line) f
        return (p :: ps)

/-- A trajectory read from a file. -/
structure OutcarTrajectory where
  positionsTs : List (List NumVec)
  timestep : ℚ

/-- Constructor of `Trajectory` (_trajectory.py L32-46) on the arrays read: positive time step,
positions wrapped into the cell. -/
def makeTrajectory (positionsTs : List (List NumVec)) (timestep : Num) : Py OutcarTrajectory :=
  match timestep with
  | none => .error .unmodelled
  | some t =>
    if t ≤ 0 then .error .valueError
    else .ok ⟨positionsTs.map fun ps => ps.map fun p i => (p i).map pbc1, t⟩

/-- `read_trajectory`, outcar.py L497-538. -/
def outcarReadTrajectory (ext : NumMat → Py NumMat) (content : List Char) :
    Py OutcarTrajectory := do
  let (symbols, f) ← outcarSymbols (fileLines content)
  let (timestep, f) ← readTimestep f
  let (lattice, f) ← outcarReadLattice f
  let ps ← stepLoop ext lattice symbols.length (f.length + 1) false f
  if ps = [] then .error .invalidFile else makeTrajectory ps timestep

end Verif
