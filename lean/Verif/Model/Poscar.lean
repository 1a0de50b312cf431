import Verif.Model.Text

/-!
# Model of `/repo/ramannoodle/io/vasp/poscar.py` and `/repo/ramannoodle/io/vasp/xdatcar.py`

Readers work on the decoded content of the file (opening the file is modelled in
`Verif.Model.Write`).  Each reading function returns its value and the unread rest of the
file.  Messages of exceptions are kept for `_read_positions` only, because
`xdatcar.read_positions_ts` inspects them.

Simplifications: numbers are exact (see `Verif.Model.Text`); `MemoryError` for huge atom
counts and Python's limit on the number of digits of integers are not modelled;
`np.linalg.inv` of a lattice with entries that are not finite is a parameter.
-/

namespace Verif

/-- Array of shape `(3,)` read from text. -/
abbrev NumVec := Fin 3 → Num

/-- Array of shape `(3,3)` read from text. -/
abbrev NumMat := Fin 3 → Fin 3 → Num

/-- Product of floats; not finite as soon as a factor is not. -/
def numMul (x y : Num) : Num := x.bind fun a => y.map fun b => a * b

/-- Sum of floats; not finite as soon as a term is not. -/
def numAdd (x y : Num) : Num := x.bind fun a => y.map fun b => a + b

/-- One row of `a @ b` for `b` of shape `(3,3)`. -/
def numVecMul (v : NumVec) (m : NumMat) : NumVec := fun j =>
  numAdd (numAdd (numMul (v 0) (m 0 j)) (numMul (v 1) (m 1 j))) (numMul (v 2) (m 2 j))

/-- `np.linalg.inv`; `ext` is its behaviour on matrices that are not finite. -/
def numInv (ext : NumMat → Py NumMat) (m : NumMat) : Py NumMat :=
  if h : ∀ i j, (m i j).isSome then
    let a : Mat3 ℚ := fun i j => (m i j).get (h i j)
    let det := a 0 0 * (a 1 1 * a 2 2 - a 1 2 * a 2 1) - a 0 1 * (a 1 0 * a 2 2 - a 1 2 * a 2 0)
      + a 0 2 * (a 1 0 * a 2 1 - a 1 1 * a 2 0)
    let c : Fin 3 → Fin 3 → ℚ := ![
      ![a 1 1 * a 2 2 - a 1 2 * a 2 1, a 0 2 * a 2 1 - a 0 1 * a 2 2,
        a 0 1 * a 1 2 - a 0 2 * a 1 1],
      ![a 1 2 * a 2 0 - a 1 0 * a 2 2, a 0 0 * a 2 2 - a 0 2 * a 2 0,
        a 0 2 * a 1 0 - a 0 0 * a 1 2],
      ![a 1 0 * a 2 1 - a 1 1 * a 2 0, a 0 1 * a 2 0 - a 0 0 * a 2 1,
        a 0 0 * a 1 1 - a 0 1 * a 1 0]]
    if det = 0 then .error .linAlgError else .ok fun i j => some (c i j / det)
  else ext m

/-- Floats of the first three words of a line (`[float(item) for item in
line.split()[0:3]]`, poscar.py L109; `_get_lattice_vector_from_outcar_line`, outcar.py
L196-209); `none` is a `ValueError`. -/
def readRow (line : List Char) : Option (List Num) := parseFloats ((splitWs line).take 3)

/-- The three numbers of a row, if there are three (poscar.py L39, L114). -/
def toVec : List Num → Option NumVec
  | [a, b, c] => some ![a, b, c]
  | _ => none

/-- A line holding a vector: both ways to fail (poscar.py L34-40, L107-115) raise the same
exception with the same message. -/
def readVec (line : List Char) : Option NumVec := (readRow line).bind toVec

/-- Loop body of `_read_lattice`, poscar.py L33-41. -/
def latticeRow (f : List Char) : Py (NumVec × List Char) :=
  let (line, f) := readline f
  match readVec line with
  | none => .error .invalidFile
  | some v => .ok (v, f)

/-- `_read_lattice`, poscar.py L18-43. -/
def readLattice (f : List Char) : Py (NumMat × List Char) :=
  let (_, f) := readline f
  let (line, f) := readline f
  match parseFloat line with
  | none => .error .invalidFile
  | some scale => do
    let (v0, f) ← latticeRow f
    let (v1, f) ← latticeRow f
    let (v2, f) ← latticeRow f
    return (fun i j => numMul (![v0, v1, v2] i j) scale, f)

/-- `symbol in ATOMIC_NUMBERS`. -/
def knownSymbol (s : Word) : Bool := (dictGet atomicNumbers s).isSome

/-- `[symbol] * int_count` summed over all pairs, poscar.py L76-79. -/
def expandSymbols (symbols : List Word) (counts : List ℤ) : List Word :=
  (symbols.zip counts).flatMap fun x => List.replicate x.2.toNat x.1

/-- `_read_atomic_symbols`, poscar.py L46-79. -/
def readAtomicSymbols (f : List Char) : Py (List Word × List Char) :=
  let (line, f) := readline f
  let symbols := splitWs line
  if symbols.length = 0 then .error .invalidFile
  else if ¬ symbols.all knownSymbol then .error .invalidFile
  else
    let (line, f) := readline f
    let strCounts := splitWs line
    if strCounts.length ≠ symbols.length then .error .invalidFile
    else
      match strCounts.mapM parseInt with
      | none => .error .invalidFile
      | some counts => .ok (expandSymbols symbols counts, f)

/-- An exception with its message. -/
structure Raised where
  err : PyErr
  msg : List Char

/-- Text searched by `xdatcar.read_positions_ts`, xdatcar.py L53. -/
def missingMsg : List Char := "missing first character in coordinate format:".toList

/-- Loop of `_read_positions` over the atoms, poscar.py L105-116. -/
def readVectors : ℕ → List Char → Except Raised (List NumVec × List Char)
  | 0, f => .ok ([], f)
  | n + 1, f =>
    let (line, f) := readline f
    match readVec line with
    | none => .error ⟨.invalidFile, "positions could not be parsed: ".toList ++ line⟩
    | some v => do
      let (vs, f) ← readVectors n f
      return (v :: vs, f)

/-- `np.array(positions) @ np.linalg.inv(lattice)`, poscar.py L119.  The inverse is computed
before the product; with no atoms the product of shapes `(0,)` and `(3,3)` is a `ValueError`. -/
def toFractional (ext : NumMat → Py NumMat) (lattice : NumMat) (vs : List NumVec)
    (f : List Char) : Except Raised (List NumVec × List Char) :=
  match numInv ext lattice with
  | .error e => .error ⟨e, []⟩
  | .ok inv => if vs = [] then .error ⟨.valueError, []⟩ else .ok (vs.map (numVecMul · inv), f)

/-- Position rows after the coordinate format is known, poscar.py L105-120. -/
def readCoordinates (ext : NumMat → Py NumMat) (cart : Bool) (f : List Char) (lattice : NumMat)
    (numAtoms : ℕ) : Except Raised (List NumVec × List Char) := do
  let (vs, f) ← readVectors numAtoms f
  if cart then toFractional ext lattice vs f else .ok (vs, f)

/-- Selection of the coordinate format, poscar.py L100-103; an empty line has no first
character. -/
def readFormat (ext : NumMat → Py NumMat) (label f : List Char) (lattice : NumMat)
    (numAtoms : ℕ) : Except Raised (List NumVec × List Char) :=
  match label.head? with
  | none => .error ⟨.indexError, []⟩
  | some c =>
    if c.toLower = 'c' then readCoordinates ext true f lattice numAtoms
    else if c.toLower ≠ 'd' then
      .error ⟨.invalidFile, "unrecognized coordinate format: ".toList ++ label⟩
    else readCoordinates ext false f lattice numAtoms

/-- `_read_positions`, poscar.py L82-120. -/
def readPositions (ext : NumMat → Py NumMat) (f : List Char) (lattice : NumMat)
    (numAtoms : ℕ) : Except Raised (List NumVec × List Char) :=
  let (label, f) := readline f
  match label.head? with
  | none => .error ⟨.invalidFile, missingMsg ++ " '".toList ++ label ++ ['\'']⟩
  | some c =>
    if strip label = [] ∨ isSpace c then
      .error ⟨.invalidFile, missingMsg ++ " '".toList ++ label ++ ['\'']⟩
    else if c.toLower = 's' then
      let (label, f) := readline f
      readFormat ext label f lattice numAtoms
    else readFormat ext label f lattice numAtoms

/-- Forget the message. -/
def dropMsg {α : Type} : Except Raised α → Py α
  | .error r => .error r.err
  | .ok x => .ok x

/-- `ATOMIC_NUMBERS[symbol]`. -/
def numberOf (s : Word) : Py ℕ :=
  match dictGet atomicNumbers s with
  | none => .error .keyError
  | some n => .ok n

/-- Result of `read_structure`. -/
structure ReadStructure where
  lattice : NumMat
  atomicNumbers : List ℕ
  positions : List NumVec

/-- `read_structure`, poscar.py L152-174, on a file with the given content. -/
def readStructure (ext : NumMat → Py NumMat) (content : List Char) : Py ReadStructure := do
  let f := universalNewlines content
  let (lattice, f) ← readLattice f
  let (symbols, f) ← readAtomicSymbols f
  let numbers ← symbols.mapM numberOf
  let (positions, _) ← dropMsg (readPositions ext f lattice symbols.length)
  return ⟨lattice, numbers, positions⟩

/-- `read_positions`, poscar.py L123-149. -/
def readPoscarPositions (ext : NumMat → Py NumMat) (content : List Char) :
    Py (List NumVec) := do
  let f := universalNewlines content
  let (lattice, f) ← readLattice f
  let (symbols, f) ← readAtomicSymbols f
  let (positions, _) ← dropMsg (readPositions ext f lattice symbols.length)
  return positions

/-! ## XDATCAR -/

/-- Loop of `read_positions_ts`, xdatcar.py L48-55.  The Python loop has no bound; `fuel` is one,
and `unmodelled` marks running out of it. -/
def readTsLoop (ext : NumMat → Py NumMat) (lattice : NumMat) (numAtoms : ℕ) :
    ℕ → List Char → Py (List (List NumVec))
  | 0, _ => .error .unmodelled
  | fuel + 1, f =>
    match readPositions ext f lattice numAtoms with
    | .error r =>
      if r.err = .invalidFile ∧ contains missingMsg r.msg then .ok [] else .error r.err
    | .ok (positions, f) => do
      let rest ← readTsLoop ext lattice numAtoms fuel f
      return positions :: rest

/-- `read_positions_ts`, xdatcar.py L21-56. -/
def readPositionsTs (ext : NumMat → Py NumMat) (content : List Char) :
    Py (List (List NumVec)) := do
  let f := universalNewlines content
  let (lattice, f) ← readLattice f
  let (symbols, f) ← readAtomicSymbols f
  readTsLoop ext lattice symbols.length (f.length + 1) f

/-! ## Writing -/

/-- Loop of `_get_symbols_str`, poscar.py L208-213; the result is `unique_numbers` after
L214. -/
def symbolsLoop (unique : List ℕ) (current : ℕ) : List ℕ → Py (List ℕ)
  | [] => .ok (unique ++ [current])
  | number :: rest =>
    if number ≠ current ∧ number ∈ unique then .error .valueError
    else if number ≠ current then symbolsLoop (unique ++ [current]) number rest
    else symbolsLoop unique current rest

/-- `sep.join(words)`. -/
def joinWords (sep : List Char) : List Word → List Char
  | [] => []
  | [w] => w
  | w :: w' :: ws => w ++ sep ++ joinWords sep (w' :: ws)

/-- `ATOM_SYMBOLS[n]`. -/
def atomSymbol (n : ℕ) : Py Word :=
  match dictGet atomSymbols n with
  | none => .error .keyError
  | some s => .ok s

/-- `_get_symbols_str`, poscar.py L204-219. -/
def getSymbolsStr (atomicNumbers : List ℕ) : Py (List Char) :=
  match atomicNumbers with
  | [] => .error .indexError
  | first :: _ => do
    let unique ← symbolsLoop [] first atomicNumbers
    let symbols ← unique.mapM atomSymbol
    let counts := unique.map fun n => atomicNumbers.count n
    return ("   ".toList ++ joinWords "  ".toList symbols ++ ['\n']) ++
      ("   ".toList ++ joinWords "   ".toList (counts.map natStr) ++ ['\n'])

section
variable {K : Type} [Field K] [LinearOrder K] [IsStrictOrderedRing K] [FloorRing K]

/-- One line with three numbers. -/
def vectorLine (indent : List Char) (v : Fin 3 → Option K) : List Char :=
  indent ++ fmt916 (v 0) ++ "   ".toList ++ fmt916 (v 1) ++ "   ".toList ++ fmt916 (v 2) ++
    ['\n']

/-- `_get_lattice_str`, poscar.py L222-227. -/
def getLatticeStr (lattice : Fin 3 → Fin 3 → Option K) : List Char :=
  vectorLine "     ".toList (lattice 0) ++ vectorLine "     ".toList (lattice 1) ++
    vectorLine "     ".toList (lattice 2)

/-- `_get_positions_str`, poscar.py L230-235. -/
def getPositionsStr (positions : List (Fin 3 → Option K)) : List Char :=
  positions.flatMap (vectorLine "  ".toList)

/-- `(0 > array).any() or (array > 1.0).any()` is false (comparisons with NaN are false). -/
def coordsOk (positions : List (Fin 3 → Option K)) : Prop :=
  ∀ p ∈ positions, ∀ i, ∀ x, p i = some x → ¬ 0 > x ∧ ¬ x > 1

open Classical in
/-- `verify_structure`, _utils.py L62-77, with `verify_positions`, exceptions.py L126-134; the
shapes `(3,3)` and `(_,3)` are excluded by typing. -/
noncomputable def verifyStructure (atomicNumbers : List ℕ) (positions : List (Fin 3 → Option K)) :
    Py Unit :=
  if ¬ atomicNumbers.all (fun n => (dictGet atomSymbols n).isSome) then .error .valueError
  else if positions.length ≠ atomicNumbers.length then .error .valueError
  else if ¬ coordsOk positions then .error .valueError
  else .ok ()

open Classical in
/-- `verify_trajectory`, _utils.py L80-96.  An array with `S` configurations of `n` rows is given
by `n` and the list of configurations. -/
noncomputable def verifyTrajectory (atomicNumbers : List ℕ) (n : ℕ)
    (positionsTs : List (Fin n → Fin 3 → Option K)) : Py Unit :=
  if ¬ atomicNumbers.all (fun n => (dictGet atomSymbols n).isSome) then .error .valueError
  else if n ≠ atomicNumbers.length then .error .valueError
  else if ¬ ∀ p ∈ positionsTs, coordsOk (List.ofFn p) then .error .valueError
  else .ok ()

/-- First two lines of both formats, poscar.py L269, L274-275, xdatcar.py L116, L120-121. -/
def headerStr (printable : Char → Bool) (label : List Char) : List Char :=
  (innerSlice (pyRepr printable label) ++ ['\n']) ++ ("   1.00000000000000".toList ++ ['\n'])

/-- Everything `poscar.write_structure` writes, poscar.py L263-279 without opening the file. -/
noncomputable def poscarContent (printable : Char → Bool) (lattice : Fin 3 → Fin 3 → Option K)
    (atomicNumbers : List ℕ) (positions : List (Fin 3 → Option K)) (label : List Char) :
    Py (List Char) := do
  verifyStructure atomicNumbers positions
  let symbolsStr ← getSymbolsStr atomicNumbers
  return headerStr printable label ++ getLatticeStr lattice ++ symbolsStr ++
    "Direct\n".toList ++ getPositionsStr positions

/-- Loop of `xdatcar.write_trajectory`, xdatcar.py L124-128. -/
def configsStr (index : ℕ) : List (List (Fin 3 → Option K)) → List Char
  | [] => []
  | positions :: rest =>
    "Direct configuration= ".toList ++ padLeft 6 (natStr (index + 1)) ++ ['\n'] ++
      getPositionsStr positions ++ configsStr (index + 1) rest

/-- Everything `xdatcar.write_trajectory` writes, xdatcar.py L110-128 without opening the
file. -/
noncomputable def xdatcarContent (printable : Char → Bool) (lattice : Fin 3 → Fin 3 → Option K)
    (atomicNumbers : List ℕ) (n : ℕ) (positionsTs : List (Fin n → Fin 3 → Option K))
    (label : List Char) : Py (List Char) := do
  verifyTrajectory atomicNumbers n positionsTs
  let symbolsStr ← getSymbolsStr atomicNumbers
  return headerStr printable label ++ getLatticeStr lattice ++ symbolsStr ++
    configsStr 0 (positionsTs.map List.ofFn)

end

end Verif
