import Verif.Model.Outcar

/-!
# Files that are not valid UTF-8

The readers of `/repo/ramannoodle/io/vasp/outcar.py`, `poscar.py` and `xdatcar.py` open files with
`encoding="utf-8"`.  Python decodes a file piece by piece; when it reaches bytes that are not UTF-8, the
read in progress raises `UnicodeDecodeError`, a subclass of `ValueError`.  A file is therefore given by
the lines that can be read and by what happens after them: the end of the file, or that exception.

The readers catch `ValueError` in many places to raise `InvalidFileException` with a message that quotes
the variable `line`.  If the failed read is the first one in the function, `line` has no value yet and
building the message raises `UnboundLocalError` instead.

Where the end of the file is regular, these definitions agree with those of `Verif.Model.Outcar` and
`Verif.Model.Poscar` (proved in `Verif.Proofs.Undecodable`).
-/

namespace Verif

/-- An exception with its message (where the code inspects it), or `UnboundLocalError`. -/
inductive ReadErr
  | raised (err : PyErr) (msg : List Char)
  | unbound

/-- A reading function: `bad` tells whether reading on after the last line raises
`UnicodeDecodeError`. -/
def Rd (α : Type) := Bool → List (List Char) → Except ReadErr (α × List (List Char))

instance : Monad Rd where
  pure x := fun _ ls => .ok (x, ls)
  bind m f := fun bad ls =>
    match m bad ls with
    | .error e => .error e
    | .ok (x, ls) => f x bad ls

namespace Rd
variable {α : Type}

/-- Raise an exception. -/
def fail (e : PyErr) : Rd α := fun _ _ => .error (.raised e [])

/-- Raise an exception with a message. -/
def failMsg (e : PyErr) (msg : List Char) : Rd α := fun _ _ => .error (.raised e msg)

/-- A computation that does not read. -/
def ofPy (r : Py α) : Rd α := fun _ ls =>
  match r with
  | .error e => .error (.raised e [])
  | .ok x => .ok (x, ls)

/-- `file.readline()`. -/
def line : Rd (List Char) := fun bad ls =>
  match ls with
  | [] => if bad then .error (.raised .unicodeError []) else .ok ([], [])
  | l :: ls => .ok (l, ls)

/-- `_skip_file_until_line_contains`, _utils.py L28-33. -/
def skip (content : List Char) : Rd (List Char) := fun bad ls =>
  match ls with
  | [] => .error (.raised (if bad then .unicodeError else .noMatchingLine) [])
  | l :: ls => if contains content l then .ok (l, ls) else skip content bad ls

/-- Exception handlers. -/
def onError (m : Rd α) (h : ReadErr → ReadErr) : Rd α := fun bad ls =>
  match m bad ls with
  | .error e => .error (h e)
  | .ok x => .ok x

end Rd

/-- `except ValueError: raise InvalidFileException(f"...: {line}")` around a read; `prev` is the value of
`line`, if any, and `text` the text before it. -/
def quoting (text : List Char) (prev : Option (List Char)) : ReadErr → ReadErr
  | .raised .unicodeError _ =>
    match prev with
    | none => .unbound
    | some l => .raised .invalidFile (text ++ l)
  | e => e

/-- The same where nobody inspects the message; `bound` tells whether `line` has a value. -/
def catching (bound : Bool) : ReadErr → ReadErr
  | .raised .unicodeError _ => if bound then .raised .invalidFile [] else .unbound
  | e => e

/-- `except NoMatchingLineFoundException: raise InvalidFileException`. -/
def noMatch : ReadErr → ReadErr
  | .raised .noMatchingLine _ => .raised .invalidFile []
  | e => e

/-! ## OUTCAR -/

/-- Loop over the POTCAR block, outcar.py L59-62, inside the `try` of L55 (`line` has a value). -/
def rdPotcarLoop : Rd (List Word) := fun bad ls =>
  match ls with
  | [] => if bad then .error (.raised .invalidFile []) else .ok ([], [])
  | l :: ls =>
    if ¬ contains "POTCAR".toList l then .ok ([], ls)
    else
      match potcarSymbol l with
      | none => .error (.raised .invalidFile [])
      | some s =>
        match rdPotcarLoop bad ls with
        | .error e => .error e
        | .ok (ss, f) => .ok (s :: ss, f)

/-- POTCAR part of `_read_atomic_symbols`, outcar.py L54-72: `line` has no value while the block is
searched. -/
def rdPotcar : Rd (List Word) := do
  let line ← (Rd.skip "POTCAR:    ".toList).onError (noMatch ∘ catching false)
  match potcarSymbol line with
  | none => Rd.fail .invalidFile
  | some s =>
    let ss ← rdPotcarLoop
    let line ← Rd.line.onError (catching true)
    return if contains "VRHFIN".toList line then (s :: ss).dropLast else s :: ss

/-- Ion counts, outcar.py L75-86: `ValueError` is not caught. -/
def rdIonCounts : Rd (List ℤ) := do
  let line ← (Rd.skip "ions per type".toList).onError noMatch
  match ((splitWs line).drop 4).mapM parseInt with
  | none => Rd.fail .valueError
  | some counts => return counts

/-- `_read_atomic_symbols`, outcar.py L46-86. -/
def rdSymbols : Rd (List Word) := do
  let symbols ← rdPotcar
  let counts ← rdIonCounts
  return expandSymbols symbols counts

/-- Loops reading rows of numbers, outcar.py L125-134, L153-161, L185-192, L230-239, L468-476; `line` has
a value after the first row. -/
def rdRows : Bool → ℕ → Rd (List (List Num))
  | _, 0 => pure []
  | bound, n + 1 => do
    let line ← Rd.line.onError (catching bound)
    match readRow line with
    | none => Rd.fail .invalidFile
    | some r =>
      let rs ← rdRows true n
      return r :: rs

/-- Rows read and turned into an array. -/
def rdArray (n : ℕ) : Rd (List (List Num)) := do
  let rows ← rdRows false n
  Rd.ofPy (npArray rows)

/-- `_read_positions`, outcar.py L139-162. -/
def rdPositions (numAtoms : ℕ) : Rd (List (List Num)) := do
  let _ ← (Rd.skip fracHeader).onError noMatch
  rdArray numAtoms

/-- `_read_cart_positions`, outcar.py L113-136. -/
def rdCartPositions (numAtoms : ℕ) : Rd (List (List Num)) := do
  let _ ← (Rd.skip "position of ions in cartesian coordinates  (Angst):".toList).onError noMatch
  rdArray numAtoms

/-- `_read_polarizability`, outcar.py L165-193; the read of L182 is not inside a `try`. -/
def rdPolarizability : Rd (List (List Num)) := do
  let _ ← (Rd.skip
    "MACROSCOPIC STATIC DIELECTRIC TENSOR (including local field effects".toList).onError noMatch
  let _ ← Rd.line
  rdArray 3

/-- `_read_lattice`, outcar.py L212-241. -/
def rdLattice : Rd (List (List Num)) := do
  let _ ← (Rd.skip "Write flags".toList).onError noMatch
  let _ ← (Rd.skip "direct lattice vectors      ".toList).onError noMatch
  rdArray 3

/-- `_read_eigenvector`, outcar.py L89-110; the line after the last row is read as well. -/
def rdEigenvector (linAlgIsValue : Bool) (ext : NumMat → Py NumMat) (lattice : List (List Num)) :
    Bool → ℕ → Rd (List NumVec) := fun bound n bad ls =>
  match n, ls with
  | _, [] => if bad then .error (if bound then .raised .invalidFile [] else .unbound) else .ok ([], [])
  | 0, _ :: ls => .ok ([], ls)
  | n + 1, l :: ls =>
    if contains ['X'] l then rdEigenvector linAlgIsValue ext lattice true (n + 1) bad ls
    else
      match valueAsInvalid linAlgIsValue (eigenRow ext lattice l) with
      | .error e => .error (.raised e [])
      | .ok v =>
        match rdEigenvector linAlgIsValue ext lattice true n bad ls with
        | .error e => .error e
        | .ok (vs, f) => .ok (v :: vs, f)

/-- Loop over the modes, outcar.py L281-293; `ValueError` is not caught. -/
def rdModes (linAlgIsValue : Bool) (ext : NumMat → Py NumMat) (lattice : List (List Num))
    (numAtoms : ℕ) : ℕ → Rd (List (Num × List NumVec))
  | 0 => pure []
  | k + 1 => do
    let line ← (Rd.skip "cm-1".toList).onError noMatch
    let w ← Rd.ofPy (eigenvalue line)
    let e ← rdEigenvector linAlgIsValue ext lattice false numAtoms
    let ms ← rdModes linAlgIsValue ext lattice numAtoms k
    return (w, e) :: ms

/-- `read_phonons`, outcar.py L244-303. -/
noncomputable def rdPhonons (linAlgIsValue : Bool) (ext : NumMat → Py NumMat) : Rd OutcarPhonons := do
  let symbols ← rdSymbols
  let weights ← Rd.ofPy (symbols.mapM weightOf)
  let lattice ← rdLattice
  let positions ← rdPositions symbols.length
  let _ ← (Rd.skip "Eigenvectors and eigenvalues of the dynamical matrix".toList).onError noMatch
  let modes ← rdModes linAlgIsValue ext lattice symbols.length (symbols.length * 3)
  Rd.ofPy (makePhonons weights positions modes)

/-- `read_positions_and_polarizability`, outcar.py L306-337. -/
def rdPositionsAndPolarizability : Rd (List (List Num) × List (List Num)) := do
  let symbols ← rdSymbols
  let positions ← rdPositions symbols.length
  let polarizability ← rdPolarizability
  return (positions, polarizability)

/-- `read_positions`, outcar.py L340-363. -/
def rdOutcarPositions : Rd (List (List Num)) := do
  let symbols ← rdSymbols
  rdPositions symbols.length

/-- `read_structure_and_polarizability`, outcar.py L366-401. -/
def rdStructureAndPolarizability : Rd OutcarStructure := do
  let symbols ← rdSymbols
  let numbers ← Rd.ofPy (symbols.mapM numberOf)
  let lattice ← rdLattice
  let positions ← rdPositions numbers.length
  let polarizability ← rdPolarizability
  return ⟨lattice, numbers, positions, polarizability⟩

/-- `read_ref_structure`, outcar.py L429-454: the arguments given to `ReferenceStructure`. -/
def rdRefArgs : Rd (List ℕ × List (List Num) × List (List Num)) := do
  let symbols ← rdSymbols
  let numbers ← Rd.ofPy (symbols.mapM numberOf)
  let lattice ← rdLattice
  let positions ← rdPositions symbols.length
  return (numbers, lattice, positions)

/-- `_read_timestep`, outcar.py L480-494. -/
def rdTimestep : Rd Num := do
  let line ← (Rd.skip "time-step for ionic-motion".toList).onError noMatch
  match (splitWs line)[2]? with
  | none => Rd.fail .invalidFile
  | some w => match parseFloat w with
    | none => Rd.fail .valueError
    | some x => return x

/-- `_read_next_cart_positions_ts`, outcar.py L457-477; the read of L466 is not inside a `try`. -/
def rdNextCart (numAtoms : ℕ) : Rd (List (List Num)) := do
  let _ ← Rd.line
  rdArray numAtoms

/-- Loop of `read_trajectory`, outcar.py L517-534, with a bound on the number of passes. -/
def rdStepLoop (ext : NumMat → Py NumMat) (lattice : List (List Num)) (numAtoms : ℕ) :
    ℕ → Bool → Rd (List (List NumVec))
  | 0, _ => Rd.fail .unmodelled
  | fuel + 1, ml => fun bad f =>
    match Rd.skip stepHeader bad f with
    | .error (.raised .noMatchingLine _) => .ok ([], [])
    | .error e => .error e
    | .ok (line, f) =>
      if ml ∧ ¬ contains "(ML)".toList line then
        rdStepLoop ext lattice numAtoms fuel (contains "(ML)".toList line) bad f
      else
        (do
          let cart ← rdNextCart numAtoms
          let p ← Rd.ofPy (cartToFrac ext lattice cart)
          let ps ← rdStepLoop ext lattice numAtoms fuel (contains "(ML)".toList line)
          return p :: ps : Rd (List (List NumVec))) bad f

/-- `read_trajectory`, outcar.py L497-538. -/
def rdTrajectory (ext : NumMat → Py NumMat) : Rd OutcarTrajectory := do
  let symbols ← rdSymbols
  let timestep ← rdTimestep
  let lattice ← rdLattice
  let ps ← (fun bad f => rdStepLoop ext lattice symbols.length (f.length + 1) false bad f :
    Rd (List (List NumVec)))
  if ps = [] then Rd.fail .invalidFile else Rd.ofPy (makeTrajectory ps timestep)

/-! ## POSCAR and XDATCAR -/

/-- Loop body of `_read_lattice`, poscar.py L33-41; `line` has the value of L27. -/
def rdLatticeRow : Rd NumVec := do
  let line ← Rd.line.onError (catching true)
  match readVec line with
  | none => Rd.fail .invalidFile
  | some v => return v

/-- `_read_lattice`, poscar.py L18-43; during both reads of L26-27 `line` has no value. -/
def rdPoscarLattice : Rd NumMat := do
  let _ ← Rd.line.onError (catching false)
  let line ← Rd.line.onError (catching false)
  match parseFloat line with
  | none => Rd.fail .invalidFile
  | some scale =>
    let v0 ← rdLatticeRow
    let v1 ← rdLatticeRow
    let v2 ← rdLatticeRow
    return fun i j => numMul (![v0, v1, v2] i j) scale

/-- `_read_atomic_symbols`, poscar.py L46-79; no `try` around the reads. -/
def rdPoscarSymbols : Rd (List Word) := do
  let line ← Rd.line
  let symbols := splitWs line
  if symbols.length = 0 then Rd.fail .invalidFile
  else if ¬ symbols.all knownSymbol then Rd.fail .invalidFile
  else
    let line ← Rd.line
    let strCounts := splitWs line
    if strCounts.length ≠ symbols.length then Rd.fail .invalidFile
    else
      match strCounts.mapM parseInt with
      | none => Rd.fail .invalidFile
      | some counts => return expandSymbols symbols counts

/-- Start of the message of poscar.py L112, L115. -/
def parsedMsg : List Char := "positions could not be parsed: ".toList

/-- Loop of `_read_positions` over the atoms, poscar.py L105-116; `prev` is the value of `line`. -/
def rdVectors : Option (List Char) → ℕ → Rd (List NumVec)
  | _, 0 => pure []
  | prev, n + 1 => do
    let line ← Rd.line.onError (quoting parsedMsg prev)
    match readVec line with
    | none => Rd.failMsg .invalidFile (parsedMsg ++ line)
    | some v =>
      let vs ← rdVectors (some line) n
      return v :: vs

/-- Position rows after the coordinate format is known, poscar.py L105-120. -/
def rdCoordinates (ext : NumMat → Py NumMat) (cart : Bool) (lattice : NumMat) (numAtoms : ℕ) :
    Rd (List NumVec) := do
  let vs ← rdVectors none numAtoms
  if cart then Rd.ofPy (dropMsg ((toFractional ext lattice vs []).map Prod.fst)) else return vs

/-- Selection of the coordinate format, poscar.py L100-103. -/
def rdFormat (ext : NumMat → Py NumMat) (label : List Char) (lattice : NumMat) (numAtoms : ℕ) :
    Rd (List NumVec) :=
  match label.head? with
  | none => Rd.fail .indexError
  | some c =>
    if c.toLower = 'c' then rdCoordinates ext true lattice numAtoms
    else if c.toLower ≠ 'd' then
      Rd.failMsg .invalidFile ("unrecognized coordinate format: ".toList ++ label)
    else rdCoordinates ext false lattice numAtoms

/-- `_read_positions`, poscar.py L82-120; the reads of the label are not inside a `try`. -/
def rdPoscarPositions (ext : NumMat → Py NumMat) (lattice : NumMat) (numAtoms : ℕ) :
    Rd (List NumVec) := do
  let label ← Rd.line
  match label.head? with
  | none => Rd.failMsg .invalidFile (missingMsg ++ " '".toList ++ label ++ ['\''])
  | some c =>
    if strip label = [] ∨ isSpace c then
      Rd.failMsg .invalidFile (missingMsg ++ " '".toList ++ label ++ ['\''])
    else if c.toLower = 's' then
      let label ← Rd.line
      rdFormat ext label lattice numAtoms
    else rdFormat ext label lattice numAtoms

/-- `read_structure`, poscar.py L152-174. -/
def rdStructure (ext : NumMat → Py NumMat) : Rd ReadStructure := do
  let lattice ← rdPoscarLattice
  let symbols ← rdPoscarSymbols
  let numbers ← Rd.ofPy (symbols.mapM numberOf)
  let positions ← rdPoscarPositions ext lattice symbols.length
  return ⟨lattice, numbers, positions⟩

/-- `read_positions`, poscar.py L123-149. -/
def rdReadPositions (ext : NumMat → Py NumMat) : Rd (List NumVec) := do
  let lattice ← rdPoscarLattice
  let symbols ← rdPoscarSymbols
  rdPoscarPositions ext lattice symbols.length

/-- Loop of `read_positions_ts`, xdatcar.py L48-55, with a bound on the number of passes. -/
def rdTsLoop (ext : NumMat → Py NumMat) (lattice : NumMat) (numAtoms : ℕ) :
    ℕ → Rd (List (List NumVec))
  | 0 => Rd.fail .unmodelled
  | fuel + 1 => fun bad f =>
    match rdPoscarPositions ext lattice numAtoms bad f with
    | .error (.raised e msg) =>
      if e = .invalidFile ∧ contains missingMsg msg then .ok ([], []) else .error (.raised e [])
    | .error .unbound => .error .unbound
    | .ok (positions, f) =>
      match rdTsLoop ext lattice numAtoms fuel bad f with
      | .error e => .error e
      | .ok (rest, f) => .ok (positions :: rest, f)

/-- `read_positions_ts`, xdatcar.py L21-56. -/
def rdPositionsTs (ext : NumMat → Py NumMat) : Rd (List (List NumVec)) := do
  let lattice ← rdPoscarLattice
  let symbols ← rdPoscarSymbols
  fun bad f => rdTsLoop ext lattice symbols.length (f.flatten.length + 1) bad f

end Verif
