import Verif.Model.Poscar
import Verif.Model.Displace

/-!
# Model of the functions that write files

`/repo/ramannoodle/io/vasp/poscar.py` L239-279, `/repo/ramannoodle/io/vasp/xdatcar.py` L85-128,
`/repo/ramannoodle/io/generic.py` L286-369, `/repo/ramannoodle/structure/_displace.py` L78-117,
L160-201.

A file system maps (resolved) paths to the text of the file, if there is one.  Opening a file can
fail for reasons outside the model (missing directory, permissions); `deny` tells which paths
fail and how.  Writing itself does not fail (a full disk is not modelled), but the process may
stop at any time: the states that can then be found on disk are collected in `during`.
-/

namespace Verif

/-- Resolved path of a file. -/
abbrev Path := List Char

/-- A file system. -/
abbrev FS := Path → Option (List Char)

/-- Replace the content of one file. -/
def FS.set (fs : FS) (path : Path) (content : List Char) : FS :=
  fun p => if p = path then some content else fs p

/-- A call that writes files: outcome, states a crash can leave behind, final state. -/
structure WriteRun where
  result : Py Unit
  during : List FS
  after : FS

/-- A call that stops before touching any file. -/
def WriteRun.fail (e : PyErr) (fs : FS) : WriteRun := ⟨.error e, [], fs⟩

/-- `with open(filepath, open_mode) as file: file.write(...)` with mode `"w"` or `"x"`,
poscar.py L266, L273-279, xdatcar.py L113, L119-128.  `"w"` truncates an existing file when it is
opened. -/
def writeFile (deny : Path → Option PyErr) (fs : FS) (path : Path) (overwrite : Bool)
    (content : List Char) : WriteRun :=
  match deny path with
  | some e => .fail e fs
  | none =>
    if overwrite = false ∧ (fs path).isSome then .fail .fileExistsError fs
    else ⟨.ok (), (List.range (content.length + 1)).map fun k : ℕ => fs.set path (content.take k),
      fs.set path content⟩

/-- `open(filepath, "r")`. -/
def readFile (fs : FS) (path : Path) : Py (List Char) :=
  match fs path with
  | none => .error .fileNotFoundError
  | some c => .ok c

section
variable {K : Type} [Field K] [LinearOrder K] [IsStrictOrderedRing K] [FloorRing K]

/-- `poscar.write_structure`, poscar.py L239-279. -/
noncomputable def poscarWriteStructure (printable : Char → Bool) (deny : Path → Option PyErr)
    (fs : FS) (lattice : Fin 3 → Fin 3 → Option K) (atomicNumbers : List ℕ)
    (positions : List (Fin 3 → Option K)) (path : Path) (overwrite : Bool)
    (label : List Char) : WriteRun :=
  match poscarContent printable lattice atomicNumbers positions label with
  | .error e => .fail e fs
  | .ok content => writeFile deny fs path overwrite content

/-- `xdatcar.write_trajectory`, xdatcar.py L85-128. -/
noncomputable def xdatcarWriteTrajectory (printable : Char → Bool) (deny : Path → Option PyErr)
    (fs : FS) (lattice : Fin 3 → Fin 3 → Option K) (atomicNumbers : List ℕ) (n : ℕ)
    (positionsTs : List (Fin n → Fin 3 → Option K)) (path : Path) (overwrite : Bool)
    (label : List Char) : WriteRun :=
  match xdatcarContent printable lattice atomicNumbers n positionsTs label with
  | .error e => .fail e fs
  | .ok content => writeFile deny fs path overwrite content

/-- `except KeyError as exc: raise ValueError(...)`, generic.py L325-326, L368-369. -/
def WriteRun.catchKeyError (r : WriteRun) : WriteRun :=
  match r.result with
  | .error .keyError => ⟨.error .valueError, r.during, r.after⟩
  | _ => r

/-- `generic.write_structure`, generic.py L286-326, with `_STRUCTURE_WRITERS` L61-64. -/
noncomputable def genericWriteStructure (printable : Char → Bool) (deny : Path → Option PyErr)
    (fs : FS) (lattice : Fin 3 → Fin 3 → Option K) (atomicNumbers : List ℕ)
    (positions : List (Fin 3 → Option K)) (path : Path) (fileFormat : Word)
    (overwrite : Bool) : WriteRun :=
  (if fileFormat = "poscar".toList ∨ fileFormat = "xdatcar".toList then
    poscarWriteStructure printable deny fs lattice atomicNumbers positions path overwrite
      "POSCAR written by ramannoodle".toList
  else .fail .keyError fs).catchKeyError

/-- `generic.write_trajectory`, generic.py L330-369, with `_TRAJECTORY_WRITERS` L65. -/
noncomputable def genericWriteTrajectory (printable : Char → Bool) (deny : Path → Option PyErr)
    (fs : FS) (lattice : Fin 3 → Fin 3 → Option K) (atomicNumbers : List ℕ) (n : ℕ)
    (positionsTs : List (Fin n → Fin 3 → Option K)) (path : Path) (fileFormat : Word)
    (overwrite : Bool) : WriteRun :=
  (if fileFormat = "xdatcar".toList then
    xdatcarWriteTrajectory printable deny fs lattice atomicNumbers n positionsTs path overwrite
      "XDATCAR written by ramannoodle".toList
  else .fail .keyError fs).catchKeyError

end

/-! ## Displaced structures -/

/-- A `filepaths` argument: one path or a list of paths. -/
inductive PathsArg
  | one (path : Path)
  | many (paths : List Path)

/-- `pathify_as_list`, _utils.py L47-59. -/
def pathifyAsList : PathsArg → Py (List Path)
  | .one p => .ok [p]
  | .many [] => .error .valueError
  | .many ps => .ok ps

/-- `verify_list_len(name, array, length)`, exceptions.py L108-123.  The comparison is
`len(array) is not length`: two integers computed separately are the same object only when they
are equal and small enough to be cached (`smallInt`, 256 in CPython). -/
def verifyListLen (smallInt len length : ℕ) : Py Unit :=
  if len = length ∧ len ≤ smallInt then .ok () else .error .valueError

/-- A loop of writing calls that stops at the first exception. -/
def writeAll {α : Type} (write : FS → α → WriteRun) : FS → List α → WriteRun
  | fs, [] => ⟨.ok (), [], fs⟩
  | fs, x :: xs =>
    match (write fs x).result with
    | .error e => ⟨.error e, (write fs x).during, (write fs x).after⟩
    | .ok _ =>
      let r := writeAll write (write fs x).after xs
      ⟨r.result, (write fs x).during ++ r.during, r.after⟩

noncomputable section

variable {N : ℕ}

/-- Rows of displaced positions (`none`: array of NaNs). -/
def positionRows (p : Option (Pos N ℝ)) : List (Fin 3 → Option ℝ) :=
  List.ofFn fun a i => p.map fun q => q a i

/-- Part common to both writers, _displace.py L107-117, L191-201. -/
def writePositionList (smallInt : ℕ) (printable : Char → Bool) (deny : Path → Option PyErr)
    (fs : FS) (s : RefStructure N) (positionList : List (Option (Pos N ℝ)))
    (paths : List Path) (fileFormat : Word) (overwrite : Bool) : WriteRun :=
  match verifyListLen smallInt paths.length positionList.length with
  | .error e => .fail e fs
  | .ok _ =>
    writeAll (fun fs x => genericWriteStructure printable deny fs (fun i j => some (s.lattice i j))
      (List.ofFn s.atomicNumbers) (positionRows x.1) x.2 fileFormat overwrite) fs
      (positionList.zip paths)

/-- `write_displaced_structures`, _displace.py L78-117. -/
def writeDisplacedStructures (smallInt : ℕ) (printable : Char → Bool)
    (deny : Path → Option PyErr) (fs : FS) (s : RefStructure N) (cartDisplacement : Pos N ℝ)
    (amplitudes : List ℝ) (filepaths : PathsArg) (fileFormat : Word) (overwrite : Bool) :
    WriteRun :=
  match pathifyAsList filepaths with
  | .error e => .fail e fs
  | .ok paths =>
    match getDisplacedPositions s cartDisplacement amplitudes with
    | .error e => .fail e fs
    | .ok positionList =>
      writePositionList smallInt printable deny fs s positionList paths fileFormat overwrite

/-- `write_ast_displaced_structures`, _displace.py L160-201. -/
def writeAstDisplacedStructures (smallInt : ℕ) (printable : Char → Bool)
    (deny : Path → Option PyErr) (fs : FS) (s : RefStructure N) (atomIndex : ℤ)
    (cartDirection : Vec3) (amplitudes : List ℝ) (filepaths : PathsArg) (fileFormat : Word)
    (overwrite : Bool) : WriteRun :=
  match pathifyAsList filepaths with
  | .error e => .fail e fs
  | .ok paths =>
    match getAstDisplacedPositions s atomIndex cartDirection amplitudes with
    | .error e => .fail e fs
    | .ok positionList =>
      writePositionList smallInt printable deny fs s positionList paths fileFormat overwrite

end

end Verif
