import Verif.Model.Dataset

/-!
# Model of the generic readers, `/repo/ramannoodle/io/generic.py` L28-284

The generic writers are in `Verif.Model.Write`.  `Env` collects what the readers need: the file
system, the XML parser (its `ParseError` is already an `InvalidFileException`, vasprun.py L24-30),
matrix inversion outside the exact part, and the constructor of `ReferenceStructure`, of which only
the arguments matter here.
-/

namespace Verif

/-- Surroundings of a call. -/
structure Env (R : Type) where
  fs : FS
  parse : List Char → Py Elem
  ext : NumMat → Py NumMat
  linAlgIsValue : Bool
  mkRef : List ℕ → List (List Num) → List (List Num) → Py R
  torch : Bool

section
variable {R : Type} (env : Env R)

/-- `with open(filepath, "r") as file: ...`. -/
def Env.withFile {α : Type} (f : List Char → Py α) (path : Path) : Py α := do
  let content ← readFile env.fs path
  f content

/-- The same with the parsed XML document. -/
def Env.withXml {α : Type} (f : Elem → Py α) (path : Path) : Py α :=
  env.withFile (fun content => do
    let root ← env.parse content
    f root) path

/-- Rows of an array. -/
def vecRows (ps : List NumVec) : List (List Num) := ps.map fun p => [p 0, p 1, p 2]

/-- A `(3,3)` array as rows. -/
def matRows (m : NumMat) : List (List Num) := [[m 0 0, m 0 1, m 0 2], [m 1 0, m 1 1, m 1 2],
  [m 2 0, m 2 1, m 2 2]]

/-- `poscar.read_positions`. -/
def Env.poscarPositions (path : Path) : Py (List (List Num)) :=
  env.withFile (fun c => do
    let ps ← readPoscarPositions env.ext c
    return vecRows ps) path

/-- `poscar.read_ref_structure`, poscar.py L177-201. -/
def Env.poscarRef (path : Path) : Py R :=
  env.withFile (fun c => do
    let s ← readStructure env.ext c
    env.mkRef s.atomicNumbers (matRows s.lattice) (vecRows s.positions)) path

/-- `outcar.read_ref_structure`, outcar.py L429-454. -/
def Env.outcarRef (path : Path) : Py R :=
  env.withFile (fun c => do
    let (numbers, lattice, positions) ← outcarRefArgs c
    env.mkRef numbers lattice positions) path

/-- `vasprun.read_ref_structure`, vasprun.py L249-279. -/
def Env.vasprunRef (path : Path) : Py R :=
  env.withXml (fun root => do
    let (numbers, lattice, positions) ← vasprunRefArgs root
    env.mkRef numbers lattice positions) path

/-- Phonons read from an OUTCAR with the wavenumbers as reals. -/
noncomputable def OutcarPhonons.toReal (p : OutcarPhonons) : VasprunPhonons :=
  ⟨p.refPositions, p.wavenumbers.map fun w => w.map fun q : ℚ => (q : ℝ), p.displacements⟩

/-- `outcar.read_phonons`. -/
noncomputable def Env.outcarPhonons (path : Path) : Py VasprunPhonons :=
  env.withFile (fun c => do
    let p ← outcarReadPhonons env.linAlgIsValue env.ext c
    return p.toReal) path

/-- `outcar.read_polarizability_dataset`, outcar.py L404-426. -/
noncomputable def Env.outcarDataset (paths : PathsArg) : Py PolDataset :=
  readDataset env.torch (env.withFile fun c => do
    let s ← outcarStructureAndPolarizability c
    typedSample s) paths

/-- `vasprun.read_polarizability_dataset`, vasprun.py L195-217. -/
noncomputable def Env.vasprunDataset (paths : PathsArg) : Py PolDataset :=
  readDataset env.torch (env.withXml fun root => do
    let s ← vasprunStructureAndPolarizability root
    typedSample s) paths

/-- `except KeyError as exc: raise ValueError(...)`. -/
def catchKeyError {α : Type} : Py α → Py α
  | .error .keyError => .error .valueError
  | r => r

/-- `try: return TABLE[file_format](arg) except KeyError: raise ValueError`, generic.py L88-91,
L115-122, L150-153, L185-188, L219-222, L251-254, L280-283. -/
def dispatch {α β : Type} (table : List (Word × (α → Py β))) (fileFormat : Word) (arg : α) : Py β :=
  catchKeyError (match dictGet table fileFormat with
    | none => .error .keyError
    | some f => f arg)

/-- `read_phonons`, generic.py L68-91, with `_PHONON_READERS` L29-32. -/
noncomputable def genericReadPhonons (path : Path) (fileFormat : Word) : Py VasprunPhonons :=
  dispatch [("outcar".toList, env.outcarPhonons),
    ("vasprun.xml".toList, env.withXml (vasprunReadPhonons env.ext))] fileFormat path

/-- `read_trajectory`, generic.py L94-122, with `_TRAJECTORY_READERS` L33-36 (the message for
`"xdatcar"` differs, the exception does not). -/
def genericReadTrajectory (path : Path) (fileFormat : Word) : Py OutcarTrajectory :=
  dispatch [("outcar".toList, env.withFile (outcarReadTrajectory env.ext)),
    ("vasprun.xml".toList, env.withXml vasprunTrajectory)] fileFormat path

/-- `read_positions_and_polarizability`, generic.py L125-153, with L37-40. -/
def genericReadPositionsAndPolarizability (path : Path) (fileFormat : Word) :
    Py (List (List Num) × List (List Num)) :=
  dispatch [("outcar".toList, env.withFile outcarPositionsAndPolarizability),
    ("vasprun.xml".toList, env.withXml vasprunPositionsAndPolarizability)] fileFormat path

/-- `read_structure_and_polarizability`, generic.py L156-188, with L41-44. -/
def genericReadStructureAndPolarizability (path : Path) (fileFormat : Word) : Py OutcarStructure :=
  dispatch [("outcar".toList, env.withFile outcarStructureAndPolarizability),
    ("vasprun.xml".toList, env.withXml vasprunStructureAndPolarizability)] fileFormat path

/-- `read_polarizability_dataset`, generic.py L191-222, with L45-48. -/
noncomputable def genericReadDataset (paths : PathsArg) (fileFormat : Word) : Py PolDataset :=
  if env.torch = false then .error .userError
  else dispatch [("outcar".toList, env.outcarDataset),
    ("vasprun.xml".toList, env.vasprunDataset)] fileFormat paths

/-- `read_positions`, generic.py L225-254, with `_POSITION_READERS` L49-54. -/
def genericReadPositions (path : Path) (fileFormat : Word) : Py (List (List Num)) :=
  dispatch [("poscar".toList, env.poscarPositions), ("outcar".toList, env.withFile outcarPositions),
    ("xdatcar".toList, env.poscarPositions), ("vasprun.xml".toList, env.withXml vasprunPositions)]
    fileFormat path

/-- `read_ref_structure`, generic.py L257-283, with `_REFERENCE_STRUCTURE_READERS` L55-60. -/
def genericReadRefStructure (path : Path) (fileFormat : Word) : Py R :=
  dispatch [("poscar".toList, env.poscarRef), ("outcar".toList, env.outcarRef),
    ("xdatcar".toList, env.poscarRef), ("vasprun.xml".toList, env.vasprunRef)] fileFormat path

end

end Verif
