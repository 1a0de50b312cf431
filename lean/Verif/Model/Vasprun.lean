import Verif.Model.Outcar
import Verif.Model.Xml
import Mathlib.Data.Sign.Basic

/-!
# Model of `/repo/ramannoodle/io/vasp/vasprun.py`

The readers are modelled from the root element on; the XML parser (`_get_root_element`, L24-30) is
not modelled.  `find` follows `xml.etree.ElementPath` for the paths that occur: steps to children
with a tag, each with an optional value of the attribute `name`.

Simplifications as in `Verif.Model.Outcar`.
-/

namespace Verif

namespace Elem

/-- `element.get("name")`. -/
def name (e : Elem) : Option Word := dictGet e.attrib "name".toList

end Elem

/-- A step of a path: `tag` or `tag[@name='value']`. -/
structure PathStep where
  tag : Word
  name : Option Word

/-- Whether a child is selected by a step. -/
def PathStep.selects (s : PathStep) (e : Elem) : Bool :=
  decide (e.tag = s.tag) && (match s.name with
    | none => true
    | some v => decide (e.name = some v))

/-- Elements selected by a path, in the order of `iterfind`. -/
def selectPath : List PathStep → List Elem → List Elem
  | [], es => es
  | s :: ss, es => selectPath ss (es.flatMap fun e => e.children.filter s.selects)

/-- `root.find(path)`. -/
def Elem.find (root : Elem) (path : List PathStep) : Option Elem := (selectPath path [root]).head?

/-- A step without attribute. -/
def plain (tag : String) : PathStep := ⟨tag.toList, none⟩

/-- A step with attribute `name`. -/
def named (tag name : String) : PathStep := ⟨tag.toList, some name.toList⟩

/-- Symbol of one atom: `child[0].text`, vasprun.py L47-50. -/
def atomEntry (child : Elem) : Py Word :=
  match child.children with
  | [] => .error .indexError
  | e :: _ =>
    match e.text with
    | none => .error .invalidFile
    | some t => .ok (strip t)

/-- `_parse_atomic_symbols`, vasprun.py L33-51. -/
def vasprunSymbols (root : Elem) : Py (List Word) :=
  match root.find [plain "atominfo", plain "array", plain "set"] with
  | none => .error .invalidFile
  | some s => s.children.mapM atomEntry

/-- One row of numbers, vasprun.py L65-68. -/
def varrayRow (child : Elem) : Py (List Num) :=
  match child.text with
  | none => .error .invalidFile
  | some t =>
    match parseFloats (splitWs t) with
    | none => .error .valueError
    | some xs => .ok xs

/-- `_parse_positions`, vasprun.py L54-69, and the loops L85-91, L107-113. -/
def parseVarray (e : Elem) : Py (List (List Num)) := do
  let rows ← e.children.mapM varrayRow
  npArray rows

/-- A `varray` that was looked for and its rows. -/
def findVarray (root : Elem) (path : List PathStep) : Py (List (List Num)) :=
  match root.find path with
  | none => .error .invalidFile
  | some e => parseVarray e

/-- Initial positions, vasprun.py L145-148, L187-190, L242-245, L275-278, L399-402. -/
def vasprunInitialPositions (root : Elem) : Py (List (List Num)) :=
  findVarray root [named "structure" "initialpos", plain "varray"]

/-- `_parse_polarizability`, vasprun.py L72-91. -/
def vasprunPolarizability (root : Elem) : Py (List (List Num)) :=
  findVarray root [plain "calculation", named "varray" "dielectric_dft"]

/-- `_parse_lattice`, vasprun.py L94-113. -/
def vasprunLattice (root : Elem) : Py (List (List Num)) :=
  findVarray root [named "structure" "initialpos", plain "crystal", named "varray" "basis"]

/-- `read_positions_and_polarizability`, vasprun.py L116-150. -/
def vasprunPositionsAndPolarizability (root : Elem) : Py (List (List Num) × List (List Num)) := do
  let positions ← vasprunInitialPositions root
  let polarizability ← vasprunPolarizability root
  return (positions, polarizability)

/-- `read_structure_and_polarizability`, vasprun.py L153-192. -/
def vasprunStructureAndPolarizability (root : Elem) : Py OutcarStructure := do
  let symbols ← vasprunSymbols root
  let numbers ← symbols.mapM numberOf
  let lattice ← vasprunLattice root
  let positions ← vasprunInitialPositions root
  let polarizability ← vasprunPolarizability root
  return ⟨lattice, numbers, positions, polarizability⟩

/-- `read_positions`, vasprun.py L220-246. -/
def vasprunPositions (root : Elem) : Py (List (List Num)) := vasprunInitialPositions root

/-- `read_ref_structure`, vasprun.py L249-279: the arguments given to `ReferenceStructure`. -/
def vasprunRefArgs (root : Elem) : Py (List ℕ × List (List Num) × List (List Num)) := do
  let symbols ← vasprunSymbols root
  let numbers ← symbols.mapM numberOf
  let lattice ← vasprunLattice root
  let positions ← vasprunInitialPositions root
  return (numbers, lattice, positions)

/-- `_parse_timestep`, vasprun.py L282-295. -/
def vasprunTimestep (root : Elem) : Py Num :=
  match root.find [plain "parameters", named "separator" "ionic", named "i" "POTIM"] with
  | none => .error .invalidFile
  | some e =>
    match e.text with
    | none => .error .invalidFile
    | some t =>
      match parseFloat (strip t) with
      | none => .error .valueError
      | some x => .ok x

/-- One configuration of a trajectory, vasprun.py L321-324. -/
def structurePositions (s : Elem) : Py (List (List Num)) := findVarray s [plain "varray"]

/-- Unnamed structures, vasprun.py L316-320. -/
def unnamedStructures (root : Elem) : List Elem :=
  (root.children.filter fun e => decide (e.tag = "structure".toList)).filter
    fun e => (dictGet e.attrib "name".toList).isNone

/-- `np.array(positions_ts)` and the shape `(S,N,3)` required by `Trajectory`
(_trajectory.py L37): all configurations have the same number of rows of three numbers, at least
one. -/
def stackPositions (frames : List (List (List Num))) : Py (List (List NumVec)) :=
  match frames.mapM (fun f => f.mapM toVec) with
  | none => .error .valueError
  | some [] => .ok []
  | some (f :: fs) =>
    if f ≠ [] ∧ ∀ g ∈ fs, g.length = f.length then .ok (f :: fs) else .error .valueError

/-- `read_trajectory`, vasprun.py L298-330. -/
def vasprunTrajectory (root : Elem) : Py OutcarTrajectory := do
  let frames ← (unnamedStructures root).mapM structurePositions
  if frames = [] then .error .invalidFile
  else do
    let timestep ← vasprunTimestep root
    let ps ← stackPositions frames
    makeTrajectory ps timestep

/-- `np.sqrt(np.abs(-x)) * 1 / 0.0299792458`, vasprun.py L346. -/
noncomputable def rawWavenumber (x : ℝ) : ℝ := Real.sqrt |-x| * 1 / 0.0299792458

/-- Wavenumber of one eigenvalue with the multiplication by the sign, vasprun.py L346-347: the sign
is that of the square root, not of the eigenvalue. -/
noncomputable def vasprunWavenumber (x : ℝ) : ℝ :=
  rawWavenumber x * (SignType.sign (rawWavenumber x) : ℝ)

/-- `_parse_eigenvalues`, vasprun.py L333-348. -/
noncomputable def vasprunEigenvalues (root : Elem) : Py (List (Option ℝ)) :=
  match root.find [plain "calculation", plain "dynmat", named "v" "eigenvalues"] with
  | none => .error .invalidFile
  | some e =>
    match e.text with
    | none => .error .invalidFile
    | some t =>
      match parseFloats (splitWs t) with
      | none => .error .valueError
      | some xs => .ok (xs.map fun x => x.map fun q : ℚ => vasprunWavenumber (q : ℝ))

/-- `reshape((n, 3))` of a list of numbers. -/
def reshape3 : ℕ → List Num → Py (List NumVec)
  | 0, [] => .ok []
  | n + 1, x :: y :: z :: rest => do
    let vs ← reshape3 n rest
    return ![x, y, z] :: vs
  | _, _ => .error .valueError

/-- One eigenvector, vasprun.py L366-370: the numbers are reshaped before the lattice is
inverted. -/
def vasprunEigenvector (ext : NumMat → Py NumMat) (lattice : List (List Num)) (numAtoms : ℕ)
    (v : Elem) : Py (List NumVec) := do
  let xs ← varrayRow v
  let vs ← reshape3 numAtoms xs
  let inv ← arrayInv ext lattice
  return vs.map (numVecMul · inv)

/-- `_parse_eigenvectors`, vasprun.py L351-372. -/
def vasprunEigenvectors (ext : NumMat → Py NumMat) (root : Elem) : Py (List (List NumVec)) := do
  let lattice ← vasprunLattice root
  let symbols ← vasprunSymbols root
  match root.find [plain "calculation", plain "dynmat", named "varray" "eigenvectors"] with
  | none => .error .invalidFile
  | some e => e.children.mapM (vasprunEigenvector ext lattice symbols.length)

/-- Phonons read from a `vasprun.xml` file. -/
structure VasprunPhonons where
  refPositions : List NumVec
  wavenumbers : List (Option ℝ)
  displacements : List (List (Fin 3 → Option ℝ))

/-- Division by the square roots of the masses (vasprun.py L406) and the constructor of `Phonons`
(_phonon.py L36-42): without modes the array of displacements has two dimensions and is
refused. -/
noncomputable def makeVasprunPhonons (weights : List ℚ) (positions : List (List Num))
    (wavenumbers : List (Option ℝ)) (eigenvectors : List (List NumVec)) : Py VasprunPhonons :=
  match positions.mapM toVec with
  | none => .error .valueError
  | some ps =>
    if ps = [] ∨ eigenvectors = [] ∨ weights.length ≠ ps.length ∨
        eigenvectors.length ≠ wavenumbers.length then .error .valueError
    else .ok ⟨ps, wavenumbers, eigenvectors.map (massScale weights)⟩

/-- `read_phonons`, vasprun.py L375-408. -/
noncomputable def vasprunReadPhonons (ext : NumMat → Py NumMat) (root : Elem) :
    Py VasprunPhonons := do
  let symbols ← vasprunSymbols root
  let weights ← symbols.mapM weightOf
  let positions ← vasprunInitialPositions root
  let wavenumbers ← vasprunEigenvalues root
  let eigenvectors ← vasprunEigenvectors ext root
  makeVasprunPhonons weights positions wavenumbers eigenvectors

end Verif
