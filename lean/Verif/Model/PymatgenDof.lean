import Verif.Model.Art

/-!
# Model of the pymatgen entry points of polarizability models

Accessors of `/repo/ramannoodle/io/pymatgen.py` L29-113, `add_dof_from_pymatgen` of
`/repo/ramannoodle/pmodel/_interpolation.py` L528-627 and `add_art_from_pymatgen` of
`/repo/ramannoodle/pmodel/_art.py` L254-304.

pymatgen objects are represented by the attributes that the code reads.  The dtype and the trailing
dimensions of arrays are excluded by typing.
-/

namespace Verif

noncomputable section

variable {N : ℕ}

/-- Attributes of a `pymatgen.core.Structure` that the code reads, io/pymatgen.py L43, L64, L85. -/
structure PmgStructure where
  lattice : Mat3 ℝ
  atomicNumbers : List ℕ
  fracCoords : List Vec3

/-- An argument that should be a pymatgen structure; `none` is an object without the attributes. -/
abbrev PmgArg := Option PmgStructure

/-- `_get_lattice`, io/pymatgen.py L29-47. -/
def pmgLattice : PmgArg → Py (Mat3 ℝ)
  | none => .error .typeError
  | some s => .ok s.lattice

/-- `get_positions`, io/pymatgen.py L50-68. -/
def pmgPositions : PmgArg → Py (List Vec3)
  | none => .error .typeError
  | some s => .ok s.fracCoords

/-- `_get_atomic_numbers`, io/pymatgen.py L71-89. -/
def pmgAtomicNumbers : PmgArg → Py (List ℕ)
  | none => .error .typeError
  | some s => .ok s.atomicNumbers

/-- `get_structure`, io/pymatgen.py L92-113. -/
def pmgGetStructure (s : PmgArg) : Py (Mat3 ℝ × List ℕ × List Vec3) := do
  let lattice ← pmgLattice s
  let numbers ← pmgAtomicNumbers s
  let positions ← pmgPositions s
  return (lattice, numbers, positions)

/-! ## Degrees of freedom from structures -/

/-- Coordinates as the second argument of `calc_displacement(ref.positions, positions)`,
_interpolation.py L559-563: a single row is broadcast, other numbers of rows give a `ValueError`
(`none`).  Simplification: for a reference structure with one atom NumPy broadcasts the reference
instead, this case is in `Verif.Model.OneAtom`. -/
def coordsFor (N : ℕ) (coords : List Vec3) : Py (Option (Pos N ℝ)) :=
  if h : coords.length = N then .ok (some fun a => coords[a])
  else if h1 : coords.length = 1 then .ok (some fun _ => coords[0])
  else if N = 1 then .error .unmodelled
  else .ok none

/-- Loop of `_get_displacement_amplitudes_pymatgen`, _interpolation.py L556-567. -/
def pmgDisplacements (m : IModel N) : List PmgArg → Py (List (Pos N ℝ))
  | [] => .ok []
  | s :: ss => do
    let coords ← pmgPositions s
    match ← coordsFor N coords with
    | none => .error .invalidDOF
    | some p => do
      let rest ← pmgDisplacements m ss
      return calcDisplacement m.ref.positions p :: rest

/-- `_get_displacement_amplitudes_pymatgen`, _interpolation.py L528-583; `present` is
`PYMATGEN_PRESENT`. -/
def pmgDisplacementAmplitudes (present : Bool) (m : IModel N) (structures : List PmgArg) :
    Py (List (Pos N ℝ) × List ℝ) :=
  if present = false then .error .userError
  else do
    let displacements ← pmgDisplacements m structures
    match displacements with
    | [] => .error .indexError
    | d0 :: _ =>
      if isCollinearWithAll (flat d0) (displacements.map flat) ≠ -1 then .error .invalidDOF
      else match normalizePos (m.ref.getCartDisplacement d0) with
        | none => .error .unmodelled
        | some b => return (displacements,
            displacements.map fun d => getAmplitude b (m.ref.getCartDisplacement d))

/-- `add_dof_from_pymatgen`, _interpolation.py L585-627. -/
def IModel.addDofFromPymatgen (present : Bool) (spline : SplineFn) (warnErr : Bool) (m : IModel N)
    (structures : List PmgArg) (pols : List (Mat3 ℝ)) (order : ℤ) : Outcome N :=
  if present = false then ⟨.error .userError, [], m⟩
  else match pmgDisplacementAmplitudes present m structures with
    | .error e => ⟨.error e, [], m⟩
    | .ok ([], _) => ⟨.error .indexError, [], m⟩
    | .ok (d0 :: _, amps) =>
      m.addDof spline warnErr (m.ref.getCartDisplacement d0) amps pols order

/-- `add_art_from_pymatgen`, _art.py L254-304. -/
def IModel.addArtFromPymatgen (present : Bool) (spline : SplineFn) (warnErr : Bool) (m : IModel N)
    (structures : List PmgArg) (pols : List (Mat3 ℝ)) : Outcome N :=
  match pmgDisplacementAmplitudes present m structures with
  | .error e => ⟨.error e, [], m⟩
  | .ok ([], _) => ⟨.error .indexError, [], m⟩
  | .ok (d0 :: _, amps) =>
    if multipleAtomsDisplaced d0 then ⟨.error .invalidDOF, [], m⟩
    else match getDof m (some d0) amps pols false with
      | .error e => ⟨.error e, [], m⟩
      | .ok [] => ⟨.error .indexError, [], m⟩
      | .ok (g :: gs) =>
        if g.pts.length ≠ 2 then ⟨.error .invalidDOF, [], m⟩
        else constructAndAdd spline warnErr m (g :: gs) 1

end

end Verif
