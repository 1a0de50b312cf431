import Verif.Model.PymatgenDof
import Verif.Model.Dataset
import Verif.Model.Dynamics

/-!
# Model of the constructors of `/repo/ramannoodle/io/pymatgen.py` L116-188
-/

namespace Verif

noncomputable section

variable {N : ℕ}

/-- `positions[i] = coords` where `positions` has shape `(M,n,3)`, io/pymatgen.py L145: a single row
is broadcast. -/
def assignRow (n : ℕ) (coords : List Vec3) : Py (List Vec3) :=
  if coords.length = n then .ok coords
  else match coords with
    | [x] => .ok (List.replicate n x)
    | _ => .error .valueError

open Classical in
/-- Loop of `construct_polarizability_dataset`, io/pymatgen.py L136-145. -/
def pmgDatasetLoop (lattice : Mat3 ℝ) (numbers : List ℕ) : List PmgArg → Py (List (List Vec3))
  | [] => .ok []
  | s :: ss => do
    let l ← pmgLattice s
    if ¬ latticeClose l lattice then .error .incompatible
    else
      let zs ← pmgAtomicNumbers s
      if zs ≠ numbers then .error .incompatible
      else
        let coords ← pmgPositions s
        let row ← assignRow numbers.length coords
        let rows ← pmgDatasetLoop lattice numbers ss
        return row :: rows

/-- `construct_polarizability_dataset`, io/pymatgen.py L116-146. -/
def constructPolarizabilityDataset (structures : List PmgArg) (pols : List (Mat3 ℝ)) :
    Py PolDataset :=
  if pols.length ≠ structures.length then .error .valueError
  else match structures with
    | [] => .error .indexError
    | first :: rest => do
      let (lattice, numbers, _) ← pmgGetStructure first
      let positions ← pmgDatasetLoop lattice numbers (first :: rest)
      makeDataset lattice numbers positions pols

/-- `construct_ref_structure`, io/pymatgen.py L149-163, with the shape check of
_reference.py L108 (the other checks hold by typing). -/
def constructRefStructure
    (spglib : (n : ℕ) → Mat3 ℝ → Pos n ℝ → (Fin n → ℕ) → Option SymDict) (s : PmgArg) :
    Py (Σ n, RefStructure n) := do
  let numbers ← pmgAtomicNumbers s
  let lattice ← pmgLattice s
  let positions ← pmgPositions s
  if h : positions.length = numbers.length then
    let r ← RefStructure.init (spglib numbers.length) (fun a => numbers[a]) lattice
      (fun a => positions[a])
    return ⟨numbers.length, r⟩
  else .error .valueError

/-- Attributes of a `pymatgen.core.trajectory.Trajectory`.  The code reads `constant_lattice` and
`coords`; the other two say what `coords` means. -/
structure PmgTrajectory (N : ℕ) where
  constantLattice : Bool
  coords : List (Pos N ℝ)
  coordsAreDisplacement : Bool
  basePositions : Pos N ℝ

/-- `construct_trajectory`, io/pymatgen.py L166-188; `none` is an object without the
attributes. -/
def constructTrajectory (t : Option (PmgTrajectory N)) (timestep : ℝ) : Py (Trajectory N) :=
  match t with
  | none => .error .typeError
  | some t =>
    if t.constantLattice = false then .error .valueError else Trajectory.init t.coords timestep

end

end Verif
