import Verif.Model.DofRows
import Verif.Model.PymatgenDof

/-!
# Degrees of freedom from files when the reference structure has one atom

`/repo/ramannoodle/pmodel/_interpolation.py` L482-583 and L629-695, `/repo/ramannoodle/pmodel/_art.py`
L199-304.  Files (or pymatgen structures) may have any number of atoms.  `calc_displacement`
(utils.py L110-135) subtracts the positions of the reference structure; with a single atom NumPy repeats
its row, so the subtraction succeeds whatever the number of rows read.  This is the case left out in
`Verif.Model.DofPaths` and `Verif.Model.PymatgenDof`.

Simplified: all numbers read are finite and all tensors have shape `(3,3)`.
-/

namespace Verif

noncomputable section

/-- Positions with any number of rows, and a polarizability. -/
structure SizedSnapshot where
  rows : ℕ
  positions : Pos rows ℝ
  pol : Mat3 ℝ

/-- `calc_displacement(ref.positions, positions)`, _interpolation.py L559-563, L669-673: the row of the
only atom is repeated. -/
def SizedSnapshot.displacement (m : IModel 1) (x : SizedSnapshot) : Pos x.rows ℝ :=
  calcDisplacement (fun _ => m.ref.positions 0) x.positions

/-- `get_cart_displacement`, _reference.py L268-285, for any number of rows. -/
def SizedSnapshot.cart (m : IModel 1) (x : SizedSnapshot) : Pos x.rows ℝ :=
  matMulPos (applyPbcDisplacement (x.displacement m)) m.ref.lattice

/-- `is_collinear_with_all(displacements[0], displacements)`, _symmetry_utils.py L78-101: the product of
vectors of different lengths is a `ValueError` (L32-38). -/
def collinearSized (m : IModel 1) (x₀ : SizedSnapshot) : ℕ → List SizedSnapshot → Py ℤ
  | _, [] => .ok (-1)
  | k, x :: xs =>
    if h : x.rows = x₀.rows then
      if areCollinear (flat (x₀.displacement m)) (flat fun a => x.displacement m (a.cast h.symm)) then
        collinearSized m x₀ (k + 1) xs
      else .ok k
    else .error .valueError

/-- `get_amplitude`, _interpolation.py L46-57; the lengths agree after `collinearSized`. -/
def sizedAmplitude (m : IModel 1) (x₀ : SizedSnapshot) (b : Pos x₀.rows ℝ) (x : SizedSnapshot) : ℝ :=
  if h : x.rows = x₀.rows then getAmplitude b fun a => x.cart m (a.cast h.symm) else 0

/-- `_read_dof`, _interpolation.py L657-695, after reading: the amplitudes and polarizabilities. -/
def sizedDof (m : IModel 1) (x₀ : SizedSnapshot) (xs : List SizedSnapshot) :
    Py (List ℝ × List (Mat3 ℝ)) := do
  if (← collinearSized m x₀ 0 (x₀ :: xs)) ≠ -1 then .error .invalidDOF
  else match normalizePos (x₀.cart m) with
    | none => .error .unmodelled
    | some b => return ((x₀ :: xs).map (sizedAmplitude m x₀ b),
        (x₀ :: xs).map fun x => if m.dummy then 0 else x.pol)

/-- `add_dof_from_files`, _interpolation.py L482-526. -/
def IModel.addDofSized (spline : SplineFn) (warnErr : Bool) (m : IModel 1) (xs : List SizedSnapshot)
    (order : ℤ) : Outcome 1 :=
  match xs with
  | [] => ⟨.error .indexError, [], m⟩
  | x₀ :: xs =>
    match sizedDof m x₀ xs with
    | .error e => ⟨.error e, [], m⟩
    | .ok (amps, pols) => m.addDofRows spline warnErr (x₀.cart m) amps pols order

/-- `add_art_from_files`, _art.py L199-252. -/
def IModel.addArtSized (spline : SplineFn) (warnErr : Bool) (m : IModel 1) (xs : List SizedSnapshot) :
    Outcome 1 :=
  match xs with
  | [] => ⟨.error .indexError, [], m⟩
  | x₀ :: xs =>
    match sizedDof m x₀ xs with
    | .error e => ⟨.error e, [], m⟩
    | .ok (amps, pols) =>
      if multipleAtomsDisplaced (x₀.displacement m) then ⟨.error .invalidDOF, [], m⟩
      else match getDofRows m (some (x₀.displacement m)) amps pols false with
        | .error e => ⟨.error e, [], m⟩
        | .ok [] => ⟨.error .indexError, [], m⟩
        | .ok (g :: gs) =>
          if g.pts.length ≠ 2 then ⟨.error .invalidDOF, [], m⟩
          else constructAndAdd spline warnErr m (g :: gs) 1

/-- Loop of `_get_displacement_amplitudes_pymatgen`, _interpolation.py L556-567; the coordinates of a
structure without atoms have shape `(0,)`, which does not fit. -/
def pmgSized : List PmgArg → Py (List SizedSnapshot)
  | [] => .ok []
  | s :: ss => do
    let coords ← pmgPositions s
    if coords = [] then .error .invalidDOF
    else do
      let rest ← pmgSized ss
      return ⟨coords.length, fun a => coords[a], 0⟩ :: rest

/-- `add_dof_from_pymatgen`, _interpolation.py L585-627, with pymatgen installed. -/
def IModel.addDofSizedPmg (spline : SplineFn) (warnErr : Bool) (m : IModel 1) (structures : List PmgArg)
    (pols : List (Mat3 ℝ)) (order : ℤ) : Outcome 1 :=
  match pmgSized structures with
  | .error e => ⟨.error e, [], m⟩
  | .ok [] => ⟨.error .indexError, [], m⟩
  | .ok (x₀ :: xs) =>
    match sizedDof m x₀ xs with
    | .error e => ⟨.error e, [], m⟩
    | .ok (amps, _) => m.addDofRows spline warnErr (x₀.cart m) amps pols order

/-- `add_art_from_pymatgen`, _art.py L254-304, with pymatgen installed. -/
def IModel.addArtSizedPmg (spline : SplineFn) (warnErr : Bool) (m : IModel 1) (structures : List PmgArg)
    (pols : List (Mat3 ℝ)) : Outcome 1 :=
  match pmgSized structures with
  | .error e => ⟨.error e, [], m⟩
  | .ok [] => ⟨.error .indexError, [], m⟩
  | .ok (x₀ :: xs) =>
    match sizedDof m x₀ xs with
    | .error e => ⟨.error e, [], m⟩
    | .ok (amps, _) =>
      if multipleAtomsDisplaced (x₀.displacement m) then ⟨.error .invalidDOF, [], m⟩
      else match getDofRows m (some (x₀.displacement m)) amps pols false with
        | .error e => ⟨.error e, [], m⟩
        | .ok [] => ⟨.error .indexError, [], m⟩
        | .ok (g :: gs) =>
          if g.pts.length ≠ 2 then ⟨.error .invalidDOF, [], m⟩
          else constructAndAdd spline warnErr m (g :: gs) 1

end

end Verif
