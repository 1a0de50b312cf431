import Verif.Model.Generic
import Verif.Model.Art
import Verif.Model.NonFinite

/-!
# Model of `add_dof_from_files` and `add_art_from_files` from the paths on

`/repo/ramannoodle/pmodel/_interpolation.py` L482-526 and L629-695,
`/repo/ramannoodle/pmodel/_art.py` L199-252.

`readDof` (`Verif.Model.Interpolation`) starts with arrays of positions that have been read.  Here the
arrays come from the generic readers, as lists of rows of numbers that may be NaN (`none`).
-/

namespace Verif

variable {N : ℕ} {R : Type}

/-- A row of the second operand of `positions_2 - positions_1` (utils.py L135), the first having three
columns: a row with one number is broadcast, other widths do not fit. -/
def broadcastRow : List Num → Option NumVec
  | [x] => some fun _ => x
  | [x, y, z] => some ![x, y, z]
  | _ => none

/-- An array of positions as second argument of `calc_displacement(ref.positions, positions)`,
_interpolation.py L669-675; `none`: the `ValueError` of NumPy that becomes an `InvalidDOFException`.
All rows have the same width (`npArray`).  An array without rows has shape `(0,)`, which does not fit.
Simplification: for a reference structure with one atom NumPy broadcasts the reference instead, this
case is in `Verif.Model.OneAtom`. -/
def positionsFor (N : ℕ) (rows : List (List Num)) : Py (Option (Fin N → NumVec)) :=
  if rows = [] then .ok none
  else match rows.mapM broadcastRow with
    | none => .ok none
    | some vs =>
      if h : vs.length = N then .ok (some fun a => vs[a])
      else if h1 : vs.length = 1 then .ok (some fun _ => vs[0])
      else if N = 1 then .error .unmodelled
      else .ok none

/-- Positions and polarizability of one file, _interpolation.py L661-667. -/
def readSnapshot (env : Env R) (dummy : Bool) (fileFormat : Word) (path : Path) :
    Py (List (List Num) × List (List Num)) :=
  if dummy = false then genericReadPositionsAndPolarizability env path fileFormat
  else do
    let positions ← genericReadPositions env path fileFormat
    return (positions, List.replicate 3 (List.replicate 3 (some 0)))

/-- The loop of `_read_dof` up to the shape check, _interpolation.py L660-677. -/
def readSnapshots (env : Env R) (dummy : Bool) (N : ℕ) (fileFormat : Word) :
    List Path → Py (List ((Fin N → NumVec) × List (List Num)))
  | [] => .ok []
  | path :: paths => do
    let (rows, pol) ← readSnapshot env dummy fileFormat path
    match ← positionsFor N rows with
    | none => .error .invalidDOF
    | some p => do
      let rest ← readSnapshots env dummy N fileFormat paths
      return (p, pol) :: rest

noncomputable section

/-- Positions without NaN. -/
def finitePositions (p : Fin N → NumVec) : Option (Pos N ℝ) :=
  if ∀ a i, (p a i).isSome then some fun a i => (((p a i).getD 0 : ℚ) : ℝ) else none

/-- A tensor of shape `(3,3)`; the inner `none`: some entry is not finite. -/
def finiteTensor? (a : List (List Num)) : Option (Option (Mat3 ℝ)) :=
  (toMat a).map fun m =>
    if ∀ i j, (m i j).isSome then some fun i j => (((m i j).getD 0 : ℚ) : ℝ) else none

/-- `array.shape` of a tensor that was read; all rows have the same width (`npArray`).  An array without
rows has shape `(0,)`, here `(0, 0)`. -/
def tensorShape (a : List (List Num)) : ℕ × ℕ := (a.length, (a.headD []).length)

/-- What the arrays of the files mean for the rest of `_read_dof`, _interpolation.py L678-695, and its
callers.  A NaN among the positions makes the displacement NaN, which is collinear with nothing
(_symmetry_utils.py L13-39), so `InvalidDOFException` is raised.  `runF` takes over when some tensor has
an entry that is not finite, `runS` when some tensor does not have shape `(3,3)`.  In the latter case
`np.array(polarizabilities)` (L694), which comes after the checks of the displacements, raises
`ValueError` unless all tensors have the same shape. -/
def withSnapshots (m : IModel N) (data : List ((Fin N → NumVec) × List (List Num)))
    (run : List (DofFile N) → Outcome N)
    (runF : List (DofFile N) → List (Option (Mat3 ℝ)) → Outcome N)
    (runS : List (DofFile N) → List (List (List Num)) → Outcome N) : Outcome N :=
  match data.mapM fun x => finitePositions x.1 with
  | none => ⟨.error .invalidDOF, [], m⟩
  | some ps =>
    match data.mapM fun x => finiteMat x.2 with
    | some pols => run ((ps.zip pols).map fun x => .ok (some x.1, x.2))
    | none =>
      match data.mapM fun x => finiteTensor? x.2 with
      | some pols => runF (ps.map fun p => .ok (some p, 0)) pols
      | none =>
        match readDof m (ps.map fun p => .ok (some p, 0)) with
        | .error e => ⟨.error e, [], m⟩
        | .ok _ =>
          if ∀ x ∈ data, ∀ y ∈ data, tensorShape x.2 = tensorShape y.2 then
            runS (ps.map fun p => .ok (some p, 0)) (data.map Prod.snd)
          else ⟨.error .valueError, [], m⟩

/-- The part of `_read_dof` that depends on the files, followed by the rest. -/
def fromPaths (env : Env R) (m : IModel N) (filepaths : PathsArg) (fileFormat : Word)
    (run : List (DofFile N) → Outcome N)
    (runF : List (DofFile N) → List (Option (Mat3 ℝ)) → Outcome N)
    (runS : List (DofFile N) → List (List (List Num)) → Outcome N) : Outcome N :=
  match (do
    let paths ← pathifyAsList filepaths
    readSnapshots env m.dummy N fileFormat paths) with
  | .error e => ⟨.error e, [], m⟩
  | .ok data => withSnapshots m data run runF runS

/-- `add_dof_from_files` from the arrays on, _interpolation.py L514-526, with tensors that need not be
finite; the tensors of `files` are not used. -/
def IModel.addDofFromFilesF (spline : SplineFn) (warnErr : Bool) (m : IModel N)
    (files : List (DofFile N)) (pols : List (Option (Mat3 ℝ))) (order : ℤ) : Outcome N :=
  match readDof m files with
  | .error e => ⟨.error e, [], m⟩
  | .ok ([], _, _) => ⟨.error .indexError, [], m⟩
  | .ok (d0 :: _, amps, _) =>
    m.addDofF spline warnErr (some m.refPol) (some (m.ref.getCartDisplacement d0)) (amps.map .num)
      pols order true

/-- `add_art_from_files` from the arrays on, _art.py L226-252, with tensors that need not be finite; the
tensors of `files` are not used. -/
def IModel.addArtFromFilesF (spline : SplineFn) (warnErr : Bool) (m : IModel N)
    (files : List (DofFile N)) (pols : List (Option (Mat3 ℝ))) : Outcome N :=
  match readDof m files with
  | .error e => ⟨.error e, [], m⟩
  | .ok ([], _, _) => ⟨.error .indexError, [], m⟩
  | .ok (d0 :: _, amps, _) =>
    if multipleAtomsDisplaced d0 then ⟨.error .invalidDOF, [], m⟩
    else match getDofF m (some d0) (some m.refPol) (amps.map .num) pols false with
      | .error e => ⟨.error e, [], m⟩
      | .ok [] => ⟨.error .indexError, [], m⟩
      | .ok (g :: gs) =>
        if g.pts.length ≠ 2 then ⟨.error .invalidDOF, [], m⟩
        else constructAndAddF spline warnErr m (g :: gs) 1

/-- `add_dof_from_files` from the arrays on, _interpolation.py L514-526, when the tensors need not have
shape `(3,3)`: a dummy model replaces them (L460-461), otherwise `verify_ndarray_shape` (L462-464) raises
`ValueError`.  The tensors of `files` are not used. -/
def IModel.addDofFromFilesS (spline : SplineFn) (warnErr : Bool) (m : IModel N)
    (files : List (DofFile N)) (pols : List (List (List Num))) (order : ℤ) : Outcome N :=
  if m.dummy then m.addDofFromFiles spline warnErr files order
  else match readDof m files with
    | .error e => ⟨.error e, [], m⟩
    | .ok ([], _, _) => ⟨.error .indexError, [], m⟩
    | .ok (_ :: _, _, _) =>
      match pols.mapM finiteTensor? with
      | none => ⟨.error .valueError, [], m⟩
      | some ts => m.addDofFromFilesF spline warnErr files ts order

/-- A tensor as operand of `polarizability - self._ref_polarizability`, _interpolation.py L327: axes of
length one are stretched; `none`: the array does not fit.  The inner `none`: some entry is not finite. -/
def broadcastTensor (a : List (List Num)) : Option (Option (Mat3 ℝ)) :=
  (match a.mapM broadcastRow with
    | some [v] => some fun _ => v
    | some [u, v, w] => some ![u, v, w]
    | _ => none : Option NumMat).map fun m =>
      if ∀ i j, (m i j).isSome then some fun i j => (((m i j).getD 0 : ℚ) : ℝ) else none

/-- `_get_dof`, _interpolation.py L254-342, when the difference of L327 raises `ValueError`.  Every
dictionary has a transformation and there is an amplitude for each file, so the first dictionary leads to
that line. -/
def getDofMisfit (m : IModel N) (parent : Pos N ℝ) : Py (List (DofGroupF N)) :=
  if orthCheck m (some parent) ≠ -1 then .error .invalidDOF
  else do
    match ← m.ref.getEquivalentDisplacements parent with
    | none => if m.ref.ops.zip m.ref.perms = [] then .ok [] else .error .valueError
    | some groups => groups.mapM fun g =>
      if g.displacements = [] then .error .indexError else .error .valueError

/-- `add_art_from_files` from the arrays on, _art.py L226-252, when the tensors need not have shape
`(3,3)`, which nothing checks.  The tensors of `files` are not used. -/
def IModel.addArtFromFilesS (spline : SplineFn) (warnErr : Bool) (m : IModel N)
    (files : List (DofFile N)) (pols : List (List (List Num))) : Outcome N :=
  match pols.mapM broadcastTensor with
  | some ts => m.addArtFromFilesF spline warnErr files ts
  | none =>
    match readDof m files with
    | .error e => ⟨.error e, [], m⟩
    | .ok ([], _, _) => ⟨.error .indexError, [], m⟩
    | .ok (d0 :: _, _, _) =>
      if multipleAtomsDisplaced d0 then ⟨.error .invalidDOF, [], m⟩
      else match getDofMisfit m d0 with
        | .error e => ⟨.error e, [], m⟩
        | .ok _ => ⟨.error .indexError, [], m⟩

/-- `add_dof_from_files`, _interpolation.py L482-526. -/
def IModel.addDofFromPaths (env : Env R) (spline : SplineFn) (warnErr : Bool) (m : IModel N)
    (filepaths : PathsArg) (fileFormat : Word) (order : ℤ) : Outcome N :=
  fromPaths env m filepaths fileFormat (fun files => m.addDofFromFiles spline warnErr files order)
    (fun files pols => m.addDofFromFilesF spline warnErr files pols order)
    fun files pols => m.addDofFromFilesS spline warnErr files pols order

/-- `add_art_from_files`, _art.py L199-252. -/
def IModel.addArtFromPaths (env : Env R) (spline : SplineFn) (warnErr : Bool) (m : IModel N)
    (filepaths : PathsArg) (fileFormat : Word) : Outcome N :=
  fromPaths env m filepaths fileFormat (fun files => m.addArtFromFiles spline warnErr files)
    (fun files pols => m.addArtFromFilesF spline warnErr files pols)
    fun files pols => m.addArtFromFilesS spline warnErr files pols

end

end Verif
