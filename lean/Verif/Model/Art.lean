import Verif.Model.Interpolation

/-!
# Model of `/repo/ramannoodle/pmodel/_art.py`

`ARTModel` has the attributes of `InterpolationModel`.  `__repr__` is in
`Verif.Model.Repr`, `add_art_from_pymatgen` is in `Verif.Model.PymatgenDof`.
-/

namespace Verif

noncomputable section

variable {N : ℕ}

/-- `ARTModel.add_dof`, _art.py L82-98. -/
def IModel.artAddDof (m : IModel N) (_cart : Pos N ℝ) (_amps : List ℝ) (_pols : List (Mat3 ℝ))
    (_order : ℤ) (_includeRef : Bool) : Outcome N :=
  ⟨.error .userError, [], m⟩

/-- `ARTModel.add_dof_from_files`, _art.py L100-116. -/
def IModel.artAddDofFromFiles (m : IModel N) (_files : List (DofFile N)) (_order : ℤ) :
    Outcome N :=
  ⟨.error .userError, [], m⟩

/-- `ARTModel.add_dof_from_pymatgen`, _art.py L118-135. -/
def IModel.artAddDofFromPymatgen (m : IModel N) (_structures : List (Pos N ℝ))
    (_pols : List (Mat3 ℝ)) (_order : ℤ) : Outcome N :=
  ⟨.error .userError, [], m⟩

/-- `add_art` L187-188: displacement of one atom along the direction, fractional norm 1/10;
`none` is NaN. -/
def artDisplacement (k : Fin N) (direction : Vec3) : Option (Pos N ℝ) :=
  let n := norm2 fun i => direction i * 10
  if n = 0 then none else some fun a => if a = k then fun i => direction i / n else fun _ => 0

/-- `add_art` L173-190: everything before `super().add_dof`. -/
def prepareArt (m : IModel N) (atomIndex : ℤ) (cartDirection : Vec3) (amps : List ℝ)
    (pols : List (Mat3 ℝ)) : Py (Option (Pos N ℝ)) := do
  let direction ← m.ref.getFracDirection cartDirection
  if ¬ (amps.length = 1 ∨ amps.length = 2) then .error .valueError
  else
    let pols := if m.dummy then amps.map fun _ => (0 : Mat3 ℝ) else pols
    if pols.length ≠ amps.length then .error .valueError
    else match pyIndex N atomIndex with
      | none => .error .indexError
      | some k => return (artDisplacement k direction).map m.ref.getCartDisplacement

/-- `add_art`, _art.py L137-197. -/
def IModel.addArt (spline : SplineFn) (warnErr : Bool) (m : IModel N) (atomIndex : ℤ)
    (cartDirection : Vec3) (amps : List ℝ) (pols : List (Mat3 ℝ)) : Outcome N :=
  match prepareArt m atomIndex cartDirection amps pols with
  | .error e => ⟨.error e, [], m⟩
  | .ok cart => m.addDofNan spline warnErr cart amps pols 1 false

/-- `np.sum(d**2, axis=1)`. -/
def rowSq (d : Pos N ℝ) (a : Fin N) : ℝ := ∑ i, d a i ^ 2

/-- `add_art_from_files` L232-236: some atom other than the one displaced most moves by more
than `1e-6`. -/
def multipleAtomsDisplaced (d : Pos N ℝ) : Bool :=
  match List.finRange N with
  | [] => false
  | x :: xs =>
    let k := argmaxFrom (rowSq d) x xs
    !decide (∀ a i, |if a = k then 0 else d a i| ≤ 1 / 10 ^ 6)

/-- `add_art_from_files`, _art.py L199-252. -/
def IModel.addArtFromFiles (spline : SplineFn) (warnErr : Bool) (m : IModel N)
    (files : List (DofFile N)) : Outcome N :=
  match readDof m files with
  | .error e => ⟨.error e, [], m⟩
  | .ok ([], _, _) => ⟨.error .indexError, [], m⟩
  | .ok (d0 :: _, amps, pols) =>
    if multipleAtomsDisplaced d0 then ⟨.error .invalidDOF, [], m⟩
    else match getDof m (some d0) amps pols false with
      | .error e => ⟨.error e, [], m⟩
      | .ok [] => ⟨.error .indexError, [], m⟩
      | .ok (g :: gs) =>
        if g.pts.length ≠ 2 then ⟨.error .invalidDOF, [], m⟩
        else constructAndAdd spline warnErr m (g :: gs) 1

/-! ## Atom lookup -/

/-- An element of the argument of `get_dof_indexes`. -/
inductive AtomReq
  | index (i : ℤ)
  | symbol (s : Word)

/-- `get_dof_indexes` L351-356: requested atom indexes, before removing repetitions. -/
def requestedAtoms (m : IModel N) : List AtomReq → Py (List ℤ)
  | [] => .ok []
  | .index i :: rs => do
    let is ← requestedAtoms m rs
    return i :: is
  | .symbol s :: rs => do
    let l ← m.ref.getAtomIndexes (.one s)
    let is ← requestedAtoms m rs
    return l.map (fun a : Fin N => ((a : ℕ) : ℤ)) ++ is

/-- Inner loop of `get_dof_indexes`, L361-364, for the DOFs from index `j` on. -/
def dofsOfAtom (i : ℤ) : ℕ → List (Pos N ℝ) → Py (List ℕ)
  | _, [] => .ok []
  | j, b :: bs =>
    match pyIndex N i with
    | none => .error .indexError
    | some a => do
      let rest ← dofsOfAtom i (j + 1) bs
      return if decide (∀ c, |b a c| ≤ 1 / 10 ^ 5) then rest else j :: rest

/-- `get_dof_indexes`, _art.py L335-365 (a single request is first turned into a list).
The order in which Python iterates over `set(atom_indexes)` is not modelled: atoms are taken
in order of last occurrence. -/
def IModel.getDofIndexes (m : IModel N) (reqs : List AtomReq) : Py (List ℕ) := do
  let atoms ← requestedAtoms m reqs
  let lists ← atoms.dedup.mapM fun i => dofsOfAtom i 0 m.basis
  return lists.flatten

/-- `_get_art_cart_directions`, _art.py L367-373. -/
def IModel.getArtCartDirections (m : IModel N) (a : Fin N) : Py (List Vec3) := do
  let idx ← m.getDofIndexes [.index ((a : ℕ) : ℤ)]
  return idx.filterMap fun j => (m.basis[j]?).map fun b => b a

/-- `get_specification_tuples`, _art.py L306-333. -/
def IModel.getSpecificationTuples (m : IModel N) : Py (List (ℕ × List ℕ × List Vec3)) := do
  let d ← m.ref.getEquivalentAtomDict
  d.mapM fun x =>
    if h : x.1 < N then do
      let dirs ← m.getArtCartDirections ⟨x.1, h⟩
      return (x.1, x.2, dirs)
    else .error .indexError

end

end Verif
