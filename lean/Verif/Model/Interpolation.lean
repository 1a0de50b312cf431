import Verif.Model.Reference
import Verif.Model.Index
import Mathlib.Data.List.Sort

/-!
# Model of `/repo/ramannoodle/pmodel/_interpolation.py`

`scipy.interpolate.make_interp_spline` is a parameter.  Argument types and the trailing
dimensions of arrays are excluded by typing; leading dimensions are list lengths.
`__repr__` is in `Verif.Model.Repr`, the pymatgen entry points are in `Verif.Model.PymatgenDof`.  A method that
changes the model returns the outcome together with the new state, so that a failing call
could leave a changed state behind.  The mask is stored by value (the setter of the code
keeps a reference to the caller's array, see `Verif.Model.Alias`).

Non-finite floats (NaN, infinity) are `none`.  Infinite amplitudes and
polarizabilities that are not finite are in `Verif.Model.NonFinite`.  A file with a
single atom would be broadcast against the reference positions in `_read_dof`; files here have as
many atoms as the reference.
-/

namespace Verif

noncomputable section

variable {N : ℕ}

/-- `make_interp_spline(x, y, k, bc_type=None)` as a parameter: order, points sorted by `x`. -/
abbrev SplineFn := ℕ → List (ℝ × Mat3 ℝ) → Py (ℝ → Mat3 ℝ)

/-- Attributes of `InterpolationModel`, _interpolation.py L110-115. -/
structure IModel (N : ℕ) where
  ref : RefStructure N
  refPol : Mat3 ℝ
  dummy : Bool
  basis : List (Pos N ℝ)
  interps : List (ℝ → Mat3 ℝ)
  mask : List Bool

/-- `InterpolationModel.__init__`, L100-115. -/
def IModel.init (ref : RefStructure N) (refPol : Mat3 ℝ) (dummy : Bool) : IModel N :=
  { ref, refPol := if dummy then 0 else refPol, dummy, basis := [], interps := [], mask := [] }

/-- `get_amplitude`, L46-57. -/
def getAmplitude (b d : Pos N ℝ) : ℝ := dot (flat b) (flat d)

/-! ## Evaluation -/

/-- `1 - mask`. -/
def oneMinus (b : Bool) : ℝ := if b then 0 else 1

/-- Loop of `calc_polarizabilities`, L233-244: `zip(..., strict=True)` over basis vectors,
interpolations and mask; `acc` is `delta_polarizabilities`, `disps` the Cartesian
displacements of the samples. -/
def accumulate (disps : List (Pos N ℝ)) : List (Pos N ℝ) → List (ℝ → Mat3 ℝ) → List Bool →
    List (Mat3 ℝ) → Py (List (Mat3 ℝ))
  | [], [], [], acc => .ok acc
  | b :: bs, f :: fs, k :: ks, acc =>
    accumulate disps bs fs ks
      (List.zipWith (fun D a => a + oneMinus k • f (getAmplitude b D)) disps acc)
  | _, _, _, _ => .error .valueError

/-- `calc_polarizabilities`, L191-252. -/
def IModel.calcPolarizabilities (m : IModel N) (batch : List (Pos N ℝ)) : Py (List (Mat3 ℝ)) :=
  let delta := batch.map fun _ => (0 : Mat3 ℝ)
  let disps := batch.map fun p =>
    m.ref.getCartDisplacement (calcDisplacement m.ref.positions p)
  match accumulate disps m.basis m.interps m.mask delta with
  | .ok acc => .ok (acc.map (· + m.refPol))
  | .error e => if m.dummy then .error .userError else .error e

/-! ## Assembling degrees of freedom -/

/-- Loop of `np.argmax`: index of the first maximum, starting from the best one so far. -/
def argmaxFrom {ι : Type} (f : ι → ℝ) : ι → List ι → ι
  | b, [] => b
  | b, x :: xs => if f x > f b then argmaxFrom f x xs else argmaxFrom f b xs

/-- Indexes of an `(N,3)` array in memory order. -/
def posIndexes (N : ℕ) : List (Fin N × Fin 3) :=
  (List.finRange N).flatMap fun a => (List.finRange 3).map fun i => (a, i)

/-- L319-322: ratio of the components at the largest component of the group's first
displacement; `none` when the divisor is zero. -/
def multiplier (child c : Pos N ℝ) : Option ℝ :=
  match posIndexes N with
  | [] => none
  | x :: xs =>
    let i := argmaxFrom (fun i => |flat child i|) x xs
    if flat c i = 0 then none else some (flat child i / flat c i)

/-- `v / np.linalg.norm(v)` for an `(N,3)` array, `none` for `0/0`. -/
def normalizePos (v : Pos N ℝ) : Option (Pos N ℝ) :=
  if norm2 (flat v) = 0 then none else some fun a i => v a i / norm2 (flat v)

/-- Basis vector and interpolation points `(x, y)` of one degree of freedom (the code keeps
the `x` and the `y` in two lists that are appended to in lockstep). -/
structure DofGroup (N : ℕ) where
  basis : Option (Pos N ℝ)
  pts : List (Option ℝ × Mat3 ℝ)

/-- L312-314: the point contributed by the reference structure. -/
def refPoint (includeRef : Bool) : List (Option ℝ × Mat3 ℝ) :=
  if includeRef then [(some 0, 0)] else []

/-- L324-331: points contributed by one displacement of a group. -/
def groupPoints (refPol : Mat3 ℝ) (amps : List ℝ) (pols : List (Mat3 ℝ)) (mu : Option ℝ)
    (op : SymOp) : Py (List (Option ℝ × Mat3 ℝ)) :=
  (amps.zip pols).mapM fun x => do
    let inv ← npInv op.rot
    return (mu.map (· * x.1), inv * (x.2 - refPol) * op.rot)

/-- L308-340: one degree of freedom from one dictionary. -/
def dofGroup (m : IModel N) (amps : List ℝ) (pols : List (Mat3 ℝ)) (includeRef : Bool)
    (g : EqGroup N) : Py (DofGroup N) :=
  match g.displacements with
  | [] => .error .indexError
  | child :: _ => do
    let pts ← (g.displacements.zip g.transformations).mapM fun x =>
      groupPoints m.refPol amps pols (multiplier child x.1) x.2
    return ⟨normalizePos (m.ref.getCartDisplacement child), refPoint includeRef ++ pts.flatten⟩

/-- L288-298: index of the first basis vector not orthogonal to the parent displacement, or
`-1`.  A NaN displacement (`none`) is not orthogonal to anything. -/
def orthCheck (m : IModel N) (parent : Option (Pos N ℝ)) : ℤ :=
  match parent with
  | none => if m.basis.isEmpty then -1 else 0
  | some p => isOrthogonalToAll (flat (m.ref.getCartDisplacement p)) (m.basis.map flat)

/-- The single NaN dictionary that `get_equivalent_displacements` returns for a NaN
displacement, turned into points (L307-340). -/
def nanGroups (m : IModel N) (amps : List ℝ) (pols : List (Mat3 ℝ)) (includeRef : Bool) :
    Py (List (DofGroup N)) :=
  match m.ref.ops.zip m.ref.perms with
  | [] => .ok []
  | (op, _) :: _ => do
    let pts ← groupPoints m.refPol amps pols none op
    return [⟨none, refPoint includeRef ++ pts⟩]

/-- `_get_dof`, L254-342. -/
def getDof (m : IModel N) (parent : Option (Pos N ℝ)) (amps : List ℝ) (pols : List (Mat3 ℝ))
    (includeRef : Bool) : Py (List (DofGroup N)) :=
  if orthCheck m parent ≠ -1 then .error .invalidDOF
  else match parent with
    | none => nanGroups m amps pols includeRef
    | some p => do
      match ← m.ref.getEquivalentDisplacements p with
      | none => nanGroups m amps pols includeRef
      | some groups => groups.mapM (dofGroup m amps pols includeRef)

/-! ## Building interpolations -/

/-- `np.allclose(a, b)` on two numbers; false for NaN. -/
def closeOpt (a b : Option ℝ) : Bool :=
  match b with
  | none => false
  | some b => isclose a b

/-- `find_duplicates(xs) is not None`, L60-75: some pair, in order, is close. -/
def hasDuplicates : List (Option ℝ) → Bool
  | [] => false
  | x :: xs => xs.any (closeOpt x) || hasDuplicates xs

/-- The two `DOFWarning`s of L379-391. -/
inductive DofWarning
  | maxNonpositive
  | minNonnegative
  deriving DecidableEq

/-- `np.max` of a nonempty list. -/
def listMax : ℝ → List ℝ → ℝ
  | b, [] => b
  | b, x :: xs => listMax (max b x) xs

/-- `np.min` of a nonempty list. -/
def listMin : ℝ → List ℝ → ℝ
  | b, [] => b
  | b, x :: xs => listMin (min b x) xs

/-- All numbers finite: the list of values, otherwise `none`. -/
def finitePts : List (Option ℝ × Mat3 ℝ) → Option (List (ℝ × Mat3 ℝ))
  | [] => some []
  | (none, _) :: _ => none
  | (some x, y) :: l => (finitePts l).map ((x, y) :: ·)

/-- L380-391: warnings for a list of finite amplitudes. -/
def dofWarnings (xs : List ℝ) : List DofWarning :=
  match xs with
  | [] => []
  | x :: xs =>
    let M := listMax x xs
    let m := listMin x xs
    (if isclose (some M) 0 (1 / 10 ^ 3) || decide (M ≤ 0) then [.maxNonpositive] else []) ++
    (if isclose (some m) 0 (1 / 10 ^ 3) || decide (m ≥ 0) then [.minNonnegative] else [])

/-- Result of a computation that may issue warnings. -/
abbrev Warned (α : Type) := Py α × List DofWarning

/-- Loop body of `_construct_and_add_interpolations`, L366-401.  `warnErr` says whether the
warnings filter turns warnings into exceptions. -/
def buildOne (spline : SplineFn) (warnErr : Bool) (order : ℕ)
    (pts : List (Option ℝ × Mat3 ℝ)) : Warned (ℝ → Mat3 ℝ) :=
  if hasDuplicates (pts.map Prod.fst) then (.error .invalidDOF, [])
  else if pts.length ≤ order then (.error .invalidDOF, [])
  else match finitePts pts with
    | none => (.error .valueError, [])
    | some fin =>
      let ws := dofWarnings (fin.map Prod.fst)
      if warnErr && !ws.isEmpty then (.error .dofWarning, [])
      else (spline order (fin.insertionSort fun a b => a.1 ≤ b.1), ws)

/-- Loop of `_construct_and_add_interpolations`, L363-401. -/
def buildAll (spline : SplineFn) (warnErr : Bool) (order : ℕ) :
    List (DofGroup N) → Warned (List (ℝ → Mat3 ℝ))
  | [] => (.ok [], [])
  | g :: gs =>
    match buildOne spline warnErr order g.pts with
    | (.error e, ws) => (.error e, ws)
    | (.ok f, ws) =>
      match buildAll spline warnErr order gs with
      | (.error e, ws') => (.error e, ws ++ ws')
      | (.ok fs, ws') => (.ok (f :: fs), ws ++ ws')

/-- Outcome of a method call: returned value or exception, warnings, new state. -/
structure Outcome (N : ℕ) where
  result : Py Unit
  warnings : List DofWarning
  state : IModel N

/-- `basis_vectors_to_add`; a NaN vector is outside the model. -/
def finiteBasis (gs : List (DofGroup N)) : Py (List (Pos N ℝ)) :=
  gs.mapM fun g => match g.basis with
    | none => .error .unmodelled
    | some b => .ok b

/-- `_construct_and_add_interpolations`, L344-407. -/
def constructAndAdd (spline : SplineFn) (warnErr : Bool) (m : IModel N)
    (groups : List (DofGroup N)) (order : ℤ) : Outcome N :=
  if order < 1 then ⟨.error .valueError, [], m⟩
  else match buildAll spline warnErr order.toNat groups with
    | (.error e, ws) => ⟨.error e, ws, m⟩
    | (.ok interps, ws) =>
      match finiteBasis groups with
      | .error e => ⟨.error e, ws, m⟩
      | .ok basis =>
        let m := { m with basis := m.basis ++ basis }
        let m := if m.dummy then m else { m with interps := m.interps ++ interps }
        let m := { m with mask := m.mask ++ List.replicate basis.length false }
        ⟨.ok (), ws, m⟩

/-- `add_dof` L453-458: `displacement / np.linalg.norm(displacement * 10.0)`. -/
def normalizeTenth (d : Pos N ℝ) : Option (Pos N ℝ) :=
  let n := norm2 (flat fun a i => d a i * 10)
  if n = 0 then none else some fun a i => d a i / n

/-- `add_dof` L453-458. -/
def parentDisplacement (m : IModel N) (cart : Option (Pos N ℝ)) : Py (Option (Pos N ℝ)) :=
  match cart with
  | none => do
    let _ ← npInv m.ref.lattice
    return none
  | some c => do
    let d ← m.ref.getFracDisplacement c
    return normalizeTenth d

/-- `add_dof` up to and including `_get_dof`, L453-472. -/
def prepareDof (m : IModel N) (cart : Option (Pos N ℝ)) (amps : List ℝ)
    (pols : List (Mat3 ℝ)) (includeRef : Bool) : Py (List (DofGroup N)) := do
  let parent ← parentDisplacement m cart
  let pols := if m.dummy then amps.map fun _ => (0 : Mat3 ℝ) else pols
  if pols.length ≠ amps.length then .error .valueError
  else getDof m parent amps pols includeRef

/-- `add_dof`, L410-480, for a displacement that may be NaN (`none`). -/
def IModel.addDofNan (spline : SplineFn) (warnErr : Bool) (m : IModel N)
    (cart : Option (Pos N ℝ)) (amps : List ℝ) (pols : List (Mat3 ℝ)) (order : ℤ)
    (includeRef : Bool) : Outcome N :=
  match prepareDof m cart amps pols includeRef with
  | .error e => ⟨.error e, [], m⟩
  | .ok groups => constructAndAdd spline warnErr m groups order

/-- `add_dof`, L410-480. -/
def IModel.addDof (spline : SplineFn) (warnErr : Bool) (m : IModel N) (cart : Pos N ℝ)
    (amps : List ℝ) (pols : List (Mat3 ℝ)) (order : ℤ) (includeRef : Bool := true) : Outcome N :=
  m.addDofNan spline warnErr (some cart) amps pols order includeRef

/-! ## Degrees of freedom from files -/

/-- What reading one file yields: positions (`none`: shape incompatible with the reference
structure) and polarizability (a zero tensor for dummy models, L661-667). -/
abbrev DofFile (N : ℕ) := Py (Option (Pos N ℝ) × Mat3 ℝ)

/-- Loop of `_read_dof`, L660-677. -/
def readDofFiles (m : IModel N) : List (DofFile N) → Py (List (Pos N ℝ × Mat3 ℝ))
  | [] => .ok []
  | f :: fs => do
    match ← f with
    | (none, _) => .error .invalidDOF
    | (some p, pol) => do
      let rest ← readDofFiles m fs
      return (calcDisplacement m.ref.positions p, if m.dummy then 0 else pol) :: rest

/-- `_read_dof`, L629-695 (`_get_displacement_amplitudes_pymatgen`, L528-583, is in
`Verif.Model.PymatgenDof`). -/
def readDof (m : IModel N) (files : List (DofFile N)) :
    Py (List (Pos N ℝ) × List ℝ × List (Mat3 ℝ)) := do
  let data ← readDofFiles m files
  let displacements := data.map Prod.fst
  match displacements with
  | [] => .error .indexError
  | d0 :: _ =>
    if isCollinearWithAll (flat d0) (displacements.map flat) ≠ -1 then .error .invalidDOF
    else match normalizePos (m.ref.getCartDisplacement d0) with
      | none => .error .unmodelled
      | some b =>
        return (displacements, displacements.map fun d => getAmplitude b (m.ref.getCartDisplacement d),
          data.map Prod.snd)

/-- `add_dof_from_files`, L482-526. -/
def IModel.addDofFromFiles (spline : SplineFn) (warnErr : Bool) (m : IModel N)
    (files : List (DofFile N)) (order : ℤ) : Outcome N :=
  match readDof m files with
  | .error e => ⟨.error e, [], m⟩
  | .ok ([], _, _) => ⟨.error .indexError, [], m⟩
  | .ok (d0 :: _, amps, pols) =>
    m.addDof spline warnErr (m.ref.getCartDisplacement d0) amps pols order

/-! ## Masking -/

/-- `mask` setter, L174-189. -/
def IModel.setMask (m : IModel N) (value : List Bool) : Outcome N :=
  if value.length ≠ m.mask.length then ⟨.error .valueError, [], m⟩
  else ⟨.ok (), [], { m with mask := value }⟩

/-- `new_mask[indexes] = True` with a list of integers (all indexes are checked before
anything is assigned). -/
def maskIndexes (n : ℕ) : List ℤ → Option (List (Fin n))
  | [] => some []
  | i :: is => do
    let k ← pyIndex n i
    let ks ← maskIndexes n is
    return k :: ks

/-- `get_masked_model`, L697-708. -/
def IModel.getMaskedModel (m : IModel N) (idx : List ℤ) : Py (IModel N) :=
  match maskIndexes m.mask.length idx with
  | none => .error .indexError
  | some ks => .ok { m with mask := (List.finRange m.mask.length).map fun i => decide (i ∈ ks) }

/-- `unmask`, L710-712. -/
def IModel.unmask (m : IModel N) : IModel N :=
  { m with mask := m.mask.map fun _ => false }

end

end Verif
