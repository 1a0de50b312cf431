import Verif.Model.Art

/-!
# Model of `add_dof` on data that need not be finite

`/repo/ramannoodle/pmodel/_interpolation.py` L254-342, L344-407 and L410-480, for amplitudes,
polarizabilities and reference polarizabilities that may hold NaN or infinities.  The functions follow
those of `Verif.Model.Interpolation`, which have real data.

SciPy's `make_interp_spline` checks its arrays first (`check_finite=True`) and raises `ValueError` for
NaN and infinities.  The `RuntimeWarning`s of NumPy's arithmetic are not modelled; `warnErr` concerns
`DOFWarning` only.
-/

namespace Verif

noncomputable section

variable {N : ℕ}

/-- A 64-bit float; finite numbers are exact. -/
inductive FReal
  | nan
  | inf (negative : Bool)
  | num (x : ℝ)

/-- The finite value, if there is one. -/
def FReal.finite? : FReal → Option ℝ
  | .num x => some x
  | _ => none

/-- `multiplier * amplitude`, _interpolation.py L325; `none` is a NaN multiplier. -/
def FReal.scale (mu : Option ℝ) (x : FReal) : FReal :=
  match mu, x with
  | none, _ => .nan
  | some _, .nan => .nan
  | some c, .inf negative =>
    if c = 0 then .nan else if c < 0 then .inf !negative else .inf negative
  | some c, .num x => .num (c * x)

/-- `np.allclose(a, b)` on two numbers: infinities are close to themselves, NaN to nothing. -/
def FReal.close : FReal → FReal → Bool
  | .num a, .num b => isclose (some a) b
  | .inf a, .inf b => a == b
  | _, _ => false

/-- `find_duplicates(xs) is not None`, _interpolation.py L60-75. -/
def hasDuplicatesF : List FReal → Bool
  | [] => false
  | x :: xs => xs.any (FReal.close x) || hasDuplicatesF xs

/-- The larger of two numbers; NaN prevails. -/
def FReal.max : FReal → FReal → FReal
  | .nan, _ => .nan
  | _, .nan => .nan
  | .inf false, _ => .inf false
  | _, .inf false => .inf false
  | .inf true, b => b
  | a, .inf true => a
  | .num a, .num b => .num (Max.max a b)

/-- The smaller of two numbers; NaN prevails. -/
def FReal.min : FReal → FReal → FReal
  | .nan, _ => .nan
  | _, .nan => .nan
  | .inf true, _ => .inf true
  | _, .inf true => .inf true
  | .inf false, b => b
  | a, .inf false => a
  | .num a, .num b => .num (Min.min a b)

/-- `np.max` of a nonempty list. -/
def maxF : FReal → List FReal → FReal
  | b, [] => b
  | b, x :: xs => maxF (b.max x) xs

/-- `np.min` of a nonempty list. -/
def minF : FReal → List FReal → FReal
  | b, [] => b
  | b, x :: xs => minF (b.min x) xs

/-- `np.allclose(max, 0, atol=1e-3) or max <= 0`, L382. -/
def FReal.notAboveZero : FReal → Bool
  | .nan => false
  | .inf negative => negative
  | .num x => isclose (some x) 0 (1 / 10 ^ 3) || decide (x ≤ 0)

/-- `np.allclose(min, 0, atol=1e-3) or min >= 0`, L387. -/
def FReal.notBelowZero : FReal → Bool
  | .nan => false
  | .inf negative => !negative
  | .num x => isclose (some x) 0 (1 / 10 ^ 3) || decide (x ≥ 0)

/-- The warnings of L380-391. -/
def dofWarningsF : List FReal → List DofWarning
  | [] => []
  | x :: xs =>
    (if (maxF x xs).notAboveZero then [.maxNonpositive] else []) ++
    (if (minF x xs).notBelowZero then [.minNonnegative] else [])

/-- An interpolation point; a tensor with an entry that is not finite is `none`. -/
abbrev PointF := FReal × Option (Mat3 ℝ)

/-- Basis vector and points of one degree of freedom. -/
structure DofGroupF (N : ℕ) where
  basis : Option (Pos N ℝ)
  pts : List PointF

/-- L312-314. -/
def refPointF (includeRef : Bool) : List PointF :=
  if includeRef then [(.num 0, some 0)] else []

/-- `inv(rotation) @ (polarizability - reference) @ rotation`, L326-330.  A product of an entry that is
not finite with any number is not finite, and neither is a sum with such a term. -/
def rotatedDifference (inv rot : Mat3 ℝ) (pol ref : Option (Mat3 ℝ)) : Option (Mat3 ℝ) :=
  match pol, ref with
  | some a, some b => some (inv * (a - b) * rot)
  | _, _ => none

/-- L324-331. -/
def groupPointsF (ref : Option (Mat3 ℝ)) (amps : List FReal) (pols : List (Option (Mat3 ℝ)))
    (mu : Option ℝ) (op : SymOp) : Py (List PointF) :=
  (amps.zip pols).mapM fun x => do
    let inv ← npInv op.rot
    return (x.1.scale mu, rotatedDifference inv op.rot x.2 ref)

/-- L308-340. -/
def dofGroupF (m : IModel N) (ref : Option (Mat3 ℝ)) (amps : List FReal)
    (pols : List (Option (Mat3 ℝ))) (includeRef : Bool) (g : EqGroup N) : Py (DofGroupF N) :=
  match g.displacements with
  | [] => .error .indexError
  | child :: _ => do
    let pts ← (g.displacements.zip g.transformations).mapM fun x =>
      groupPointsF ref amps pols (multiplier child x.1) x.2
    return ⟨normalizePos (m.ref.getCartDisplacement child), refPointF includeRef ++ pts.flatten⟩

/-- L307-340 for the dictionary of a NaN displacement. -/
def nanGroupsF (m : IModel N) (ref : Option (Mat3 ℝ)) (amps : List FReal)
    (pols : List (Option (Mat3 ℝ))) (includeRef : Bool) : Py (List (DofGroupF N)) :=
  match m.ref.ops.zip m.ref.perms with
  | [] => .ok []
  | (op, _) :: _ => do
    let pts ← groupPointsF ref amps pols none op
    return [⟨none, refPointF includeRef ++ pts⟩]

/-- `_get_dof`, L254-342. -/
def getDofF (m : IModel N) (parent : Option (Pos N ℝ)) (ref : Option (Mat3 ℝ)) (amps : List FReal)
    (pols : List (Option (Mat3 ℝ))) (includeRef : Bool) : Py (List (DofGroupF N)) :=
  if orthCheck m parent ≠ -1 then .error .invalidDOF
  else match parent with
    | none => nanGroupsF m ref amps pols includeRef
    | some p => do
      match ← m.ref.getEquivalentDisplacements p with
      | none => nanGroupsF m ref amps pols includeRef
      | some groups => groups.mapM (dofGroupF m ref amps pols includeRef)

/-- The points if all numbers are finite. -/
def finitePtsF : List PointF → Option (List (ℝ × Mat3 ℝ))
  | [] => some []
  | (.num x, some y) :: l => (finitePtsF l).map ((x, y) :: ·)
  | _ :: _ => none

/-- Loop body of `_construct_and_add_interpolations`, L366-401. -/
def buildOneF (spline : SplineFn) (warnErr : Bool) (order : ℕ) (pts : List PointF) :
    Warned (ℝ → Mat3 ℝ) :=
  if hasDuplicatesF (pts.map Prod.fst) then (.error .invalidDOF, [])
  else if pts.length ≤ order then (.error .invalidDOF, [])
  else
    let ws := dofWarningsF (pts.map Prod.fst)
    if warnErr && !ws.isEmpty then (.error .dofWarning, [])
    else match finitePtsF pts with
      | none => (.error .valueError, ws)
      | some fin => (spline order (fin.insertionSort fun a b => a.1 ≤ b.1), ws)

/-- Loop of `_construct_and_add_interpolations`, L363-401. -/
def buildAllF (spline : SplineFn) (warnErr : Bool) (order : ℕ) :
    List (DofGroupF N) → Warned (List (ℝ → Mat3 ℝ))
  | [] => (.ok [], [])
  | g :: gs =>
    match buildOneF spline warnErr order g.pts with
    | (.error e, ws) => (.error e, ws)
    | (.ok f, ws) =>
      match buildAllF spline warnErr order gs with
      | (.error e, ws') => (.error e, ws ++ ws')
      | (.ok fs, ws') => (.ok (f :: fs), ws ++ ws')

/-- `basis_vectors_to_add`; a NaN vector is outside the model. -/
def finiteBasisF (gs : List (DofGroupF N)) : Py (List (Pos N ℝ)) :=
  gs.mapM fun g => match g.basis with
    | none => .error .unmodelled
    | some b => .ok b

/-- `_construct_and_add_interpolations`, L344-407. -/
def constructAndAddF (spline : SplineFn) (warnErr : Bool) (m : IModel N)
    (groups : List (DofGroupF N)) (order : ℤ) : Outcome N :=
  if order < 1 then ⟨.error .valueError, [], m⟩
  else match buildAllF spline warnErr order.toNat groups with
    | (.error e, ws) => ⟨.error e, ws, m⟩
    | (.ok interps, ws) =>
      match finiteBasisF groups with
      | .error e => ⟨.error e, ws, m⟩
      | .ok basis =>
        let m := { m with basis := m.basis ++ basis }
        let m := if m.dummy then m else { m with interps := m.interps ++ interps }
        let m := { m with mask := m.mask ++ List.replicate basis.length false }
        ⟨.ok (), ws, m⟩

/-- `add_dof` up to and including `_get_dof`, L453-472. -/
def prepareDofF (m : IModel N) (ref : Option (Mat3 ℝ)) (cart : Option (Pos N ℝ)) (amps : List FReal)
    (pols : List (Option (Mat3 ℝ))) (includeRef : Bool) : Py (List (DofGroupF N)) := do
  let parent ← parentDisplacement m cart
  let pols := if m.dummy then amps.map fun _ => some (0 : Mat3 ℝ) else pols
  if pols.length ≠ amps.length then .error .valueError
  else getDofF m parent ref amps pols includeRef

/-- `add_dof`, L410-480.  `ref` is the reference polarizability (`none`: some entry is not finite; the
constructor, L100-115, does not look at the entries); `m.refPol` is not used.  A displacement with an
entry that is not finite is `none`. -/
def IModel.addDofF (spline : SplineFn) (warnErr : Bool) (m : IModel N) (ref : Option (Mat3 ℝ))
    (cart : Option (Pos N ℝ)) (amps : List FReal) (pols : List (Option (Mat3 ℝ))) (order : ℤ)
    (includeRef : Bool) : Outcome N :=
  match prepareDofF m ref cart amps pols includeRef with
  | .error e => ⟨.error e, [], m⟩
  | .ok groups => constructAndAddF spline warnErr m groups order

end

end Verif
