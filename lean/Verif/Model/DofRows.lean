import Verif.Model.Interpolation

/-!
# `add_dof` with a displacement for another number of atoms

`add_dof` (`/repo/ramannoodle/pmodel/_interpolation.py` L410-480) never compares the number of
rows of `cart_displacement` with the number of atoms: `get_frac_displacement`
(`/repo/ramannoodle/structure/_reference.py` L306-323) accepts every shape `(M,3)`.  Here the
displacement has `M` rows and NumPy's shape rules decide what happens.  Argument types are
excluded as in `Verif.Model.Interpolation`.
-/

namespace Verif

noncomputable section

variable {M N : ℕ}

/-- `positions + displacement` of `displace_positions`, utils.py L72, for `M` rows against `N`
positions when the sum has `N` rows: equal numbers of rows or a single row, which is added to
every position.  `none`: the sum does not have `N` rows. -/
def broadcastRows (N : ℕ) (d : Pos M ℝ) : Option (Pos N ℝ) :=
  if h : M = N then some fun a => d (a.cast h.symm)
  else if h : M = 1 then some fun _ => d ⟨0, by omega⟩
  else none

/-- `get_frac_displacement`, _reference.py L306-323, and `add_dof` L455: fractional displacement
divided by the norm of ten times itself; `none` is NaN.  An array without rows stays as it is. -/
def parentRows (m : IModel N) (cart : Pos M ℝ) : Py (Option (Pos M ℝ)) := do
  let inv ← npInv m.ref.lattice
  let d := applyPbcDisplacement (matMulPos cart inv)
  return if M = 0 then some d else normalizeTenth d

/-- `is_orthogonal_to_all` in `_get_dof`, L288-298: the first `np.dot` fails when the numbers of
components differ. -/
def orthRows (m : IModel N) (parent : Option (Pos M ℝ)) : Py ℤ :=
  if h : M = N then .ok (orthCheck m (parent.map fun p a => p (a.cast h.symm)))
  else if m.basis.isEmpty then .ok (-1)
  else .error .valueError

/-- The body of the loop of `get_equivalent_displacements` for displaced positions with `M` rows
against a single atom, _reference.py L217-220: `permutation_matrix @ candidate_positions` of
shapes `(1,1)` and `(M,3)` fails. -/
def singleAtomLoop : List (SymOp × PermMat N) → Py (Option (List (EqGroup N)))
  | [] => .ok (some [])
  | _ :: _ => .error .valueError

/-- `get_equivalent_displacements`, _reference.py L183-266, for a displacement with `M` rows.
As in `getEquivalentDisplacements`, `none` is the NaN-poisoned result. -/
def equivalentRows (s : RefStructure N) (d : Pos M ℝ) : Py (Option (List (EqGroup N))) :=
  match (if M = 0 then some (applyPbcDisplacement d) else scaleDisplacement d) with
  | none =>
    if M = N ∨ M = 1 then if (s.ops.zip s.perms).isEmpty then .ok (some []) else .ok none
    else if N = 1 then singleAtomLoop (s.ops.zip s.perms) else .error .valueError
  | some d =>
    match broadcastRows N d with
    | none => if N = 1 then singleAtomLoop (s.ops.zip s.perms) else .error .valueError
    | some d => do
      let refPositions := displacePositions s.positions d
      let st ← eqLoop s.positions refPositions (s.ops.zip s.perms) ⟨[], []⟩
      return some st.result

/-- `_get_dof`, L254-342, for a displacement with `M` rows. -/
def getDofRows (m : IModel N) (parent : Option (Pos M ℝ)) (amps : List ℝ) (pols : List (Mat3 ℝ))
    (includeRef : Bool) : Py (List (DofGroup N)) := do
  if (← orthRows m parent) ≠ -1 then .error .invalidDOF
  else match parent with
    | none =>
      if M = N ∨ M = 1 then nanGroups m amps pols includeRef
      else if N = 1 ∧ (m.ref.ops.zip m.ref.perms).isEmpty then .ok [] else .error .valueError
    | some p =>
      match ← equivalentRows m.ref p with
      | none => nanGroups m amps pols includeRef
      | some groups => groups.mapM (dofGroup m amps pols includeRef)

/-- `add_dof` up to and including `_get_dof`, L453-472, for a displacement with `M` rows. -/
def prepareRows (m : IModel N) (cart : Pos M ℝ) (amps : List ℝ) (pols : List (Mat3 ℝ))
    (includeRef : Bool) : Py (List (DofGroup N)) := do
  let parent ← parentRows m cart
  let pols := if m.dummy then amps.map fun _ => (0 : Mat3 ℝ) else pols
  if pols.length ≠ amps.length then .error .valueError
  else getDofRows m parent amps pols includeRef

/-- `add_dof`, L410-480, for a displacement with `M` rows. -/
def IModel.addDofRows (spline : SplineFn) (warnErr : Bool) (m : IModel N) (cart : Pos M ℝ)
    (amps : List ℝ) (pols : List (Mat3 ℝ)) (order : ℤ) (includeRef : Bool := true) : Outcome N :=
  match prepareRows m cart amps pols includeRef with
  | .error e => ⟨.error e, [], m⟩
  | .ok groups => constructAndAdd spline warnErr m groups order

end

end Verif
