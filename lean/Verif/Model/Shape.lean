import Verif.Model.Base

/-!
# Shapes of arrays

`verify_ndarray_shape` of `/repo/ramannoodle/exceptions.py` L86-105 (and its copy for tensors,
`verify_tensor_size` of `/repo/ramannoodle/dataset/torch/utils.py` L93-110), and the shapes that
pass through `InterpolationModel.calc_polarizabilities`
(`/repo/ramannoodle/pmodel/_interpolation.py` L191-252).  An array is represented by its shape.
-/

namespace Verif

/-- Loop over `zip(array.shape, shape, strict=True)`, exceptions.py L101-103. -/
def compareDims : List ℕ → List (Option ℕ) → Py Unit
  | [], [] => .ok ()
  | _ :: ds, none :: ps => compareDims ds ps
  | d :: ds, some p :: ps => if d ≠ p then .error .valueError else compareDims ds ps
  | _, _ => .error .valueError

/-- `verify_ndarray_shape(name, array, shape)`, exceptions.py L86-105. -/
def verifyShape (shape : List ℕ) (pattern : List (Option ℕ)) : Py Unit :=
  if pattern.length ≠ shape.length then .error .valueError else compareDims shape pattern

/-- NumPy broadcasting of one dimension. -/
def broadcastDim (a b : ℕ) : Option ℕ :=
  if a = b then some a else if a = 1 then some b else if b = 1 then some a else none

/-- NumPy broadcasting of shapes given from the last dimension to the first. -/
def broadcastRev : List ℕ → List ℕ → Option (List ℕ)
  | [], bs => some bs
  | as, [] => some as
  | a :: as, b :: bs =>
    match broadcastDim a b, broadcastRev as bs with
    | some d, some ds => some (d :: ds)
    | _, _ => none

/-- NumPy broadcasting of shapes. -/
def broadcast (as bs : List ℕ) : Option (List ℕ) :=
  (broadcastRev as.reverse bs.reverse).map List.reverse

/-- `array @ lattice` where `lattice` has shape `(3,3)`: the last dimension has to be 3. -/
def matmulLattice (shape : List ℕ) : Py (List ℕ) :=
  if shape.getLast? = some 3 then .ok shape else .error .valueError

/-- `array.reshape(array.shape[0], array.shape[1] * array.shape[2])`. -/
def reshapeBatch (shape : List ℕ) : Py (List ℕ) :=
  match shape with
  | a :: b :: c :: rest =>
    if (a :: b :: c :: rest).prod = a * (b * c) then .ok [a, b * c] else .error .valueError
  | _ => .error .indexError

/-- Conversion of positions into flattened Cartesian displacements with translation of errors,
_interpolation.py L213-229.  `get_shape_error` is a `ValueError`. -/
def displacementShape (N : ℕ) (shape : List ℕ) : Py (List ℕ) :=
  match shape with
  | [] => .error .valueError
  | _ :: _ =>
    match broadcast shape [N, 3] with
    | none => .error .valueError
    | some d =>
      match matmulLattice d >>= reshapeBatch with
      | .error .indexError => .error .valueError
      | r => r

/-- One pass of the loop over degrees of freedom, _interpolation.py L233-244: `einsum("i,ji")` of
shapes `(3N,)` and `(A,B)` needs `3N` and `B` to broadcast; the `(A,3,3)` values are added to the
`(S,3,3)` array in place. -/
def dofShape (N S A B : ℕ) : Py Unit :=
  if (broadcastDim (N * 3) B).isSome ∧ broadcastDim S A = some S then .ok () else .error .valueError

/-- `InterpolationModel.calc_polarizabilities` on shapes, _interpolation.py L191-252: shape of the
result for a model (not a dummy model) of `N` atoms with `dofs` degrees of freedom. -/
def calcPolShape (N dofs : ℕ) (shape : List ℕ) : Py (List ℕ) := do
  let d ← displacementShape N shape
  match shape, d with
  | S :: _, [A, B] => do
    let _ ← (List.replicate dofs ()).mapM fun _ => dofShape N S A B
    return [S, 3, 3]
  | _, _ => .error .valueError

end Verif
