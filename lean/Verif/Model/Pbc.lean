import Verif.Model.Base

/-!
# Model of `/repo/ramannoodle/structure/utils.py` and `verify_positions`

Arithmetic is exact over a linearly ordered field with floor.  The `TypeError`
translations (non-array arguments) are not modelled: arguments are arrays of matching
shape by typing.
-/

namespace Verif

variable {K : Type} [Field K] [LinearOrder K] [IsStrictOrderedRing K] [FloorRing K] {N : ℕ}

/-- One coordinate of `apply_pbc`, utils.py L27: `positions - positions // 1`. -/
def pbc1 (x : K) : K := x - pyFloorDiv x 1

/-- One coordinate of `apply_pbc_displacement`, utils.py L46:
`np.where(d % 1 > 0.5, d % 1 - 1, d % 1)`. -/
def wrap1 (d : K) : K := if pyMod d 1 > 1 / 2 then pyMod d 1 - 1 else pyMod d 1

/-- `apply_pbc`, utils.py L13-29. -/
def applyPbc (p : Pos N K) : Pos N K := fun a i => pbc1 (p a i)

/-- `apply_pbc_displacement`, utils.py L32-48. -/
def applyPbcDisplacement (d : Pos N K) : Pos N K := fun a i => wrap1 (d a i)

/-- `displace_positions`, utils.py L51-72. -/
def displacePositions (p d : Pos N K) : Pos N K :=
  applyPbc (fun a i => applyPbc p a i + applyPbcDisplacement d a i)

/-- A `(3,)` array broadcast against `(N,3)` (used by utils.py L107 and
_reference.py L40). -/
def bcast (t : Fin 3 → K) : Pos N K := fun _ i => t i

/-- Value check of `verify_positions`, exceptions.py L126-134 (the shape check is modelled
in `Verif.Model.Shape`). -/
def verifyPositions (p : Pos N K) : Py Unit :=
  if (∃ a i, 0 > p a i) ∨ (∃ a i, p a i > 1) then .error .valueError else .ok ()

/-- `positions @ rotation`. -/
def matMulPos (p : Pos N K) (R : Mat3 K) : Pos N K := fun a j => ∑ i, p a i * R i j

/-- `transform_positions`, utils.py L75-107. -/
def transformPositions (p : Pos N K) (R : Mat3 K) (t : Fin 3 → K) : Py (Pos N K) := do
  verifyPositions p
  let p := applyPbc p
  let rotated := matMulPos p R
  let rotated := applyPbc rotated
  return displacePositions rotated (bcast t)

/-- `calc_displacement`, utils.py L110-135. -/
def calcDisplacement (p1 p2 : Pos N K) : Pos N K :=
  let p1 := applyPbc p1
  let p2 := applyPbc p2
  applyPbcDisplacement (fun a i => p2 a i - p1 a i)

/-! ## The same with rounding after each arithmetic operation

`rnd` rounds the exact result of an operation to a representable number.  `x // 1` is
exact (the floor of a float is a float), so only the subtraction rounds. -/

/-- One coordinate of `apply_pbc` in rounded arithmetic, utils.py L27. -/
def pbc1R (rnd : K → K) (x : K) : K := rnd (x - pyFloorDiv x 1)

/-- `x % 1` in rounded arithmetic. -/
def mod1R (rnd : K → K) (x : K) : K := rnd (pyMod x 1)

/-- One coordinate of `apply_pbc_displacement` in rounded arithmetic, utils.py L46. -/
def wrap1R (rnd : K → K) (d : K) : K :=
  if mod1R rnd d > 1 / 2 then rnd (mod1R rnd d - 1) else mod1R rnd d

/-- `apply_pbc` in rounded arithmetic. -/
def applyPbcR (rnd : K → K) (p : Pos N K) : Pos N K := fun a i => pbc1R rnd (p a i)

/-- `displace_positions` in rounded arithmetic, utils.py L51-72. -/
def displacePositionsR (rnd : K → K) (p d : Pos N K) : Pos N K :=
  applyPbcR rnd (fun a i => rnd (pbc1R rnd (p a i) + wrap1R rnd (d a i)))

/-- `calc_displacement` in rounded arithmetic, utils.py L110-135. -/
def calcDisplacementR (rnd : K → K) (p1 p2 : Pos N K) : Pos N K :=
  fun a i => wrap1R rnd (rnd (pbc1R rnd (p2 a i) - pbc1R rnd (p1 a i)))

end Verif
