import Verif.Model.Symmetry
import Verif.Model.Constants
import Mathlib.LinearAlgebra.Matrix.NonsingularInverse

/-!
# Model of `/repo/ramannoodle/structure/_reference.py`

`spglib.get_symmetry` is a parameter.  Shape and type checks of the constructor are
excluded by typing (shape validation is modelled in `Verif.Model.Shape`).
-/

namespace Verif

noncomputable section

variable {N : ℕ}

/-- Arrays of shape `(3,)`. -/
abbrev Vec3 := Fin 3 → ℝ

/-- One symmetry operation `(rotation, translation)` as returned by spglib. -/
structure SymOp where
  rot : Mat3 ℝ
  trans : Vec3

/-- What `spglib.get_symmetry` returns (the keys used by the code). -/
structure SymDict where
  ops : List SymOp
  equivAtoms : List ℕ

/-- A boolean `(N,N)` permutation matrix. -/
abbrev PermMat (N : ℕ) := Fin N → Fin N → Bool

/-- `(N,3)` array after `.flatten()`. -/
def flat (d : Pos N ℝ) : Fin N × Fin 3 → ℝ := fun x => d x.1 x.2

/-- `_get_positions_permutation_matrix`, _reference.py L49-72: entry `(j,i)` says whether
reference position `j` and permuted position `i` are within `1e-5` (fractional). -/
def permMatrix (ref perm : Pos N ℝ) : PermMat N := fun j i =>
  decide (Real.sqrt (∑ c, (wrap1 (ref j c - perm i c)) ^ 2) < 1 / 10 ^ 5)

/-- `permutation_matrix @ positions`. -/
def permApply (P : PermMat N) (p : Pos N ℝ) : Pos N ℝ := fun j c =>
  ∑ i, (if P j i then 1 else 0) * p i c

/-- `np.array([0.5, 0.5, 0.5]) - np.mean(positions, axis=0)`, _reference.py L34. -/
def comShift (p : Pos N ℝ) : Vec3 := fun i => 1 / 2 - (∑ a, p a i) / N

/-- Body of the loop of `_compute_permutation_matrices`, _reference.py L38-45, for an
arbitrary shift. -/
def permMatrixOf (shift : Vec3) (p : Pos N ℝ) (op : SymOp) : Py (PermMat N) := do
  let moved ← transformPositions p op.rot (fun i => op.trans i + shift i)
  return permMatrix (displacePositions p (bcast shift)) moved

/-- `_compute_permutation_matrices`, _reference.py L26-46. -/
def computePermutationMatrices (ops : List SymOp) (p : Pos N ℝ) : Py (List (PermMat N)) :=
  ops.mapM (permMatrixOf (comShift p) p)

/-- `ReferenceStructure`, attributes set in _reference.py L110-125. -/
structure RefStructure (N : ℕ) where
  atomicNumbers : Fin N → ℕ
  lattice : Mat3 ℝ
  positions : Pos N ℝ
  ops : List SymOp
  perms : List (PermMat N)
  equivAtoms : List ℕ

/-- `ReferenceStructure.__init__`, _reference.py L98-125. -/
def RefStructure.init (spglib : Mat3 ℝ → Pos N ℝ → (Fin N → ℕ) → Option SymDict)
    (atomicNumbers : Fin N → ℕ) (lattice : Mat3 ℝ) (positions : Pos N ℝ) :
    Py (RefStructure N) :=
  match spglib lattice positions atomicNumbers with
  | none => .error .symmetry
  | some sym => do
    let perms ← computePermutationMatrices sym.ops positions
    return ⟨atomicNumbers, lattice, positions, sym.ops, perms, sym.equivAtoms⟩

/-! ## Equivalent atoms -/

/-- `result[key].append(x)` on a dictionary; `none` is `KeyError`. -/
def dictAppend (d : List (ℕ × List ℕ)) (key x : ℕ) : Option (List (ℕ × List ℕ)) :=
  match d with
  | [] => none
  | (k, l) :: d =>
    if k = key then some ((k, l ++ [x]) :: d)
    else (dictAppend d key x).map ((k, l) :: ·)

/-- `result[key] = []` on a dictionary. -/
def dictSetEmpty (d : List (ℕ × List ℕ)) (key : ℕ) : List (ℕ × List ℕ) :=
  match d with
  | [] => [(key, [])]
  | (k, l) :: d => if k = key then (k, []) :: d else (k, l) :: dictSetEmpty d key

/-- Loop of `get_equivalent_atom_dict`, _reference.py L176-180, from index `i` on. -/
def equivAtomLoop (i : ℕ) (eqs : List ℕ) (d : List (ℕ × List ℕ)) :
    Py (List (ℕ × List ℕ)) :=
  match eqs with
  | [] => .ok d
  | e :: eqs =>
    if i = e then equivAtomLoop (i + 1) eqs (dictSetEmpty d i)
    else match dictAppend d e i with
      | none => .error .keyError
      | some d => equivAtomLoop (i + 1) eqs d

/-- `get_equivalent_atom_dict`, _reference.py L165-181. -/
def RefStructure.getEquivalentAtomDict (s : RefStructure N) : Py (List (ℕ × List ℕ)) :=
  equivAtomLoop 0 s.equivAtoms []

/-- `num_nonequivalent_atoms`, _reference.py L159-163: `len(set(equivalent_atoms))`. -/
def RefStructure.numNonequivalentAtoms (s : RefStructure N) : ℕ := s.equivAtoms.dedup.length

/-! ## Equivalent displacements -/

/-- One dictionary of the result of `get_equivalent_displacements`. -/
structure EqGroup (N : ℕ) where
  displacements : List (Pos N ℝ)
  transformations : List SymOp

/-- Local variables `result` and `orthogonal_displacements`, _reference.py L210-211. -/
structure EqState (N : ℕ) where
  result : List (EqGroup N)
  orth : List (Pos N ℝ)

/-- _reference.py L217-224: candidate displacement produced by one operation. -/
def candidate (positions refPositions : Pos N ℝ) (op : SymOp) (P : PermMat N) :
    Py (Pos N ℝ) := do
  let c ← transformPositions refPositions op.rot op.trans
  let c := permApply P c
  return calcDisplacement positions c

/-- `np.isclose(c, m, atol=1e-05).all()`, _reference.py L252-254. -/
def allClose5 (c m : Pos N ℝ) : Bool :=
  decide (∀ a i, |c a i - m a i| ≤ 1 / 10 ^ 5 + 1 / 10 ^ 5 * |m a i|)

/-- Update element `k` of a list in place. -/
def modAt {α : Type} (f : α → α) : ℕ → List α → List α
  | _, [] => []
  | 0, x :: xs => f x :: xs
  | k + 1, x :: xs => x :: modAt f k xs

/-- _reference.py L226-264: file a candidate. -/
def eqInsert (st : EqState N) (op : SymOp) (c : Pos N ℝ) : EqState N :=
  if isOrthogonalToAll (flat c) (st.orth.map flat) = -1 then
    { result := st.result ++ [⟨[c], [op]⟩], orth := st.orth ++ [c] }
  else
    let r := isNonCollinearWithAll (flat c) (st.orth.map flat)
    if r ≠ -1 then
      { st with result := modAt (fun g =>
          if g.displacements.any (fun m => allClose5 c m) then g
          else ⟨g.displacements ++ [c], g.transformations ++ [op]⟩) r.toNat st.result }
    else st

/-- Loop of `get_equivalent_displacements`, _reference.py L212-264. -/
def eqLoop (positions refPositions : Pos N ℝ) :
    List (SymOp × PermMat N) → EqState N → Py (EqState N)
  | [], st => .ok st
  | (op, P) :: rest, st => do
    let c ← candidate positions refPositions op P
    eqLoop positions refPositions rest (eqInsert st op c)

/-- _reference.py L204-206: wrapped displacement rescaled to norm `1/10`; `none` is NaN
(zero displacement). -/
def scaleDisplacement (d : Pos N ℝ) : Option (Pos N ℝ) :=
  let d := applyPbcDisplacement d
  if norm2 (flat d) = 0 then none else some fun a i => d a i / (norm2 (flat d) * 10)

/-- `get_equivalent_displacements`, _reference.py L183-266.  The value `none` stands for the
NaN-poisoned result (one dictionary holding a NaN displacement) that a zero displacement
produces. -/
def RefStructure.getEquivalentDisplacements (s : RefStructure N) (d : Pos N ℝ) :
    Py (Option (List (EqGroup N))) :=
  match scaleDisplacement d with
  | none => if (s.ops.zip s.perms).isEmpty then .ok (some []) else .ok none
  | some d => do
    let refPositions := displacePositions s.positions d
    let st ← eqLoop s.positions refPositions (s.ops.zip s.perms) ⟨[], []⟩
    return some st.result

/-! ## Coordinate conversions -/

/-- `np.linalg.inv`: `LinAlgError` for singular matrices. -/
def npInv (M : Mat3 ℝ) : Py (Mat3 ℝ) := if M.det = 0 then .error .linAlgError else .ok M⁻¹

/-- `get_cart_displacement`, _reference.py L268-285. -/
def RefStructure.getCartDisplacement (s : RefStructure N) (d : Pos N ℝ) : Pos N ℝ :=
  matMulPos (applyPbcDisplacement d) s.lattice

/-- `get_frac_displacement`, _reference.py L306-323. -/
def RefStructure.getFracDisplacement (s : RefStructure N) (d : Pos N ℝ) : Py (Pos N ℝ) := do
  let inv ← npInv s.lattice
  return applyPbcDisplacement (matMulPos d inv)

/-- `get_cart_direction`, _reference.py L287-304.  The code returns shape `(1,3)`; the row
is returned here. -/
def RefStructure.getCartDirection (s : RefStructure N) (d : Vec3) : Vec3 :=
  fun j => ∑ i, wrap1 (d i) * s.lattice i j

/-- `get_frac_direction`, _reference.py L325-342. -/
def RefStructure.getFracDirection (s : RefStructure N) (d : Vec3) : Py Vec3 := do
  let inv ← npInv s.lattice
  return fun j => wrap1 (∑ i, d i * inv i j)

/-! ## Atom lookup -/

/-- A Python argument that is a string or a list of strings. -/
inductive StrArg
  | one (s : Word)
  | many (l : List Word)

/-- `ATOM_SYMBOLS[number]`. -/
def symbolOf (n : ℕ) : Py Word :=
  match dictGet atomSymbols n with
  | none => .error .keyError
  | some x => .ok x

/-- `get_atom_indexes`, _reference.py L344-364 (a string is first turned into a one-element
list, L356-357). -/
def RefStructure.getAtomIndexes (s : RefStructure N) (atomSymbolsArg : StrArg) :
    Py (List (Fin N)) := do
  let syms ← (List.finRange N).mapM fun a => symbolOf (s.atomicNumbers a)
  let wanted := match atomSymbolsArg with
    | .one x => [x]
    | .many l => l
  return (((List.finRange N).zip syms).filter fun x => x.2 ∈ wanted).map Prod.fst

end

end Verif
