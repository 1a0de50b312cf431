import Verif.Model.Write
import Verif.Model.Outcar
import Verif.Model.Vasprun
import Mathlib.Analysis.Real.Sqrt

/-!
# Model of the polarizability dataset

`/repo/ramannoodle/dataset/torch/utils.py`, `/repo/ramannoodle/dataset/torch/_dataset.py` and
`_read_polarizability_dataset` of `/repo/ramannoodle/io/_utils.py` L99-160.

Tensors over the reals (devices are not modelled; for rounding and dtypes see `Verif.Model.Dtype`).
A non-finite entry is `none`.  Shape checks are modelled where lists of samples can disagree in length; the shapes `(3,3)`
and `(3,)` are built into the types.
-/

namespace Verif

noncomputable section

/-- Indices used by `polarizability_vectors_to_tensors`, utils.py L34-40. -/
def tensorIndex : Fin 3 → Fin 3 → Fin 6 := ![![0, 3, 4], ![3, 1, 5], ![4, 5, 2]]

/-- `polarizability_vectors_to_tensors`, utils.py L20-41, for one sample. -/
def vectorToTensor {α : Type} (v : Fin 6 → α) : Matrix (Fin 3) (Fin 3) α :=
  fun i j => v (tensorIndex i j)

/-- First row of the indices used by `polarizability_tensors_to_vectors`, utils.py L59. -/
def vectorRow : Fin 6 → Fin 3 := ![0, 1, 2, 0, 0, 1]

/-- Second row of these indices. -/
def vectorCol : Fin 6 → Fin 3 := ![0, 1, 2, 1, 2, 2]

/-- `polarizability_tensors_to_vectors`, utils.py L44-60, for one sample. -/
def tensorToVector {α : Type} (A : Matrix (Fin 3) (Fin 3) α) : Fin 6 → α :=
  fun k => A (vectorRow k) (vectorCol k)

/-- `polarizabilities.mean(0)` (_dataset.py L45, L179); for an empty batch the value (NaN in the
code) is not used. -/
def meanPol (ps : List (Mat3 ℝ)) : Mat3 ℝ := fun i j => (ps.map fun p => p i j).sum / ps.length

/-- `polarizabilities.std(0, unbiased=False)` (_dataset.py L46, L190). -/
def stdPol (ps : List (Mat3 ℝ)) : Mat3 ℝ := fun i j =>
  Real.sqrt ((ps.map fun p => (p i j - meanPol ps i j) ^ 2).sum / ps.length)

/-- Floating point division: not finite for a zero denominator. -/
def fdiv (x y : ℝ) : Option ℝ := if y = 0 then none else some (x / y)

/-- `(polarizabilities - mean) / stddev` for one sample. -/
def standardize (mean stddev p : Mat3 ℝ) : Matrix (Fin 3) (Fin 3) (Option ℝ) :=
  fun i j => fdiv (p i j - mean i j) (stddev i j)

/-- `(polarizabilities - mean) / stddev + mean` for one sample. -/
def stddevScale (mean stddev p : Mat3 ℝ) : Matrix (Fin 3) (Fin 3) (Option ℝ) :=
  fun i j => (standardize mean stddev p i j).map fun x : ℝ => x + mean i j

/-- Unscaled polarizability of one sample. -/
def noScale (p : Mat3 ℝ) : Matrix (Fin 3) (Fin 3) (Option ℝ) := fun i j => some (p i j)

/-- Scaling of one sample by scale mode, _dataset.py L47-52. -/
def scaleBy (mode : Word) (mean stddev p : Mat3 ℝ) : Py (Matrix (Fin 3) (Fin 3) (Option ℝ)) :=
  if mode = "standard".toList then .ok (standardize mean stddev p)
  else if mode = "stddev".toList then .ok (stddevScale mean stddev p)
  else if mode ≠ "none".toList then .error .valueError
  else .ok (noScale p)

/-- Flattening of one sample, _dataset.py L54-60. -/
def flattenPol {α : Type} (p : Matrix (Fin 3) (Fin 3) α) : Fin 6 → α :=
  ![p 0 0, p 1 1, p 2 2, p 0 1, p 0 2, p 1 2]

/-- `_scale_and_flatten_polarizabilities`, _dataset.py L21-62: the vectors.  The mode is inspected
once for the whole batch, also when it is empty. -/
def scaleAndFlatten (ps : List (Mat3 ℝ)) (mode : Word) : Py (List (Fin 6 → Option ℝ)) :=
  if mode ≠ "standard".toList ∧ mode ≠ "stddev".toList ∧ mode ≠ "none".toList then
    .error .valueError
  else do
    let scaled ← ps.mapM (scaleBy mode (meanPol ps) (stdPol ps))
    return scaled.map flattenPol

/-- Attributes of `PolarizabilityDataset`.  The lattice and the atomic numbers are stored once (the
code expands them to all samples). -/
structure PolDataset where
  lattice : Mat3 ℝ
  atomicNumbers : List ℕ
  positions : List (List (Fin 3 → ℝ))
  polarizabilities : List (Mat3 ℝ)
  scaled : List (Fin 6 → Option ℝ)

/-- `PolarizabilityDataset.__init__`, _dataset.py L87-113. -/
def makeDataset (lattice : Mat3 ℝ) (atomicNumbers : List ℕ)
    (positions : List (List (Fin 3 → ℝ))) (polarizabilities : List (Mat3 ℝ)) : Py PolDataset :=
  if ¬ (∀ p ∈ positions, p.length = atomicNumbers.length) then .error .valueError
  else if polarizabilities.length ≠ positions.length then .error .valueError
  else do
    let scaled ← scaleAndFlatten polarizabilities "standard".toList
    return ⟨lattice, atomicNumbers, positions, polarizabilities, scaled⟩

/-- `scale_polarizabilities`, _dataset.py L193-217. -/
def PolDataset.scalePolarizabilities (d : PolDataset) (mean stddev : Mat3 ℝ) : PolDataset :=
  { d with scaled := d.polarizabilities.map fun p => tensorToVector (standardize mean stddev p) }

/-- `num_atoms`, _dataset.py L115-118: `positions.size(1)`.  Without samples the second dimension is
not visible in a list of samples; by the shape check of the constructor it is the number of atomic
numbers. -/
def PolDataset.numAtoms (d : PolDataset) : ℕ :=
  match d.positions with
  | [] => d.atomicNumbers.length
  | p :: _ => p.length

/-- `num_samples`, _dataset.py L120-123, and `__len__`, L219-221. -/
def PolDataset.numSamples (d : PolDataset) : ℕ := d.positions.length

/-- `atomic_numbers`, _dataset.py L125-134: the numbers of sample 0, which does not exist in an empty
dataset. -/
def PolDataset.getAtomicNumbers (d : PolDataset) : Py (List ℕ) :=
  match d.positions with
  | [] => .error .indexError
  | _ :: _ => .ok d.atomicNumbers

/-- `mean_polarizability`, _dataset.py L170-179; NaN for an empty dataset. -/
def PolDataset.meanPolarizability (d : PolDataset) : Matrix (Fin 3) (Fin 3) (Option ℝ) :=
  fun i j => if d.polarizabilities = [] then none else some (meanPol d.polarizabilities i j)

/-- `stddev_polarizability`, _dataset.py L181-191; NaN for an empty dataset. -/
def PolDataset.stddevPolarizability (d : PolDataset) : Matrix (Fin 3) (Fin 3) (Option ℝ) :=
  fun i j => if d.polarizabilities = [] then none else some (stdPol d.polarizabilities i j)

/-- `__getitem__` with an integer, _dataset.py L223-230: lattice, atomic numbers, positions and
scaled polarizability of one sample. -/
def PolDataset.getItem (d : PolDataset) (i : ℤ) :
    Py (Mat3 ℝ × List ℕ × List (Fin 3 → ℝ) × (Fin 6 → Option ℝ)) :=
  match pyIndex d.positions.length i, pyIndex d.scaled.length i with
  | some k, some l => .ok (d.lattice, d.atomicNumbers, d.positions[k], d.scaled[l])
  | _, _ => .error .indexError

/-! ## Reading datasets -/

/-- What a reader returns for one file. -/
structure FileSample where
  lattice : Mat3 ℝ
  atomicNumbers : List ℕ
  positions : List (Fin 3 → ℝ)
  polarizability : Mat3 ℝ

/-- `np.allclose(lattice, read_lattice, atol=1e-5)` with the default `rtol=1e-5`, _utils.py
L137. -/
def latticeClose (a b : Mat3 ℝ) : Prop :=
  ∀ i j, |a i j - b i j| ≤ 1 / 10 ^ 5 + 1 / 10 ^ 5 * |b i j|

/-- Local variables of the loop, _utils.py L127-130. -/
structure DatasetState where
  lattice : Mat3 ℝ
  atomicNumbers : List ℕ
  positionsList : List (List (Fin 3 → ℝ))
  polarizabilities : List (Mat3 ℝ)

open Classical in
/-- Checks of one file against the state, _utils.py L135-148. -/
def checkSample (fileIndex : ℕ) (st : DatasetState) (s : FileSample) : Py Unit :=
  if fileIndex ≠ 0 then
    if ¬ latticeClose st.lattice s.lattice then .error .incompatible
    else if st.atomicNumbers ≠ s.atomicNumbers then .error .incompatible
    else
      match st.positionsList with
      | [] => .error .indexError
      | p :: _ => if p.length ≠ s.positions.length then .error .incompatible else .ok ()
  else .ok ()

/-- Loop of `_read_polarizability_dataset`, _utils.py L131-152. -/
def datasetLoop (read : Path → Py FileSample) : ℕ → DatasetState → List Path → Py DatasetState
  | _, st, [] => .ok st
  | k, st, path :: paths => do
    let s ← read path
    checkSample k st s
    datasetLoop read (k + 1) ⟨s.lattice, s.atomicNumbers, st.positionsList ++ [s.positions],
      st.polarizabilities ++ [s.polarizability]⟩ paths

/-- `_read_polarizability_dataset`, _utils.py L99-160; `torch` tells whether PyTorch is
installed. -/
def readDataset (torch : Bool) (read : Path → Py FileSample) (filepaths : PathsArg) :
    Py PolDataset :=
  if torch = false then .error .userError
  else do
    let paths ← pathifyAsList filepaths
    let st ← datasetLoop read 0 ⟨0, [], [], []⟩ paths
    makeDataset st.lattice st.atomicNumbers st.positionsList st.polarizabilities

/-- A finite number. -/
def finiteMat (a : List (List Num)) : Option (Mat3 ℝ) :=
  match toMat a with
  | none => none
  | some m =>
    if ∀ i j, (m i j).isSome then some fun i j => (((m i j).getD 0 : ℚ) : ℝ) else none

/-- Rows of three finite numbers. -/
def finiteRows (a : List (List Num)) : Option (List (Fin 3 → ℝ)) :=
  a.mapM fun r =>
    match toVec r with
    | none => none
    | some v => if ∀ i, (v i).isSome then some fun i => (((v i).getD 0 : ℚ) : ℝ) else none

/-- The arrays of a file as typed arrays.  Arrays with other shapes or with non-finite entries are
outside the model of datasets. -/
def typedSample (s : OutcarStructure) : Py FileSample :=
  match finiteMat s.lattice, finiteRows s.positions, finiteMat s.polarizability with
  | some l, some p, some a => .ok ⟨l, s.atomicNumbers, p, a⟩
  | _, _, _ => .error .unmodelled

end

end Verif
