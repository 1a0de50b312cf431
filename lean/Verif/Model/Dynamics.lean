import Verif.Model.Spectrum

/-!
# Model of `/repo/ramannoodle/dynamics/_phonon.py` and `/repo/ramannoodle/dynamics/_trajectory.py`

A polarizability model is any function from batches of positions to polarizabilities that may
raise an exception.  Argument types and trailing dimensions are excluded by typing.
-/

namespace Verif

noncomputable section

variable {N : ℕ}

/-- `PolarizabilityModel.calc_polarizabilities` of an arbitrary model. -/
abbrev PolModel (N : ℕ) := List (Pos N ℝ) → Py (List (Mat3 ℝ))

/-- `except ValueError as exc: raise ValueError(...) from exc`: only the message changes. -/
def asIncompatible {α : Type} (r : Py α) : Py α :=
  match r with
  | .error .valueError => .error .valueError
  | r => r

/-! ## Phonons -/

/-- Attributes of `Phonons`, _phonon.py L44-46. -/
structure Phonons (N : ℕ) where
  refPositions : Pos N ℝ
  wavenumbers : List ℝ
  displacements : List (Pos N ℝ)

/-- `Phonons.__init__`, _phonon.py L31-46. -/
def Phonons.init (refPositions : Pos N ℝ) (wavenumbers : List ℝ)
    (displacements : List (Pos N ℝ)) : Py (Phonons N) :=
  if displacements.length ≠ wavenumbers.length then .error .valueError
  else .ok ⟨refPositions, wavenumbers, displacements⟩

/-- `model.calc_polarizabilities(np.array([positions]))[0]`. -/
def evalOne (model : PolModel N) (p : Pos N ℝ) : Py (Mat3 ℝ) := do
  match ← model [p] with
  | [] => .error .indexError
  | A :: _ => return A

/-- Loop body of `Phonons.get_raman_spectrum`, _phonon.py L94-106. -/
def ramanTensor (model : PolModel N) (ref d : Pos N ℝ) : Py (Mat3 ℝ) := do
  let epsilon : Pos N ℝ := fun a i => d a i * centralDifference
  let plus ← asIncompatible (evalOne model fun a i => ref a i + epsilon a i)
  let minus ← asIncompatible (evalOne model fun a i => ref a i - epsilon a i)
  return (1 / centralDifference) • (plus - minus)

/-- `Phonons.get_raman_spectrum`, _phonon.py L82-108.  Without phonons `np.array([])` has
shape `(0,)`, which the constructor of the spectrum refuses. -/
def Phonons.getRamanSpectrum (ph : Phonons N) (model : PolModel N) : Py PhononSpectrum := do
  let tensors ← ph.displacements.mapM (ramanTensor model ph.refPositions)
  if tensors.isEmpty then .error .valueError
  else PhononSpectrum.init ph.wavenumbers tensors

/-! ## Trajectories -/

/-- Attributes of `Trajectory`, _trajectory.py L45-46. -/
structure Trajectory (N : ℕ) where
  positionsTs : List (Pos N ℝ)
  timestep : ℝ

/-- `Trajectory.__init__`, _trajectory.py L32-46. -/
def Trajectory.init (positionsTs : List (Pos N ℝ)) (timestep : ℝ) : Py (Trajectory N) :=
  if timestep ≤ 0 then .error .valueError
  else .ok ⟨positionsTs.map applyPbc, timestep⟩

/-- `Trajectory.get_raman_spectrum`, _trajectory.py L71-90. -/
def Trajectory.getRamanSpectrum (t : Trajectory N) (model : PolModel N) : Py MDSpectrum := do
  let ts ← asIncompatible (model t.positionsTs)
  return ⟨ts, t.timestep⟩

/-- `Trajectory.__len__`, _trajectory.py L92-94. -/
def Trajectory.len (t : Trajectory N) : ℕ := t.positionsTs.length

/-- `Trajectory.__getitem__` with an integer, _trajectory.py L102-109. -/
def Trajectory.getItem (t : Trajectory N) (i : ℤ) : Py (Pos N ℝ) :=
  match pyIndex t.positionsTs.length i with
  | none => .error .indexError
  | some k => .ok (t.positionsTs[k])

/-- A Python slice `start:stop:step`. -/
structure PySlice where
  start : Option ℤ
  stop : Option ℤ
  step : Option ℤ

/-- Clipping of a slice bound as in `PySlice_AdjustIndices`: add the length to a negative
bound, then clip to the range `[lo, hi]`. -/
def clipBound (n lo hi b : ℤ) : ℤ :=
  if b < 0 then max (b + n) lo else min b hi

/-- `slice.indices(n)`: start, stop, step; a zero step is a `ValueError`. -/
def PySlice.indices (s : PySlice) (n : ℕ) : Py (ℤ × ℤ × ℤ) :=
  let step := s.step.getD 1
  if step = 0 then .error .valueError
  else
    let lo : ℤ := if step < 0 then -1 else 0
    let hi : ℤ := if step < 0 then n - 1 else n
    let start := s.start.elim (if step < 0 then hi else lo) (clipBound n lo hi)
    let stop := s.stop.elim (if step < 0 then lo else hi) (clipBound n lo hi)
    .ok (start, stop, step)

/-- Number of elements of `range(start, stop, step)`. -/
def rangeLen (start stop step : ℤ) : ℕ :=
  if step > 0 then ((stop - start + step - 1) / step).toNat
  else ((start - stop - step - 1) / (-step)).toNat

/-- Indexes selected by a slice of a sequence of length `n`. -/
def PySlice.selected (s : PySlice) (n : ℕ) : Py (List ℤ) := do
  let (start, stop, step) ← s.indices n
  return (List.range (rangeLen start stop step)).map fun k : ℕ => start + k * step

/-- `Trajectory.__getitem__` with a slice, _trajectory.py L102-109. -/
def Trajectory.getSlice (t : Trajectory N) (s : PySlice) : Py (List (Pos N ℝ)) := do
  let idx ← s.selected t.positionsTs.length
  idx.mapM fun i => match pyIndex t.positionsTs.length i with
    | none => .error .indexError
    | some k => .ok (t.positionsTs[k])

/-! ## Methods inherited from `collections.abc.Sequence`

`Trajectory` (_trajectory.py L16) inherits `__iter__`, `__reversed__` and `__contains__` from
`collections.abc.Sequence`; these are written in terms of `__getitem__` and `__len__`. -/

theorem Trajectory.getItem_ok_lt {t : Trajectory N} {i : ℕ} {p : Pos N ℝ}
    (h : t.getItem i = .ok p) : i < t.positionsTs.length := by
  unfold Trajectory.getItem at h
  by_contra hi
  have : pyIndex t.positionsTs.length i = none := by
    unfold pyIndex
    rw [dif_neg (by omega), dif_neg (by omega)]
  rw [this] at h
  cases h

/-- `Sequence.__iter__` from index `i` on: `self[i]`, `self[i + 1]`, … until `IndexError`, which ends
the iteration; other exceptions are raised. -/
def Trajectory.iterFrom (t : Trajectory N) (i : ℕ) : Py (List (Pos N ℝ)) :=
  match h : t.getItem i with
  | .error .indexError => .ok []
  | .error e => .error e
  | .ok p => do
    let rest ← t.iterFrom (i + 1)
    return p :: rest
termination_by t.positionsTs.length - i
decreasing_by
  have := Trajectory.getItem_ok_lt h
  omega

/-- `list(trajectory)`. -/
def Trajectory.toList (t : Trajectory N) : Py (List (Pos N ℝ)) := t.iterFrom 0

/-- `list(reversed(trajectory))`: `Sequence.__reversed__` yields `self[i]` for `i` in
`reversed(range(len(self)))`. -/
def Trajectory.reversedList (t : Trajectory N) : Py (List (Pos N ℝ)) :=
  (List.range t.len).reverse.mapM fun i : ℕ => t.getItem i

/-- `bool(array)`: an exception unless the array has at most one element (an empty array is
false). -/
def arrayTruth : List Bool → Py Bool
  | [] => .ok false
  | [b] => .ok b
  | _ => .error .valueError

/-- Elements of `v == value` for two arrays with shape `(N,3)`. -/
def arrayEq (v value : Pos N ℝ) : List Bool :=
  (List.finRange N).flatMap fun a => (List.finRange 3).map fun i => decide (v a i = value a i)

/-- `value in trajectory` for an array with shape `(N,3)`: `Sequence.__contains__` evaluates
`v is value or v == value` for `v` in `self`.  Indexing creates a new array object every time, so `v`
is never the same object as `value`. -/
def Trajectory.contains (t : Trajectory N) (value : Pos N ℝ) : Py Bool := do
  let vs ← t.toList
  anyTrue vs
where
  /-- The loop over the configurations. -/
  anyTrue : List (Pos N ℝ) → Py Bool
    | [] => .ok false
    | v :: vs => do
      if ← arrayTruth (arrayEq v value) then return true
      else anyTrue vs

end

end Verif
