import Verif.Model.Spectrum
import Verif.Model.Displace
import Verif.Model.Art

/-!
# Arrays whose elements are not floating-point numbers

The other models take arrays of real numbers.  Python code like `np.arange(0, 1000)` or
`np.array([[0, 0, 0]])` makes arrays of integers, and NumPy keeps this element type in `a * 0` and in
in-place operations: `a += b` refuses a `b` of floating-point numbers, and `a[k] = v` truncates `v`.
This file models the functions of `/repo/ramannoodle` that do this with arrays supplied by the caller:
`convolve_spectrum`, `get_ast_displaced_positions` and `add_art`.  Masks of `InterpolationModel` may be
arrays of any numbers, too.

Not modelled: overflow of integers, NaN stored in an integer array.
-/

namespace Verif

noncomputable section
variable {N : ℕ}

/-! ## Spectra -/

/-- A one-dimensional array with its element type. -/
inductive NpVec
  | ints (xs : List ℤ)
  | floats (xs : List ℝ)

/-- The numbers in the array. -/
def NpVec.values : NpVec → List ℝ
  | .ints xs => xs.map fun x : ℤ => (x : ℝ)
  | .floats xs => xs

/-- `a * 0`: the element type is kept. -/
def NpVec.timesZero : NpVec → NpVec
  | .ints xs => .ints (xs.map fun _ => 0)
  | .floats xs => .floats (xs.map fun _ => 0)

/-- `a += b` with floating-point `b`: NumPy casts results to the type of `a` only within the same kind
and raises `UFuncTypeError`, a `TypeError`, otherwise. -/
def NpVec.addFloats (a : NpVec) (b : List ℝ) : Py NpVec :=
  match a with
  | .ints _ => .error .typeError
  | .floats xs => .ok (.floats (List.zipWith (fun y x => x + y) b xs))

/-- Loop of `convolve_spectrum`, spectrum/utils.py L58-72. -/
def typedLoop (function : List Char) (width : ℝ) (out : NpVec) :
    List (ℝ × ℝ) → NpVec → Py NpVec
  | [], acc => .ok acc
  | (w, i) :: peaks, acc =>
    if knownShape function then do
      let acc ← acc.addFloats (out.values.map fun x => (lineShape function width w x).getD 0 * i)
      typedLoop function width out peaks acc
    else .error .valueError

/-- `convolve_spectrum`, spectrum/utils.py L12-73. -/
def typedConvolve (wavenumbers intensities : NpVec) (function : List Char) (width : ℝ)
    (outWavenumbers : Option NpVec) : Py (NpVec × NpVec) := do
  let out ← match outWavenumbers with
    | none => (autoGrid wavenumbers.values).map NpVec.floats
    | some o => .ok o
  if intensities.values.length ≠ wavenumbers.values.length then .error .valueError
  else if width ≤ 0 then .error .valueError
  else do
    let conv ← typedLoop function width out (wavenumbers.values.zip intensities.values) out.timesZero
    return (out, conv)

/-! ## Displaced atoms -/

/-- Conversion to an integer: the digits after the point are dropped. -/
def truncInt (x : ℝ) : ℤ := if 0 ≤ x then ⌊x⌋ else ⌈x⌉

/-- `(positions * 0)[k] = v`, for positions stored as integers or as floating-point numbers. -/
def storedRow (integers : Bool) (k : Fin N) (v : Vec3) : Pos N ℝ :=
  fun a => if a = k then (if integers then fun i => (truncInt (v i) : ℝ) else v) else fun _ => 0

/-- `get_ast_displaced_positions`, _displace.py L120-156, for a structure whose array of positions
consists of integers or of floating-point numbers. -/
def typedAstPositions (integers : Bool) (s : RefStructure N) (atomIndex : ℤ) (cartDirection : Vec3)
    (amplitudes : List ℝ) : Py (List (Option (Pos N ℝ))) :=
  match normalize cartDirection with
  | none => if integers then .error .unmodelled
      else getAstDisplacedPositions s atomIndex cartDirection amplitudes
  | some u =>
    match pyIndex N atomIndex with
    | none => .error .indexError
    | some k => getDisplacedPositions s (storedRow integers k u) amplitudes

/-- `add_art` L173-190 with the element type of the positions. -/
def typedPrepareArt (integers : Bool) (m : IModel N) (atomIndex : ℤ) (cartDirection : Vec3)
    (amps : List ℝ) (pols : List (Mat3 ℝ)) : Py (Option (Pos N ℝ)) := do
  let direction ← m.ref.getFracDirection cartDirection
  if ¬ (amps.length = 1 ∨ amps.length = 2) then .error .valueError
  else
    let pols := if m.dummy then amps.map fun _ => (0 : Mat3 ℝ) else pols
    if pols.length ≠ amps.length then .error .valueError
    else match pyIndex N atomIndex with
      | none => .error .indexError
      | some k =>
        let n := norm2 fun i => direction i * 10
        if n = 0 then (if integers then .error .unmodelled else return none)
        else return some (m.ref.getCartDisplacement (storedRow integers k fun i => direction i / n))

/-- `add_art`, _art.py L137-197. -/
def IModel.typedAddArt (integers : Bool) (spline : SplineFn) (warnErr : Bool) (m : IModel N)
    (atomIndex : ℤ) (cartDirection : Vec3) (amps : List ℝ) (pols : List (Mat3 ℝ)) : Outcome N :=
  match typedPrepareArt integers m atomIndex cartDirection amps pols with
  | .error e => ⟨.error e, [], m⟩
  | .ok cart => m.addDofNan spline warnErr cart amps pols 1 false

/-! ## Masks of numbers -/

/-- An interpolation model whose `mask` is an array of numbers. -/
structure WModel (N : ℕ) where
  base : IModel N
  mask : List ℝ

/-- `mask` setter, _interpolation.py L174-189: only the shape is checked. -/
def IModel.setWeights (m : IModel N) (value : List ℝ) : Py (WModel N) :=
  if value.length ≠ m.mask.length then .error .valueError else .ok ⟨m, value⟩

/-- Loop of `calc_polarizabilities`, _interpolation.py L233-244. -/
def accumulateWeights (disps : List (Pos N ℝ)) : List (Pos N ℝ) → List (ℝ → Mat3 ℝ) → List ℝ →
    List (Mat3 ℝ) → Py (List (Mat3 ℝ))
  | [], [], [], acc => .ok acc
  | b :: bs, f :: fs, k :: ks, acc =>
    accumulateWeights disps bs fs ks
      (List.zipWith (fun D a => a + (1 - k) • f (getAmplitude b D)) disps acc)
  | _, _, _, _ => .error .valueError

/-- `calc_polarizabilities`, _interpolation.py L191-252. -/
def WModel.calcPolarizabilities (m : WModel N) (batch : List (Pos N ℝ)) : Py (List (Mat3 ℝ)) :=
  let delta := batch.map fun _ => (0 : Mat3 ℝ)
  let disps := batch.map fun p =>
    m.base.ref.getCartDisplacement (calcDisplacement m.base.ref.positions p)
  match accumulateWeights disps m.base.basis m.base.interps m.mask delta with
  | .ok acc => .ok (acc.map (· + m.base.refPol))
  | .error e => if m.base.dummy then .error .userError else .error e

/-- `get_masked_model`, _interpolation.py L697-708: `False` and `True` are stored as 0 and 1. -/
def WModel.getMaskedModel (m : WModel N) (idx : List ℤ) : Py (WModel N) :=
  match maskIndexes m.mask.length idx with
  | none => .error .indexError
  | some ks => .ok { m with
      mask := (List.finRange m.mask.length).map fun i => if i ∈ ks then 1 else 0 }

/-- `unmask`, _interpolation.py L710-712. -/
def WModel.unmask (m : WModel N) : WModel N := { m with mask := m.mask.map fun _ => 0 }

/-- `np.sum(self._mask) > 0`, _interpolation.py L728-729: whether the text of the model mentions
masked degrees of freedom. -/
def WModel.mentionsMask (m : WModel N) : Prop := m.mask.sum > 0

end

end Verif
