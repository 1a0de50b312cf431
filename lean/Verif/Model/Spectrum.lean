import Verif.Model.Pbc
import Verif.Model.Index
import Mathlib.Analysis.SpecialFunctions.Trigonometric.Basic
import Mathlib.Analysis.SpecialFunctions.Exp

/-!
# Model of `/repo/ramannoodle/spectrum/_raman.py` and `/repo/ramannoodle/spectrum/utils.py`

Floating-point numbers are real numbers; `none` stands for a non-finite number (division by
zero in NumPy gives infinity or NaN without an exception).  Argument types and trailing array
dimensions are excluded by typing, leading dimensions are list lengths.  An orientation is a
string (array orientations are not modelled).
-/

namespace Verif

noncomputable section

/-! ## Corrections, `_raman.py` L13-69 -/

/-- `BOLTZMANN_CONSTANT` (eV/K), constants.py L249. -/
def boltzmann : ℝ := 8617333262 / 10 ^ 14

/-- `RAMAN_TENSOR_CENTRAL_DIFFERENCE`, constants.py L248. -/
def centralDifference : ℝ := 1 / 1000

/-- `a / b` in NumPy, `none` for a non-finite result. -/
def npDiv (a b : ℝ) : Option ℝ := if b = 0 then none else some (a / b)

/-- One entry of `get_bose_einstein_correction`, `_raman.py` L37-38. -/
def boseEntry (temperature w : ℝ) : Option ℝ :=
  let energy := w * 29979245800 * (41357 / 10 ^ 19)
  npDiv 1 (1 - Real.exp (-energy / (boltzmann * temperature)))

/-- `get_bose_einstein_correction`, `_raman.py` L13-40. -/
def boseEinsteinCorrection (wavenumbers : List ℝ) (temperature : ℝ) : Py (List (Option ℝ)) :=
  if temperature ≤ 0 then .error .valueError
  else .ok (wavenumbers.map (boseEntry temperature))

/-- One entry of `get_laser_correction`, `_raman.py` L67. -/
def laserEntry (laserWavenumber w : ℝ) : Option ℝ :=
  npDiv (((w - laserWavenumber) / 10000) ^ 4) w

/-- `get_laser_correction`, `_raman.py` L43-69. -/
def laserCorrection (wavenumbers : List ℝ) (laserWavenumber : ℝ) : Py (List (Option ℝ)) :=
  if laserWavenumber ≤ 0 then .error .valueError
  else .ok (wavenumbers.map (laserEntry laserWavenumber))

/-- Product of two floats, non-finite if one factor is. -/
def mulOpt : Option ℝ → Option ℝ → Option ℝ
  | some a, some b => some (a * b)
  | _, _ => none

/-- `intensities *= factors`. -/
def mulInPlace (xs fs : List (Option ℝ)) : List (Option ℝ) := List.zipWith mulOpt xs fs

/-- Keyword arguments of `measure`. -/
structure MeasureArgs where
  orientation : List Char
  laserCorrection : Bool
  laserWavelength : ℝ
  boseEinstein : Bool
  temperature : ℝ

/-- The string `"polycrystalline"`. -/
def polycrystalline : List Char :=
  ['p', 'o', 'l', 'y', 'c', 'r', 'y', 's', 't', 'a', 'l', 'l', 'i', 'n', 'e']

/-- `laser_wavenumber = 10000000 / laser_wavelength` (Python numbers). -/
def laserWavenumber (wavelength : ℝ) : Py ℝ :=
  if wavelength = 0 then .error .zeroDivisionError else .ok (10000000 / wavelength)

/-- Laser part of `measure`, `_raman.py` L184-188 (and L303-305). -/
def applyLaser (args : MeasureArgs) (wavenumbers : List ℝ) (intensities : List (Option ℝ)) :
    Py (List (Option ℝ)) :=
  if args.laserCorrection then do
    let l ← laserWavenumber args.laserWavelength
    let f ← laserCorrection wavenumbers l
    return mulInPlace intensities f
  else .ok intensities

/-- Bose-Einstein part of `measure`, `_raman.py` L189-192 (and L306-307). -/
def applyBose (args : MeasureArgs) (wavenumbers : List ℝ) (intensities : List (Option ℝ)) :
    Py (List (Option ℝ)) :=
  if args.boseEinstein then do
    let f ← boseEinsteinCorrection wavenumbers args.temperature
    return mulInPlace intensities f
  else .ok intensities

/-! ## Phonon spectra, `_raman.py` L72-194 -/

/-- `alpha_squared`, `_raman.py` L163-170. -/
def alphaSquared (R : Mat3 ℝ) : ℝ := ((R 0 0 + R 1 1 + R 2 2) / 3) ^ 2

/-- `gamma_squared`, `_raman.py` L171-181. -/
def gammaSquared (R : Mat3 ℝ) : ℝ :=
  ((R 0 0 - R 1 1) ^ 2 + (R 0 0 - R 2 2) ^ 2 + (R 1 1 - R 2 2) ^ 2
    + 6 * (R 0 1 ^ 2 + R 0 2 ^ 2 + R 1 2 ^ 2)) / 2

/-- `intensities`, `_raman.py` L182. -/
def rawIntensity (R : Mat3 ℝ) : ℝ := 45 * alphaSquared R + 7 * gammaSquared R

/-- Attributes of `PhononRamanSpectrum`, `_raman.py` L96-97. -/
structure PhononSpectrum where
  wavenumbers : List ℝ
  tensors : List (Mat3 ℝ)

/-- `PhononRamanSpectrum.__init__`, `_raman.py` L87-97. -/
def PhononSpectrum.init (wavenumbers : List ℝ) (tensors : List (Mat3 ℝ)) : Py PhononSpectrum :=
  if tensors.length ≠ wavenumbers.length then .error .valueError
  else .ok ⟨wavenumbers, tensors⟩

/-- `PhononRamanSpectrum.measure`, `_raman.py` L122-194.  The second component is the
spectrum after the call. -/
def PhononSpectrum.measure (s : PhononSpectrum) (args : MeasureArgs) :
    Py (List ℝ × List (Option ℝ)) × PhononSpectrum :=
  if args.orientation ≠ polycrystalline then (.error .notImplementedError, s)
  else
    (do
      let intensities := s.tensors.map fun R => some (rawIntensity R)
      let intensities ← applyLaser args s.wavenumbers intensities
      let intensities ← applyBose args s.wavenumbers intensities
      return (s.wavenumbers, intensities), s)

/-! ## Signal spectra, `utils.py` L76-124 -/

/-- `y[i]` for an integer index, zero outside the range. -/
def zeroPad (y : List ℝ) (i : ℤ) : ℝ := if i < 0 then 0 else y.getD i.toNat 0

/-- `scipy.signal.correlate(x, y, "full")` for signals of equal length (documented
definition: `z[k] = sum_l x[l] * y[l - k + N - 1]`). -/
def correlateFull (x y : List ℝ) : List ℝ :=
  (List.range (2 * x.length - 1)).map fun k : ℕ =>
    ∑ l ∈ Finset.range x.length, x.getD l 0 * zeroPad y ((l : ℤ) - k + x.length - 1)

/-- `_calc_autocorrelation`, utils.py L76-92 (for an empty signal the result is empty). -/
def calcAutocorrelation (signal : List ℝ) : List ℝ :=
  let c := correlateFull signal signal
  c.drop ((c.length - 1) / 2)

/-- `scipy.fftpack.fftfreq(n, d)`; `1.0 / (n * d)` is a Python division. -/
def fftfreq (n : ℕ) (d : ℝ) : Py (List ℝ) :=
  if (n : ℝ) * d = 0 then .error .zeroDivisionError
  else
    let val := 1 / ((n : ℝ) * d)
    .ok (((List.range ((n - 1) / 2 + 1)).map fun i : ℕ => (i : ℝ) * val) ++
      ((List.range (n / 2)).map fun i : ℕ => ((i : ℝ) - ((n / 2 : ℕ) : ℝ)) * val))

/-- `scipy.fftpack.fft(x)`. -/
def fft (x : List ℝ) : List ℂ :=
  (List.range x.length).map fun k : ℕ =>
    ∑ j ∈ Finset.range x.length,
      (x.getD j 0 : ℂ) * Complex.exp (-(2 * Real.pi * Complex.I * (j * k : ℕ) / x.length))

/-- `calc_signal_spectrum`, utils.py L95-124. -/
def calcSignalSpectrum (signal : List ℝ) (samplingRate : ℝ) : Py (List ℝ × List ℝ) := do
  let autocorrelation := calcAutocorrelation signal
  let freqs ← fftfreq autocorrelation.length samplingRate
  let wavenumbers := freqs.map fun f => f * (3335640951981521 / 10 ^ 14) * 1000
  let intensities := (fft autocorrelation).map Complex.re
  let kept := (wavenumbers.zip intensities).filter fun x => decide (x.1 ≥ 0)
  return (kept.map Prod.fst, kept.map Prod.snd)

/-! ## MD spectra, `_raman.py` L197-309 -/

/-- Attributes of `MDRamanSpectrum`, `_raman.py` L215-216. -/
structure MDSpectrum where
  polarizabilityTs : List (Mat3 ℝ)
  timestep : ℝ

/-- `np.diff(x, axis=0)`. -/
def npDiff (l : List (Mat3 ℝ)) : List (Mat3 ℝ) := List.zipWith (fun b a => b - a) l.tail l

/-- Sum of spectra of equal length. -/
def addL (xs ys : List ℝ) : List ℝ := List.zipWith (· + ·) xs ys

/-- Multiple of a spectrum. -/
def scaleL (c : ℝ) (xs : List ℝ) : List ℝ := xs.map (c * ·)

/-- Wavenumbers and intensities before corrections, `_raman.py` L281-301. -/
def mdRaw (s : MDSpectrum) : Py (List ℝ × List ℝ) := do
  let ad := npDiff s.polarizabilityTs
  let spec := fun f : Mat3 ℝ → ℝ => calcSignalSpectrum (ad.map f) s.timestep
  let w ← spec fun A => A 0 0
  let a ← spec fun A => A 0 0 + A 1 1 + A 2 2
  let g1 ← spec fun A => A 0 0 - A 1 1
  let g2 ← spec fun A => A 1 1 - A 2 2
  let g3 ← spec fun A => A 2 2 - A 0 0
  let g4 ← spec fun A => A 0 1
  let g5 ← spec fun A => A 1 2
  let g6 ← spec fun A => A 0 2
  let alpha2 := scaleL (1 / 9) a.2
  let gamma2 := addL (addL (addL (addL (addL (scaleL (1 / 2) g1.2) (scaleL (1 / 2) g2.2))
    (scaleL (1 / 2) g3.2)) (scaleL 3 g4.2)) (scaleL 3 g5.2)) (scaleL 3 g6.2)
  let intensities := addL (scaleL 45 alpha2) (scaleL 7 gamma2)
  return (w.1.tail, intensities.tail)

/-- `MDRamanSpectrum.measure`, `_raman.py` L241-309. -/
def MDSpectrum.measure (s : MDSpectrum) (args : MeasureArgs) :
    Py (List ℝ × List (Option ℝ)) × MDSpectrum :=
  if args.orientation ≠ polycrystalline then (.error .notImplementedError, s)
  else
    (do
      let (wavenumbers, raw) ← mdRaw s
      let intensities ← applyLaser args wavenumbers (raw.map some)
      let intensities ← applyBose args wavenumbers intensities
      return (wavenumbers, intensities), s)

/-! ## Convolution, `utils.py` L12-73 -/

/-- `np.rint`: round to the nearest integer, ties to even. -/
def rint (x : ℝ) : ℤ :=
  let f := ⌊x⌋
  if x - f < 1 / 2 then f
  else if x - f > 1 / 2 then f + 1
  else if f % 2 = 0 then f else f + 1

/-- `np.linspace(a, b, n)` (the last point is set to `b`). -/
def linspace (a b : ℝ) (n : ℕ) : List ℝ :=
  (List.range n).map fun i : ℕ => if i + 1 = n ∧ n ≠ 1 then b else a + i * ((b - a) / ((n : ℝ) - 1))

/-- Automatic output grid, utils.py L42-46; `np.min` of an empty array raises `ValueError`. -/
def autoGrid (wavenumbers : List ℝ) : Py (List ℝ) :=
  match wavenumbers with
  | [] => .error .valueError
  | w :: ws =>
    let lo := ws.foldl min w - 100
    let hi := ws.foldl max w + 100
    .ok (linspace lo hi (rint (hi - lo)).toNat)

/-- Values of the argument `function`. -/
def gaussianName : List Char := ['g', 'a', 'u', 's', 's', 'i', 'a', 'n']

/-- Values of the argument `function`. -/
def lorentzianName : List Char := ['l', 'o', 'r', 'e', 'n', 't', 'z', 'i', 'a', 'n']

/-- Line shape, utils.py L60-71; `none` is the `ValueError` of L71. -/
def lineShape (function : List Char) (width center x : ℝ) : Option ℝ :=
  if function = gaussianName then
    some (1 / width * (1 / Real.sqrt (2 * Real.pi)) *
      Real.exp (-(center - x) ^ 2 / (2 * width ^ 2)))
  else if function = lorentzianName then
    some (1 / Real.pi * (0.5 * width / ((center - x) ^ 2 + (0.5 * width) ^ 2)))
  else none

/-- Names accepted by the loop body. -/
def knownShape (function : List Char) : Bool :=
  decide (function = gaussianName) || decide (function = lorentzianName)

/-- Loop of `convolve_spectrum`, utils.py L58-72, over `zip(wavenumbers, intensities)`. -/
def convolveLoop (function : List Char) (width : ℝ) (out : List ℝ) :
    List (ℝ × ℝ) → List ℝ → Py (List ℝ)
  | [], acc => .ok acc
  | (w, i) :: peaks, acc =>
    if knownShape function then
      convolveLoop function width out peaks
        (List.zipWith (fun x a => a + (lineShape function width w x).getD 0 * i) out acc)
    else .error .valueError

/-- `convolve_spectrum`, utils.py L12-73. -/
def convolveSpectrum (wavenumbers intensities : List ℝ) (function : List Char) (width : ℝ)
    (outWavenumbers : Option (List ℝ)) : Py (List ℝ × List ℝ) := do
  let out ← match outWavenumbers with
    | none => autoGrid wavenumbers
    | some o => .ok o
  if intensities.length ≠ wavenumbers.length then .error .valueError
  else if width ≤ 0 then .error .valueError
  else do
    let conv ← convolveLoop function width out (wavenumbers.zip intensities) (out.map fun _ => 0)
    return (out, conv)

end

end Verif
