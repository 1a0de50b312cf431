import Verif.Model.Spectrum

/-!
# Spectra in rounded arithmetic

The operations of `/repo/ramannoodle/spectrum/_raman.py` L37-38, L67, L122-194 and
`/repo/ramannoodle/spectrum/utils.py` L57-73 with `rnd` applied to the result of every elementary
operation (`x ** 2` is one multiplication, `x ** 4`, `sqrt` and `exp` are rounded once).  There is
no largest number; `none` is an infinity or NaN, which only division by zero produces here.
Fourier transforms (`utils.py` L95-124) are not covered.
-/

namespace Verif

noncomputable section

variable (rnd : ℝ → ℝ)

/-- `x ** 2`. -/
def sqR (x : ℝ) : ℝ := rnd (x * x)

/-- `alpha_squared`, `_raman.py` L163-170. -/
def alphaSquaredR (R : Mat3 ℝ) : ℝ :=
  sqR rnd (rnd (rnd (rnd (R 0 0 + R 1 1) + R 2 2) / 3))

/-- `gamma_squared`, `_raman.py` L171-181. -/
def gammaSquaredR (R : Mat3 ℝ) : ℝ :=
  rnd (rnd (rnd (rnd (sqR rnd (rnd (R 0 0 - R 1 1)) + sqR rnd (rnd (R 0 0 - R 2 2)))
      + sqR rnd (rnd (R 1 1 - R 2 2)))
    + rnd (6 * rnd (rnd (sqR rnd (R 0 1) + sqR rnd (R 0 2)) + sqR rnd (R 1 2)))) / 2)

/-- `intensities`, `_raman.py` L182. -/
def rawIntensityR (R : Mat3 ℝ) : ℝ :=
  rnd (rnd (45 * alphaSquaredR rnd R) + rnd (7 * gammaSquaredR rnd R))

/-- `a / b` in NumPy. -/
def npDivR (a b : ℝ) : Option ℝ := if b = 0 then none else some (rnd (a / b))

/-- One entry of `get_bose_einstein_correction`, `_raman.py` L37-38.  If the product of
Boltzmann's constant and the temperature underflows, the quotient is an infinity, whose
exponential is zero or infinite, or NaN. -/
def boseEntryR (temperature w : ℝ) : Option ℝ :=
  let energy := rnd (rnd (w * 29979245800) * (41357 / 10 ^ 19))
  let kT := rnd (boltzmann * temperature)
  if kT = 0 then
    if 0 < energy then npDivR rnd 1 (rnd (1 - 0)) else if energy < 0 then some 0 else none
  else npDivR rnd 1 (rnd (1 - rnd (Real.exp (rnd (-energy / kT)))))

/-- One entry of `get_laser_correction`, `_raman.py` L67. -/
def laserEntryR (laserWavenumber w : ℝ) : Option ℝ :=
  npDivR rnd (rnd (rnd (rnd (w - laserWavenumber) / 10000) ^ 4)) w

/-- Product of two floats. -/
def mulOptR : Option ℝ → Option ℝ → Option ℝ
  | some a, some b => some (rnd (a * b))
  | _, _ => none

/-- Sum of two floats. -/
def addOptR : Option ℝ → Option ℝ → Option ℝ
  | some a, some b => some (rnd (a + b))
  | _, _ => none

/-- Laser part of `measure`, `_raman.py` L184-188, with `get_laser_correction`. -/
def applyLaserR (args : MeasureArgs) (wavenumbers : List ℝ) (intensities : List (Option ℝ)) :
    Py (List (Option ℝ)) :=
  if args.laserCorrection then
    if args.laserWavelength = 0 then .error .zeroDivisionError
    else
      let l := rnd (10000000 / args.laserWavelength)
      if l ≤ 0 then .error .valueError
      else .ok (List.zipWith (mulOptR rnd) intensities (wavenumbers.map (laserEntryR rnd l)))
  else .ok intensities

/-- Bose-Einstein part of `measure`, `_raman.py` L189-192, with `get_bose_einstein_correction`. -/
def applyBoseR (args : MeasureArgs) (wavenumbers : List ℝ) (intensities : List (Option ℝ)) :
    Py (List (Option ℝ)) :=
  if args.boseEinstein then
    if args.temperature ≤ 0 then .error .valueError
    else .ok (List.zipWith (mulOptR rnd) intensities
      (wavenumbers.map (boseEntryR rnd args.temperature)))
  else .ok intensities

/-- `PhononRamanSpectrum.measure`, `_raman.py` L122-194. -/
def PhononSpectrum.measureR (s : PhononSpectrum) (args : MeasureArgs) :
    Py (List ℝ × List (Option ℝ)) :=
  if args.orientation ≠ polycrystalline then .error .notImplementedError
  else do
    let intensities := s.tensors.map fun R => some (rawIntensityR rnd R)
    let intensities ← applyLaserR rnd args s.wavenumbers intensities
    let intensities ← applyBoseR rnd args s.wavenumbers intensities
    return (s.wavenumbers, intensities)

/-- `factor` of the Gaussian branch, `utils.py` L60-65.  If `2 * width**2` underflows, the
quotient is minus infinity, whose exponential is zero, or NaN. -/
def gaussianR (width center x : ℝ) : Option ℝ :=
  let d := sqR rnd (rnd (center - x))
  let b := rnd (2 * rnd (width * width))
  let c := rnd (rnd (1 / width) * rnd (1 / rnd (Real.sqrt (rnd (2 * Real.pi)))))
  if b = 0 then if d = 0 then none else some (rnd (c * 0))
  else some (rnd (c * rnd (Real.exp (rnd (-d / b)))))

/-- `factor` of the Lorentzian branch, `utils.py` L66-69. -/
def lorentzianR (width center x : ℝ) : Option ℝ :=
  let h := rnd (0.5 * width)
  mulOptR rnd (some (rnd (1 / rnd Real.pi)))
    (npDivR rnd h (rnd (sqR rnd (rnd (center - x)) + sqR rnd h)))

/-- Line shape, `utils.py` L60-71. -/
def lineShapeR (function : List Char) (width center x : ℝ) : Option ℝ :=
  if function = gaussianName then gaussianR rnd width center x
  else if function = lorentzianName then lorentzianR rnd width center x
  else none

/-- Loop of `convolve_spectrum`, `utils.py` L57-73. -/
def convolveLoopR (function : List Char) (width : ℝ) (out : List ℝ) :
    List (ℝ × Option ℝ) → List (Option ℝ) → Py (List (Option ℝ))
  | [], acc => .ok acc
  | (w, i) :: peaks, acc =>
    if knownShape function then
      convolveLoopR function width out peaks
        (List.zipWith (fun x a => addOptR rnd a (mulOptR rnd (lineShapeR rnd function width w x) i))
          out acc)
    else .error .valueError

end

end Verif
