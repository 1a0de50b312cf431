import Verif.Model.GnnModel

/-!
# Spectra of predictions that may be NaN

`Verif.Model.Dynamics` and `Verif.Model.Spectrum` have real tensors.  A graph network predicts NaN where
bonded atoms coincide (`Verif.Props.Gnn`, C84), and `get_raman_spectrum` and `measure` pass NaN on.  Here
the functions of `dynamics/_phonon.py` L82-108, `dynamics/_trajectory.py` L71-90, `spectrum/_raman.py`
L122-194 and L241-309 and `spectrum/utils.py` L76-124 are repeated for tensors whose entries may be NaN
(`none`).  Sums, differences and products with NaN are NaN.
-/

namespace Verif

noncomputable section

variable {N : ℕ}

/-- A tensor whose entries may be NaN. -/
abbrev NTensor := Matrix (Fin 3) (Fin 3) (Option ℝ)

/-- `PolarizabilityModel.calc_polarizabilities` of a model that may predict NaN. -/
abbrev PolModelN (N : ℕ) := List (Pos N ℝ) → Py (List NTensor)

/-- `PotGNN.calc_polarizabilities`, _gnn.py L667-721, in a given state. -/
def PotGNN.asModelN {dn de : ℕ} (m : PotGNN dn de) (lattice : Mat3 ℝ) (numbers : Fin N → ℕ)
    (st : GnnState) : PolModelN N := fun positions =>
  (m.calcPolarizabilities lattice numbers st positions).1

/-! ## Phonons -/

/-- `model.calc_polarizabilities(np.array([positions]))[0]`. -/
def evalOneN (model : PolModelN N) (p : Pos N ℝ) : Py NTensor := do
  match ← model [p] with
  | [] => .error .indexError
  | A :: _ => return A

/-- Loop body of `Phonons.get_raman_spectrum`, _phonon.py L94-106. -/
def ramanTensorN (model : PolModelN N) (ref d : Pos N ℝ) : Py NTensor := do
  let epsilon : Pos N ℝ := fun a i => d a i * centralDifference
  let plus ← asIncompatible (evalOneN model fun a i => ref a i + epsilon a i)
  let minus ← asIncompatible (evalOneN model fun a i => ref a i - epsilon a i)
  return fun i j => Option.map₂ (fun a b => 1 / centralDifference * (a - b)) (plus i j) (minus i j)

/-- Attributes of `PhononRamanSpectrum`, `_raman.py` L96-97. -/
structure PhononSpectrumN where
  wavenumbers : List ℝ
  tensors : List NTensor

/-- `Phonons.get_raman_spectrum`, _phonon.py L82-108, with the check of `_raman.py` L87-97. -/
def Phonons.getRamanSpectrumN (ph : Phonons N) (model : PolModelN N) : Py PhononSpectrumN := do
  let tensors ← ph.displacements.mapM (ramanTensorN model ph.refPositions)
  if tensors.isEmpty then .error .valueError
  else if tensors.length ≠ ph.wavenumbers.length then .error .valueError
  else return ⟨ph.wavenumbers, tensors⟩

/-- `45.0 * alpha_squared + 7.0 * gamma_squared`, `_raman.py` L163-182, which reads the diagonal and the
upper triangle. -/
def rawIntensityN (R : NTensor) : Option ℝ := do
  let xx ← R 0 0
  let yy ← R 1 1
  let zz ← R 2 2
  let xy ← R 0 1
  let xz ← R 0 2
  let yz ← R 1 2
  return 45 * ((xx + yy + zz) / 3) ^ 2 + 7 * (((xx - yy) ^ 2 + (xx - zz) ^ 2 + (yy - zz) ^ 2
    + 6 * (xy ^ 2 + xz ^ 2 + yz ^ 2)) / 2)

/-- `PhononRamanSpectrum.measure`, `_raman.py` L122-194. -/
def PhononSpectrumN.measure (s : PhononSpectrumN) (args : MeasureArgs) :
    Py (List ℝ × List (Option ℝ)) :=
  if args.orientation ≠ polycrystalline then .error .notImplementedError
  else do
    let intensities ← applyLaser args s.wavenumbers (s.tensors.map rawIntensityN)
    let intensities ← applyBose args s.wavenumbers intensities
    return (s.wavenumbers, intensities)

/-! ## Trajectories -/

/-- `scipy.signal.correlate(signal, signal, "full")` as a function of the signal.  SciPy chooses between
direct summation and Fourier transforms, which spread NaN differently. -/
abbrev CorrelateFn := List (Option ℝ) → List (Option ℝ)

/-- `_calc_autocorrelation`, utils.py L76-92. -/
def calcAutocorrelationN (corr : CorrelateFn) (signal : List (Option ℝ)) : List (Option ℝ) :=
  let c := corr signal
  c.drop ((c.length - 1) / 2)

/-- `np.real(scipy.fftpack.fft(x))`, utils.py L123: every coefficient is a sum over all samples. -/
def fftReN (x : List (Option ℝ)) : List (Option ℝ) :=
  match x.mapM id with
  | some y => (fft y).map fun z => some z.re
  | none => x.map fun _ => none

/-- `calc_signal_spectrum`, utils.py L95-124. -/
def calcSignalSpectrumN (corr : CorrelateFn) (signal : List (Option ℝ)) (samplingRate : ℝ) :
    Py (List ℝ × List (Option ℝ)) := do
  let autocorrelation := calcAutocorrelationN corr signal
  let freqs ← fftfreq autocorrelation.length samplingRate
  let wavenumbers := freqs.map fun f => f * (3335640951981521 / 10 ^ 14) * 1000
  let intensities := fftReN autocorrelation
  let kept := (wavenumbers.zip intensities).filter fun x => decide (x.1 ≥ 0)
  return (kept.map Prod.fst, kept.map Prod.snd)

/-- Attributes of `MDRamanSpectrum`, `_raman.py` L215-216. -/
structure MDSpectrumN where
  polarizabilityTs : List NTensor
  timestep : ℝ

/-- `Trajectory.get_raman_spectrum`, _trajectory.py L71-90. -/
def Trajectory.getRamanSpectrumN (t : Trajectory N) (model : PolModelN N) : Py MDSpectrumN := do
  let ts ← asIncompatible (model t.positionsTs)
  return ⟨ts, t.timestep⟩

/-- Difference of tensors. -/
def subN (b a : NTensor) : NTensor := fun i j => Option.map₂ (· - ·) (b i j) (a i j)

/-- `np.diff(x, axis=0)`. -/
def npDiffN (l : List NTensor) : List NTensor := List.zipWith subN l.tail l

/-- Sum of spectra of equal length. -/
def addLN (xs ys : List (Option ℝ)) : List (Option ℝ) := List.zipWith (Option.map₂ (· + ·)) xs ys

/-- Multiple of a spectrum. -/
def scaleLN (c : ℝ) (xs : List (Option ℝ)) : List (Option ℝ) := xs.map (Option.map (c * ·))

/-- Wavenumbers and intensities before corrections, `_raman.py` L281-301. -/
def mdRawN (corr : CorrelateFn) (s : MDSpectrumN) : Py (List ℝ × List (Option ℝ)) := do
  let ad := npDiffN s.polarizabilityTs
  let spec := fun f : NTensor → Option ℝ => calcSignalSpectrumN corr (ad.map f) s.timestep
  let w ← spec fun A => A 0 0
  let a ← spec fun A => Option.map₂ (· + ·) (Option.map₂ (· + ·) (A 0 0) (A 1 1)) (A 2 2)
  let g1 ← spec fun A => Option.map₂ (· - ·) (A 0 0) (A 1 1)
  let g2 ← spec fun A => Option.map₂ (· - ·) (A 1 1) (A 2 2)
  let g3 ← spec fun A => Option.map₂ (· - ·) (A 2 2) (A 0 0)
  let g4 ← spec fun A => A 0 1
  let g5 ← spec fun A => A 1 2
  let g6 ← spec fun A => A 0 2
  let alpha2 := scaleLN (1 / 9) a.2
  let gamma2 := addLN (addLN (addLN (addLN (addLN (scaleLN (1 / 2) g1.2) (scaleLN (1 / 2) g2.2))
    (scaleLN (1 / 2) g3.2)) (scaleLN 3 g4.2)) (scaleLN 3 g5.2)) (scaleLN 3 g6.2)
  let intensities := addLN (scaleLN 45 alpha2) (scaleLN 7 gamma2)
  return (w.1.tail, intensities.tail)

/-- `MDRamanSpectrum.measure`, `_raman.py` L241-309. -/
def MDSpectrumN.measure (corr : CorrelateFn) (s : MDSpectrumN) (args : MeasureArgs) :
    Py (List ℝ × List (Option ℝ)) :=
  if args.orientation ≠ polycrystalline then .error .notImplementedError
  else do
    let (wavenumbers, raw) ← mdRawN corr s
    let intensities ← applyLaser args wavenumbers raw
    let intensities ← applyBose args wavenumbers intensities
    return (wavenumbers, intensities)

end

end Verif
