import Verif.Model.Base
import Mathlib.Analysis.SpecialFunctions.Trigonometric.Basic
import Mathlib.Analysis.SpecialFunctions.Exp
import Mathlib.LinearAlgebra.Matrix.Trace

/-!
# Specification vocabulary for spectra (independent of the model)
-/

namespace Verif.Spec

noncomputable section

/-- Speed of light (cm/s), Planck constant (eV s, five digits) and Boltzmann constant (eV/K). -/
def lightSpeed : ℝ := 2.99792458e10

/-- Planck constant in eV s. -/
def planck : ℝ := 4.1357e-15

/-- Boltzmann constant in eV/K. -/
def kB : ℝ := 8.617333262e-5

/-- Bose-Einstein factor `1 / (1 - exp(-h c w / (k_B T)))` of the wavenumber `w` (cm⁻¹). -/
def boseFactor (T w : ℝ) : ℝ := (1 - Real.exp (-(planck * lightSpeed * w / (kB * T))))⁻¹

/-- Laser factor `(ν_L - w)⁴ / w`, in units of `10000 cm⁻¹` for the difference. -/
def laserFactor (ν w : ℝ) : ℝ := ((ν - w) / 10000) ^ 4 / w

/-- Isotropic polarizability invariant: mean of the diagonal. -/
def meanPol (R : Matrix (Fin 3) (Fin 3) ℝ) : ℝ := R.trace / 3

/-- Anisotropy of a symmetric tensor, in its basis independent form. -/
def anisotropy (R : Matrix (Fin 3) (Fin 3) ℝ) : ℝ := (3 * (R * R).trace - R.trace ^ 2) / 2

/-- Amplitude at frequency `k/n` of a signal of `n` samples. -/
def fourier (n : ℕ) (x : ℕ → ℝ) (k : ℕ) : ℂ :=
  ∑ j ∈ Finset.range n, (x j : ℂ) * Complex.exp (-(2 * Real.pi * j * k / n : ℝ) * Complex.I)

/-- Normalised Gaussian line at `c` with standard deviation `σ`. -/
def gaussianLine (σ c x : ℝ) : ℝ := Real.exp (-(x - c) ^ 2 / (2 * σ ^ 2)) / (σ * √(2 * Real.pi))

/-- Normalised Lorentzian line at `c` with full width at half maximum `Γ`. -/
def lorentzianLine (Γ c x : ℝ) : ℝ := (Γ / 2) / (Real.pi * ((x - c) ^ 2 + (Γ / 2) ^ 2))

/-- Sum of lines `L` with the given centres and weights at `x`. -/
def lineSum (L : ℝ → ℝ → ℝ) (peaks : List (ℝ × ℝ)) (x : ℝ) : ℝ :=
  (peaks.map fun p => p.2 * L p.1 x).sum

end

end Verif.Spec
