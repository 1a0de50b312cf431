import Verif.Model.NanSpectrum

/-!
# Vocabulary of C178: spectra of predictions that may be NaN
-/

namespace Verif.Spec

open Verif

/-- What is assumed of `scipy.signal.correlate(x, x, "full")`: its definition on finite signals, the
length, and that the middle entry, the sum of the squares of all samples, is NaN if a sample is. -/
structure Correlates (corr : CorrelateFn) : Prop where
  finite : ∀ x : List ℝ, corr (x.map some) = (correlateFull x x).map some
  length : ∀ x, (corr x).length = 2 * x.length - 1
  middle : ∀ x, none ∈ x → (corr x)[x.length - 1]? = some none

/-- The exception or the wavenumbers of `r`, with NaN as the only intensity. -/
def AllNan {α : Type} (r : Py (List ℝ × α)) : Py (List ℝ × List (Option ℝ)) :=
  r.map fun x => (x.1, x.1.map fun _ => none)

/-- A finite tensor. -/
def liftN (A : Mat3 ℝ) : NTensor := fun i j => some (A i j)

/-- An entry of the diagonal or the upper triangle is NaN. -/
def Spoiled (T : NTensor) : Prop := ∃ i j, i ≤ j ∧ T i j = none

end Verif.Spec
