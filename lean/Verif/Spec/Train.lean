import Verif.Spec.Dataset

/-!
# Specification vocabulary for training (independent of the model)
-/

namespace Verif.Spec

/-- `batches` splits `l` in order into nonempty batches, all but the last of size `b`. -/
structure Batching {α : Type} (l : List α) (b : ℕ) (batches : List (List α)) : Prop where
  join : batches.flatten = l
  nonempty : ∀ x ∈ batches, x ≠ []
  size : ∀ x ∈ batches, x.length ≤ b
  full : ∀ x ∈ batches.dropLast, x.length = b

/-- Unbiased sample variance. -/
noncomputable def sampleVariance (l : List ℝ) : ℝ :=
  (l.map fun x => (x - mean l) ^ 2).sum / (l.length - 1)

end Verif.Spec
