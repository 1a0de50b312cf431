import Mathlib.Data.Fin.Basic

/-!
# Specification of Python indexing (independent of the model)
-/

namespace Verif.Spec

/-- `i` addresses element `k` of a sequence of length `n` (negative indexes count from the
end). -/
def Addresses (n : ℕ) (i : ℤ) (k : Fin n) : Prop := i = k ∨ i = (k : ℤ) - n

/-- Bound of a slice of a sequence of length `n`: negative numbers count from the end. -/
def sliceBound (n : ℕ) (b : ℤ) : ℤ := if b < 0 then b + n else b

/-- Index `i` of a sequence of length `n` is selected by `start:stop:step` (`none` for an
omitted bound, `step ≠ 0`): it is in range, reached from the first index by whole steps, and
lies before `stop`. -/
def Selects (n : ℕ) (start stop : Option ℤ) (step : ℤ) (i : ℤ) : Prop :=
  0 ≤ i ∧ i < n ∧
  (0 < step → (∃ k : ℕ, i = (start.elim 0 fun b => max 0 (sliceBound n b)) + k * step) ∧
    ∀ b ∈ stop, i < sliceBound n b) ∧
  (step < 0 → (∃ k : ℕ, i = (start.elim ((n : ℤ) - 1) fun b => min (n - 1) (sliceBound n b))
      + k * step) ∧ ∀ b ∈ stop, sliceBound n b < i)

end Verif.Spec
