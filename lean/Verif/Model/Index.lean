import Verif.Model.Base

/-!
# Python sequence indexing
-/

namespace Verif

/-- Python/NumPy integer indexing of a sequence of length `n`: `none` is `IndexError`. -/
def pyIndex (n : ℕ) (i : ℤ) : Option (Fin n) :=
  if h : 0 ≤ i ∧ i < n then some ⟨i.toNat, by omega⟩
  else if h : -(n : ℤ) ≤ i ∧ i < 0 then some ⟨(i + n).toNat, by omega⟩
  else none

end Verif
