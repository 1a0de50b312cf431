import Verif.Model.Index
import Verif.Spec.Index

/-! Helper lemmas about Python indexing. -/

namespace Verif
open Spec

theorem pyIndex_some_iff (n : ℕ) (i : ℤ) (k : Fin n) :
    pyIndex n i = some k ↔ Addresses n i k := by
  unfold pyIndex Addresses
  have hk := k.2
  split_ifs with h1 h2
  · rw [Option.some.injEq, Fin.ext_iff]
    dsimp only; omega
  · rw [Option.some.injEq, Fin.ext_iff]
    dsimp only; omega
  · simp only [reduceCtorEq, false_iff]; omega

theorem pyIndex_none_iff (n : ℕ) (i : ℤ) :
    pyIndex n i = none ↔ (i < -(n : ℤ) ∨ (n : ℤ) ≤ i) := by
  unfold pyIndex
  split_ifs with h1 h2
  · simp only [reduceCtorEq, false_iff]; omega
  · simp only [reduceCtorEq, false_iff]; omega
  · simp only [true_iff]; omega

end Verif
