import Verif.Proofs.Spectrum
import Mathlib.RingTheory.RootsOfUnity.Complex

/-!
# Sums of cosines over whole numbers of periods
-/

namespace Verif

open Spec

/-- A cosine with a whole number of periods in the sample averages to zero. -/
theorem sum_cos_zero (n : ℕ) (j : ℤ) (hn : 0 < n) (hj : ¬ (n : ℤ) ∣ j) (β : ℝ) :
    ∑ a ∈ Finset.range n, Real.cos (2 * Real.pi * j * a / n + β) = 0 := by
  have hn' : (n : ℂ) ≠ 0 := by exact_mod_cast hn.ne'
  have hz : Complex.exp (2 * Real.pi * Complex.I * (j / n)) ≠ 1 := by
    intro h
    obtain ⟨m, hm⟩ := Complex.exp_eq_one_iff.1 h
    have h2 : (2 * Real.pi * Complex.I : ℂ) ≠ 0 := Complex.two_pi_I_ne_zero
    have h3 : (j / n : ℂ) = m := by
      apply mul_left_cancel₀ h2
      rw [hm]; ring
    rw [div_eq_iff hn'] at h3
    exact hj ⟨m, by rw [mul_comm]; exact_mod_cast h3⟩
  have hpow : Complex.exp (2 * Real.pi * Complex.I * (j / n)) ^ n = 1 := by
    rw [← Complex.exp_nat_mul, Complex.exp_eq_one_iff]
    exact ⟨j, by field_simp⟩
  have hgeo : ∑ a ∈ Finset.range n, Complex.exp (2 * Real.pi * Complex.I * (j / n)) ^ a = 0 := by
    have := geom_sum_mul (Complex.exp (2 * Real.pi * Complex.I * (j / n))) n
    rw [hpow, sub_self] at this
    exact (mul_eq_zero.1 this).resolve_right (sub_ne_zero.2 hz)
  have hre : ∀ a ∈ Finset.range n, Real.cos (2 * Real.pi * j * a / n + β) =
      (Complex.exp (β * Complex.I) * Complex.exp (2 * Real.pi * Complex.I * (j / n)) ^ a).re := by
    intro a _
    rw [← Complex.exp_nat_mul, ← Complex.exp_add]
    have : (β * Complex.I + a * (2 * Real.pi * Complex.I * (j / n)) : ℂ) =
        ((2 * Real.pi * j * a / n + β : ℝ) : ℂ) * Complex.I := by push_cast; ring
    rw [this, Complex.exp_ofReal_mul_I_re]
  rw [Finset.sum_congr rfl hre, ← Complex.re_sum, ← Finset.mul_sum, hgeo, mul_zero, Complex.zero_re]

/-- Products of cosines with `m` and `l` periods, both fewer than half the number of samples. -/
theorem sum_cos_cos (n m l : ℕ) (hm : 0 < m) (hm' : 2 * m < n) (hl' : 2 * l < n) (ψ χ : ℝ) :
    ∑ a ∈ Finset.range n, Real.cos (2 * Real.pi * m * a / n + ψ) *
        Real.cos (2 * Real.pi * l * a / n + χ) =
      if m = l then n / 2 * Real.cos (ψ - χ) else 0 := by
  have hp : ∀ a ∈ Finset.range n, Real.cos (2 * Real.pi * m * a / n + ψ) *
      Real.cos (2 * Real.pi * l * a / n + χ) =
      1 / 2 * Real.cos (2 * Real.pi * ((m + l : ℤ) : ℝ) * a / n + (ψ + χ)) +
      1 / 2 * Real.cos (2 * Real.pi * ((m - l : ℤ) : ℝ) * a / n + (ψ - χ)) := by
    intro a _
    have e1 : 2 * Real.pi * ((m + l : ℤ) : ℝ) * a / n + (ψ + χ) =
        (2 * Real.pi * m * a / n + ψ) + (2 * Real.pi * l * a / n + χ) := by push_cast; ring
    have e2 : 2 * Real.pi * ((m - l : ℤ) : ℝ) * a / n + (ψ - χ) =
        (2 * Real.pi * m * a / n + ψ) - (2 * Real.pi * l * a / n + χ) := by push_cast; ring
    rw [e1, e2]
    generalize 2 * Real.pi * m * a / n + ψ = X
    generalize 2 * Real.pi * l * a / n + χ = Y
    rw [Real.cos_add, Real.cos_sub]
    ring
  rw [Finset.sum_congr rfl hp, Finset.sum_add_distrib, ← Finset.mul_sum, ← Finset.mul_sum,
    sum_cos_zero n _ (by omega) (by
      rintro ⟨c, hc⟩
      rcases le_or_gt c 0 with h | h
      · have : (n : ℤ) * c ≤ 0 := mul_nonpos_of_nonneg_of_nonpos (by omega) h
        omega
      · have : (n : ℤ) * 1 ≤ n * c := mul_le_mul_of_nonneg_left (by omega) (by omega)
        omega)]
  split_ifs with h
  · subst h
    simp
    ring
  · rw [sum_cos_zero n _ (by omega) (by
      rintro ⟨c, hc⟩
      rcases lt_trichotomy c 0 with h' | h' | h'
      · have : (n : ℤ) * c ≤ n * (-1) := mul_le_mul_of_nonneg_left (by omega) (by omega)
        omega
      · subst h'; omega
      · have : (n : ℤ) * 1 ≤ n * c := mul_le_mul_of_nonneg_left (by omega) (by omega)
        omega)]
    ring

/-- The quadratic form of the spectrum on two vibrations. -/
theorem specCoef_harmonic (n k m l : ℕ) (hm : 0 < m) (hl : 0 < l) (hm' : 2 * m < n) (hl' : 2 * l < n)
    (hk' : 2 * k < n) (ψ χ : ℝ) :
    ∑ a ∈ Finset.range n, ∑ b ∈ Finset.range n, specCoef n k a b *
        (Real.cos (2 * Real.pi * m * a / n + ψ) * Real.cos (2 * Real.pi * l * b / n + χ)) =
      if m = l then Real.cos (ψ - χ) * (n / 4 + if k = m then (n : ℝ) ^ 2 / 8 else 0) else 0 := by
  have h1 : ∀ a ∈ Finset.range n, ∑ b ∈ Finset.range n, specCoef n k a b *
        (Real.cos (2 * Real.pi * m * a / n + ψ) * Real.cos (2 * Real.pi * l * b / n + χ)) =
      1 / 2 * (Real.cos (2 * Real.pi * m * a / n + ψ) * Real.cos (2 * Real.pi * k * a / n + 0) *
        ∑ b ∈ Finset.range n, Real.cos (2 * Real.pi * l * b / n + χ) *
          Real.cos (2 * Real.pi * k * b / n + 0)) +
      1 / 2 * (Real.cos (2 * Real.pi * m * a / n + ψ) *
        Real.cos (2 * Real.pi * k * a / n + -(Real.pi / 2)) *
        ∑ b ∈ Finset.range n, Real.cos (2 * Real.pi * l * b / n + χ) *
          Real.cos (2 * Real.pi * k * b / n + -(Real.pi / 2))) +
      1 / 2 * (Real.cos (2 * Real.pi * m * a / n + ψ) * Real.cos (2 * Real.pi * l * a / n + χ)) := by
    intro a ha
    have h2 : Real.cos (2 * Real.pi * m * a / n + ψ) * Real.cos (2 * Real.pi * l * a / n + χ) =
        ∑ b ∈ Finset.range n, if a = b then Real.cos (2 * Real.pi * m * a / n + ψ) *
          Real.cos (2 * Real.pi * l * b / n + χ) else 0 := by
      rw [Finset.sum_ite_eq, if_pos ha]
    rw [h2, Finset.mul_sum, Finset.mul_sum, Finset.mul_sum, Finset.mul_sum, Finset.mul_sum,
      ← Finset.sum_add_distrib, ← Finset.sum_add_distrib]
    refine Finset.sum_congr rfl fun b _ => ?_
    have e : 2 * Real.pi * ((a : ℝ) - b) * k / n =
        2 * Real.pi * k * a / n - 2 * Real.pi * k * b / n := by ring
    unfold specCoef
    rw [e, Real.cos_sub, add_zero, add_zero, ← sub_eq_add_neg, ← sub_eq_add_neg,
      Real.cos_sub_pi_div_two, Real.cos_sub_pi_div_two]
    split_ifs <;> ring
  rw [Finset.sum_congr rfl h1, Finset.sum_add_distrib, Finset.sum_add_distrib, ← Finset.mul_sum,
    ← Finset.mul_sum, ← Finset.mul_sum, ← Finset.sum_mul, ← Finset.sum_mul,
    sum_cos_cos n m k hm hm' hk', sum_cos_cos n l k hl hl' hk', sum_cos_cos n m k hm hm' hk',
    sum_cos_cos n l k hl hl' hk', sum_cos_cos n m l hm hm' hl']
  by_cases hml : m = l
  · subst hml
    rw [if_pos rfl, if_pos rfl]
    by_cases hmk : m = k
    · subst hmk
      simp only [if_true, sub_zero, sub_neg_eq_add, Real.cos_add_pi_div_two]
      rw [Real.cos_sub ψ χ]
      ring
    · rw [if_neg hmk, if_neg hmk, if_neg hmk, if_neg hmk, if_neg fun h => hmk h.symm]
      ring
  · rw [if_neg hml, if_neg hml]
    by_cases hmk : m = k
    · subst hmk
      have h3 : ¬ l = m := fun h => hml h.symm
      simp [h3]
    · simp [hmk]

end Verif
