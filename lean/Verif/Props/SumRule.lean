import Verif.Props.Spectrum
import Verif.Proofs.Harmonic

/-!
# C176: sum rules for spectra of signals and trajectories
-/

namespace Verif
open Spec

theorem autoAt_zero (n : ℕ) (x : ℕ → ℝ) : autoAt n x 0 = ∑ a ∈ Finset.range n, x a ^ 2 := by
  unfold autoAt
  refine Finset.sum_congr (by simp) fun l _ => ?_
  rw [add_zero, sq]

/-- The sum over all frequencies. -/
theorem specAt_sum (n : ℕ) (x : ℕ → ℝ) :
    ∑ k ∈ Finset.range n, specAt n x k = n * ∑ a ∈ Finset.range n, x a ^ 2 := by
  rcases Nat.eq_zero_or_pos n with rfl | hn
  · simp
  unfold specAt
  rw [Finset.sum_comm]
  simp_rw [← Finset.mul_sum]
  rw [Finset.sum_eq_single 0]
  · rw [autoAt_zero]
    simp
    ring
  · intro j hj hj0
    have h := sum_cos_zero n (j : ℤ) hn (by
      intro hd
      have := Int.natCast_dvd_natCast.1 hd
      exact absurd (Nat.le_of_dvd (Nat.pos_of_ne_zero hj0) this)
        (not_le.2 (Finset.mem_range.1 hj))) 0
    simp only [add_zero, Int.cast_natCast] at h
    rw [h, mul_zero]
  · intro h
    exact absurd (Finset.mem_range.2 hn) h

/-- Negative frequencies. -/
theorem specAt_symm (n : ℕ) (hn : 0 < n) (x : ℕ → ℝ) (k : ℕ) (hk : k ≤ n) :
    specAt n x (n - k) = specAt n x k := by
  unfold specAt
  refine Finset.sum_congr rfl fun j _ => ?_
  congr 1
  have hn' : (n : ℝ) ≠ 0 := by exact_mod_cast hn.ne'
  have e : 2 * Real.pi * j * ((n - k : ℕ) : ℝ) / n
      = (j : ℝ) * (2 * Real.pi) - 2 * Real.pi * j * k / n := by
    rw [Nat.cast_sub hk]
    field_simp
  rw [e, Real.cos_nat_mul_two_pi_sub]

/-- Splitting a sum over all frequencies into zero, positive, negative and the last one. -/
theorem sum_halves (f : ℕ → ℝ) (m : ℕ) :
    (∀ k, k ≤ 2 * m + 1 → f (2 * m + 1 - k) = f k) →
      ∑ k ∈ Finset.range (2 * m + 1), f k = f 0 + 2 * ∑ k ∈ Finset.range m, f (k + 1) := by
  intro h
  rw [Finset.sum_range_succ', add_comm, two_mul m, Finset.sum_range_add, two_mul]
  congr 2
  rw [← Finset.sum_range_reflect]
  refine Finset.sum_congr rfl fun k hk => ?_
  have hk := Finset.mem_range.1 hk
  rw [← h (k + 1) (by omega)]
  congr 1
  omega

theorem sum_halves_even (f : ℕ → ℝ) (m : ℕ) :
    (∀ k, k ≤ 2 * m + 2 → f (2 * m + 2 - k) = f k) →
      ∑ k ∈ Finset.range (2 * m + 2), f k
        = f 0 + 2 * (∑ k ∈ Finset.range m, f (k + 1)) + f (m + 1) := by
  intro h
  rw [Finset.sum_range_succ']
  have e : 2 * m + 1 = (m + 1) + m := by omega
  rw [e, Finset.sum_range_add, Finset.sum_range_succ, two_mul]
  have : ∑ k ∈ Finset.range m, f (m + 1 + k + 1) = ∑ k ∈ Finset.range m, f (k + 1) := by
    rw [← Finset.sum_range_reflect]
    refine Finset.sum_congr rfl fun k hk => ?_
    have hk := Finset.mem_range.1 hk
    rw [← h (k + 1) (by omega)]
    congr 1
    omega
  rw [this]
  ring

/-- The spectrum at the highest frequency of an even number of samples. -/
theorem specAt_last (m : ℕ) (x : ℕ → ℝ) :
    specAt (2 * m + 2) x (m + 1) = ((∑ j ∈ Finset.range (2 * m + 2), (-1) ^ j * x j) ^ 2
      + ∑ j ∈ Finset.range (2 * m + 2), x j ^ 2) / 2 := by
  rw [specAt_eq]
  congr 2
  unfold fourier
  have e : ∀ j : ℕ, Complex.exp (-(2 * Real.pi * j * ((m + 1 : ℕ) : ℝ) / ((2 * m + 2 : ℕ) : ℝ) : ℝ)
      * Complex.I) = (((-1) ^ j : ℝ) : ℂ) := by
    intro j
    have h1 : (2 * Real.pi * j * ((m + 1 : ℕ) : ℝ) / ((2 * m + 2 : ℕ) : ℝ) : ℝ) = j * Real.pi := by
      push_cast
      have : (m : ℝ) + 1 ≠ 0 := by positivity
      field_simp
    rw [h1]
    have h2 : (-((j * Real.pi : ℝ) : ℂ)) * Complex.I = (j : ℂ) * (-(Real.pi * Complex.I)) := by
      push_cast; ring
    rw [h2, Complex.exp_nat_mul, Complex.exp_neg, Complex.exp_pi_mul_I]
    push_cast
    norm_num
  simp_rw [e]
  have e2 : (∑ j ∈ Finset.range (2 * m + 2), (x j : ℂ) * (((-1) ^ j : ℝ) : ℂ))
      = ((∑ j ∈ Finset.range (2 * m + 2), (-1) ^ j * x j : ℝ) : ℂ) := by
    push_cast
    exact Finset.sum_congr rfl fun j _ => mul_comm _ _
  rw [e2, Complex.normSq_ofReal, sq]

theorem specAt_first (n : ℕ) (x : ℕ → ℝ) :
    specAt n x 0 = ((∑ j ∈ Finset.range n, x j) ^ 2 + ∑ j ∈ Finset.range n, x j ^ 2) / 2 := by
  rw [specAt_eq]
  congr 2
  unfold fourier
  have e2 : (∑ j ∈ Finset.range n, (x j : ℂ) * Complex.exp (-(2 * Real.pi * j * ((0 : ℕ) : ℝ) / n : ℝ)
      * Complex.I)) = ((∑ j ∈ Finset.range n, x j : ℝ) : ℂ) := by
    push_cast
    simp
  rw [e2, Complex.normSq_ofReal, sq]

/-- The intensities at positive frequencies, for a signal of `n` samples. -/
theorem specAt_positive (n : ℕ) (hn : 0 < n) (x : ℕ → ℝ) :
    2 * ∑ k ∈ Finset.range ((n - 1) / 2), specAt n x (k + 1)
      = n * (∑ a ∈ Finset.range n, x a ^ 2)
        - ((∑ a ∈ Finset.range n, x a) ^ 2 + ∑ a ∈ Finset.range n, x a ^ 2) / 2
        - if n % 2 = 0 then ((∑ a ∈ Finset.range n, (-1) ^ a * x a) ^ 2
            + ∑ a ∈ Finset.range n, x a ^ 2) / 2 else 0 := by
  have hs := specAt_sum n x
  have h0 := specAt_first n x
  rcases Nat.even_or_odd' n with ⟨m, rfl | rfl⟩
  · obtain ⟨m, rfl⟩ : ∃ l, m = l + 1 := ⟨m - 1, by omega⟩
    have e1 : 2 * (m + 1) = 2 * m + 2 := by ring
    rw [e1] at hs h0 ⊢
    rw [sum_halves_even (specAt (2 * m + 2) x) m fun k hk => specAt_symm _ (by omega) x k hk,
      specAt_last, h0] at hs
    rw [if_pos (by omega), show (2 * m + 2 - 1) / 2 = m by omega]
    linarith
  · rw [sum_halves (specAt (2 * m + 1) x) m fun k hk => specAt_symm _ (by omega) x k hk, h0] at hs
    rw [if_neg (by omega), show (2 * m + 1 - 1) / 2 = m by omega]
    linarith

/-- C176: sum rule of a signal.  The intensities at positive wavenumbers (all but the first one) are
determined in total by the energy of the signal, its sum and, for an even number of samples, its
alternating sum; the line at the highest wavenumber is missing in that case. -/
theorem C176_signal (x : List ℝ) (hx : x ≠ []) (dt : ℝ) (hdt : 0 < dt) (ws is : List ℝ)
    (h : calcSignalSpectrum x dt = .ok (ws, is)) :
    2 * is.tail.sum = x.length * (x.map (· ^ 2)).sum - (x.sum ^ 2 + (x.map (· ^ 2)).sum) / 2
      - if x.length % 2 = 0 then
          ((x.mapIdx fun j a => (-1) ^ j * a).sum ^ 2 + (x.map (· ^ 2)).sum) / 2 else 0 := by
  have hn : 0 < x.length := List.length_pos_of_ne_nil hx
  rw [calcSignalSpectrum_eq x hx dt hdt] at h
  obtain ⟨-, rfl⟩ := Prod.mk.inj (Except.ok.inj h)
  have lists : ∀ (g : ℕ → ℝ → ℝ), (x.mapIdx g).sum
      = ∑ a ∈ Finset.range x.length, g a (x.getD a 0) := by
    intro g
    rw [← Fin.sum_univ_eq_sum_range (fun a => g a (x.getD a 0)), ← List.sum_ofFn]
    congr 1
    apply List.ext_getElem
    · simp
    · intro i h1 h2
      simp
  have e1 : (x.map (· ^ 2)).sum = ∑ a ∈ Finset.range x.length, x.getD a 0 ^ 2 := by
    rw [← lists fun _ a => a ^ 2]
    congr 1
    apply List.ext_getElem <;> simp
  have e2 : x.sum = ∑ a ∈ Finset.range x.length, x.getD a 0 := by
    rw [← lists fun _ a => a]
    congr 1
    apply List.ext_getElem <;> simp
  rw [e1, e2, lists fun j a => (-1) ^ j * a]
  have e3 : ((List.range (halfLen x.length)).map (specAt x.length fun i => x.getD i 0)).tail.sum
      = ∑ k ∈ Finset.range ((x.length - 1) / 2), specAt x.length (fun i => x.getD i 0) (k + 1) := by
    unfold halfLen
    rw [← List.map_tail, range_tail, List.map_map, ← Fin.sum_univ_eq_sum_range
      (fun k => specAt x.length (fun i => x.getD i 0) (k + 1)), ← List.sum_ofFn]
    congr 1
    apply List.ext_getElem <;> simp
  rw [e3]
  exact specAt_positive x.length hn _

/-- Raman intensity `45 a² + 7 γ²` of a tensor in a polycrystalline sample. -/
noncomputable def Spec.placzek (R : Mat3 ℝ) : ℝ :=
  45 * ((R 0 0 + R 1 1 + R 2 2) / 3) ^ 2
    + 7 * (((R 0 0 - R 1 1) ^ 2 + (R 1 1 - R 2 2) ^ 2 + (R 2 2 - R 0 0) ^ 2) / 2
      + 3 * (R 0 1 ^ 2 + R 1 2 ^ 2 + R 0 2 ^ 2))

/-- C176: sum rule of a molecular-dynamics spectrum with the polarizabilities `P 0, ..., P n`: the total
intensity is given by the Raman intensities of the polarizability changes from step to step, of the total
change and, for an even number of changes, of the alternating sum of changes. -/
theorem C176_trajectory (n : ℕ) (hn : 0 < n) (P : ℕ → Mat3 ℝ) (dt : ℝ) (hdt : 0 < dt)
    (args : MeasureArgs) (ho : args.orientation = "polycrystalline".toList)
    (hl : args.laserCorrection = false) (hb : args.boseEinstein = false) :
    ∃ ws is : List ℝ,
      ((⟨(List.range (n + 1)).map P, dt⟩ : MDSpectrum).measure args).1 = .ok (ws, is.map some) ∧
      2 * is.sum = n * (∑ j ∈ Finset.range n, placzek (P (j + 1) - P j))
        - (placzek (P n - P 0) + ∑ j ∈ Finset.range n, placzek (P (j + 1) - P j)) / 2
        - if n % 2 = 0 then (placzek (∑ j ∈ Finset.range n, (-1 : ℝ) ^ j • (P (j + 1) - P j))
            + ∑ j ∈ Finset.range n, placzek (P (j + 1) - P j)) / 2 else 0 := by
  set s : MDSpectrum := ⟨(List.range (n + 1)).map P, dt⟩ with hs
  have hlen : s.polarizabilityTs.length = n + 1 := by simp [hs]
  have hraw := mdRaw_tail s (by omega) hdt
  set ad := npDiff s.polarizabilityTs with had
  have hal : ad.length = n := by rw [had, npDiff_length, hlen]; rfl
  have hget : ∀ j, j < n → ad.getD j 0 = P (j + 1) - P j := by
    intro j hj
    have h1 : j < ad.length := by omega
    rw [List.getD_eq_getElem?_getD, List.getElem?_eq_getElem h1]
    simp [had, hs, npDiff]
  have hh : (s.polarizabilityTs.length - 2) / 2 = (n - 1) / 2 := by omega
  rw [hh] at hraw
  obtain ⟨ws, hws⟩ : ∃ ws, mdRaw s = .ok (ws, (List.range ((n - 1) / 2)).map
      fun k => mdAt ad (k + 1)) := ⟨_, hraw⟩
  refine ⟨ws, (List.range ((n - 1) / 2)).map fun k => mdAt ad (k + 1), ?_, ?_⟩
  · unfold MDSpectrum.measure
    have ho' : args.orientation = polycrystalline := ho
    rw [if_neg (not_not.2 ho')]
    dsimp only
    rw [hws]
    unfold applyLaser applyBose
    rw [hl, hb]
    rfl
  · have e0 : ((List.range ((n - 1) / 2)).map fun k => mdAt ad (k + 1)).sum
        = ∑ k ∈ Finset.range ((n - 1) / 2), mdAt ad (k + 1) := by
      rw [← Fin.sum_univ_eq_sum_range (fun k => mdAt ad (k + 1)), ← List.sum_ofFn]
      congr 1
      apply List.ext_getElem <;> simp
    have tele : ∑ j ∈ Finset.range n, (P (j + 1) - P j) = P n - P 0 := Finset.sum_range_sub P n
    -- one linear functional of the tensors
    have one : ∀ φ : Mat3 ℝ →ₗ[ℝ] ℝ,
        2 * ∑ k ∈ Finset.range ((n - 1) / 2), specAt n (fun i => φ (ad.getD i 0)) (k + 1)
          = n * (∑ j ∈ Finset.range n, φ (P (j + 1) - P j) ^ 2)
            - (φ (P n - P 0) ^ 2 + ∑ j ∈ Finset.range n, φ (P (j + 1) - P j) ^ 2) / 2
            - if n % 2 = 0 then
                (φ (∑ j ∈ Finset.range n, (-1 : ℝ) ^ j • (P (j + 1) - P j)) ^ 2
                  + ∑ j ∈ Finset.range n, φ (P (j + 1) - P j) ^ 2) / 2 else 0 := by
      intro φ
      rw [specAt_positive n hn]
      have c1 : ∑ a ∈ Finset.range n, φ (ad.getD a 0) ^ 2
          = ∑ j ∈ Finset.range n, φ (P (j + 1) - P j) ^ 2 :=
        Finset.sum_congr rfl fun j hj => by rw [hget j (Finset.mem_range.1 hj)]
      have c2 : ∑ a ∈ Finset.range n, φ (ad.getD a 0) = φ (P n - P 0) := by
        rw [← tele, map_sum]
        exact Finset.sum_congr rfl fun j hj => by rw [hget j (Finset.mem_range.1 hj)]
      have c3 : ∑ a ∈ Finset.range n, (-1) ^ a * φ (ad.getD a 0)
          = φ (∑ j ∈ Finset.range n, (-1 : ℝ) ^ j • (P (j + 1) - P j)) := by
        rw [map_sum]
        exact Finset.sum_congr rfl fun j hj => by
          rw [hget j (Finset.mem_range.1 hj), map_smul, smul_eq_mul]
      rw [c1, c2, c3]
    let ent : Fin 3 → Fin 3 → Mat3 ℝ →ₗ[ℝ] ℝ := fun a b =>
      { toFun := fun M => M a b, map_add' := fun _ _ => rfl, map_smul' := fun _ _ => rfl }
    have o1 := one (ent 0 0 + ent 1 1 + ent 2 2)
    have o2 := one (ent 0 0 - ent 1 1)
    have o3 := one (ent 1 1 - ent 2 2)
    have o4 := one (ent 2 2 - ent 0 0)
    have o5 := one (ent 0 1)
    have o6 := one (ent 1 2)
    have o7 := one (ent 0 2)
    have sq_sum : ∑ j ∈ Finset.range n, placzek (P (j + 1) - P j)
        = 5 * (∑ j ∈ Finset.range n, (ent 0 0 + ent 1 1 + ent 2 2) (P (j + 1) - P j) ^ 2)
          + 7 * (1 / 2 * (∑ j ∈ Finset.range n, (ent 0 0 - ent 1 1) (P (j + 1) - P j) ^ 2)
            + 1 / 2 * (∑ j ∈ Finset.range n, (ent 1 1 - ent 2 2) (P (j + 1) - P j) ^ 2)
            + 1 / 2 * (∑ j ∈ Finset.range n, (ent 2 2 - ent 0 0) (P (j + 1) - P j) ^ 2)
            + 3 * (∑ j ∈ Finset.range n, ent 0 1 (P (j + 1) - P j) ^ 2)
            + 3 * (∑ j ∈ Finset.range n, ent 1 2 (P (j + 1) - P j) ^ 2)
            + 3 * (∑ j ∈ Finset.range n, ent 0 2 (P (j + 1) - P j) ^ 2)) := by
      simp only [Finset.mul_sum, ← Finset.sum_add_distrib]
      refine Finset.sum_congr rfl fun j _ => ?_
      change placzek _ = 5 * ((P (j + 1) - P j) 0 0 + (P (j + 1) - P j) 1 1
          + (P (j + 1) - P j) 2 2) ^ 2 + 7 * (1 / 2 * ((P (j + 1) - P j) 0 0 - (P (j + 1) - P j) 1 1) ^ 2
          + 1 / 2 * ((P (j + 1) - P j) 1 1 - (P (j + 1) - P j) 2 2) ^ 2
          + 1 / 2 * ((P (j + 1) - P j) 2 2 - (P (j + 1) - P j) 0 0) ^ 2
          + 3 * ((P (j + 1) - P j) 0 1) ^ 2 + 3 * ((P (j + 1) - P j) 1 2) ^ 2
          + 3 * ((P (j + 1) - P j) 0 2) ^ 2)
      unfold placzek
      ring
    have plac : ∀ M : Mat3 ℝ, placzek M = 5 * (ent 0 0 + ent 1 1 + ent 2 2) M ^ 2
        + 7 * (1 / 2 * (ent 0 0 - ent 1 1) M ^ 2 + 1 / 2 * (ent 1 1 - ent 2 2) M ^ 2
          + 1 / 2 * (ent 2 2 - ent 0 0) M ^ 2 + 3 * ent 0 1 M ^ 2 + 3 * ent 1 2 M ^ 2
          + 3 * ent 0 2 M ^ 2) := by
      intro M
      change placzek M = 5 * (M 0 0 + M 1 1 + M 2 2) ^ 2 + 7 * (1 / 2 * (M 0 0 - M 1 1) ^ 2
        + 1 / 2 * (M 1 1 - M 2 2) ^ 2 + 1 / 2 * (M 2 2 - M 0 0) ^ 2 + 3 * M 0 1 ^ 2 + 3 * M 1 2 ^ 2
        + 3 * M 0 2 ^ 2)
      unfold placzek
      ring
    have e1 : ∑ k ∈ Finset.range ((n - 1) / 2), mdAt ad (k + 1)
        = 5 * (∑ k ∈ Finset.range ((n - 1) / 2),
            specAt n (fun i => (ent 0 0 + ent 1 1 + ent 2 2) (ad.getD i 0)) (k + 1))
          + 7 * (1 / 2 * (∑ k ∈ Finset.range ((n - 1) / 2),
              specAt n (fun i => (ent 0 0 - ent 1 1) (ad.getD i 0)) (k + 1))
            + 1 / 2 * (∑ k ∈ Finset.range ((n - 1) / 2),
              specAt n (fun i => (ent 1 1 - ent 2 2) (ad.getD i 0)) (k + 1))
            + 1 / 2 * (∑ k ∈ Finset.range ((n - 1) / 2),
              specAt n (fun i => (ent 2 2 - ent 0 0) (ad.getD i 0)) (k + 1))
            + 3 * (∑ k ∈ Finset.range ((n - 1) / 2),
              specAt n (fun i => ent 0 1 (ad.getD i 0)) (k + 1))
            + 3 * (∑ k ∈ Finset.range ((n - 1) / 2),
              specAt n (fun i => ent 1 2 (ad.getD i 0)) (k + 1))
            + 3 * (∑ k ∈ Finset.range ((n - 1) / 2),
              specAt n (fun i => ent 0 2 (ad.getD i 0)) (k + 1))) := by
      simp only [Finset.mul_sum, ← Finset.sum_add_distrib]
      refine Finset.sum_congr rfl fun k _ => ?_
      rw [mdAt_eq, hal]
      rfl
    rw [e0, e1, sq_sum, plac (P n - P 0),
      plac (∑ j ∈ Finset.range n, (-1 : ℝ) ^ j • (P (j + 1) - P j))]
    by_cases hev : n % 2 = 0
    · simp only [if_pos hev] at o1 o2 o3 o4 o5 o6 o7 ⊢
      linear_combination 5 * o1 + 7 / 2 * o2 + 7 / 2 * o3 + 7 / 2 * o4 + 21 * o5 + 21 * o6 + 21 * o7
    · simp only [if_neg hev] at o1 o2 o3 o4 o5 o6 o7 ⊢
      linear_combination 5 * o1 + 7 / 2 * o2 + 7 / 2 * o3 + 7 / 2 * o4 + 21 * o5 + 21 * o6 + 21 * o7

/-- C176: twice the total intensity is at most `n - 1/2` times the summed intensities of the changes,
so that nothing is lost or gained for long trajectories except at zero and at the highest wavenumber. -/
theorem C176_bound (n : ℕ) (hn : 0 < n) (P : ℕ → Mat3 ℝ) (dt : ℝ) (hdt : 0 < dt)
    (args : MeasureArgs) (ho : args.orientation = "polycrystalline".toList)
    (hl : args.laserCorrection = false) (hb : args.boseEinstein = false) (ws is : List ℝ)
    (h : ((⟨(List.range (n + 1)).map P, dt⟩ : MDSpectrum).measure args).1 = .ok (ws, is.map some)) :
    2 * is.sum ≤ (n - 1 / 2) * ∑ j ∈ Finset.range n, placzek (P (j + 1) - P j) := by
  obtain ⟨ws', is', h', e⟩ := C176_trajectory n hn P dt hdt args ho hl hb
  rw [h] at h'
  have hinj := (Prod.mk.inj (Except.ok.inj h')).2
  have : is = is' := List.map_injective_iff.2 (Option.some_injective ℝ) hinj
  rw [this, e]
  have nonneg : ∀ R, 0 ≤ placzek R := by
    intro R
    unfold placzek
    positivity
  have h1 := nonneg (P n - P 0)
  have h2 : 0 ≤ ∑ j ∈ Finset.range n, placzek (P (j + 1) - P j) :=
    Finset.sum_nonneg fun j _ => nonneg _
  have h3 := nonneg (∑ j ∈ Finset.range n, (-1 : ℝ) ^ j • (P (j + 1) - P j))
  split_ifs <;> linarith

/-- C176, concrete: the signal `1, 2, 2` has energy 9 and sum 5; its only positive line is
`(27 - 17) / 2 = 5`. -/
example (ws is : List ℝ) (h : calcSignalSpectrum [1, 2, 2] 1 = .ok (ws, is)) : is.tail.sum = 5 := by
  have := C176_signal [1, 2, 2] (by simp) 1 (by norm_num) ws is h
  norm_num at this
  linarith

end Verif
