import Verif.Model.Spectrum
import Verif.Spec.Spectrum
import Mathlib.Data.List.GetD
import Mathlib.Algebra.BigOperators.Field

/-! Helper lemmas about signal spectra. -/

namespace Verif
open Spec

/-! ### Autocorrelation and spectrum in closed form -/

/-- Positive autocorrelation at lag `j`. -/
noncomputable def autoAt (n : ℕ) (x : ℕ → ℝ) (j : ℕ) : ℝ :=
  ∑ l ∈ Finset.range (n - j), x (l + j) * x l

/-- The code's spectrum at index `k`. -/
noncomputable def specAt (n : ℕ) (x : ℕ → ℝ) (k : ℕ) : ℝ :=
  ∑ j ∈ Finset.range n, autoAt n x j * Real.cos (2 * Real.pi * j * k / n)

theorem length_correlate (x : List ℝ) : (correlateFull x x).length = 2 * x.length - 1 := by
  simp [correlateFull]

theorem calcAutocorrelation_eq (x : List ℝ) (hx : x ≠ []) :
    calcAutocorrelation x = (List.range x.length).map (autoAt x.length fun i => x.getD i 0) := by
  have hn : 0 < x.length := List.length_pos_of_ne_nil hx
  unfold calcAutocorrelation
  dsimp only
  rw [length_correlate]
  have h1 : (2 * x.length - 1 - 1) / 2 = x.length - 1 := by omega
  rw [h1]
  apply List.ext_getElem
  · rw [List.length_drop, length_correlate]; simp; omega
  · intro j h1 h2
    rw [List.getElem_drop]
    unfold correlateFull
    rw [List.getElem_map, List.getElem_map, List.getElem_range, List.getElem_range]
    have hj : j < x.length := by simpa using h2
    unfold autoAt
    -- split off the terms with negative index
    have hterm : ∀ l ∈ Finset.range x.length,
        x.getD l 0 * zeroPad x ((l : ℤ) - ((x.length - 1 + j : ℕ) : ℤ) + x.length - 1)
        = if l < j then 0 else x.getD l 0 * x.getD (l - j) 0 := by
      intro l hl
      rw [Finset.mem_range] at hl
      unfold zeroPad
      split_ifs with h3 h4 h4
      · simp
      · exfalso; omega
      · exfalso; omega
      · congr 2; omega
    rw [Finset.sum_congr rfl hterm]
    have hs : x.length = j + (x.length - j) := by omega
    conv_lhs => rw [hs]
    rw [Finset.sum_range_add]
    have hz : ∑ l ∈ Finset.range j, (if l < j then (0 : ℝ) else x.getD l 0 * x.getD (l - j) 0) = 0 :=
      Finset.sum_eq_zero fun l hl => if_pos (Finset.mem_range.1 hl)
    rw [hz, zero_add]
    refine Finset.sum_congr rfl fun l hl => ?_
    rw [if_neg (by omega), Nat.add_comm j l, Nat.add_sub_cancel]

theorem fft_re (x : List ℝ) : (fft x).map Complex.re = (List.range x.length).map fun k : ℕ =>
    ∑ j ∈ Finset.range x.length, x.getD j 0 * Real.cos (2 * Real.pi * j * k / x.length) := by
  unfold fft
  rw [List.map_map]
  refine List.map_congr_left fun k _ => ?_
  simp only [Function.comp]
  rw [Complex.re_sum]
  refine Finset.sum_congr rfl fun j _ => ?_
  have : -(2 * (Real.pi : ℂ) * Complex.I * ((j * k : ℕ) : ℂ) / (x.length : ℂ))
      = ((-(2 * Real.pi * j * k / x.length) : ℝ) : ℂ) * Complex.I := by
    push_cast; ring
  rw [this, Complex.re_ofReal_mul, Complex.exp_ofReal_mul_I_re, Real.cos_neg]

theorem getD_map_range (n : ℕ) (f : ℕ → ℝ) (j : ℕ) (hj : j < n) :
    ((List.range n).map f).getD j 0 = f j := by
  rw [List.getD_eq_getElem _ _ (by simpa using hj)]; simp

/-- Number of non-negative frequencies. -/
def halfLen (n : ℕ) : ℕ := (n - 1) / 2 + 1

/-- `calc_signal_spectrum` in closed form. -/
theorem calcSignalSpectrum_eq (x : List ℝ) (hx : x ≠ []) (dt : ℝ) (hdt : 0 < dt) :
    calcSignalSpectrum x dt = .ok
      ((List.range (halfLen x.length)).map fun k : ℕ =>
        (k : ℝ) * (1 / ((x.length : ℝ) * dt)) * (3335640951981521 / 10 ^ 14) * 1000,
      (List.range (halfLen x.length)).map (specAt x.length fun i => x.getD i 0)) := by
  have hn : 0 < x.length := List.length_pos_of_ne_nil hx
  have hlen : (calcAutocorrelation x).length = x.length := by
    rw [calcAutocorrelation_eq x hx]; simp
  unfold calcSignalSpectrum
  dsimp only
  rw [hlen]
  have hne : (x.length : ℝ) * dt ≠ 0 := by positivity
  have hval : 0 < 1 / ((x.length : ℝ) * dt) := by positivity
  unfold fftfreq
  rw [if_neg hne]
  change Except.ok _ = Except.ok _
  congr 1
  rw [fft_re, hlen]
  have hspec : ∀ k : ℕ, (∑ j ∈ Finset.range x.length, (calcAutocorrelation x).getD j 0 *
      Real.cos (2 * Real.pi * j * k / x.length)) = specAt x.length (fun i => x.getD i 0) k := by
    intro k
    unfold specAt
    refine Finset.sum_congr rfl fun j hj => ?_
    rw [calcAutocorrelation_eq x hx, getD_map_range _ _ _ (Finset.mem_range.1 hj)]
  simp only [hspec]
  have hsplit : x.length = halfLen x.length + x.length / 2 := by unfold halfLen; omega
  have hrange : List.range x.length = List.range (halfLen x.length)
      ++ (List.range (x.length / 2)).map (halfLen x.length + ·) := by
    conv_lhs => rw [hsplit]
    rw [List.range_add]
  rw [hrange, List.map_append, List.map_append, List.zip_append (by simp [halfLen]),
    List.filter_append]
  set c : ℝ := 3335640951981521 / 10 ^ 14 with hc
  have hcpos : 0 < c := by rw [hc]; norm_num
  have h1 : ∀ y ∈ ((List.range ((x.length - 1) / 2 + 1)).map fun i : ℕ =>
      (i : ℝ) * (1 / ((x.length : ℝ) * dt))).map (fun f => f * c * 1000), 0 ≤ y := by
    intro y hy
    simp only [List.mem_map] at hy
    obtain ⟨_, ⟨i, _, rfl⟩, rfl⟩ := hy
    positivity
  have h2 : ∀ y ∈ ((List.range (x.length / 2)).map fun i : ℕ =>
      ((i : ℝ) - ((x.length / 2 : ℕ) : ℝ)) * (1 / ((x.length : ℝ) * dt))).map (fun f => f * c * 1000),
      y < 0 := by
    intro y hy
    simp only [List.mem_map, List.mem_range] at hy
    obtain ⟨_, ⟨i, hi, rfl⟩, rfl⟩ := hy
    have : (i : ℝ) - ((x.length / 2 : ℕ) : ℝ) < 0 := by
      have : (i : ℝ) < ((x.length / 2 : ℕ) : ℝ) := by exact_mod_cast hi
      linarith
    have := mul_neg_of_neg_of_pos this hval
    have := mul_neg_of_neg_of_pos this hcpos
    linarith
  rw [List.filter_eq_self.2 fun y hy => by
    simpa using h1 y.1 (List.of_mem_zip hy).1]
  have hnil : List.filter (fun x : ℝ × ℝ => decide (x.1 ≥ 0))
      ((((List.range (x.length / 2)).map fun i : ℕ =>
        ((i : ℝ) - ((x.length / 2 : ℕ) : ℝ)) * (1 / ((x.length : ℝ) * dt))).map
          (fun f => f * c * 1000)).zip
        (((List.range (x.length / 2)).map (halfLen x.length + ·)).map
          (specAt x.length fun i => x.getD i 0))) = [] := by
    rw [List.filter_eq_nil_iff]
    intro y hy
    have := h2 y.1 (List.of_mem_zip hy).1
    simpa using this
  rw [hnil, List.append_nil]
  have hl : (((List.range ((x.length - 1) / 2 + 1)).map fun i : ℕ =>
      (i : ℝ) * (1 / ((x.length : ℝ) * dt))).map (fun f => f * c * 1000)).length
      = ((List.range (halfLen x.length)).map (specAt x.length fun i => x.getD i 0)).length := by
    simp [halfLen]
  congr 1
  · rw [List.map_fst_zip hl.le, List.map_map]; rfl
  · rw [List.map_snd_zip hl.ge]

/-! ### Quadratic form -/

/-- Sum over the triangle of lags: symmetric double sum. -/
theorem triangle_sum (g : ℕ → ℕ → ℝ) (n : ℕ) :
    ∑ j ∈ Finset.range n, ∑ l ∈ Finset.range (n - j), g (l + j) l
      = ∑ a ∈ Finset.range n, ∑ b ∈ Finset.range (a + 1), g a b := by
  induction n with
  | zero => simp
  | succ n ih =>
    rw [Finset.sum_range_succ (fun a => ∑ b ∈ Finset.range (a + 1), g a b), ← ih,
      Finset.sum_range_succ]
    have h1 : ∀ j ∈ Finset.range n, ∑ l ∈ Finset.range (n + 1 - j), g (l + j) l
        = ∑ l ∈ Finset.range (n - j), g (l + j) l + g n (n - j) := by
      intro j hj
      rw [Finset.mem_range] at hj
      rw [show n + 1 - j = (n - j) + 1 by omega, Finset.sum_range_succ,
        show n - j + j = n by omega]
    rw [Finset.sum_congr rfl h1, Finset.sum_add_distrib]
    have h2 : ∑ b ∈ Finset.range (n + 1), g n b = ∑ j ∈ Finset.range (n + 1), g n (n - j) := by
      rw [← Finset.sum_range_reflect]
      refine Finset.sum_congr rfl fun j hj => ?_
      congr 1
    rw [h2, Finset.sum_range_succ (fun j => g n (n - j))]
    simp
    ring

theorem triangle_symm (g : ℕ → ℕ → ℝ) (hg : ∀ a b, g a b = g b a) (n : ℕ) :
    2 * ∑ a ∈ Finset.range n, ∑ b ∈ Finset.range (a + 1), g a b
      = ∑ a ∈ Finset.range n, ∑ b ∈ Finset.range n, g a b + ∑ a ∈ Finset.range n, g a a := by
  induction n with
  | zero => simp
  | succ n ih =>
    rw [Finset.sum_range_succ, mul_add, ih, Finset.sum_range_succ (fun a => g a a),
      Finset.sum_range_succ (fun a => ∑ b ∈ Finset.range (n + 1), g a b)]
    have h1 : ∑ a ∈ Finset.range n, ∑ b ∈ Finset.range (n + 1), g a b
        = ∑ a ∈ Finset.range n, ∑ b ∈ Finset.range n, g a b + ∑ a ∈ Finset.range n, g a n := by
      rw [← Finset.sum_add_distrib]
      exact Finset.sum_congr rfl fun a _ => Finset.sum_range_succ _ _
    have h2 : ∑ a ∈ Finset.range n, g a n = ∑ b ∈ Finset.range n, g n b :=
      Finset.sum_congr rfl fun a _ => hg _ _
    rw [h1, h2, Finset.sum_range_succ (fun b => g n b)]
    ring

/-- Coefficients of the quadratic form. -/
noncomputable def specCoef (n k a b : ℕ) : ℝ :=
  (Real.cos (2 * Real.pi * ((a : ℝ) - b) * k / n) + if a = b then 1 else 0) / 2

theorem specAt_quad (n : ℕ) (x : ℕ → ℝ) (k : ℕ) :
    specAt n x k = ∑ a ∈ Finset.range n, ∑ b ∈ Finset.range n, specCoef n k a b * (x a * x b) := by
  have h1 : specAt n x k = ∑ a ∈ Finset.range n, ∑ b ∈ Finset.range (a + 1),
      x a * x b * Real.cos (2 * Real.pi * ((a : ℝ) - b) * k / n) := by
    rw [← triangle_sum (fun a b => x a * x b * Real.cos (2 * Real.pi * ((a : ℝ) - b) * k / n))]
    unfold specAt autoAt
    refine Finset.sum_congr rfl fun j _ => ?_
    rw [Finset.sum_mul]
    refine Finset.sum_congr rfl fun l _ => ?_
    congr 2
    push_cast
    ring
  have hsym : ∀ a b : ℕ, x a * x b * Real.cos (2 * Real.pi * ((a : ℝ) - b) * k / n)
      = x b * x a * Real.cos (2 * Real.pi * ((b : ℝ) - a) * k / n) := by
    intro a b
    rw [mul_comm (x a), ← Real.cos_neg]
    congr 2
    ring
  have h2 := triangle_symm _ hsym n
  rw [← h1] at h2
  have h3 : ∑ a ∈ Finset.range n, ∑ b ∈ Finset.range n, specCoef n k a b * (x a * x b)
      = (∑ a ∈ Finset.range n, ∑ b ∈ Finset.range n,
          x a * x b * Real.cos (2 * Real.pi * ((a : ℝ) - b) * k / n)
        + ∑ a ∈ Finset.range n, x a * x a) / 2 := by
    rw [← Finset.sum_add_distrib, Finset.sum_div]
    refine Finset.sum_congr rfl fun a ha => ?_
    have : x a * x a = ∑ b ∈ Finset.range n, (if a = b then x a * x b else 0) := by
      rw [Finset.sum_ite_eq, if_pos ha]
    rw [this, ← Finset.sum_add_distrib, Finset.sum_div]
    refine Finset.sum_congr rfl fun b _ => ?_
    unfold specCoef
    split_ifs <;> ring
  rw [h3]
  have h4 : ∀ a : ℕ, x a * x a * Real.cos (2 * Real.pi * ((a : ℝ) - a) * k / n) = x a * x a := by
    intro a; simp
  simp only [h4] at h2
  linarith

/-- The power spectrum as a double sum. -/
theorem normSq_fourier (n : ℕ) (x : ℕ → ℝ) (k : ℕ) :
    Complex.normSq (fourier n x k) = ∑ a ∈ Finset.range n, ∑ b ∈ Finset.range n,
      x a * x b * Real.cos (2 * Real.pi * ((a : ℝ) - b) * k / n) := by
  have hre : (fourier n x k).re
      = ∑ j ∈ Finset.range n, x j * Real.cos (2 * Real.pi * j * k / n) := by
    unfold fourier
    rw [Complex.re_sum]
    refine Finset.sum_congr rfl fun j _ => ?_
    have e : (-(2 * Real.pi * j * k / n : ℝ) * Complex.I : ℂ)
        = ((-(2 * Real.pi * j * k / n) : ℝ) : ℂ) * Complex.I := by push_cast; ring
    rw [e, Complex.re_ofReal_mul, Complex.exp_ofReal_mul_I_re, Real.cos_neg]
  have him : (fourier n x k).im
      = - ∑ j ∈ Finset.range n, x j * Real.sin (2 * Real.pi * j * k / n) := by
    unfold fourier
    rw [Complex.im_sum, ← Finset.sum_neg_distrib]
    refine Finset.sum_congr rfl fun j _ => ?_
    have e : (-(2 * Real.pi * j * k / n : ℝ) * Complex.I : ℂ)
        = ((-(2 * Real.pi * j * k / n) : ℝ) : ℂ) * Complex.I := by push_cast; ring
    rw [e, Complex.im_ofReal_mul, Complex.exp_ofReal_mul_I_im, Real.sin_neg]
    ring
  rw [Complex.normSq_apply, hre, him, neg_mul_neg, Finset.sum_mul_sum, Finset.sum_mul_sum,
    ← Finset.sum_add_distrib]
  refine Finset.sum_congr rfl fun a _ => ?_
  rw [← Finset.sum_add_distrib]
  refine Finset.sum_congr rfl fun b _ => ?_
  have : 2 * Real.pi * ((a : ℝ) - b) * k / n
      = 2 * Real.pi * a * k / n - 2 * Real.pi * b * k / n := by ring
  rw [this, Real.cos_sub]
  ring

theorem specAt_eq (n : ℕ) (x : ℕ → ℝ) (k : ℕ) :
    specAt n x k = (Complex.normSq (fourier n x k) + ∑ a ∈ Finset.range n, x a ^ 2) / 2 := by
  rw [specAt_quad, normSq_fourier, ← Finset.sum_add_distrib, Finset.sum_div]
  refine Finset.sum_congr rfl fun a ha => ?_
  have : x a ^ 2 = ∑ b ∈ Finset.range n, (if a = b then x a * x b else 0) := by
    rw [Finset.sum_ite_eq, if_pos ha, sq]
  rw [this, ← Finset.sum_add_distrib, Finset.sum_div]
  refine Finset.sum_congr rfl fun b _ => ?_
  unfold specCoef
  split_ifs <;> ring

theorem specAt_nonneg (n : ℕ) (x : ℕ → ℝ) (k : ℕ) : 0 ≤ specAt n x k := by
  rw [specAt_eq]
  have := Complex.normSq_nonneg (fourier n x k)
  have : 0 ≤ ∑ a ∈ Finset.range n, x a ^ 2 := Finset.sum_nonneg fun a _ => sq_nonneg _
  linarith

/-! ### MD spectra -/

/-- Polar form of the polycrystalline intensity. -/
noncomputable def pairInt (A B : Mat3 ℝ) : ℝ :=
  5 * ((A 0 0 + A 1 1 + A 2 2) * (B 0 0 + B 1 1 + B 2 2)) +
  7 * (1 / 2 * ((A 0 0 - A 1 1) * (B 0 0 - B 1 1)) + 1 / 2 * ((A 1 1 - A 2 2) * (B 1 1 - B 2 2))
    + 1 / 2 * ((A 2 2 - A 0 0) * (B 2 2 - B 0 0)) + 3 * (A 0 1 * B 0 1) + 3 * (A 1 2 * B 1 2)
    + 3 * (A 0 2 * B 0 2))

/-- Raw MD intensity at index `k` for the time derivative `ad`. -/
noncomputable def mdAt (ad : List (Mat3 ℝ)) (k : ℕ) : ℝ :=
  ∑ a ∈ Finset.range ad.length, ∑ b ∈ Finset.range ad.length,
    specCoef ad.length k a b * pairInt (ad.getD a 0) (ad.getD b 0)

theorem addL_map (l : List ℕ) (f g : ℕ → ℝ) :
    addL (l.map f) (l.map g) = l.map fun k => f k + g k := by
  unfold addL
  rw [List.zipWith_map, List.zipWith_self]

theorem scaleL_map (c : ℝ) (l : List ℕ) (f : ℕ → ℝ) :
    scaleL c (l.map f) = l.map fun k => c * f k := by
  unfold scaleL
  rw [List.map_map]; rfl

theorem getD_map (ad : List (Mat3 ℝ)) (f : Mat3 ℝ → ℝ) (hf : f 0 = 0) (i : ℕ) :
    (ad.map f).getD i 0 = f (ad.getD i 0) := by
  rw [List.getD_eq_getElem?_getD, List.getD_eq_getElem?_getD, List.getElem?_map]
  cases ad[i]? <;> simp [hf]

theorem npDiff_length (l : List (Mat3 ℝ)) : (npDiff l).length = l.length - 1 := by
  unfold npDiff; simp

theorem mdRaw_eq (s : MDSpectrum) (h : npDiff s.polarizabilityTs ≠ []) (hdt : 0 < s.timestep) :
    mdRaw s = .ok
      (((List.range (halfLen (npDiff s.polarizabilityTs).length)).map fun k : ℕ =>
        (k : ℝ) * (1 / (((npDiff s.polarizabilityTs).length : ℝ) * s.timestep))
          * (3335640951981521 / 10 ^ 14) * 1000).tail,
      ((List.range (halfLen (npDiff s.polarizabilityTs).length)).map
        (mdAt (npDiff s.polarizabilityTs))).tail) := by
  unfold mdRaw
  dsimp only
  set ad := npDiff s.polarizabilityTs with had
  have hs : ∀ f : Mat3 ℝ → ℝ, f 0 = 0 → calcSignalSpectrum (ad.map f) s.timestep = .ok
      ((List.range (halfLen ad.length)).map fun k : ℕ =>
        (k : ℝ) * (1 / ((ad.length : ℝ) * s.timestep)) * (3335640951981521 / 10 ^ 14) * 1000,
      (List.range (halfLen ad.length)).map (specAt ad.length fun i => f (ad.getD i 0))) := by
    intro f hf
    rw [calcSignalSpectrum_eq _ (by simpa using h) _ hdt]
    simp only [List.length_map, getD_map ad f hf]
  rw [hs _ rfl, hs (fun A => A 0 0 + A 1 1 + A 2 2) (by simp), hs (fun A => A 0 0 - A 1 1) (by simp),
    hs (fun A => A 1 1 - A 2 2) (by simp), hs (fun A => A 2 2 - A 0 0) (by simp), hs (fun A => A 0 1) rfl,
    hs (fun A => A 1 2) rfl, hs (fun A => A 0 2) rfl]
  change Except.ok _ = Except.ok _
  congr 1
  dsimp only
  simp only [scaleL_map, addL_map]
  congr 2
  refine List.map_congr_left fun k _ => ?_
  simp only [specAt_quad, mdAt, Finset.mul_sum, ← Finset.sum_add_distrib]
  refine Finset.sum_congr rfl fun a _ => Finset.sum_congr rfl fun b _ => ?_
  unfold pairInt
  ring

end Verif
