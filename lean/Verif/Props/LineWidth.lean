import Verif.Props.Convolve
import Mathlib.Probability.Distributions.Gaussian.Real
import Mathlib.Analysis.SpecialFunctions.Log.Deriv
import Mathlib.Analysis.Complex.ExponentialBounds

/-!
# C174: what the width of a convolved spectrum means
-/

namespace Verif
open Spec MeasureTheory

/-- `F` is the spectrum that `convolve_spectrum` samples on every grid. -/
def Spec.ConvolvesTo (ws is : List ℝ) (function : List Char) (width : ℝ) (F : ℝ → ℝ) : Prop :=
  ∀ out, convolveSpectrum ws is function width (some out) = .ok (out, out.map F)

theorem convolvesTo_eq {ws is : List ℝ} (hlen : is.length = ws.length) {function : List Char}
    (hf : Supported function) {width : ℝ} (hw : 0 < width) {F : ℝ → ℝ}
    (h : ConvolvesTo ws is function width F) (x : ℝ) :
    F x = lineSum (namedLine function width) (ws.zip is) x := by
  have h1 := h [x]
  rw [C56_value ws is hlen function hf width hw [x]] at h1
  have h2 := (Prod.mk.inj (Except.ok.inj h1)).2
  simpa using h2.symm

theorem gaussian_peak {w i width : ℝ} (hw : 0 < width) {F : ℝ → ℝ}
    (h : ConvolvesTo [w] [i] "gaussian".toList width F) (x : ℝ) :
    F x = i * gaussianLine width w x := by
  rw [convolvesTo_eq (ws := [w]) (is := [i]) rfl (.inl rfl) hw h x]
  have : namedLine ['g', 'a', 'u', 's', 's', 'i', 'a', 'n'] width = gaussianLine width := if_pos rfl
  rw [this]
  simp [lineSum]

theorem lorentzian_peak {w i width : ℝ} (hw : 0 < width) {F : ℝ → ℝ}
    (h : ConvolvesTo [w] [i] "lorentzian".toList width F) (x : ℝ) :
    F x = i * lorentzianLine width w x := by
  rw [convolvesTo_eq (ws := [w]) (is := [i]) rfl (.inr rfl) hw h x]
  have : namedLine ['l', 'o', 'r', 'e', 'n', 't', 'z', 'i', 'a', 'n'] width = lorentzianLine width :=
    if_neg (by decide)
  rw [this]
  simp [lineSum]

/-- C174: the height of a single peak. -/
theorem C174_height (w i width : ℝ) (hw : 0 < width) (F : ℝ → ℝ) :
    (ConvolvesTo [w] [i] "gaussian".toList width F → F w = i / (width * √(2 * Real.pi))) ∧
    (ConvolvesTo [w] [i] "lorentzian".toList width F → F w = 2 * i / (Real.pi * width)) := by
  constructor
  · intro h
    rw [gaussian_peak hw h]
    unfold gaussianLine
    simp
    ring
  · intro h
    rw [lorentzian_peak hw h]
    unfold lorentzianLine
    have := Real.pi_pos
    field_simp
    ring

/-- C174: a peak falls off strictly with the distance from its centre, equally on both sides. -/
theorem C174_falls (w i width : ℝ) (hw : 0 < width) (hi : 0 < i) (function : List Char)
    (hf : function = "gaussian".toList ∨ function = "lorentzian".toList) (F : ℝ → ℝ)
    (h : ConvolvesTo [w] [i] function width F) (x y : ℝ) :
    F x < F y ↔ |y - w| < |x - w| := by
  have key : ∀ G : ℝ → ℝ, (∀ a b, 0 ≤ a → a < b → G b < G a) →
      (∀ x, F x = i * G ((x - w) ^ 2)) → (F x < F y ↔ |y - w| < |x - w|) := by
    intro G hG hF
    rw [hF, hF, mul_lt_mul_iff_of_pos_left hi, ← sq_lt_sq]
    constructor
    · intro hlt
      by_contra hn
      rcases (not_lt.1 hn).lt_or_eq with h1 | h1
      · exact absurd (hG _ _ (sq_nonneg _) h1) (not_lt.2 hlt.le)
      · rw [h1] at hlt; exact lt_irrefl _ hlt
    · exact hG _ _ (sq_nonneg _)
  rcases hf with rfl | rfl
  · refine key (fun s => Real.exp (-s / (2 * width ^ 2)) / (width * √(2 * Real.pi))) ?_
      (gaussian_peak hw h)
    intro a b _ hab
    have hp := Real.pi_pos
    refine div_lt_div_of_pos_right (Real.exp_lt_exp.2 ?_) (by positivity)
    exact div_lt_div_of_pos_right (neg_lt_neg hab) (by positivity)
  · refine key (fun s => (width / 2) / (Real.pi * (s + (width / 2) ^ 2))) ?_ (lorentzian_peak hw h)
    intro a b ha hab
    have hp := Real.pi_pos
    refine div_lt_div_of_pos_left (by positivity) (by positivity) ?_
    exact mul_lt_mul_of_pos_left (by linarith) hp

/-- C174: where a peak has half its height.  The width of a Lorentzian peak is its full width at half
maximum; a Gaussian peak of the same width is `2 √(2 log 2)`, more than 2.35, times as wide. -/
theorem C174_half_maximum (w i width : ℝ) (hw : 0 < width) (hi : i ≠ 0) (F : ℝ → ℝ) (x : ℝ) :
    (ConvolvesTo [w] [i] "lorentzian".toList width F →
      (F x = F w / 2 ↔ |x - w| = width / 2)) ∧
    (ConvolvesTo [w] [i] "gaussian".toList width F →
      (F x = F w / 2 ↔ |x - w| = √(2 * Real.log 2) * width)) := by
  have hp := Real.pi_pos
  constructor
  · intro h
    rw [(C174_height w i width hw F).2 h, lorentzian_peak hw h]
    rw [show |x - w| = width / 2 ↔ (x - w) ^ 2 = (width / 2) ^ 2 by
      rw [sq_eq_sq_iff_abs_eq_abs, abs_of_pos (by positivity : 0 < width / 2)]]
    unfold lorentzianLine
    have hpos : 0 < (x - w) ^ 2 + (width / 2) ^ 2 := by positivity
    have e : i * (width / 2 / (Real.pi * ((x - w) ^ 2 + (width / 2) ^ 2))) = 2 * i / (Real.pi * width) / 2
        ↔ width ^ 2 = 2 * ((x - w) ^ 2 + (width / 2) ^ 2) := by
      have a : i * (width / 2 / (Real.pi * ((x - w) ^ 2 + (width / 2) ^ 2)))
          = i * (width ^ 2) / (2 * Real.pi * width * ((x - w) ^ 2 + (width / 2) ^ 2)) := by
        field_simp
      have b : 2 * i / (Real.pi * width) / 2
          = i * (2 * ((x - w) ^ 2 + (width / 2) ^ 2))
            / (2 * Real.pi * width * ((x - w) ^ 2 + (width / 2) ^ 2)) := by
        field_simp
      rw [a, b, div_left_inj' (by positivity)]
      exact ⟨fun h => mul_left_cancel₀ hi h, fun h => by rw [h]⟩
    rw [e]
    constructor <;> intro h <;> nlinarith
  · intro h
    have hl : 0 < Real.log 2 := Real.log_pos (by norm_num)
    have hs : 0 < √(2 * Real.log 2) := Real.sqrt_pos.2 (by positivity)
    rw [(C174_height w i width hw F).1 h, gaussian_peak hw h]
    rw [show |x - w| = √(2 * Real.log 2) * width ↔ (x - w) ^ 2 = 2 * Real.log 2 * width ^ 2 by
      rw [← Real.sq_sqrt (by positivity : 0 ≤ 2 * Real.log 2), ← mul_pow, sq_eq_sq_iff_abs_eq_abs,
        abs_of_pos (by positivity : 0 < √(2 * Real.log 2) * width),
        Real.sq_sqrt (by positivity : 0 ≤ 2 * Real.log 2)]]
    unfold gaussianLine
    have hden : width * √(2 * Real.pi) ≠ 0 := by positivity
    have e : i * (Real.exp (-(x - w) ^ 2 / (2 * width ^ 2)) / (width * √(2 * Real.pi)))
          = i / (width * √(2 * Real.pi)) / 2
        ↔ Real.exp (-(x - w) ^ 2 / (2 * width ^ 2)) = 1 / 2 := by
      rw [mul_div_assoc', div_div, div_eq_div_iff hden (mul_ne_zero hden two_ne_zero)]
      constructor
      · intro h
        have h2 : (i * (width * √(2 * Real.pi))) * (2 * Real.exp (-(x - w) ^ 2 / (2 * width ^ 2)))
            = (i * (width * √(2 * Real.pi))) * 1 := by linarith
        have := mul_left_cancel₀ (mul_ne_zero hi hden) h2
        linarith
      · intro h
        rw [h]; ring
    rw [e]
    have e2 : (1 / 2 : ℝ) = Real.exp (-Real.log 2) := by
      rw [Real.exp_neg, Real.exp_log (by norm_num)]; norm_num
    rw [e2, Real.exp_eq_exp, div_eq_iff (by positivity)]
    constructor <;> intro h <;> nlinarith

/-- C174: the same number stands for different widths. -/
theorem C174_ratio (width : ℝ) (hw : 0 < width) :
    2.35 * width < 2 * (√(2 * Real.log 2) * width) ∧
    2 * (√(2 * Real.log 2) * width) < 2.36 * width := by
  have h1 := Real.log_two_gt_d9
  have h2 := Real.log_two_lt_d9
  have a : (1.175 : ℝ) < √(2 * Real.log 2) := Real.lt_sqrt_of_sq_lt (by norm_num; linarith)
  have b : √(2 * Real.log 2) < 1.18 := by
    rw [Real.sqrt_lt' (by norm_num)]; norm_num; linarith
  constructor <;> nlinarith

/-- C174: the width of a Gaussian peak is its standard deviation. -/
theorem C174_variance (w i width : ℝ) (hw : 0 < width) (F : ℝ → ℝ)
    (h : ConvolvesTo [w] [i] "gaussian".toList width F) :
    ∫ x, (x - w) ^ 2 * F x = i * width ^ 2 := by
  let v : NNReal := ⟨width ^ 2, sq_nonneg _⟩
  have hv : v ≠ 0 := by
    intro h0
    have : width ^ 2 = 0 := congrArg NNReal.toReal h0
    exact (pow_pos hw 2).ne' this
  have hvar : ProbabilityTheory.variance (fun x => x) (ProbabilityTheory.gaussianReal w v)
      = (v : ℝ) := ProbabilityTheory.variance_fun_id_gaussianReal
  rw [ProbabilityTheory.variance_eq_integral (by fun_prop),
    ProbabilityTheory.integral_id_gaussianReal,
    ProbabilityTheory.integral_gaussianReal_eq_integral_smul hv] at hvar
  have e : ∀ x, (x - w) ^ 2 * F x
      = i * (ProbabilityTheory.gaussianPDFReal w v x • (x - w) ^ 2) := by
    intro x
    rw [gaussian_peak hw h]
    unfold gaussianLine ProbabilityTheory.gaussianPDFReal
    change _ = i * ((√(2 * Real.pi * width ^ 2))⁻¹ * Real.exp (-(x - w) ^ 2 / (2 * width ^ 2))
      * (x - w) ^ 2)
    rw [Real.sqrt_mul (by positivity : 0 ≤ 2 * Real.pi) (width ^ 2), Real.sqrt_sq hw.le]
    field_simp
  simp_rw [e]
  rw [integral_const_mul, hvar]
  rfl

/-- C174: sharp lines.  Away from the peaks the spectrum vanishes as the width goes to zero. -/
theorem C174_sharp (ws is : List ℝ) (hlen : is.length = ws.length) (function : List Char)
    (hf : function = "gaussian".toList ∨ function = "lorentzian".toList) (F : ℝ → ℝ → ℝ)
    (h : ∀ width, 0 < width → ConvolvesTo ws is function width (F width)) (x : ℝ) (hx : x ∉ ws) :
    Filter.Tendsto (fun width => F width x) (nhdsWithin 0 (Set.Ioi 0)) (nhds 0) := by
  have line : ∀ c, x ≠ c →
      Filter.Tendsto (fun width => namedLine function width c x) (nhdsWithin 0 (Set.Ioi 0)) (nhds 0) := by
    intro c hc
    have hd : 0 < (x - c) ^ 2 := by
      have := sub_ne_zero.2 hc
      positivity
    have hp := Real.pi_pos
    have up : Filter.Tendsto (fun width : ℝ => 2 * width / (x - c) ^ 2) (nhdsWithin 0 (Set.Ioi 0))
        (nhds 0) := by
      have : Filter.Tendsto (fun width : ℝ => 2 * width / (x - c) ^ 2) (nhds 0)
          (nhds (2 * 0 / (x - c) ^ 2)) := Continuous.tendsto (by fun_prop) 0
      rw [mul_zero, zero_div] at this
      exact this.mono_left nhdsWithin_le_nhds
    refine tendsto_of_tendsto_of_tendsto_of_le_of_le' tendsto_const_nhds up ?_ ?_
    · filter_upwards [self_mem_nhdsWithin] with width hw
      exact (namedLine_pos function width hw c x).le
    · filter_upwards [self_mem_nhdsWithin] with width hw
      have hw : 0 < width := hw
      rw [le_div_iff₀ hd]
      rcases hf with rfl | rfl
      · have e : namedLine "gaussian".toList width = gaussianLine width := if_pos rfl
        rw [e]
        unfold gaussianLine
        have h1 : Real.exp (-(x - c) ^ 2 / (2 * width ^ 2)) * ((x - c) ^ 2 / (2 * width ^ 2)) ≤ 1 := by
          rw [neg_div, Real.exp_neg, inv_mul_le_iff₀ (Real.exp_pos _), mul_one]
          linarith [Real.add_one_le_exp ((x - c) ^ 2 / (2 * width ^ 2))]
        have h2 : 1 ≤ √(2 * Real.pi) := by
          rw [Real.one_le_sqrt]; linarith [Real.two_le_pi]
        have h3 : Real.exp (-(x - c) ^ 2 / (2 * width ^ 2)) * (x - c) ^ 2 ≤ 2 * width ^ 2 := by
          rw [mul_div_assoc', div_le_one (by positivity)] at h1
          exact h1
        rw [div_mul_eq_mul_div, div_le_iff₀ (by positivity)]
        calc _ ≤ 2 * width ^ 2 := h3
          _ = 2 * width * width * 1 := by ring
          _ ≤ 2 * width * width * √(2 * Real.pi) := by gcongr
          _ = _ := by ring
      · have e : namedLine "lorentzian".toList width = lorentzianLine width := if_neg (by decide)
        rw [e]
        unfold lorentzianLine
        rw [div_mul_eq_mul_div, div_le_iff₀ (by positivity)]
        have : (2 : ℝ) ≤ Real.pi := Real.two_le_pi
        have h1 : width * (x - c) ^ 2 ≤ width * ((x - c) ^ 2 + (width / 2) ^ 2) := by
          gcongr; nlinarith
        have h2 : 0 ≤ width * ((x - c) ^ 2 + (width / 2) ^ 2) := by positivity
        nlinarith
  have sum : ∀ l : List (ℝ × ℝ), (∀ p ∈ l, x ≠ p.1) →
      Filter.Tendsto (fun width => lineSum (namedLine function width) l x)
        (nhdsWithin 0 (Set.Ioi 0)) (nhds 0) := by
    intro l
    induction l with
    | nil => intro _; simp [lineSum]
    | cons p l ih =>
      intro hl
      have h1 := (line p.1 (hl p (by simp))).const_mul p.2
      have h2 := ih fun q hq => hl q (by simp [hq])
      have h3 := h1.add h2
      simp only [mul_zero, add_zero] at h3
      simpa [lineSum] using h3
  have hfin := sum (ws.zip is) fun p hp => by
    rintro rfl
    exact hx (List.of_mem_zip hp).1
  refine hfin.congr' ?_
  filter_upwards [self_mem_nhdsWithin] with width hw
  exact (convolvesTo_eq hlen hf hw (h width hw) x).symm

/-- C174, concrete: a Lorentzian peak of width 10 at 500 cm⁻¹ has half its height at 495 cm⁻¹; a Gaussian
one does not. -/
example : ∃ F G : ℝ → ℝ, ConvolvesTo [500] [1] "lorentzian".toList 10 F ∧
    ConvolvesTo [500] [1] "gaussian".toList 10 G ∧ F 495 = F 500 / 2 ∧ G 495 ≠ G 500 / 2 := by
  refine ⟨_, _, C56_value [500] [1] rfl "lorentzian".toList (.inr rfl) 10 (by norm_num),
    C56_value [500] [1] rfl "gaussian".toList (.inl rfl) 10 (by norm_num), ?_, ?_⟩
  · rw [(C174_half_maximum 500 1 10 (by norm_num) one_ne_zero _ 495).1
      (C56_value [500] [1] rfl "lorentzian".toList (.inr rfl) 10 (by norm_num))]
    norm_num
  · rw [Ne, (C174_half_maximum 500 1 10 (by norm_num) one_ne_zero _ 495).2
      (C56_value [500] [1] rfl "gaussian".toList (.inl rfl) 10 (by norm_num))]
    have := (C174_ratio 10 (by norm_num)).1
    norm_num at this ⊢
    intro h
    linarith

end Verif
