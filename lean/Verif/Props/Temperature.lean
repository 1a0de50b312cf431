import Verif.Props.Spectrum
import Mathlib.Analysis.SpecialFunctions.ExpDeriv

/-!
# C175: the corrections as physics demands
-/

namespace Verif
open Spec

/-- Energy of a vibration of wavenumber `w` in units of the thermal energy. -/
noncomputable def Spec.thermalRatio (T w : ℝ) : ℝ := planck * lightSpeed * w / (kB * T)

theorem bose_eq (T w : ℝ) : boseFactor T w = (1 - Real.exp (-thermalRatio T w))⁻¹ := rfl

/-- C175: the Bose-Einstein factor lies between the classical value `k T / (h c w)` and this value plus
one; it is also larger than one (C51). -/
theorem C175_bounds (T w : ℝ) (hT : 0 < T) (hw : 0 < w) :
    kB * T / (planck * lightSpeed * w) < boseFactor T w ∧
    boseFactor T w < 1 + kB * T / (planck * lightSpeed * w) := by
  have h0 : 0 < thermalRatio T w := ratio_pos hT hw
  have e : kB * T / (planck * lightSpeed * w) = (thermalRatio T w)⁻¹ := by
    unfold thermalRatio; rw [inv_div]
  rw [e, bose_eq]
  set r := thermalRatio T w
  have h1 : 1 - r < Real.exp (-r) := by
    have := Real.add_one_lt_exp (neg_ne_zero.2 h0.ne')
    linarith
  have h2 : r + 1 < Real.exp r := Real.add_one_lt_exp h0.ne'
  have h3 : Real.exp (-r) < 1 := by rw [Real.exp_lt_one_iff]; linarith
  constructor
  · exact inv_strictAnti₀ (by linarith) (by linarith)
  · have h4 : (1 + r⁻¹) = (r / (r + 1))⁻¹ := by field_simp
    rw [h4]
    refine inv_strictAnti₀ (by positivity) ?_
    have h5 : Real.exp (-r) < (r + 1)⁻¹ := by
      rw [Real.exp_neg]
      exact inv_strictAnti₀ (by positivity) h2
    have h6 : r / (r + 1) = 1 - (r + 1)⁻¹ := by field_simp; ring
    rw [h6]
    linarith

/-- C175: at low temperatures the factor tends to one; at high temperatures its product with
`h c w / (k T)` does. -/
theorem C175_limits (w : ℝ) (hw : 0 < w) :
    Filter.Tendsto (fun T => boseFactor T w) (nhdsWithin 0 (Set.Ioi 0)) (nhds 1) ∧
    Filter.Tendsto (fun T => boseFactor T w * thermalRatio T w) Filter.atTop (nhds 1) := by
  have hpl : 0 < planck * lightSpeed := by unfold planck lightSpeed; norm_num
  have hk : 0 < kB := by unfold kB; norm_num
  constructor
  · have up : Filter.Tendsto (fun T : ℝ => 1 + kB * T / (planck * lightSpeed * w))
        (nhdsWithin 0 (Set.Ioi 0)) (nhds 1) := by
      have : Filter.Tendsto (fun T : ℝ => 1 + kB * T / (planck * lightSpeed * w)) (nhds 0)
          (nhds (1 + kB * 0 / (planck * lightSpeed * w))) := Continuous.tendsto (by fun_prop) 0
      rw [mul_zero, zero_div, add_zero] at this
      exact this.mono_left nhdsWithin_le_nhds
    refine tendsto_of_tendsto_of_tendsto_of_le_of_le' tendsto_const_nhds up ?_ ?_
    · filter_upwards [self_mem_nhdsWithin] with T hT
      exact (C51_bose_monotone T T w w hT hw).1.le
    · filter_upwards [self_mem_nhdsWithin] with T hT
      exact (C175_bounds T w hT hw).2.le
  · have up : Filter.Tendsto (fun T : ℝ => thermalRatio T w + 1) Filter.atTop (nhds 1) := by
      have h1 : Filter.Tendsto (fun T : ℝ => planck * lightSpeed * w / (kB * T)) Filter.atTop
          (nhds 0) :=
        Filter.Tendsto.const_div_atTop (Filter.tendsto_id.const_mul_atTop hk) _
      have h2 := h1.add_const 1
      rw [zero_add] at h2
      exact h2
    refine tendsto_of_tendsto_of_tendsto_of_le_of_le' tendsto_const_nhds up ?_ ?_
    · filter_upwards [Filter.eventually_gt_atTop 0] with T hT
      have h0 : 0 < thermalRatio T w := ratio_pos hT hw
      have h1 := (C175_bounds T w hT hw).1
      have e : kB * T / (planck * lightSpeed * w) = (thermalRatio T w)⁻¹ := by
        unfold thermalRatio; rw [inv_div]
      rw [e] at h1
      calc (1 : ℝ) = (thermalRatio T w)⁻¹ * thermalRatio T w := (inv_mul_cancel₀ h0.ne').symm
        _ ≤ _ := mul_le_mul_of_nonneg_right h1.le h0.le
    · filter_upwards [Filter.eventually_gt_atTop 0] with T hT
      have h0 : 0 < thermalRatio T w := ratio_pos hT hw
      have h1 := (C175_bounds T w hT hw).2
      have e : kB * T / (planck * lightSpeed * w) = (thermalRatio T w)⁻¹ := by
        unfold thermalRatio; rw [inv_div]
      rw [e] at h1
      calc _ ≤ (1 + (thermalRatio T w)⁻¹) * thermalRatio T w :=
            mul_le_mul_of_nonneg_right h1.le h0.le
        _ = _ := by rw [add_mul, inv_mul_cancel₀ h0.ne', one_mul]

/-- C175: detailed balance.  A mode with a negative wavenumber is weighted like the anti-Stokes line of
the mode with the opposite wavenumber, except for the sign: the weight is `-exp(-h c w / (k T))` times
that of the Stokes line, and their sum is one. -/
theorem C175_detailed_balance (T w : ℝ) (hT : 0 < T) (hw : 0 < w) :
    boseFactor T (-w) = -Real.exp (-thermalRatio T w) * boseFactor T w ∧
    boseFactor T w + boseFactor T (-w) = 1 := by
  have h0 : 0 < thermalRatio T w := ratio_pos hT hw
  have e : thermalRatio T (-w) = -thermalRatio T w := by unfold thermalRatio; ring
  rw [bose_eq, bose_eq, e, neg_neg]
  set r := thermalRatio T w
  have h1 : Real.exp (-r) < 1 := by rw [Real.exp_lt_one_iff]; linarith
  have h2 : 1 < Real.exp r := Real.one_lt_exp_iff.2 h0
  have h3 : Real.exp (-r) * Real.exp r = 1 := by rw [← Real.exp_add]; simp
  have h4 : 1 - Real.exp r = -(Real.exp r * (1 - Real.exp (-r))) := by
    rw [mul_sub, mul_one, mul_comm (Real.exp r), h3]; ring
  have h5 : (1 - Real.exp (-r)) ≠ 0 := by linarith
  have h6 : (1 - Real.exp r)⁻¹ = -Real.exp (-r) * (1 - Real.exp (-r))⁻¹ := by
    rw [h4, inv_neg, mul_inv, ← Real.exp_neg]; ring
  refine ⟨h6, ?_⟩
  rw [h6]
  field_simp
  ring

/-- C175, in a spectrum: two modes with the same Raman tensor and opposite wavenumbers. -/
theorem C175_spectrum (w T : ℝ) (R : Mat3 ℝ) (hT : 0 < T) (hw : 0 < w) (args : MeasureArgs)
    (ho : args.orientation = "polycrystalline".toList) (hl : args.laserCorrection = false)
    (hb : args.boseEinstein = true) (ht : args.temperature = T) :
    ∃ a : ℝ, ((⟨[w, -w], [R, R]⟩ : PhononSpectrum).measure args).1
      = .ok ([w, -w], [some a, some (-Real.exp (-thermalRatio T w) * a)]) := by
  subst ht
  have h := C52_phonon_measure [w, -w] [R, R] ⟨[w, -w], [R, R]⟩ rfl args
    ⟨ho, (fun h => by rw [hl] at h; cases h), fun _ => hT⟩
  refine ⟨boseFactor args.temperature w * rawIntensity R, ?_⟩
  rw [h]
  have e := (C175_detailed_balance args.temperature w hT hw).1
  simp [totalFactor, hl, hb, hw.ne', e]
  constructor <;> ring

/-- C175: the laser factor falls strictly up to the wavenumber of the laser and vanishes there; above it,
where no light can be scattered, modes are not refused but have a positive factor again. -/
theorem C175_laser (ν w w' : ℝ) (hw : 0 < w) :
    (w < w' → w' ≤ ν → laserFactor ν w' < laserFactor ν w) ∧
    (laserFactor ν w = 0 ↔ w = ν) ∧ (ν < w → 0 < laserFactor ν w) := by
  refine ⟨fun h hn => ?_, ?_, fun h => ?_⟩
  · unfold laserFactor
    have h1 : ((ν - w') / 10000) ^ 4 < ((ν - w) / 10000) ^ 4 :=
      pow_lt_pow_left₀ (by linarith) (div_nonneg (by linarith) (by norm_num)) (by norm_num)
    have h2 : 0 ≤ ((ν - w') / 10000) ^ 4 := by positivity
    calc ((ν - w') / 10000) ^ 4 / w' ≤ ((ν - w') / 10000) ^ 4 / w := by gcongr
      _ < _ := div_lt_div_of_pos_right h1 hw
  · unfold laserFactor
    rw [div_eq_zero_iff, or_iff_left hw.ne', pow_eq_zero_iff (by norm_num), div_eq_zero_iff,
      or_iff_left (by norm_num), sub_eq_zero]
    exact eq_comm
  · unfold laserFactor
    have : (ν - w) / 10000 ≠ 0 := div_ne_zero (by linarith [sub_neg.2 h]) (by norm_num)
    positivity

/-- C175, concrete: at 300 K a mode of 100 cm⁻¹ has a factor between 2 and 3.1. -/
example : 2 < boseFactor 300 100 ∧ boseFactor 300 100 < 3.1 := by
  have h := C175_bounds 300 100 (by norm_num) (by norm_num)
  have e : 2 < kB * 300 / (planck * lightSpeed * 100) ∧
      kB * 300 / (planck * lightSpeed * 100) < 2.1 := by
    unfold kB planck lightSpeed; norm_num
  exact ⟨e.1.trans h.1, h.2.trans (by linarith [e.2])⟩

/-- C175, concrete: a mode at twice the wavenumber of the laser gets a positive factor. -/
example : 0 < laserFactor 20000 40000 := (C175_laser 20000 40000 0 (by norm_num)).2.2 (by norm_num)

end Verif
