import Verif.Proofs.Spectrum
import Mathlib.LinearAlgebra.Matrix.Symmetric
import Mathlib.Tactic.Linarith

/-!
# Properties C49-C55: Raman spectra (`spectrum/_raman.py`, `spectrum/utils.py`)
-/

namespace Verif
open Spec Matrix

/-! ## C49, C50: phonon intensities -/

/-- Options of a plain measurement. -/
def plainArgs : MeasureArgs := ⟨polycrystalline, false, 522, false, 300⟩

theorem measure_plain (s : PhononSpectrum) (args : MeasureArgs)
    (ho : args.orientation = polycrystalline) (hl : args.laserCorrection = false)
    (hb : args.boseEinstein = false) :
    (s.measure args).1 = .ok (s.wavenumbers, s.tensors.map fun R => some (rawIntensity R)) := by
  unfold PhononSpectrum.measure
  rw [if_neg (not_not.2 ho)]
  unfold applyLaser applyBose
  rw [hl, hb]
  rfl

/-- For symmetric tensors the intensity is `45 a² + 7 γ²` with the rotational invariants
`a` (mean polarizability) and `γ²` (anisotropy). -/
theorem rawIntensity_invariants (R : Mat3 ℝ) (h : R.IsSymm) :
    rawIntensity R = 45 * meanPol R ^ 2 + 7 * anisotropy R := by
  have h10 : R 1 0 = R 0 1 := h.apply 0 1
  have h20 : R 2 0 = R 0 2 := h.apply 0 2
  have h21 : R 2 1 = R 1 2 := h.apply 1 2
  unfold rawIntensity alphaSquared gammaSquared meanPol anisotropy
  simp only [Matrix.trace, Matrix.diag, Matrix.mul_apply, Fin.sum_univ_three, h10, h20, h21]
  ring

theorem trace_conj (O A : Mat3 ℝ) (hO : Oᵀ * O = 1) : (O * A * Oᵀ).trace = A.trace := by
  rw [Matrix.trace_mul_comm, ← Matrix.mul_assoc, hO, Matrix.one_mul]

theorem conj_mul (O A B : Mat3 ℝ) (hO : Oᵀ * O = 1) :
    (O * A * Oᵀ) * (O * B * Oᵀ) = O * (A * B) * Oᵀ := by
  have : (O * A * Oᵀ) * (O * B * Oᵀ) = O * A * (Oᵀ * O) * B * Oᵀ := by
    simp only [Matrix.mul_assoc]
  rw [this, hO, Matrix.mul_one, Matrix.mul_assoc O A B]

theorem isSymm_conj (O A : Mat3 ℝ) (h : A.IsSymm) : (O * A * Oᵀ).IsSymm := by
  unfold Matrix.IsSymm
  rw [Matrix.transpose_mul, Matrix.transpose_mul, Matrix.transpose_transpose, h.eq,
    Matrix.mul_assoc]

/-- C49: every entry of an uncorrected polycrystalline spectrum is a nonnegative number. -/
theorem C49_nonneg (s : PhononSpectrum) (args : MeasureArgs)
    (hl : args.laserCorrection = false) (hb : args.boseEinstein = false)
    (ws : List ℝ) (is : List (Option ℝ)) (h : (s.measure args).1 = .ok (ws, is)) :
    ∀ x ∈ is, ∃ v : ℝ, x = some v ∧ 0 ≤ v := by
  have ho : args.orientation = polycrystalline := by
    by_contra ho
    unfold PhononSpectrum.measure at h
    rw [if_pos ho] at h
    cases h
  rw [measure_plain s args ho hl hb] at h
  obtain ⟨-, rfl⟩ := Prod.mk.inj (Except.ok.inj h)
  intro x hx
  obtain ⟨R, -, rfl⟩ := List.mem_map.1 hx
  refine ⟨_, rfl, ?_⟩
  unfold rawIntensity alphaSquared gammaSquared
  positivity

/-- C49: rotating all (symmetric) Raman tensors by an orthogonal matrix changes no
measurement, with any options. -/
theorem C49_rotation (s : PhononSpectrum) (hsym : ∀ R ∈ s.tensors, R.IsSymm)
    (O : Mat3 ℝ) (hO : Oᵀ * O = 1) (args : MeasureArgs) :
    (PhononSpectrum.measure ⟨s.wavenumbers, s.tensors.map fun R => O * R * Oᵀ⟩ args).1
      = (s.measure args).1 := by
  have hraw : (s.tensors.map fun R => O * R * Oᵀ).map (fun R => some (rawIntensity R))
      = s.tensors.map fun R => some (rawIntensity R) := by
    rw [List.map_map]
    refine List.map_congr_left fun R hR => ?_
    simp only [Function.comp]
    rw [rawIntensity_invariants _ (isSymm_conj O R (hsym R hR)),
      rawIntensity_invariants _ (hsym R hR)]
    unfold meanPol anisotropy
    rw [conj_mul O R R hO, trace_conj O _ hO, trace_conj O _ hO]
  unfold PhononSpectrum.measure
  dsimp only
  rw [hraw]
  split_ifs <;> rfl

/-- The symmetry assumption of C49 cannot be dropped: the lower triangle is never read, so
a quarter turn changes the intensity of a tensor with a single off-diagonal entry. -/
theorem C49_rotation_needs_symmetric :
    ∃ (O R : Mat3 ℝ), Oᵀ * O = 1 ∧ rawIntensity (O * R * Oᵀ) ≠ rawIntensity R := by
  refine ⟨!![0, -1, 0; 1, 0, 0; 0, 0, 1], !![0, 1, 0; 0, 0, 0; 0, 0, 0], ?_, ?_⟩
  · ext i j; fin_cases i <;> fin_cases j <;> simp [Matrix.mul_apply, Fin.sum_univ_three]
  · simp [rawIntensity, alphaSquared, gammaSquared, Matrix.mul_apply, Fin.sum_univ_three]

/-- C49, concrete case: a quarter turn about `z` of a symmetric tensor. -/
example : rawIntensity (!![0, -1, 0; 1, 0, 0; 0, 0, 1] * !![1, 2, 3; 2, 4, 5; 3, 5, 6]
    * (!![0, -1, 0; 1, 0, 0; 0, 0, 1] : Mat3 ℝ)ᵀ) = rawIntensity !![1, 2, 3; 2, 4, 5; 3, 5, 6] ∧
    rawIntensity !![1, 2, 3; 2, 4, 5; 3, 5, 6] = 1536 := by
  simp [rawIntensity, alphaSquared, gammaSquared, Matrix.mul_apply, Fin.sum_univ_three]
  norm_num

/-- C50: scaling the tensors by `c` scales every uncorrected intensity by `c²`. -/
theorem C50_scaling (s : PhononSpectrum) (c : ℝ) (args : MeasureArgs)
    (ho : args.orientation = polycrystalline)
    (hl : args.laserCorrection = false) (hb : args.boseEinstein = false) :
    ∃ is : List ℝ, (s.measure args).1 = .ok (s.wavenumbers, is.map some) ∧
      (PhononSpectrum.measure ⟨s.wavenumbers, s.tensors.map fun R => c • R⟩ args).1
        = .ok (s.wavenumbers, is.map fun x => some (c ^ 2 * x)) := by
  refine ⟨s.tensors.map rawIntensity, ?_, ?_⟩
  · rw [measure_plain s args ho hl hb, List.map_map]; rfl
  · rw [measure_plain _ args ho hl hb, List.map_map, List.map_map]
    congr 2
    refine List.map_congr_left fun R _ => ?_
    simp only [Function.comp]
    congr 1
    unfold rawIntensity alphaSquared gammaSquared
    simp only [Matrix.smul_apply, smul_eq_mul]
    ring

/-- C50: an intensity vanishes exactly when the diagonal and the upper triangle of the tensor
vanish. -/
theorem C50_zero_iff (R : Mat3 ℝ) :
    rawIntensity R = 0 ↔ ∀ i j, i ≤ j → R i j = 0 := by
  constructor
  · intro h
    unfold rawIntensity alphaSquared gammaSquared at h
    have sq0 : ∀ x : ℝ, x ^ 2 ≤ 0 → x = 0 := fun x hx =>
      pow_eq_zero_iff (two_ne_zero) |>.1 (le_antisymm hx (sq_nonneg x))
    have h1 := sq_nonneg ((R 0 0 + R 1 1 + R 2 2) / 3)
    have h2 := sq_nonneg (R 0 0 - R 1 1)
    have h3 := sq_nonneg (R 0 0 - R 2 2)
    have h4 := sq_nonneg (R 1 1 - R 2 2)
    have h5 := sq_nonneg (R 0 1)
    have h6 := sq_nonneg (R 0 2)
    have h7 := sq_nonneg (R 1 2)
    have e1 := sq0 _ (by linarith : ((R 0 0 + R 1 1 + R 2 2) / 3) ^ 2 ≤ 0)
    have e2 := sq0 _ (by linarith : (R 0 0 - R 1 1) ^ 2 ≤ 0)
    have e3 := sq0 _ (by linarith : (R 0 0 - R 2 2) ^ 2 ≤ 0)
    have e5 := sq0 _ (by linarith : (R 0 1) ^ 2 ≤ 0)
    have e6 := sq0 _ (by linarith : (R 0 2) ^ 2 ≤ 0)
    have e7 := sq0 _ (by linarith : (R 1 2) ^ 2 ≤ 0)
    have d0 : R 0 0 = 0 := by linarith
    have d1 : R 1 1 = 0 := by linarith
    have d2 : R 2 2 = 0 := by linarith
    intro i j hij
    fin_cases i <;> fin_cases j <;>
      first | assumption | (exfalso; revert hij; decide)
  · intro h
    unfold rawIntensity alphaSquared gammaSquared
    rw [h 0 0 (by decide), h 1 1 (by decide), h 2 2 (by decide), h 0 1 (by decide),
      h 0 2 (by decide), h 1 2 (by decide)]
    norm_num

/-- C50 for symmetric tensors: the intensity vanishes only for the zero tensor. -/
theorem C50_zero_symmetric (R : Mat3 ℝ) (h : R.IsSymm) : rawIntensity R = 0 ↔ R = 0 := by
  rw [C50_zero_iff]
  constructor
  · intro h0
    ext i j
    rcases le_total i j with hij | hij
    · exact h0 i j hij
    · rw [← h.apply]; exact h0 j i hij
  · rintro rfl i j _; rfl

/-- C50, concrete case: a non-zero tensor that is measured as zero. -/
example : rawIntensity !![0, 0, 0; 1, 0, 0; 0, 0, 0] = 0 ∧
    rawIntensity !![0, 1, 0; 1, 0, 0; 0, 0, 0] = 21 := by
  constructor <;> simp [rawIntensity, alphaSquared, gammaSquared]
  norm_num

/-! ## C51: corrections -/

theorem boseEntry_eq {T w : ℝ} (hT : 0 < T) (hw : w ≠ 0) :
    boseEntry T w = some (boseFactor T w) := by
  unfold boseEntry boseFactor npDiv
  have e : -(w * 29979245800 * (41357 / 10 ^ 19)) / (boltzmann * T)
      = -(planck * lightSpeed * w / (kB * T)) := by
    unfold boltzmann planck lightSpeed kB
    rw [← neg_div]
    congr 1
    · norm_num; ring
    · norm_num
  dsimp only
  rw [e, if_neg, one_div]
  intro h0
  have h1 : Real.exp (-(planck * lightSpeed * w / (kB * T))) = 1 := by linarith
  rw [Real.exp_eq_one_iff, neg_eq_zero, div_eq_zero_iff] at h1
  have hp : planck * lightSpeed ≠ 0 := by unfold planck lightSpeed; norm_num
  have hk : kB * T ≠ 0 := by unfold kB; positivity
  rcases h1 with h1 | h1
  · exact (mul_ne_zero hp hw) h1
  · exact hk h1

theorem boseEntry_zero (T : ℝ) : boseEntry T 0 = none := by
  unfold boseEntry npDiv; simp

theorem laserEntry_eq {ν w : ℝ} (hw : w ≠ 0) : laserEntry ν w = some (laserFactor ν w) := by
  unfold laserEntry laserFactor npDiv
  rw [if_neg hw]
  congr 2
  ring

theorem laserEntry_zero (ν : ℝ) : laserEntry ν 0 = none := by
  unfold laserEntry npDiv; simp

theorem ratio_pos {T w : ℝ} (hT : 0 < T) (hw : 0 < w) :
    0 < planck * lightSpeed * w / (kB * T) := by
  unfold planck lightSpeed kB; positivity

/-- C51: both correction functions raise `ValueError` for non-positive arguments and otherwise
return the physical factor for each non-zero wavenumber (non-finite for a zero one). -/
theorem C51_values (ws : List ℝ) (x : ℝ) :
    (x ≤ 0 → boseEinsteinCorrection ws x = .error .valueError ∧
      laserCorrection ws x = .error .valueError) ∧
    (0 < x → boseEinsteinCorrection ws x
        = .ok (ws.map fun w => if w = 0 then none else some (boseFactor x w)) ∧
      laserCorrection ws x = .ok (ws.map fun w => if w = 0 then none else some (laserFactor x w))) := by
  unfold boseEinsteinCorrection laserCorrection
  refine ⟨fun h => ⟨if_pos h, if_pos h⟩, fun h => ?_⟩
  rw [if_neg (not_le.2 h), if_neg (not_le.2 h)]
  constructor
  · congr 1
    refine List.map_congr_left fun w _ => ?_
    split_ifs with hw
    · rw [hw, boseEntry_zero]
    · exact boseEntry_eq h hw
  · congr 1
    refine List.map_congr_left fun w _ => ?_
    split_ifs with hw
    · rw [hw, laserEntry_zero]
    · exact laserEntry_eq hw

/-- C51: the Bose-Einstein factor exceeds one, decreases strictly with the wavenumber and
increases strictly with the temperature. -/
theorem C51_bose_monotone (T T' w w' : ℝ) (hT : 0 < T) (hw : 0 < w) :
    1 < boseFactor T w ∧ (w < w' → boseFactor T w' < boseFactor T w) ∧
    (T < T' → boseFactor T w < boseFactor T' w) := by
  have key : ∀ a b : ℝ, 0 < a → a < b →
      (1 - Real.exp (-b))⁻¹ < (1 - Real.exp (-a))⁻¹ := by
    intro a b ha hab
    have h1 : Real.exp (-b) < Real.exp (-a) := Real.exp_lt_exp.2 (by linarith)
    have h2 : Real.exp (-a) < 1 := by rw [Real.exp_lt_one_iff]; linarith
    exact inv_strictAnti₀ (by linarith) (by linarith)
  have h0 := ratio_pos hT hw
  refine ⟨?_, fun h => ?_, fun h => ?_⟩
  · unfold boseFactor
    have h1 : Real.exp (-(planck * lightSpeed * w / (kB * T))) < 1 := by
      rw [Real.exp_lt_one_iff]; linarith
    have h2 := Real.exp_pos (-(planck * lightSpeed * w / (kB * T)))
    rw [one_lt_inv₀ (by linarith)]
    linarith
  · refine key _ _ h0 ?_
    have : 0 < planck * lightSpeed := by unfold planck lightSpeed; norm_num
    have hk : 0 < kB * T := by unfold kB; positivity
    exact div_lt_div_of_pos_right (mul_lt_mul_of_pos_left h this) hk
  · refine key _ _ (ratio_pos (hT.trans h) hw) ?_
    have : 0 < planck * lightSpeed * w := by unfold planck lightSpeed; positivity
    have hk : 0 < kB := by unfold kB; norm_num
    exact div_lt_div_of_pos_left this (mul_pos hk hT) (mul_lt_mul_of_pos_left h hk)

/-- C51: signs of the laser factor, and of the Bose-Einstein factor for negative wavenumbers
(unstable modes): there both are non-positive, so that a corrected intensity is non-positive. -/
theorem C51_signs (T ν w : ℝ) (hT : 0 < T) :
    (0 < w → 0 ≤ laserFactor ν w) ∧ (w < 0 → laserFactor ν w ≤ 0) ∧
    (w < 0 → boseFactor T w < 0) := by
  refine ⟨fun hw => ?_, fun hw => ?_, fun hw => ?_⟩
  · unfold laserFactor
    exact div_nonneg (by positivity) hw.le
  · unfold laserFactor
    exact div_nonpos_of_nonneg_of_nonpos (by positivity) hw.le
  · unfold boseFactor
    have h0 := ratio_pos hT (neg_pos.2 hw)
    have e : planck * lightSpeed * -w / (kB * T) = -(planck * lightSpeed * w / (kB * T)) := by ring
    rw [e] at h0
    have h1 := Real.one_lt_exp_iff.2 h0
    exact inv_lt_zero.2 (by linarith)

/-- C51, concrete case: at 300 K the factor of a 500 cm⁻¹ mode is larger than 1 and smaller
than that of a 100 cm⁻¹ mode; the laser factor of a 522 nm laser is nonnegative. -/
example : 1 < boseFactor 300 500 ∧ boseFactor 300 500 < boseFactor 300 100 ∧
    0 ≤ laserFactor (10000000 / 522) 500 :=
  ⟨(C51_bose_monotone 300 300 500 500 (by norm_num) (by norm_num)).1,
   (C51_bose_monotone 300 300 100 500 (by norm_num) (by norm_num)).2.1 (by norm_num),
   (C51_signs 300 _ 500 (by norm_num)).1 (by norm_num)⟩

/-! ## C52: `measure` -/

/-- Factor applied to the intensity at the wavenumber `w`, `none` if it is not finite. -/
noncomputable def totalFactor (args : MeasureArgs) (w : ℝ) : Option ℝ :=
  if w = 0 ∧ (args.laserCorrection = true ∨ args.boseEinstein = true) then none
  else some ((if args.laserCorrection = true then laserFactor (10000000 / args.laserWavelength) w
      else 1) * if args.boseEinstein = true then boseFactor args.temperature w else 1)

/-- The enabled options are valid. -/
def ArgsOK (args : MeasureArgs) : Prop :=
  args.orientation = "polycrystalline".toList ∧
  (args.laserCorrection = true → 0 < args.laserWavelength) ∧
  (args.boseEinstein = true → 0 < args.temperature)

theorem mulInPlace_map {α : Type} (l : List α) (f g : α → Option ℝ) :
    mulInPlace (l.map f) (l.map g) = l.map fun a => mulOpt (f a) (g a) := by
  unfold mulInPlace; rw [List.zipWith_map, List.zipWith_self]

theorem applyBoth_ok (args : MeasureArgs) (h : ArgsOK args) (l : List (ℝ × ℝ)) :
    (applyLaser args (l.map Prod.fst) ((l.map Prod.snd).map some) >>= fun is =>
      applyBose args (l.map Prod.fst) is)
    = .ok (l.map fun x => (totalFactor args x.1).map (x.2 * ·)) := by
  obtain ⟨-, hl, hb⟩ := h
  have hlas : applyLaser args (l.map Prod.fst) ((l.map Prod.snd).map some) = .ok (l.map fun x =>
      if args.laserCorrection = true then
        (if x.1 = 0 then none else some (x.2 * laserFactor (10000000 / args.laserWavelength) x.1))
      else some x.2) := by
    unfold applyLaser
    split_ifs with hc
    · have hpos := hl hc
      unfold laserWavenumber
      rw [if_neg hpos.ne']
      change (laserCorrection _ (10000000 / args.laserWavelength) >>= _) = _
      rw [((C51_values _ _).2 (by positivity)).2]
      change Except.ok _ = Except.ok _
      rw [List.map_map, List.map_map, mulInPlace_map]
      congr 1
      refine List.map_congr_left fun x _ => ?_
      simp only [Function.comp]
      split_ifs <;> rfl
    · rw [List.map_map]; rfl
  rw [hlas]
  change applyBose args _ _ = _
  unfold applyBose
  split_ifs with hc hd hd
  · rw [((C51_values _ _).2 (hb hc)).1]
    change Except.ok _ = Except.ok _
    rw [List.map_map, mulInPlace_map]
    congr 1
    refine List.map_congr_left fun x _ => ?_
    simp only [Function.comp, totalFactor, hc, hd]
    by_cases hx : x.1 = 0
    · simp [hx, mulOpt]
    · simp [hx, mulOpt, mul_assoc]
  · rw [((C51_values _ _).2 (hb hc)).1]
    change Except.ok _ = Except.ok _
    rw [List.map_map, mulInPlace_map]
    congr 1
    refine List.map_congr_left fun x _ => ?_
    simp only [Function.comp, totalFactor, hc, hd]
    by_cases hx : x.1 = 0
    · simp [hx, mulOpt]
    · simp [hx, mulOpt]
  · congr 1
    refine List.map_congr_left fun x _ => ?_
    simp only [totalFactor, hc, hd]
    by_cases hx : x.1 = 0
    · simp [hx]
    · simp [hx]
  · congr 1
    refine List.map_congr_left fun x _ => ?_
    simp [totalFactor, hc, hd]

/-- C52 for phonon spectra: with valid enabled options the intensities are the raw intensities
times the enabled correction factors, whatever the disabled options are. -/
theorem C52_phonon_measure (ws : List ℝ) (ts : List (Mat3 ℝ)) (s : PhononSpectrum)
    (hs : PhononSpectrum.init ws ts = .ok s) (args : MeasureArgs) (h : ArgsOK args) :
    (s.measure args).1 = .ok (ws,
      (ws.zip ts).map fun x => (totalFactor args x.1).map (rawIntensity x.2 * ·)) := by
  unfold PhononSpectrum.init at hs
  split_ifs at hs with hlen
  obtain rfl := Except.ok.inj hs
  push Not at hlen
  unfold PhononSpectrum.measure
  rw [if_neg (not_not.2 (show args.orientation = polycrystalline from h.1))]
  dsimp only
  have h1 : ws = ((ws.zip ts).map fun x => (x.1, rawIntensity x.2)).map Prod.fst := by
    rw [List.map_map, show (Prod.fst ∘ fun x : ℝ × Mat3 ℝ => (x.1, rawIntensity x.2)) = Prod.fst
      from rfl, List.map_fst_zip hlen.ge]
  have h2 : ts.map (fun R => some (rawIntensity R))
      = (((ws.zip ts).map fun x => (x.1, rawIntensity x.2)).map Prod.snd).map some := by
    rw [List.map_map, List.map_map]
    conv_lhs => rw [← List.map_snd_zip (l₁ := ws) hlen.le]
    rw [List.map_map]; rfl
  have key := applyBoth_ok args h ((ws.zip ts).map fun x => (x.1, rawIntensity x.2))
  rw [← h1, ← h2, List.map_map] at key
  cases hA : applyLaser args ws (ts.map fun R => some (rawIntensity R)) with
  | error e => rw [hA] at key; cases key
  | ok is =>
    rw [hA] at key
    change applyBose args ws is = _ at key
    change (applyBose args ws is >>= _) = _
    rw [key]; rfl

/-- C52 for MD spectra. -/
theorem C52_md_measure (s : MDSpectrum) (ws raw : List ℝ) (hraw : mdRaw s = .ok (ws, raw))
    (hlen : raw.length = ws.length) (args : MeasureArgs) (h : ArgsOK args) :
    (s.measure args).1 = .ok (ws,
      (ws.zip raw).map fun x => (totalFactor args x.1).map (x.2 * ·)) := by
  unfold MDSpectrum.measure
  rw [if_neg (not_not.2 (show args.orientation = polycrystalline from h.1))]
  dsimp only
  rw [hraw]
  change (applyLaser args ws (raw.map some) >>= _) = _
  have key := applyBoth_ok args h (ws.zip raw)
  rw [List.map_fst_zip hlen.ge, List.map_snd_zip hlen.le] at key
  cases hA : applyLaser args ws (raw.map some) with
  | error e => rw [hA] at key; cases key
  | ok is =>
    rw [hA] at key
    change applyBose args ws is = _ at key
    change (applyBose args ws is >>= _) = _
    rw [key]; rfl

/-- C52: another orientation raises `NotImplementedError`, before anything else is looked at. -/
theorem C52_orientation (s : PhononSpectrum) (m : MDSpectrum) (args : MeasureArgs)
    (h : args.orientation ≠ "polycrystalline".toList) :
    (s.measure args).1 = .error .notImplementedError ∧
    (m.measure args).1 = .error .notImplementedError := by
  change args.orientation ≠ polycrystalline at h
  unfold PhononSpectrum.measure MDSpectrum.measure
  rw [if_pos h, if_pos h]; exact ⟨rfl, rfl⟩

/-- C52: an invalid enabled option is an error: a zero wavelength a `ZeroDivisionError`, a
negative wavelength or a non-positive temperature a `ValueError`. -/
theorem C52_invalid (s : PhononSpectrum) (args : MeasureArgs)
    (ho : args.orientation = polycrystalline) :
    (args.laserCorrection = true → args.laserWavelength = 0 →
      (s.measure args).1 = .error .zeroDivisionError) ∧
    (args.laserCorrection = true → args.laserWavelength < 0 →
      (s.measure args).1 = .error .valueError) ∧
    ((args.laserCorrection = true → 0 < args.laserWavelength) → args.boseEinstein = true →
      args.temperature ≤ 0 → (s.measure args).1 = .error .valueError) := by
  unfold PhononSpectrum.measure
  rw [if_neg (not_not.2 ho)]
  dsimp only
  refine ⟨fun hl h0 => ?_, fun hl h0 => ?_, fun hl hb h0 => ?_⟩
  · unfold applyLaser laserWavenumber; rw [if_pos hl, if_pos h0]; rfl
  · unfold applyLaser laserWavenumber
    rw [if_pos hl, if_neg h0.ne]
    change ((laserCorrection _ (10000000 / args.laserWavelength) >>= _) >>= _) = _
    rw [((C51_values _ _).1 (div_nonpos_of_nonneg_of_nonpos (by norm_num) h0.le)).2]; rfl
  · obtain ⟨is, his⟩ : ∃ is, applyLaser args s.wavenumbers
        (s.tensors.map fun R => some (rawIntensity R)) = .ok is := by
      unfold applyLaser
      split_ifs with hc
      · unfold laserWavenumber
        rw [if_neg (hl hc).ne']
        change ∃ is, (laserCorrection _ (10000000 / args.laserWavelength) >>= _) = _
        have := hl hc
        rw [((C51_values _ _).2 (by positivity)).2]
        exact ⟨_, rfl⟩
      · exact ⟨_, rfl⟩
    rw [his]
    change (applyBose args s.wavenumbers is >>= _) = _
    unfold applyBose
    rw [if_pos hb, ((C51_values _ _).1 h0).1]; rfl

/-- C52: disabled options have no influence. -/
theorem C52_disabled_ignored (s : PhononSpectrum) (m : MDSpectrum) (o : List Char)
    (lc be : Bool) (wl wl' T T' : ℝ) (h1 : lc = true → wl = wl') (h2 : be = true → T = T') :
    (s.measure ⟨o, lc, wl, be, T⟩).1 = (s.measure ⟨o, lc, wl', be, T'⟩).1 ∧
    (m.measure ⟨o, lc, wl, be, T⟩).1 = (m.measure ⟨o, lc, wl', be, T'⟩).1 := by
  have hA : ∀ ws is, applyLaser ⟨o, lc, wl, be, T⟩ ws is = applyLaser ⟨o, lc, wl', be, T'⟩ ws is := by
    intro ws is
    unfold applyLaser
    dsimp only
    split_ifs with hc
    · rw [h1 hc]
    · rfl
  have hB : ∀ ws is, applyBose ⟨o, lc, wl, be, T⟩ ws is = applyBose ⟨o, lc, wl', be, T'⟩ ws is := by
    intro ws is
    unfold applyBose
    dsimp only
    split_ifs with hc
    · rw [h2 hc]
    · rfl
  unfold PhononSpectrum.measure MDSpectrum.measure
  dsimp only
  simp only [hA, hB]
  exact ⟨trivial, trivial⟩

/-- C52: measuring leaves the spectrum as it is, so that measuring again gives the same. -/
theorem C52_unchanged (s : PhononSpectrum) (m : MDSpectrum) (args args' : MeasureArgs) :
    (s.measure args).2 = s ∧ (m.measure args).2 = m ∧
    ((s.measure args).2.measure args').1 = (s.measure args').1 ∧
    ((m.measure args).2.measure args').1 = (m.measure args').1 := by
  have h1 : (s.measure args).2 = s := by unfold PhononSpectrum.measure; split_ifs <;> rfl
  have h2 : (m.measure args).2 = m := by unfold MDSpectrum.measure; split_ifs <;> rfl
  exact ⟨h1, h2, by rw [h1], by rw [h2]⟩

/-- C52, concrete case: only the laser correction enabled, with an invalid temperature. -/
example : ArgsOK ⟨polycrystalline, true, 522, false, -5⟩ :=
  ⟨rfl, fun _ => by norm_num, fun h => by cases h⟩

/-! ## C53: grid of MD spectra -/

theorem range_tail (n : ℕ) : (List.range (n + 1)).tail = (List.range n).map (· + 1) := by
  rw [List.range_succ_eq_map]; rfl

theorem mdRaw_tail (s : MDSpectrum) (hS : 2 ≤ s.polarizabilityTs.length) (hdt : 0 < s.timestep) :
    mdRaw s = .ok
      ((List.range ((s.polarizabilityTs.length - 2) / 2)).map fun k : ℕ =>
        ((k + 1 : ℕ) : ℝ) * (1 / (((s.polarizabilityTs.length - 1 : ℕ) : ℝ) * s.timestep))
          * (3335640951981521 / 10 ^ 14) * 1000,
      (List.range ((s.polarizabilityTs.length - 2) / 2)).map fun k =>
        mdAt (npDiff s.polarizabilityTs) (k + 1)) := by
  have hne : npDiff s.polarizabilityTs ≠ [] := by
    intro h
    have := npDiff_length s.polarizabilityTs
    rw [h] at this
    simp at this
    omega
  rw [mdRaw_eq s hne hdt, npDiff_length]
  unfold halfLen
  have e : s.polarizabilityTs.length - 1 - 1 = s.polarizabilityTs.length - 2 := by omega
  rw [e, ← List.map_tail, ← List.map_tail, range_tail, List.map_map, List.map_map]
  rfl

/-- C53: with `S ≥ 2` configurations, a positive timestep and valid options, `measure` returns
`ceil((S-1)/2) - 1` wavenumbers, the multiples `k · 33356.40951981521 / ((S-1) Δt)`,
`k = 1, 2, ...`, which are positive and strictly increasing, and as many intensities. -/
theorem C53_grid (s : MDSpectrum) (hS : 2 ≤ s.polarizabilityTs.length) (hdt : 0 < s.timestep)
    (args : MeasureArgs) (hargs : ArgsOK args) :
    ∃ ws is, (s.measure args).1 = .ok (ws, is) ∧ is.length = ws.length ∧
      (ws.length : ℤ) = ⌈((s.polarizabilityTs.length : ℝ) - 1) / 2⌉ - 1 ∧
      (∀ (k : ℕ) (h : k < ws.length),
        ws[k] = (k + 1) * 33356.40951981521 / (((s.polarizabilityTs.length : ℝ) - 1) * s.timestep)) ∧
      (∀ w ∈ ws, 0 < w) ∧ ws.Pairwise (· < ·) := by
  have hraw := mdRaw_tail s hS hdt
  set S := s.polarizabilityTs.length with hSdef
  refine ⟨_, _, C52_md_measure s _ _ hraw (by simp) args hargs, by simp, ?_, ?_, ?_, ?_⟩
  · rw [List.length_map, List.length_range]
    symm
    rw [sub_eq_iff_eq_add, Int.ceil_eq_iff]
    have h2 : 2 * ((S - 2) / 2) ≤ S - 2 ∧ S - 2 < 2 * ((S - 2) / 2) + 2 := by omega
    have h3 : ((2 * ((S - 2) / 2) + 2 : ℕ) : ℝ) ≤ (S : ℝ) := by exact_mod_cast (by omega)
    have h4 : (S : ℝ) < ((2 * ((S - 2) / 2) + 4 : ℕ) : ℝ) := by exact_mod_cast (by omega)
    have h5 : (S : ℝ) ≤ ((2 * ((S - 2) / 2) + 3 : ℕ) : ℝ) := by exact_mod_cast (by omega)
    push_cast [-Int.natCast_ediv, -Nat.cast_ofNat] at h3 h4 h5
    have e : ((((S - 2) / 2 : ℕ) : ℤ) + 1 : ℤ) = ((((S - 2) / 2 + 1 : ℕ)) : ℤ) := by push_cast; ring
    rw [e, Int.cast_natCast, Nat.cast_add]
    norm_num at h3 h4 h5 ⊢
    constructor <;> linarith
  · intro k hk
    rw [List.getElem_map, List.getElem_range]
    rw [show ((S - 1 : ℕ) : ℝ) = (S : ℝ) - 1 by push_cast [Nat.cast_sub (by omega : 1 ≤ S)]; ring]
    push_cast
    generalize ((S : ℝ) - 1) * s.timestep = D
    norm_num
    ring
  · intro w hw
    obtain ⟨k, -, rfl⟩ := List.mem_map.1 hw
    have : (0 : ℝ) < ((S - 1 : ℕ) : ℝ) := by exact_mod_cast (by omega)
    positivity
  · rw [List.pairwise_map]
    refine List.pairwise_lt_range.imp fun {a b} hab => ?_
    have h1 : (0 : ℝ) < ((S - 1 : ℕ) : ℝ) := by exact_mod_cast (by omega)
    have h2 : ((a + 1 : ℕ) : ℝ) < ((b + 1 : ℕ) : ℝ) := by exact_mod_cast (by omega)
    have h3 : 0 < 1 / (((S - 1 : ℕ) : ℝ) * s.timestep) := by positivity
    have h4 := mul_lt_mul_of_pos_right h2 h3
    have h5 : (0 : ℝ) < 3335640951981521 / 10 ^ 14 := by norm_num
    have h6 := mul_lt_mul_of_pos_right h4 h5
    linarith

/-- C53: the documented number of wavenumbers, `ceil(S/2)`, is never returned. -/
theorem C53_documented_length_wrong (s : MDSpectrum) (hS : 2 ≤ s.polarizabilityTs.length)
    (hdt : 0 < s.timestep) (args : MeasureArgs) (hargs : ArgsOK args) (ws : List ℝ)
    (is : List (Option ℝ)) (h : (s.measure args).1 = .ok (ws, is)) :
    ws.length < (s.polarizabilityTs.length + 1) / 2 := by
  rw [C52_md_measure s _ _ (mdRaw_tail s hS hdt) (by simp) args hargs] at h
  obtain ⟨rfl, -⟩ := Prod.mk.inj (Except.ok.inj h)
  simp
  omega

/-- C53, edge case: with fewer than two configurations a `ZeroDivisionError` is raised. -/
theorem C53_short (s : MDSpectrum) (hS : s.polarizabilityTs.length < 2)
    (args : MeasureArgs) (ho : args.orientation = polycrystalline) :
    (s.measure args).1 = .error .zeroDivisionError := by
  unfold MDSpectrum.measure
  rw [if_neg (not_not.2 ho)]
  have hnil : npDiff s.polarizabilityTs = [] := by
    have := npDiff_length s.polarizabilityTs
    exact List.eq_nil_of_length_eq_zero (by omega)
  have : mdRaw s = .error .zeroDivisionError := by
    unfold mdRaw
    rw [hnil]
    unfold calcSignalSpectrum fftfreq
    simp [calcAutocorrelation, correlateFull]
    rfl
  dsimp only
  rw [this]; rfl

/-- C53, concrete case: five configurations at 1 fs give one wavenumber. -/
example (A : Mat3 ℝ) : ∃ is, ((⟨[0, A, 0, A, 0], 1⟩ : MDSpectrum).measure plainArgs).1
    = .ok ([33356.40951981521 / 4], is) := by
  obtain ⟨ws, is, h, -, hlen, hval, -⟩ := C53_grid ⟨[0, A, 0, A, 0], 1⟩ (by simp) (by norm_num)
    plainArgs ⟨rfl, (fun h => by cases h), (fun h => by cases h)⟩
  refine ⟨is, ?_⟩
  rw [h]
  have h1 : ws.length = 1 := by
    have : ⌈(((5 : ℕ) : ℝ) - 1) / 2⌉ = 2 := by rw [Int.ceil_eq_iff]; norm_num
    change (ws.length : ℤ) = ⌈(((5 : ℕ) : ℝ) - 1) / 2⌉ - 1 at hlen
    rw [this] at hlen; omega
  obtain ⟨w, rfl⟩ := List.length_eq_one_iff.1 h1
  have := hval 0 (by simp)
  simp only [List.getElem_cons_zero] at this
  rw [this]
  norm_num

/-! ## C54: nonnegative spectra -/

/-- C54: the intensities of `calc_signal_spectrum` are half the sum of the power spectrum
`|X_k|²` and of the energy `Σ x²` of the signal; in particular they are nonnegative. -/
theorem C54_signal (x : List ℝ) (hx : x ≠ []) (dt : ℝ) (hdt : 0 < dt) :
    ∃ ws is, calcSignalSpectrum x dt = .ok (ws, is) ∧ is.length = (x.length + 1) / 2 ∧
      ws.length = is.length ∧
      (∀ (k : ℕ) (h : k < is.length), is[k] =
        (Complex.normSq (fourier x.length (fun i => x.getD i 0) k) + (x.map (· ^ 2)).sum) / 2) ∧
      ∀ y ∈ is, 0 ≤ y := by
  refine ⟨_, _, calcSignalSpectrum_eq x hx dt hdt, ?_, by simp, ?_, ?_⟩
  · have : 0 < x.length := List.length_pos_of_ne_nil hx
    simp [halfLen]; omega
  · intro k hk
    rw [List.getElem_map, List.getElem_range, specAt_eq]
    congr 2
    rw [← Fin.sum_univ_eq_sum_range (fun a => x.getD a 0 ^ 2), ← List.sum_ofFn]
    congr 1
    apply List.ext_getElem
    · simp
    · intro i h1 h2
      simp
  · intro y hy
    obtain ⟨k, -, rfl⟩ := List.mem_map.1 hy
    exact specAt_nonneg _ _ _

theorem mdAt_eq (ad : List (Mat3 ℝ)) (k : ℕ) :
    mdAt ad k = 5 * specAt ad.length (fun i => ad.getD i 0 0 0 + ad.getD i 0 1 1 + ad.getD i 0 2 2) k
      + 7 * (1 / 2 * specAt ad.length (fun i => ad.getD i 0 0 0 - ad.getD i 0 1 1) k
      + 1 / 2 * specAt ad.length (fun i => ad.getD i 0 1 1 - ad.getD i 0 2 2) k
      + 1 / 2 * specAt ad.length (fun i => ad.getD i 0 2 2 - ad.getD i 0 0 0) k
      + 3 * specAt ad.length (fun i => ad.getD i 0 0 1) k
      + 3 * specAt ad.length (fun i => ad.getD i 0 1 2) k
      + 3 * specAt ad.length (fun i => ad.getD i 0 0 2) k) := by
  simp only [specAt_quad, mdAt, Finset.mul_sum, ← Finset.sum_add_distrib]
  refine Finset.sum_congr rfl fun a _ => Finset.sum_congr rfl fun b _ => ?_
  unfold pairInt
  ring

/-- C54: uncorrected MD Raman intensities are nonnegative numbers. -/
theorem C54_md_nonneg (s : MDSpectrum) (hS : 2 ≤ s.polarizabilityTs.length)
    (hdt : 0 < s.timestep) (args : MeasureArgs) (ho : args.orientation = polycrystalline)
    (hl : args.laserCorrection = false) (hb : args.boseEinstein = false) :
    ∃ (ws is : List ℝ), (s.measure args).1 = .ok (ws, is.map some) ∧ ∀ x ∈ is, 0 ≤ x := by
  have hraw := mdRaw_tail s hS hdt
  obtain ⟨ws, hws⟩ : ∃ ws, mdRaw s = .ok (ws, (List.range ((s.polarizabilityTs.length - 2) / 2)).map
      fun k => mdAt (npDiff s.polarizabilityTs) (k + 1)) := ⟨_, hraw⟩
  refine ⟨ws, (List.range ((s.polarizabilityTs.length - 2) / 2)).map
      fun k => mdAt (npDiff s.polarizabilityTs) (k + 1), ?_, ?_⟩
  · unfold MDSpectrum.measure
    rw [if_neg (not_not.2 ho)]
    dsimp only
    rw [hws]
    unfold applyLaser applyBose
    rw [hl, hb]
    rfl
  · intro x hx
    obtain ⟨k, -, rfl⟩ := List.mem_map.1 hx
    rw [mdAt_eq]
    have := fun f : ℕ → ℝ => specAt_nonneg (npDiff s.polarizabilityTs).length f (k + 1)
    have h1 := this fun i => (npDiff s.polarizabilityTs).getD i 0 0 0
      + (npDiff s.polarizabilityTs).getD i 0 1 1 + (npDiff s.polarizabilityTs).getD i 0 2 2
    have h2 := this fun i => (npDiff s.polarizabilityTs).getD i 0 0 0
      - (npDiff s.polarizabilityTs).getD i 0 1 1
    have h3 := this fun i => (npDiff s.polarizabilityTs).getD i 0 1 1
      - (npDiff s.polarizabilityTs).getD i 0 2 2
    have h4 := this fun i => (npDiff s.polarizabilityTs).getD i 0 2 2
      - (npDiff s.polarizabilityTs).getD i 0 0 0
    have h5 := this fun i => (npDiff s.polarizabilityTs).getD i 0 0 1
    have h6 := this fun i => (npDiff s.polarizabilityTs).getD i 0 1 2
    have h7 := this fun i => (npDiff s.polarizabilityTs).getD i 0 0 2
    linarith

/-- C54, concrete case: the spectrum of the signal `1, -1` at zero frequency is
`(0 + 2) / 2 = 1`. -/
example : ∃ ws is, calcSignalSpectrum [1, -1] 1 = .ok (ws, is) ∧ is = [1] := by
  obtain ⟨ws, is, h, hl, -, hv, -⟩ := C54_signal [1, -1] (by simp) 1 (by norm_num)
  refine ⟨ws, is, h, ?_⟩
  obtain ⟨y, rfl⟩ := List.length_eq_one_iff.1 hl
  have := hv 0 (by simp)
  simp [fourier, Finset.sum_range_succ] at this
  rw [this]

/-! ## C55: symmetries of MD intensities -/

theorem npDiff_map (l : List (Mat3 ℝ)) (f g : Mat3 ℝ → Mat3 ℝ)
    (h : ∀ a b, f b - f a = g (b - a)) : npDiff (l.map f) = (npDiff l).map g := by
  unfold npDiff
  rw [← List.map_tail, List.zipWith_map, List.map_zipWith]
  congr 1
  funext b a
  exact h a b

theorem mdRaw_congr (ts ts' : List (Mat3 ℝ)) (dt : ℝ) (c : ℝ) (hlen : ts'.length = ts.length)
    (hS : 2 ≤ ts.length) (hdt : 0 < dt)
    (h : ∀ k, mdAt (npDiff ts') k = c * mdAt (npDiff ts) k) :
    ∃ ws is, mdRaw ⟨ts, dt⟩ = .ok (ws, is) ∧ is.length = ws.length ∧
      mdRaw ⟨ts', dt⟩ = .ok (ws, is.map (c * ·)) := by
  refine ⟨_, _, mdRaw_tail ⟨ts, dt⟩ hS hdt, by simp, ?_⟩
  rw [mdRaw_tail ⟨ts', dt⟩ (by rw [← hlen] at hS; exact hS) hdt]
  dsimp only
  rw [hlen, List.map_map]
  congr 2
  refine List.map_congr_left fun k _ => ?_
  exact h _

/-- C55: a constant added to the time series changes nothing (for any options, with exceptions
the same). -/
theorem C55_offset (ts : List (Mat3 ℝ)) (dt : ℝ) (A0 : Mat3 ℝ) (args : MeasureArgs) :
    (MDSpectrum.measure ⟨ts.map (· + A0), dt⟩ args).1 = (MDSpectrum.measure ⟨ts, dt⟩ args).1 := by
  have h : mdRaw ⟨ts.map (· + A0), dt⟩ = mdRaw ⟨ts, dt⟩ := by
    unfold mdRaw
    dsimp only
    rw [npDiff_map ts (· + A0) id fun a b => by simp, List.map_id]
  unfold MDSpectrum.measure
  rw [h]
  split_ifs <;> rfl

/-- C55: scaling the time series by `c` multiplies every (finite) measured intensity by `c²`. -/
theorem C55_scaling (ts : List (Mat3 ℝ)) (dt c : ℝ) (hS : 2 ≤ ts.length) (hdt : 0 < dt)
    (args : MeasureArgs) (hargs : ArgsOK args) :
    ∃ ws is, (MDSpectrum.measure ⟨ts, dt⟩ args).1 = .ok (ws, is) ∧
      (MDSpectrum.measure ⟨ts.map (c • ·), dt⟩ args).1
        = .ok (ws, is.map fun x => x.map (c ^ 2 * ·)) := by
  obtain ⟨ws, is, h1, hl, h2⟩ := mdRaw_congr ts (ts.map (c • ·)) dt (c ^ 2) (by simp) hS hdt (by
    intro k
    rw [npDiff_map ts (c • ·) (c • ·) fun a b => (smul_sub c b a).symm]
    unfold mdAt
    rw [List.length_map, Finset.mul_sum]
    refine Finset.sum_congr rfl fun a _ => ?_
    rw [Finset.mul_sum]
    refine Finset.sum_congr rfl fun b _ => ?_
    have hg : ∀ i, ((npDiff ts).map (c • ·)).getD i 0 = c • (npDiff ts).getD i 0 := by
      intro i
      rw [List.getD_eq_getElem?_getD, List.getD_eq_getElem?_getD, List.getElem?_map]
      cases (npDiff ts)[i]? <;> simp
    rw [hg, hg]
    unfold pairInt
    simp only [Matrix.smul_apply, smul_eq_mul]
    ring)
  refine ⟨ws, _, C52_md_measure _ ws is h1 hl args hargs, ?_⟩
  rw [C52_md_measure _ ws _ h2 (by simpa using hl) args hargs]
  congr 2
  rw [List.zip_map_right, List.map_map, List.map_map]
  refine List.map_congr_left fun x _ => ?_
  simp only [Function.comp, Prod.map, id]
  cases totalFactor args x.1 with
  | none => rfl
  | some f => simp [mul_assoc]

/-- Frobenius form of the pair intensity for symmetric tensors. -/
theorem pairInt_symm (A B : Mat3 ℝ) (hA : A.IsSymm) (hB : B.IsSymm) :
    pairInt A B = 5 * (A.trace * B.trace) + 7 * ((3 * (A * B).trace - A.trace * B.trace) / 2) := by
  have a10 : A 1 0 = A 0 1 := hA.apply 0 1
  have a20 : A 2 0 = A 0 2 := hA.apply 0 2
  have a21 : A 2 1 = A 1 2 := hA.apply 1 2
  have b10 : B 1 0 = B 0 1 := hB.apply 0 1
  have b20 : B 2 0 = B 0 2 := hB.apply 0 2
  have b21 : B 2 1 = B 1 2 := hB.apply 1 2
  unfold pairInt
  simp only [Matrix.trace, Matrix.diag, Matrix.mul_apply, Fin.sum_univ_three, a10, a20, a21,
    b10, b20, b21]
  ring

theorem npDiff_symm (ts : List (Mat3 ℝ)) (h : ∀ A ∈ ts, A.IsSymm) : ∀ A ∈ npDiff ts, A.IsSymm := by
  intro A hA
  unfold npDiff at hA
  obtain ⟨i, hi, rfl⟩ := List.getElem_of_mem hA
  rw [List.getElem_zipWith]
  have h1 := h _ (List.mem_of_mem_tail (List.getElem_mem (by simp at hi ⊢; omega) :
    ts.tail[i]'(by simp at hi ⊢; omega) ∈ ts.tail))
  have h2 := h _ (List.getElem_mem (by simp at hi; omega) : ts[i]'(by simp at hi; omega) ∈ ts)
  exact h1.sub h2

/-- C55: rotating a symmetric time series by a fixed orthogonal matrix changes no measurement. -/
theorem C55_rotation (ts : List (Mat3 ℝ)) (dt : ℝ) (hS : 2 ≤ ts.length) (hdt : 0 < dt)
    (hsym : ∀ A ∈ ts, A.IsSymm) (O : Mat3 ℝ) (hO : Oᵀ * O = 1) (args : MeasureArgs) :
    (MDSpectrum.measure ⟨ts.map fun A => O * A * Oᵀ, dt⟩ args).1
      = (MDSpectrum.measure ⟨ts, dt⟩ args).1 := by
  obtain ⟨ws, is, h1, hl, h2⟩ := mdRaw_congr ts (ts.map fun A => O * A * Oᵀ) dt 1 (by simp) hS hdt (by
    intro k
    rw [one_mul, npDiff_map ts (fun A => O * A * Oᵀ) (fun A => O * A * Oᵀ) fun a b => by
      rw [Matrix.mul_sub, Matrix.sub_mul]]
    unfold mdAt
    rw [List.length_map]
    have hsd := npDiff_symm ts hsym
    have hg : ∀ i, ((npDiff ts).map fun A => O * A * Oᵀ).getD i 0 = O * (npDiff ts).getD i 0 * Oᵀ := by
      intro i
      rw [List.getD_eq_getElem?_getD, List.getD_eq_getElem?_getD, List.getElem?_map]
      cases (npDiff ts)[i]? <;> simp
    have hs : ∀ i, ((npDiff ts).getD i 0).IsSymm := by
      intro i
      rw [List.getD_eq_getElem?_getD]
      cases hi : (npDiff ts)[i]? with
      | none => exact Matrix.isSymm_zero
      | some A => exact hsd A (List.mem_of_getElem? hi)
    refine Finset.sum_congr rfl fun a _ => Finset.sum_congr rfl fun b _ => ?_
    rw [hg, hg, pairInt_symm _ _ (isSymm_conj O _ (hs a)) (isSymm_conj O _ (hs b)),
      pairInt_symm _ _ (hs a) (hs b), conj_mul O _ _ hO, trace_conj O _ hO, trace_conj O _ hO,
      trace_conj O _ hO])
  have h3 : mdRaw ⟨ts.map fun A => O * A * Oᵀ, dt⟩ = mdRaw ⟨ts, dt⟩ := by
    rw [h1, h2]; simp
  unfold MDSpectrum.measure
  rw [h3]
  split_ifs <;> rfl

/-- C55, concrete case: a quarter turn and a time series of symmetric tensors. -/
example : (!![0, -1, 0; 1, 0, 0; 0, 0, 1] : Mat3 ℝ)ᵀ * !![0, -1, 0; 1, 0, 0; 0, 0, 1] = 1 ∧
    (∀ A ∈ ([0, !![1, 2, 3; 2, 4, 5; 3, 5, 6], 1] : List (Mat3 ℝ)), A.IsSymm) := by
  constructor
  · ext i j; fin_cases i <;> fin_cases j <;> simp [Matrix.mul_apply, Fin.sum_univ_three]
  · intro A hA
    simp only [List.mem_cons, List.not_mem_nil, or_false] at hA
    rcases hA with rfl | rfl | rfl
    · exact Matrix.isSymm_zero
    · ext i j; fin_cases i <;> fin_cases j <;> rfl
    · exact Matrix.isSymm_one

end Verif
