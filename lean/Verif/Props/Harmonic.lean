import Verif.Proofs.Harmonic
import Verif.Spec.Harmonic
import Verif.Props.Spectrum
import Verif.Props.MdPipeline

/-!
# C141: the spectrum of a trajectory of harmonic vibrations
-/

namespace Verif

open Spec

theorem pairInt_add_left (A B C : Mat3 ℝ) : pairInt (A + B) C = pairInt A C + pairInt B C := by
  unfold pairInt
  simp only [Matrix.add_apply]
  ring

theorem pairInt_add_right (A B C : Mat3 ℝ) : pairInt C (A + B) = pairInt C A + pairInt C B := by
  unfold pairInt
  simp only [Matrix.add_apply]
  ring

theorem pairInt_smul_left (c : ℝ) (A C : Mat3 ℝ) : pairInt (c • A) C = c * pairInt A C := by
  unfold pairInt
  simp only [Matrix.smul_apply, smul_eq_mul]
  ring

theorem pairInt_smul_right (c : ℝ) (A C : Mat3 ℝ) : pairInt C (c • A) = c * pairInt C A := by
  unfold pairInt
  simp only [Matrix.smul_apply, smul_eq_mul]
  ring

theorem pairInt_zero_left (C : Mat3 ℝ) : pairInt 0 C = 0 := by
  unfold pairInt
  simp

theorem pairInt_zero_right (C : Mat3 ℝ) : pairInt C 0 = 0 := by
  unfold pairInt
  simp

theorem pairInt_sum {ι : Type} (s : Finset ι) (f g : ι → ℝ) (A : ι → Mat3 ℝ) :
    pairInt (∑ i ∈ s, f i • A i) (∑ j ∈ s, g j • A j) =
      ∑ i ∈ s, ∑ j ∈ s, f i * g j * pairInt (A i) (A j) := by
  have hl : ∀ (t : Finset ι) (C : Mat3 ℝ),
      pairInt (∑ i ∈ t, f i • A i) C = ∑ i ∈ t, f i * pairInt (A i) C := by
    classical
    intro t C
    induction t using Finset.induction_on with
    | empty => simp [pairInt_zero_left]
    | insert i t hi ih =>
      rw [Finset.sum_insert hi, Finset.sum_insert hi, pairInt_add_left, pairInt_smul_left, ih]
  have hr : ∀ (t : Finset ι) (C : Mat3 ℝ),
      pairInt C (∑ i ∈ t, g i • A i) = ∑ i ∈ t, g i * pairInt C (A i) := by
    classical
    intro t C
    induction t using Finset.induction_on with
    | empty => simp [pairInt_zero_right]
    | insert i t hi ih =>
      rw [Finset.sum_insert hi, Finset.sum_insert hi, pairInt_add_right, pairInt_smul_right, ih]
  rw [hl]
  refine Finset.sum_congr rfl fun i _ => ?_
  rw [hr, Finset.mul_sum]
  refine Finset.sum_congr rfl fun j _ => ?_
  ring

theorem pairInt_self (A : Mat3 ℝ) : pairInt A A = rawIntensity A := by
  unfold pairInt rawIntensity alphaSquared gammaSquared
  ring

/-- Change of a vibration in one step. -/
theorem cos_step (n m t : ℕ) (φ : ℝ) :
    Real.cos (2 * Real.pi * m * ((t + 1 : ℕ) : ℝ) / n + φ) - Real.cos (2 * Real.pi * m * t / n + φ) =
      2 * Real.sin (Real.pi * m / n) *
        Real.cos (2 * Real.pi * m * t / n + (φ + Real.pi * m / n + Real.pi / 2)) := by
  have e1 : 2 * Real.pi * m * ((t + 1 : ℕ) : ℝ) / n + φ =
      (2 * Real.pi * m * t / n + φ + Real.pi * m / n) + Real.pi * m / n := by push_cast; ring
  have e2 : 2 * Real.pi * m * t / n + φ =
      (2 * Real.pi * m * t / n + φ + Real.pi * m / n) - Real.pi * m / n := by ring
  have e3 : 2 * Real.pi * m * t / n + (φ + Real.pi * m / n + Real.pi / 2) =
      (2 * Real.pi * m * t / n + φ + Real.pi * m / n) + Real.pi / 2 := by ring
  rw [e1, e3, Real.cos_add_pi_div_two]
  nth_rewrite 2 [e2]
  generalize 2 * Real.pi * m * t / n + φ + Real.pi * m / n = X
  rw [Real.cos_add, Real.cos_sub]
  ring

/-- The MD intensities of superposed vibrations. -/
theorem mdAt_vibrating {M n : ℕ} (P : Mat3 ℝ) (modes : Fin M → Vibration)
    (hinj : Function.Injective fun m => (modes m).periods) (hpos : ∀ m, 0 < (modes m).periods)
    (hhalf : ∀ m, 2 * (modes m).periods < n) (k : ℕ) (hk : 2 * k < n) :
    mdAt (npDiff ((List.range (n + 1)).map (vibrating n P modes))) k =
      ∑ m, rawIntensity (modes m).tensor * (4 * Real.sin (Real.pi * (modes m).periods / n) ^ 2 *
        (n / 4 + if k = (modes m).periods then (n : ℝ) ^ 2 / 8 else 0)) := by
  have hlen : (npDiff ((List.range (n + 1)).map (vibrating n P modes))).length = n := by
    rw [npDiff_length]; simp
  have hget : ∀ a ∈ Finset.range n,
      (npDiff ((List.range (n + 1)).map (vibrating n P modes))).getD a 0 =
        ∑ m, (2 * Real.sin (Real.pi * (modes m).periods / n) *
          Real.cos (2 * Real.pi * (modes m).periods * a / n +
            ((modes m).phase + Real.pi * (modes m).periods / n + Real.pi / 2))) •
              (modes m).tensor := by
    intro a ha
    have ha' := Finset.mem_range.1 ha
    rw [npDiff_get _ a (by simp; omega)]
    simp only [List.getElem_map, List.getElem_range]
    unfold vibrating
    rw [add_sub_add_left_eq_sub, ← Finset.sum_sub_distrib]
    refine Finset.sum_congr rfl fun m _ => ?_
    rw [← sub_smul, cos_step]
  unfold mdAt
  rw [hlen]
  have h1 : ∀ a ∈ Finset.range n, ∀ b ∈ Finset.range n, specCoef n k a b * pairInt
      ((npDiff ((List.range (n + 1)).map (vibrating n P modes))).getD a 0)
      ((npDiff ((List.range (n + 1)).map (vibrating n P modes))).getD b 0) =
      ∑ m, ∑ l, 4 * Real.sin (Real.pi * (modes m).periods / n) *
        Real.sin (Real.pi * (modes l).periods / n) * pairInt (modes m).tensor (modes l).tensor *
        (specCoef n k a b * (Real.cos (2 * Real.pi * (modes m).periods * a / n +
            ((modes m).phase + Real.pi * (modes m).periods / n + Real.pi / 2)) *
          Real.cos (2 * Real.pi * (modes l).periods * b / n +
            ((modes l).phase + Real.pi * (modes l).periods / n + Real.pi / 2)))) := by
    intro a ha b hb
    rw [hget a ha, hget b hb, pairInt_sum, Finset.mul_sum]
    refine Finset.sum_congr rfl fun m _ => ?_
    rw [Finset.mul_sum]
    refine Finset.sum_congr rfl fun l _ => ?_
    ring
  rw [Finset.sum_congr rfl fun a ha => Finset.sum_congr rfl fun b hb => h1 a ha b hb]
  rw [Finset.sum_congr rfl fun a _ => Finset.sum_comm, Finset.sum_comm]
  refine Finset.sum_congr rfl fun m _ => ?_
  rw [Finset.sum_congr rfl fun a _ => Finset.sum_comm, Finset.sum_comm]
  have h2 : ∀ l : Fin M, ∑ a ∈ Finset.range n, ∑ b ∈ Finset.range n,
      4 * Real.sin (Real.pi * (modes m).periods / n) *
        Real.sin (Real.pi * (modes l).periods / n) * pairInt (modes m).tensor (modes l).tensor *
        (specCoef n k a b * (Real.cos (2 * Real.pi * (modes m).periods * a / n +
            ((modes m).phase + Real.pi * (modes m).periods / n + Real.pi / 2)) *
          Real.cos (2 * Real.pi * (modes l).periods * b / n +
            ((modes l).phase + Real.pi * (modes l).periods / n + Real.pi / 2)))) =
      if m = l then rawIntensity (modes m).tensor * (4 * Real.sin (Real.pi * (modes m).periods / n) ^ 2 *
        (n / 4 + if k = (modes m).periods then (n : ℝ) ^ 2 / 8 else 0)) else 0 := by
    intro l
    simp only [← Finset.mul_sum]
    rw [specCoef_harmonic n k _ _ (hpos m) (hpos l) (hhalf m) (hhalf l) hk]
    by_cases h : m = l
    · subst h
      rw [if_pos rfl, if_pos rfl, pairInt_self, sub_self, Real.cos_zero]
      ring
    · rw [if_neg h, if_neg fun h' => h (hinj h'), mul_zero]
  rw [Finset.sum_congr rfl fun l _ => h2 l, Finset.sum_ite_eq, if_pos (Finset.mem_univ m)]

/-- C141: the MD spectrum of several harmonic vibrations with different periods, each a whole
fraction of the sampled time, is the phonon spectrum of the same vibrations: at the wavenumber of
each there is a peak proportional to its phonon intensity (and to the square of the sine of half
the phase step), over a background that is the same at all wavenumbers. -/
theorem C141_vibrations {M n : ℕ} (P : Mat3 ℝ) (modes : Fin M → Vibration)
    (hinj : Function.Injective fun m => (modes m).periods) (hpos : ∀ m, 0 < (modes m).periods)
    (hhalf : ∀ m, 2 * (modes m).periods < n) (hn : 0 < n) (dt : ℝ) (hdt : 0 < dt) (args : MeasureArgs)
    (h1 : args.orientation = polycrystalline) (h2 : args.laserCorrection = false)
    (h3 : args.boseEinstein = false) :
    ∃ (heights : Fin M → ℝ) (ws is : List ℝ),
      ((⟨List.ofFn fun m => 33356.40951981521 / (n * dt / (modes m).periods),
          List.ofFn fun m => (modes m).tensor⟩ : PhononSpectrum).measure args).1 =
        .ok (List.ofFn (fun m => 33356.40951981521 / (n * dt / (modes m).periods)),
          List.ofFn fun m => some (heights m)) ∧
      ((⟨(List.range (n + 1)).map (vibrating n P modes), dt⟩ : MDSpectrum).measure args).1 =
        .ok (ws, is.map some) ∧ ws.length = is.length ∧ is.length = (n - 1) / 2 ∧
      (∀ (k : ℕ) (hk : k < is.length), is[k] = ∑ m, heights m *
        (4 * Real.sin (Real.pi * (modes m).periods / n) ^ 2 *
          (n / 4 + if k + 1 = (modes m).periods then (n : ℝ) ^ 2 / 8 else 0))) ∧
      ∀ m, ws[(modes m).periods - 1]? = some (33356.40951981521 / (n * dt / (modes m).periods)) := by
  have hS : 2 ≤ ((⟨(List.range (n + 1)).map (vibrating n P modes), dt⟩ :
      MDSpectrum).polarizabilityTs).length := by simp; omega
  have hraw := mdRaw_tail _ hS hdt
  have hL : ((⟨(List.range (n + 1)).map (vibrating n P modes), dt⟩ :
      MDSpectrum).polarizabilityTs).length = n + 1 := by simp
  rw [hL] at hraw
  have e1 : (n + 1 - 2) / 2 = (n - 1) / 2 := by omega
  rw [e1, show n + 1 - 1 = n by omega] at hraw
  refine ⟨fun m => rawIntensity (modes m).tensor,
    (List.range ((n - 1) / 2)).map fun k : ℕ => ((k + 1 : ℕ) : ℝ) * (1 / ((n : ℝ) * dt))
          * (3335640951981521 / 10 ^ 14) * 1000,
    (List.range ((n - 1) / 2)).map fun k =>
      mdAt (npDiff ((List.range (n + 1)).map (vibrating n P modes))) (k + 1), ?_, ?_, by simp, by simp,
      ?_, ?_⟩
  · unfold PhononSpectrum.measure applyLaser applyBose
    simp only [h1, h2, h3, ne_eq, not_true_eq_false, if_false, Bool.false_eq_true]
    rw [List.map_ofFn]
    rfl
  · unfold MDSpectrum.measure
    rw [if_neg (not_not.2 h1)]
    dsimp only
    rw [hraw]
    unfold applyLaser applyBose
    rw [h2, h3]
    rfl
  · intro k hk
    rw [List.getElem_map, List.getElem_range]
    simp only [List.length_map, List.length_range] at hk
    exact mdAt_vibrating P modes hinj hpos hhalf (k + 1) (by omega)
  · intro m
    have hp := hpos m
    have hh := hhalf m
    rw [List.getElem?_map, List.getElem?_range (by omega)]
    simp only [Option.map_some, Option.some.injEq]
    rw [show (modes m).periods - 1 + 1 = (modes m).periods by omega]
    have hn' : (n : ℝ) ≠ 0 := by exact_mod_cast hn.ne'
    have hp' : ((modes m).periods : ℝ) ≠ 0 := by exact_mod_cast hp.ne'
    field_simp
    norm_num

/-- C141: at the wavenumber of a vibration the intensity exceeds that at every wavenumber that
belongs to no vibration. -/
theorem C141_peaks {M n : ℕ} (P : Mat3 ℝ) (modes : Fin M → Vibration)
    (hinj : Function.Injective fun m => (modes m).periods) (hpos : ∀ m, 0 < (modes m).periods)
    (hhalf : ∀ m, 2 * (modes m).periods < n) (dt : ℝ) (hdt : 0 < dt) (args : MeasureArgs)
    (h1 : args.orientation = polycrystalline) (h2 : args.laserCorrection = false)
    (h3 : args.boseEinstein = false) (hsym : ∀ m, (modes m).tensor.IsSymm)
    (hne : ∀ m, (modes m).tensor ≠ 0) (ws is : List ℝ)
    (hm : ((⟨(List.range (n + 1)).map (vibrating n P modes), dt⟩ : MDSpectrum).measure args).1 =
      .ok (ws, is.map some)) (k l : ℕ) (hk : k < is.length) (hl : l < is.length)
    (hkm : ∃ m, k + 1 = (modes m).periods) (hlm : ∀ m, l + 1 ≠ (modes m).periods) :
    is[l] < is[k] := by
  obtain ⟨m, hkm⟩ := hkm
  have hn : 0 < n := by have := hhalf m; omega
  obtain ⟨heights, ws', is', hp, hr, -, hlen, hv, -⟩ := C141_vibrations P modes hinj hpos hhalf hn dt hdt
    args h1 h2 h3
  rw [hm] at hr
  obtain ⟨-, h5⟩ := Prod.mk.inj (Except.ok.inj hr)
  obtain rfl : is = is' := List.map_injective_iff.2 (Option.some_injective _) h5
  have hh : ∀ m, heights m = rawIntensity (modes m).tensor := by
    unfold PhononSpectrum.measure applyLaser applyBose at hp
    simp only [h1, h2, h3, ne_eq, not_true_eq_false, if_false, Bool.false_eq_true] at hp
    rw [List.map_ofFn] at hp
    have h6 := (Prod.mk.inj (Except.ok.inj hp)).2
    have h7 := List.ofFn_injective h6
    intro m
    exact (Option.some.inj (congrFun h7 m)).symm
  have hpos' : ∀ m, 0 < heights m := by
    intro m
    rw [hh]
    have h0 : 0 ≤ rawIntensity (modes m).tensor := by
      unfold rawIntensity alphaSquared gammaSquared
      positivity
    refine lt_of_le_of_ne h0 fun h => hne m ?_
    exact (C50_zero_symmetric _ (hsym m)).1 h.symm
  have hsin : ∀ m, 0 < Real.sin (Real.pi * (modes m).periods / n) := by
    intro m
    have hn' : (0 : ℝ) < n := by exact_mod_cast hn
    have hp' : (0 : ℝ) < (modes m).periods := by exact_mod_cast hpos m
    apply Real.sin_pos_of_pos_of_lt_pi (by positivity)
    rw [div_lt_iff₀ hn']
    apply mul_lt_mul_of_pos_left _ Real.pi_pos
    exact_mod_cast (by have := hhalf m; omega : (modes m).periods < n)
  rw [hv k hk, hv l hl]
  have hle : ∀ m', heights m' * (4 * Real.sin (Real.pi * (modes m').periods / n) ^ 2 *
      (n / 4 + if l + 1 = (modes m').periods then (n : ℝ) ^ 2 / 8 else 0)) ≤
      heights m' * (4 * Real.sin (Real.pi * (modes m').periods / n) ^ 2 *
      (n / 4 + if k + 1 = (modes m').periods then (n : ℝ) ^ 2 / 8 else 0)) := by
    intro m'
    rw [if_neg (hlm m')]
    have h8 := (hpos' m').le
    apply mul_le_mul_of_nonneg_left _ h8
    apply mul_le_mul_of_nonneg_left _ (by positivity)
    split_ifs
    · have : (0 : ℝ) ≤ (n : ℝ) ^ 2 / 8 := by positivity
      linarith
    · exact le_refl _
  refine Finset.sum_lt_sum (fun m' _ => hle m') ⟨m, Finset.mem_univ m, ?_⟩
  rw [if_neg (hlm m), if_pos hkm]
  have h9 := hpos' m
  have h10 := hsin m
  have hn' : (0 : ℝ) < n := by exact_mod_cast hn
  apply mul_lt_mul_of_pos_left _ h9
  apply mul_lt_mul_of_pos_left _ (by positivity)
  have : (0 : ℝ) < (n : ℝ) ^ 2 / 8 := by positivity
  linarith

/-- C141, concrete case: two vibrations of a trajectory of nine steps. -/
example : ∃ ws is : List ℝ,
    ((⟨(List.range 9).map (vibrating 8 0 ![⟨1, 0, 1⟩, ⟨3, 1, -1⟩]), 1⟩ : MDSpectrum).measure
      plainArgs).1 = .ok (ws, is.map some) ∧ is.length = 3 ∧
    ∀ (h1 : 1 < is.length) (h2 : 2 < is.length), is[1] < is[2] := by
  have hi : Function.Injective fun m => ((![⟨1, 0, 1⟩, ⟨3, 1, -1⟩] : Fin 2 → Vibration) m).periods := by
    intro a b
    fin_cases a <;> fin_cases b <;> simp
  have hp : ∀ m, 0 < ((![⟨1, 0, 1⟩, ⟨3, 1, -1⟩] : Fin 2 → Vibration) m).periods := by
    intro m
    fin_cases m <;> simp
  have hh : ∀ m, 2 * ((![⟨1, 0, 1⟩, ⟨3, 1, -1⟩] : Fin 2 → Vibration) m).periods < 8 := by
    intro m
    fin_cases m <;> simp
  obtain ⟨_, ws, is, -, h, -, hl, -, -⟩ := C141_vibrations (n := 8) 0 _ hi hp hh (by norm_num) 1
    one_pos plainArgs rfl rfl rfl
  refine ⟨ws, is, h, hl, fun a b => ?_⟩
  refine C141_peaks (n := 8) 0 _ hi hp hh 1 one_pos plainArgs rfl rfl rfl ?_ ?_ ws is h 2 1 b a
    ⟨1, rfl⟩ ?_
  · intro m
    fin_cases m
    · exact Matrix.isSymm_one
    · exact Matrix.isSymm_one.neg
  · intro m
    fin_cases m
    · exact one_ne_zero
    · exact neg_ne_zero.2 one_ne_zero
  · intro m
    fin_cases m <;> simp

/-! ### Sum rule and background of arbitrary signals -/

/-- The intensities at all `n` indexes add up to `n` times the energy of the signal. -/
theorem sum_specAt (n : ℕ) (x : ℕ → ℝ) :
    ∑ k ∈ Finset.range n, specAt n x k = n * ∑ t ∈ Finset.range n, x t ^ 2 := by
  rcases Nat.eq_zero_or_pos n with rfl | hn
  · simp
  unfold specAt
  rw [Finset.sum_comm]
  have h : ∀ j ∈ Finset.range n, ∑ k ∈ Finset.range n,
      autoAt n x j * Real.cos (2 * Real.pi * j * k / n) = if j = 0 then autoAt n x 0 * n else 0 := by
    intro j hj
    rw [← Finset.mul_sum]
    split_ifs with h0
    · subst h0; simp
    · have := sum_cos_zero n j hn (by
        rintro ⟨c, hc⟩
        have hj' := Finset.mem_range.1 hj
        rcases le_or_gt c 0 with h | h
        · have : (n : ℤ) * c ≤ 0 := mul_nonpos_of_nonneg_of_nonpos (by omega) h
          omega
        · have : (n : ℤ) * 1 ≤ n * c := mul_le_mul_of_nonneg_left (by omega) (by omega)
          omega) 0
      simp only [add_zero, Int.cast_natCast] at this
      rw [this, mul_zero]
  rw [Finset.sum_congr rfl h, Finset.sum_ite_eq', if_pos (Finset.mem_range.2 hn)]
  unfold autoAt
  rw [mul_comm]
  simp [sq]

theorem specAt_reflect (n k : ℕ) (hk : k ≤ n) (x : ℕ → ℝ) : specAt n x (n - k) = specAt n x k := by
  rcases Nat.eq_zero_or_pos n with rfl | hn
  · simp [specAt]
  have hn' : (n : ℝ) ≠ 0 := by exact_mod_cast hn.ne'
  unfold specAt
  refine Finset.sum_congr rfl fun j _ => ?_
  have : 2 * Real.pi * j * ((n - k : ℕ) : ℝ) / n = j * (2 * Real.pi) - 2 * Real.pi * j * k / n := by
    push_cast [Nat.cast_sub hk]
    field_simp
  rw [this, Real.cos_nat_mul_two_pi_sub]

theorem halves (f : ℕ → ℝ) (m : ℕ) (h : ∀ k ≤ 2 * m + 1, f (2 * m + 1 - k) = f k) :
    ∑ k ∈ Finset.range (2 * m + 1), f k = f 0 + 2 * ∑ k ∈ Finset.range m, f (k + 1) := by
  rw [show 2 * m + 1 = (m + m) + 1 by ring, Finset.sum_range_succ', Finset.sum_range_add, two_mul,
    ← Finset.sum_range_reflect (fun k => f (m + k + 1)), add_comm]
  congr 2
  refine Finset.sum_congr rfl fun k hk => ?_
  have hk' := Finset.mem_range.1 hk
  rw [← h (k + 1) (by omega)]
  congr 1
  omega

/-- C141: sum rule.  For an odd number of samples the intensity at zero frequency plus twice the
others is the number of samples times the energy of the signal. -/
theorem C141_sum_rule (x : List ℝ) (hodd : x.length % 2 = 1) (dt : ℝ) (hdt : 0 < dt) (ws is : List ℝ)
    (h : calcSignalSpectrum x dt = .ok (ws, is)) :
    ∃ first rest, is = first :: rest ∧
      first + 2 * rest.sum = x.length * (x.map (· ^ 2)).sum := by
  have hx : x ≠ [] := by rintro rfl; simp at hodd
  rw [calcSignalSpectrum_eq x hx dt hdt] at h
  obtain ⟨-, rfl⟩ := Prod.mk.inj (Except.ok.inj h)
  obtain ⟨m, hm⟩ : ∃ m, x.length = 2 * m + 1 := ⟨x.length / 2, by omega⟩
  have hh : halfLen x.length = m + 1 := by rw [hm]; simp [halfLen]
  rw [hh, List.range_succ_eq_map, List.map_cons]
  refine ⟨_, _, rfl, ?_⟩
  rw [List.map_map]
  have hs : ((List.range m).map (specAt x.length (fun i => x.getD i 0) ∘ Nat.succ)).sum =
      ∑ k ∈ Finset.range m, specAt x.length (fun i => x.getD i 0) (k + 1) := by
    rw [Finset.sum_range, ← List.sum_ofFn]
    congr 1
    apply List.ext_getElem <;> simp
  rw [hs]
  have hr := halves (specAt x.length fun i => x.getD i 0) m (by
    intro k hk
    rw [← hm] at hk ⊢
    exact specAt_reflect _ _ hk _)
  rw [← hr, ← hm, sum_specAt]
  congr 1
  rw [Finset.sum_range, ← List.sum_ofFn]
  congr 1
  apply List.ext_getElem <;> simp

/-- C141: background.  No MD intensity is below half the summed intensities of the changes from step
to step, so an intensity vanishes only if nothing changes. -/
theorem C141_background (s : MDSpectrum) (hS : 2 ≤ s.polarizabilityTs.length)
    (hdt : 0 < s.timestep) (args : MeasureArgs) (h1 : args.orientation = polycrystalline)
    (h2 : args.laserCorrection = false) (h3 : args.boseEinstein = false) (ws is : List ℝ)
    (h : (s.measure args).1 = .ok (ws, is.map some)) :
    ∀ y ∈ is, (∑ t ∈ Finset.range (s.polarizabilityTs.length - 1), rawIntensity
      (s.polarizabilityTs.getD (t + 1) 0 - s.polarizabilityTs.getD t 0)) / 2 ≤ y := by
  obtain ⟨ws', hr⟩ : ∃ ws', (s.measure args).1 = .ok (ws',
      ((List.range ((s.polarizabilityTs.length - 2) / 2)).map
        fun k => mdAt (npDiff s.polarizabilityTs) (k + 1)).map some) := by
    obtain ⟨ws', hw⟩ : ∃ ws', mdRaw s = .ok (ws', (List.range ((s.polarizabilityTs.length - 2) / 2)).map
        fun k => mdAt (npDiff s.polarizabilityTs) (k + 1)) := ⟨_, mdRaw_tail s hS hdt⟩
    refine ⟨ws', ?_⟩
    unfold MDSpectrum.measure
    rw [if_neg (not_not.2 h1)]
    dsimp only
    rw [hw]
    unfold applyLaser applyBose
    rw [h2, h3]
    rfl
  rw [h] at hr
  obtain ⟨-, h5⟩ := Prod.mk.inj (Except.ok.inj hr)
  obtain rfl := List.map_injective_iff.2 (Option.some_injective _) h5
  intro y hy
  obtain ⟨k, -, rfl⟩ := List.mem_map.1 hy
  have hsum : ∑ t ∈ Finset.range (s.polarizabilityTs.length - 1), rawIntensity
      (s.polarizabilityTs.getD (t + 1) 0 - s.polarizabilityTs.getD t 0) =
      ∑ a ∈ Finset.range (npDiff s.polarizabilityTs).length,
        rawIntensity ((npDiff s.polarizabilityTs).getD a 0) := by
    rw [npDiff_length]
    refine Finset.sum_congr rfl fun t ht => ?_
    have ht' := Finset.mem_range.1 ht
    rw [npDiff_get _ t (by omega), List.getD_eq_getElem _ _ (by omega),
      List.getD_eq_getElem _ _ (by omega)]
  rw [hsum, mdAt_eq]
  generalize npDiff s.polarizabilityTs = ad
  have hb : ∀ x : ℕ → ℝ, (∑ a ∈ Finset.range ad.length, x a ^ 2) / 2 ≤ specAt ad.length x (k + 1) := by
    intro x
    rw [specAt_eq]
    have := Complex.normSq_nonneg (fourier ad.length x (k + 1))
    linarith
  have e : ∑ a ∈ Finset.range ad.length, rawIntensity (ad.getD a 0) =
      5 * ∑ a ∈ Finset.range ad.length, (ad.getD a 0 0 0 + ad.getD a 0 1 1 + ad.getD a 0 2 2) ^ 2 +
      7 * (1 / 2 * ∑ a ∈ Finset.range ad.length, (ad.getD a 0 0 0 - ad.getD a 0 1 1) ^ 2 +
        1 / 2 * ∑ a ∈ Finset.range ad.length, (ad.getD a 0 1 1 - ad.getD a 0 2 2) ^ 2 +
        1 / 2 * ∑ a ∈ Finset.range ad.length, (ad.getD a 0 2 2 - ad.getD a 0 0 0) ^ 2 +
        3 * ∑ a ∈ Finset.range ad.length, (ad.getD a 0 0 1) ^ 2 +
        3 * ∑ a ∈ Finset.range ad.length, (ad.getD a 0 1 2) ^ 2 +
        3 * ∑ a ∈ Finset.range ad.length, (ad.getD a 0 0 2) ^ 2) := by
    simp only [Finset.mul_sum, ← Finset.sum_add_distrib]
    refine Finset.sum_congr rfl fun a _ => ?_
    unfold rawIntensity alphaSquared gammaSquared
    ring
  rw [e]
  have b1 := hb fun i => ad.getD i 0 0 0 + ad.getD i 0 1 1 + ad.getD i 0 2 2
  have b2 := hb fun i => ad.getD i 0 0 0 - ad.getD i 0 1 1
  have b3 := hb fun i => ad.getD i 0 1 1 - ad.getD i 0 2 2
  have b4 := hb fun i => ad.getD i 0 2 2 - ad.getD i 0 0 0
  have b5 := hb fun i => ad.getD i 0 0 1
  have b6 := hb fun i => ad.getD i 0 1 2
  have b7 := hb fun i => ad.getD i 0 0 2
  linarith

/-- C141, concrete case: the sum rule for three samples. -/
example : ∃ ws first second, calcSignalSpectrum [1, 0, 2] 1 = .ok (ws, [first, second]) ∧
    first + 2 * second = 15 := by
  obtain ⟨ws, is, h, hl, -⟩ := C54_signal [1, 0, 2] (by simp) 1 one_pos
  obtain ⟨a, r, rfl, hs⟩ := C141_sum_rule [1, 0, 2] rfl 1 one_pos ws is h
  obtain ⟨b, rfl⟩ := List.length_eq_one_iff.1 (by simpa using hl : r.length = 1)
  refine ⟨ws, a, b, h, ?_⟩
  norm_num at hs
  linarith

end Verif
