import Verif.Props.PartialSpectra

/-!
# Property C121: from trajectories to Raman spectra
-/

namespace Verif
open Spec

variable {N : ℕ}

/-- C121: the spectrum of a trajectory holds, in time order, the polarizability the model assigns to
every given configuration (each evaluated by itself, as given, before the coordinates were wrapped into
the cell), and the timestep. -/
theorem C121_pointwise (m : IModel N) (hi : m.interps.length = m.basis.length)
    (hk : m.mask.length = m.basis.length) (frames : List (Pos N ℝ)) (dt : ℝ) (t : Trajectory N)
    (ht : Trajectory.init frames dt = .ok t) :
    ∃ spec, t.getRamanSpectrum m.calcPolarizabilities = .ok spec ∧ spec.timestep = dt ∧
      List.Forall₂ (fun q α => evalOne m.calcPolarizabilities q = .ok α) frames
        spec.polarizabilityTs := by
  unfold Trajectory.init at ht
  split_ifs at ht with h
  obtain rfl := Except.ok.inj ht
  have himg : m.calcPolarizabilities (frames.map applyPbc) = m.calcPolarizabilities frames := by
    refine (C29_periodic m frames (frames.map applyPbc) ?_).symm
    rw [List.forall₂_map_right_iff, List.forall₂_same]
    exact fun p _ a i => pbc1_sameImage _
  refine ⟨⟨frames.map (valueAt m), dt⟩, ?_, rfl, ?_⟩
  · unfold Trajectory.getRamanSpectrum
    dsimp only
    rw [himg, calc_ok m hi hk]
    rfl
  · rw [List.forall₂_map_right_iff, List.forall₂_same]
    exact fun q _ => evalOne_imodel m hi hk q

/-- C121, errors: an exception of the polarizability model is passed on. -/
theorem C121_errors (model : PolModel N) (t : Trajectory N) (e : PyErr) :
    t.getRamanSpectrum model = .error e ↔ model t.positionsTs = .error e := by
  unfold Trajectory.getRamanSpectrum
  rw [asIncompatible_id]
  cases h : model t.positionsTs with
  | ok l =>
    constructor <;> intro h' <;> cases h'
  | error e' =>
    constructor <;> intro h' <;> cases h' <;> rfl

/-- C121, frozen dynamics: if all polarizabilities of the time series are equal (for instance because
the atoms do not move, or because all degrees of freedom are masked), the measured intensities vanish
(they are not numbers only where a correction factor is not). -/
theorem C121_constant (A : Mat3 ℝ) (n : ℕ) (hn : 2 ≤ n) (dt : ℝ) (hdt : 0 < dt)
    (args : MeasureArgs) (hargs : ArgsOK args) :
    ∃ ws is, (MDSpectrum.measure ⟨List.replicate n A, dt⟩ args).1 = .ok (ws, is) ∧
      ∀ x ∈ is, ∀ y, x = some y → y = 0 := by
  obtain ⟨ws, is, -, h⟩ := C55_scaling (List.replicate n A) dt 0 (by simpa using hn) hdt args hargs
  have h2 := C55_offset (List.replicate n (0 : Mat3 ℝ)) dt A args
  rw [List.map_replicate, zero_add] at h2
  rw [List.map_replicate, zero_smul, ← h2] at h
  refine ⟨ws, _, h, fun x hx y hy => ?_⟩
  obtain ⟨z, -, rfl⟩ := List.mem_map.1 hx
  cases z with
  | none => cases hy
  | some z => simpa using hy.symm

theorem npDiff_get (l : List (Mat3 ℝ)) (i : ℕ) (hi : i + 1 < l.length) :
    (npDiff l).getD i 0 = l[i + 1] - l[i] := by
  have h : i < (npDiff l).length := by rw [npDiff_length]; omega
  rw [List.getD_eq_getElem _ _ h]
  simp [npDiff]

theorem npDiff_reverse (l : List (Mat3 ℝ)) (i : ℕ) (hi : i < (npDiff l).length) :
    (npDiff l.reverse).getD i 0 = -(npDiff l).getD ((npDiff l).length - 1 - i) 0 := by
  rw [npDiff_length] at hi ⊢
  have e1 : l.length - 1 - (i + 1) = l.length - 1 - 1 - i := by omega
  have e2 : l.length - 1 - i = l.length - 1 - 1 - i + 1 := by omega
  rw [npDiff_get _ _ (by rw [List.length_reverse]; omega), npDiff_get _ _ (by omega),
    List.getElem_reverse, List.getElem_reverse, neg_sub]
  simp only [e1, e2]

theorem specCoef_reflect (n k a b : ℕ) (ha : a < n) (hb : b < n) :
    specCoef n k (n - 1 - a) (n - 1 - b) = specCoef n k a b := by
  unfold specCoef
  have h1 : ((n - 1 - a : ℕ) : ℝ) = n - 1 - a := by
    rw [Nat.cast_sub (by omega), Nat.cast_sub (by omega)]; simp
  have h2 : ((n - 1 - b : ℕ) : ℝ) = n - 1 - b := by
    rw [Nat.cast_sub (by omega), Nat.cast_sub (by omega)]; simp
  have h3 : 2 * Real.pi * (((n - 1 - a : ℕ) : ℝ) - ((n - 1 - b : ℕ) : ℝ)) * k / n
      = -(2 * Real.pi * ((a : ℝ) - b) * k / n) := by
    rw [h1, h2]; ring
  have h4 : n - 1 - a = n - 1 - b ↔ a = b := by omega
  simp only [h3, h4, Real.cos_neg]

/-- C121, time reversal: running the time series backwards changes no measurement. -/
theorem C121_time_reversal (ts : List (Mat3 ℝ)) (dt : ℝ) (hdt : 0 < dt) (args : MeasureArgs) :
    (MDSpectrum.measure ⟨ts.reverse, dt⟩ args).1 = (MDSpectrum.measure ⟨ts, dt⟩ args).1 := by
  by_cases hS : 2 ≤ ts.length
  · obtain ⟨ws, is, h1, hl, h2⟩ := mdRaw_congr ts ts.reverse dt 1 (by simp) hS hdt (by
      intro k
      rw [one_mul]
      unfold mdAt
      have hlen : (npDiff ts.reverse).length = (npDiff ts).length := by
        rw [npDiff_length, npDiff_length, List.length_reverse]
      rw [hlen]
      set n := (npDiff ts).length with hn
      rw [← Finset.sum_range_reflect]
      refine Finset.sum_congr rfl fun a ha => ?_
      rw [← Finset.sum_range_reflect]
      refine Finset.sum_congr rfl fun b hb => ?_
      rw [Finset.mem_range] at ha hb
      rw [specCoef_reflect n k a b ha hb, npDiff_reverse _ _ (by omega), npDiff_reverse _ _ (by omega)]
      have ea : (npDiff ts).length - 1 - (n - 1 - a) = a := by omega
      have eb : (npDiff ts).length - 1 - (n - 1 - b) = b := by omega
      rw [ea, eb]
      congr 1
      unfold pairInt
      simp only [Matrix.neg_apply]
      ring)
    have h : mdRaw ⟨ts.reverse, dt⟩ = mdRaw ⟨ts, dt⟩ := by
      rw [h1, h2]; simp
    unfold MDSpectrum.measure
    rw [h]
    split_ifs <;> rfl
  · have h : mdRaw ⟨ts.reverse, dt⟩ = mdRaw ⟨ts, dt⟩ := by
      have h1 : ts.reverse = ts := by
        match ts, hS with
        | [], _ => rfl
        | [_], _ => rfl
        | _ :: _ :: _, h => simp at h
      rw [h1]
    unfold MDSpectrum.measure
    rw [h]
    split_ifs <;> rfl

/-- C121, periodic images: trajectories whose frames are periodic images of each other have the same
spectrum. -/
theorem C121_images (m : IModel N) (frames frames' : List (Pos N ℝ)) (dt : ℝ) (t t' : Trajectory N)
    (ht : Trajectory.init frames dt = .ok t) (ht' : Trajectory.init frames' dt = .ok t')
    (h : List.Forall₂ (fun q q' => ∀ a i, SameImage (q a i) (q' a i)) frames frames') :
    t.getRamanSpectrum m.calcPolarizabilities = t'.getRamanSpectrum m.calcPolarizabilities := by
  unfold Trajectory.init at ht ht'
  split_ifs at ht ht' with h0
  obtain rfl := Except.ok.inj ht
  obtain rfl := Except.ok.inj ht'
  unfold Trajectory.getRamanSpectrum
  dsimp only
  have : ∀ fr : List (Pos N ℝ), m.calcPolarizabilities (fr.map applyPbc)
      = m.calcPolarizabilities fr := fun fr => by
    refine (C29_periodic m fr (fr.map applyPbc) ?_).symm
    rw [List.forall₂_map_right_iff, List.forall₂_same]
    exact fun p _ a i => pbc1_sameImage _
  rw [this, this, C29_periodic m _ _ h]

/-- C121, concrete: two frames of the two-mode model, the second one outside the cell. -/
example : ∃ t spec, Trajectory.init [fun _ => ![1 / 4, 1 / 4, 0], fun _ => ![9 / 4, -3 / 4, 0]] (2 : ℝ)
      = .ok t ∧
    t.getRamanSpectrum twoDof.calcPolarizabilities = .ok spec ∧ spec.timestep = 2 ∧
    spec.polarizabilityTs.length = 2 := by
  have ht : Trajectory.init (N := 1) [fun _ => ![1 / 4, 1 / 4, 0], fun _ => ![9 / 4, -3 / 4, 0]] 2
      = .ok ⟨[fun _ => ![1 / 4, 1 / 4, 0], fun _ => ![9 / 4, -3 / 4, 0]].map applyPbc, 2⟩ := by
    unfold Trajectory.init
    rw [if_neg (by norm_num)]
  obtain ⟨spec, h1, h2, h3⟩ := C121_pointwise twoDof rfl rfl _ 2 _ ht
  exact ⟨_, spec, ht, h1, h2, h3.length_eq.symm⟩

/-- C121, concrete: options accepted by `measure`, for the hypotheses of `C121_constant`. -/
example (A : Mat3 ℝ) : ∃ ws is, (MDSpectrum.measure ⟨List.replicate 5 A, 2⟩
    ⟨polycrystalline, true, 522, true, 300⟩).1 = .ok (ws, is) ∧ ∀ x ∈ is, ∀ y, x = some y → y = 0 :=
  C121_constant A 5 (by norm_num) 2 (by norm_num) _ ⟨rfl, fun _ => by norm_num, fun _ => by norm_num⟩

end Verif
