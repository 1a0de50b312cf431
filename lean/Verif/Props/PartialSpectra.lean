import Verif.Props.Dynamics
import Verif.Props.Convolve
import Verif.Props.Spectrum
import Verif.Props.Interpolation

/-!
# Properties C108 (automatic wavenumber grid) and C109 (partial Raman spectra)
-/

namespace Verif
open Spec

variable {N : ℕ}

/-! ## C108 -/

theorem rint_near (x : ℝ) : |(rint x : ℝ) - x| ≤ 1 / 2 := by
  have h1 := Int.floor_le x
  have h2 := Int.lt_floor_add_one x
  unfold rint
  dsimp only
  rw [abs_le]
  split_ifs with a b c <;> push_cast <;> constructor <;> linarith

theorem linspace_get (a b : ℝ) (n : ℕ) (hn : 2 ≤ n) (i : ℕ) (hi : i < n) :
    (linspace a b n)[i]? = some (a + i * ((b - a) / ((n : ℝ) - 1))) := by
  have hn' : (2 : ℝ) ≤ n := by exact_mod_cast hn
  unfold linspace
  rw [List.getElem?_map, List.getElem?_range hi]
  dsimp only [Option.map_some]
  congr 1
  split_ifs with h
  · have : (i : ℝ) = n - 1 := by
      have := h.1
      rw [← this]; push_cast; ring
    rw [this]
    have : (n : ℝ) - 1 ≠ 0 := by linarith
    field_simp
    ring
  · rfl

/-- C108: without an explicit grid, the spectrum is evaluated on equally spaced points that begin
100 cm⁻¹ below the lowest and end 100 cm⁻¹ above the highest peak; their number is the length of this
range rounded to an integer. -/
theorem C108_grid (ws is : List ℝ) (function : List Char) (width : ℝ) (out r : List ℝ)
    (h : convolveSpectrum ws is function width none = .ok (out, r)) :
    ∃ lo ∈ ws, ∃ hi ∈ ws, (∀ w ∈ ws, lo ≤ w ∧ w ≤ hi) ∧
      out.head? = some (lo - 100) ∧ out.getLast? = some (hi + 100) ∧
      |(out.length : ℝ) - (hi - lo + 200)| ≤ 1 / 2 ∧ 200 ≤ out.length ∧
      (∀ (i : ℕ) (hi' : i + 1 < out.length), out[i + 1] - out[i]
        = (hi - lo + 200) / ((out.length : ℝ) - 1)) := by
  have hg := (C56_auto_grid ws is function width out r h).1
  cases ws with
  | nil => cases hg
  | cons w ws =>
    obtain ⟨m1, m2⟩ := foldl_min_spec w ws
    obtain ⟨M1, M2⟩ := foldl_max_spec w ws
    refine ⟨_, m1, _, M1, fun x hx => ⟨m2 x hx, M2 x hx⟩, ?_⟩
    unfold autoGrid at hg
    dsimp only at hg
    generalize hlo : ws.foldl min w = lo at *
    generalize hhi : ws.foldl max w = hi at *
    have hle : lo ≤ hi := (m2 w List.mem_cons_self).trans (M2 w List.mem_cons_self)
    obtain ⟨e1, e2⟩ := abs_le.1 (rint_near (hi + 100 - (lo - 100)))
    generalize hz : rint (hi + 100 - (lo - 100)) = z at *
    have hzr : (199 : ℝ) < z := by linarith
    have hz0 : (200 : ℤ) ≤ z := by
      have : (199 : ℤ) < z := by exact_mod_cast hzr
      omega
    have hzn : ((z.toNat : ℕ) : ℝ) = z := by
      have : ((z.toNat : ℕ) : ℤ) = z := Int.toNat_of_nonneg (by omega)
      exact_mod_cast this
    have hn : 2 ≤ z.toNat := by omega
    have hout := (Except.ok.inj hg).symm
    have hlen : out.length = z.toNat := by rw [hout]; simp [linspace]
    have hget : ∀ i (hi' : i < out.length), out[i] = lo - 100 +
        i * ((hi + 100 - (lo - 100)) / (((z.toNat : ℕ) : ℝ) - 1)) := fun i hi' => by
      have := linspace_get (lo - 100) (hi + 100) z.toNat hn i (hlen ▸ hi')
      rw [← hout, List.getElem?_eq_getElem hi'] at this
      exact Option.some.inj this
    refine ⟨?_, ?_, ?_, by omega, fun i hi' => ?_⟩
    · rw [List.head?_eq_getElem?, List.getElem?_eq_getElem (by omega), hget]
      simp
    · rw [List.getLast?_eq_getElem?, List.getElem?_eq_getElem (by omega), hget, hlen]
      congr 1
      rw [Nat.cast_sub (by omega), hzn]
      have : (z : ℝ) - 1 ≠ 0 := by linarith
      push_cast
      field_simp
      ring
    · rw [hlen, hzn, abs_le]; constructor <;> linarith
    · rw [hget, hget, hlen]
      push_cast
      ring

/-- C108, concrete: peaks at 300 and 500 give 400 points from 200 to 600. -/
example : ∃ out r, convolveSpectrum [500, 300] [1, 2] gaussianName 5 none = .ok (out, r) ∧
    out.length = 400 ∧ out.head? = some 200 ∧ out.getLast? = some 600 := by
  have hr : rint ((400 : ℝ)) = 400 := by
    unfold rint
    have : ⌊(400 : ℝ)⌋ = 400 := by norm_num
    rw [this]; norm_num
  have hg : autoGrid [500, 300] = .ok (linspace 200 600 400) := by
    unfold autoGrid
    norm_num [List.foldl]
    rw [hr]; rfl
  have h := C56_value [500, 300] [1, 2] rfl gaussianName (Or.inl rfl) 5 (by norm_num)
    (linspace 200 600 400)
  have h' : convolveSpectrum [500, 300] [1, 2] gaussianName 5 none
      = convolveSpectrum [500, 300] [1, 2] gaussianName 5 (some (linspace 200 600 400)) := by
    rw [convolve_eq]
    change (autoGrid [500, 300] >>= _) = _
    rw [hg]; rfl
  rw [h] at h'
  obtain ⟨lo, hlo, hi, hhi, hb, h1, h2, -⟩ := C108_grid _ _ _ _ _ _ h'
  have e1 : lo = 300 := by
    simp only [List.mem_cons, List.not_mem_nil, or_false] at hlo hb
    have := (hb 300 (Or.inr rfl)).1
    rcases hlo with rfl | rfl
    · norm_num at this
    · rfl
  have e2 : hi = 500 := by
    simp only [List.mem_cons, List.not_mem_nil, or_false] at hhi hb
    have := (hb 500 (Or.inl rfl)).2
    rcases hhi with rfl | rfl
    · rfl
    · norm_num at this
  refine ⟨_, _, h', by simp [linspace], ?_, ?_⟩
  · rw [h1, e1]; norm_num
  · rw [h2, e2]; norm_num

/-! ## C109 -/

/-- C109, construction: phonons exist exactly for equally many wavenumbers and displacements. -/
theorem C109_construction (ref : Pos N ℝ) (ws : List ℝ) (ds : List (Pos N ℝ)) :
    (ds.length = ws.length → ∃ ph, Phonons.init ref ws ds = .ok ph ∧ ph.refPositions = ref ∧
      ph.wavenumbers = ws ∧ ph.displacements = ds) ∧
    (ds.length ≠ ws.length → Phonons.init ref ws ds = .error .valueError) := by
  unfold Phonons.init
  exact ⟨fun h => ⟨_, if_neg (not_not.2 h), rfl, rfl, rfl⟩, fun h => if_pos h⟩

theorem evalOne_imodel (m : IModel N) (hi : m.interps.length = m.basis.length)
    (hk : m.mask.length = m.basis.length) (q : Pos N ℝ) :
    evalOne m.calcPolarizabilities q = .ok (valueAt m q) := by
  unfold evalOne
  rw [calc_ok m hi hk]
  rfl

theorem raman_imodel (m : IModel N) (hi : m.interps.length = m.basis.length)
    (hk : m.mask.length = m.basis.length) (ref d : Pos N ℝ) :
    ramanTensor m.calcPolarizabilities ref d = .ok ((1 / centralDifference) •
      (valueAt m (fun a i => ref a i + d a i * centralDifference) -
        valueAt m (fun a i => ref a i - d a i * centralDifference))) :=
  ramanTensor_of_ok (evalOne_imodel m hi hk _) (evalOne_imodel m hi hk _)

theorem spectrum_imodel (m : IModel N) (hi : m.interps.length = m.basis.length)
    (hk : m.mask.length = m.basis.length) (ph : Phonons N) (hne : ph.displacements ≠ [])
    (hlen : ph.displacements.length = ph.wavenumbers.length) :
    ph.getRamanSpectrum m.calcPolarizabilities = .ok ⟨ph.wavenumbers, ph.displacements.map fun d =>
      (1 / centralDifference) •
      (valueAt m (fun a i => ph.refPositions a i + d a i * centralDifference) -
        valueAt m (fun a i => ph.refPositions a i - d a i * centralDifference))⟩ := by
  unfold Phonons.getRamanSpectrum
  rw [mapM_except_ok _ _ _ |>.2 (List.forall₂_map_right_iff.2 (List.forall₂_same.2 fun d _ =>
    raman_imodel m hi hk ph.refPositions d))]
  change (if List.isEmpty _ = true then _ else _) = _
  rw [if_neg (by simpa using hne)]
  unfold PhononSpectrum.init
  rw [if_neg (by simpa using hlen)]

/-- C109: for phonons and a model whose attributes are consistent, the Raman tensors of the model
with mask `k` and of the model with the complementary mask add up to those of the unmasked
model, phonon by phonon, at the same wavenumbers. -/
theorem C109_complementary (m : IModel N) (hi : m.interps.length = m.basis.length)
    (hk : m.mask.length = m.basis.length) (ref : Pos N ℝ) (ws : List ℝ) (ds : List (Pos N ℝ))
    (ph : Phonons N) (hph : Phonons.init ref ws ds = .ok ph) (hne : ds ≠ []) :
    ∃ s₁ s₂ s, ph.getRamanSpectrum m.calcPolarizabilities = .ok s₁ ∧
      ph.getRamanSpectrum ({ m with mask := m.mask.map not } : IModel N).calcPolarizabilities
        = .ok s₂ ∧
      ph.getRamanSpectrum m.unmask.calcPolarizabilities = .ok s ∧
      s₁.wavenumbers = ws ∧ s₂.wavenumbers = ws ∧ s.wavenumbers = ws ∧
      s₁.tensors.length = ws.length ∧ s₂.tensors.length = ws.length ∧
      s.tensors = List.zipWith (· + ·) s₁.tensors s₂.tensors := by
  have hlen : ds.length = ws.length := by
    by_contra hcon
    rw [(C109_construction ref ws ds).2 hcon] at hph
    cases hph
  obtain ⟨ph', hph', rfl, rfl, rfl⟩ := (C109_construction ref ws ds).1 hlen
  obtain rfl : ph' = ph := Except.ok.inj (hph'.symm.trans hph)
  refine ⟨_, _, _, spectrum_imodel m hi hk ph' hne hlen,
    spectrum_imodel { m with mask := m.mask.map not } hi (by simpa using hk) ph' hne hlen,
    spectrum_imodel m.unmask hi (by simpa [IModel.unmask] using hk) ph' hne hlen,
    rfl, rfl, rfl, by simpa using hlen, by simpa using hlen, ?_⟩
  have hval : ∀ q, valueAt m.unmask q = valueAt m q +
      valueAt { m with mask := m.mask.map not } q - m.refPol := fun q => by
    obtain ⟨α, β, γ, h1, h2, h3, h4⟩ := C28_complementary m hi hk q
    rw [calc_ok m hi hk] at h1
    rw [calc_ok { m with mask := m.mask.map not } hi (by simpa using hk)] at h2
    rw [calc_ok m.unmask hi (by simpa [IModel.unmask] using hk)] at h3
    simp only [List.map_cons, List.map_nil, Except.ok.injEq, List.cons.injEq, and_true] at h1 h2 h3
    rw [h1, h2, h3]
    have : γ = (α - m.refPol) + (β - m.refPol) + m.refPol := by rw [h4]; abel
    rw [this]; abel
  dsimp only
  rw [List.zipWith_map, List.zipWith_self]
  refine List.map_congr_left fun d _ => ?_
  rw [hval, hval, ← smul_add]
  congr 1
  abel

/-- C109: if all degrees of freedom are masked, all Raman tensors and raw intensities vanish. -/
theorem C109_fully_masked (m : IModel N) (hi : m.interps.length = m.basis.length)
    (hk : m.mask.length = m.basis.length) (hm : ∀ b ∈ m.mask, b = true)
    (ref : Pos N ℝ) (ws : List ℝ) (ds : List (Pos N ℝ))
    (ph : Phonons N) (hph : Phonons.init ref ws ds = .ok ph) (hne : ds ≠ [])
    (args : MeasureArgs) (ha : args.orientation = polycrystalline)
    (hl : args.laserCorrection = false) (hb : args.boseEinstein = false) :
    ∃ s, ph.getRamanSpectrum m.calcPolarizabilities = .ok s ∧
      (∀ R ∈ s.tensors, R = 0) ∧
      (s.measure args).1 = .ok (ws, ws.map fun _ => some 0) := by
  have hlen : ds.length = ws.length := by
    by_contra hcon
    rw [(C109_construction ref ws ds).2 hcon] at hph
    cases hph
  obtain ⟨ph', hph', rfl, rfl, rfl⟩ := (C109_construction ref ws ds).1 hlen
  obtain rfl : ph' = ph := Except.ok.inj (hph'.symm.trans hph)
  have hval : ∀ q, valueAt m q = m.refPol := fun q => by
    have h := C28_fully_masked m hi hk hm [q]
    rw [calc_ok m hi hk] at h
    simpa using h
  have hz : (ph'.displacements.map fun d => (1 / centralDifference) •
      (valueAt m (fun a i => ph'.refPositions a i + d a i * centralDifference) -
        valueAt m (fun a i => ph'.refPositions a i - d a i * centralDifference)))
      = List.replicate ph'.wavenumbers.length 0 := by
    rw [← hlen, ← List.map_const']
    refine List.map_congr_left fun d _ => ?_
    rw [hval, hval, sub_self, smul_zero]
  refine ⟨_, spectrum_imodel m hi hk ph' hne hlen, ?_, ?_⟩
  · rw [hz]; exact fun R hR => List.eq_of_mem_replicate hR
  · rw [hz, measure_plain _ args ha hl hb, List.map_replicate, ← List.map_const']
    have : rawIntensity 0 = 0 := (C50_zero_symmetric 0 (by simp)).2 rfl
    rw [this]
    simp [List.map_const']

/-- C109, concrete: the two-mode model with one mode masked; one phonon along `x`. -/
example : ∃ ph s₁ s₂ s, Phonons.init (N := 1) (fun _ _ => 0) [100] [fun _ => ![1, 0, 0]] = .ok ph ∧
    ph.getRamanSpectrum twoDof.calcPolarizabilities = .ok s₁ ∧
    ph.getRamanSpectrum ({ twoDof with mask := [true, false] } : IModel 1).calcPolarizabilities
      = .ok s₂ ∧
    ph.getRamanSpectrum twoDof.unmask.calcPolarizabilities = .ok s ∧
    s.tensors = List.zipWith (· + ·) s₁.tensors s₂.tensors := by
  obtain ⟨ph, hph, -⟩ := (C109_construction (N := 1) (fun _ _ => 0) [100]
    [fun _ => ![1, 0, 0]]).1 rfl
  obtain ⟨s₁, s₂, s, h1, h2, h3, -, -, -, -, -, h4⟩ := C109_complementary twoDof rfl rfl _ _ _ ph hph
    (by simp)
  exact ⟨ph, s₁, s₂, s, hph, h1, h2, h3, h4⟩

end Verif
