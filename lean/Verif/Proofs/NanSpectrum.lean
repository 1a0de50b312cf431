import Verif.Model.NanSpectrum
import Verif.Spec.NanSpectrum
import Verif.Proofs.Spectrum

/-!
# Lemmas on spectra of predictions that may be NaN
-/

namespace Verif

open Spec

noncomputable section

theorem mapM_id_some (y : List ℝ) : (y.map some).mapM id = some y := by
  induction y with
  | nil => rfl
  | cons x y ih =>
    rw [List.map_cons, List.mapM_cons, ih]
    rfl

theorem mapM_id_none (x : List (Option ℝ)) (h : none ∈ x) : x.mapM id = none := by
  induction x with
  | nil => cases h
  | cons a x ih =>
    rw [List.mapM_cons]
    cases a with
    | none => rfl
    | some a =>
      rw [ih (by simpa using h)]
      rfl

theorem autocorrelation_length (y : List ℝ) : (calcAutocorrelation y).length = y.length := by
  unfold calcAutocorrelation
  dsimp only
  rw [List.length_drop]
  unfold correlateFull
  simp only [List.length_map, List.length_range]
  omega

theorem autocorrelationN_length {corr : CorrelateFn} (hc : Correlates corr) (x : List (Option ℝ)) :
    (calcAutocorrelationN corr x).length = x.length := by
  unfold calcAutocorrelationN
  dsimp only
  rw [List.length_drop, hc.length]
  omega

theorem autocorrelationN_finite {corr : CorrelateFn} (hc : Correlates corr) (y : List ℝ) :
    calcAutocorrelationN corr (y.map some) = (calcAutocorrelation y).map some := by
  unfold calcAutocorrelationN calcAutocorrelation
  dsimp only
  rw [hc.finite, List.map_drop, List.length_map]

theorem autocorrelationN_nan {corr : CorrelateFn} (hc : Correlates corr) (x : List (Option ℝ))
    (h : none ∈ x) : none ∈ calcAutocorrelationN corr x := by
  have h1 := hc.middle x h
  have hl := hc.length x
  unfold calcAutocorrelationN
  dsimp only
  rw [hl]
  have hx : 0 < x.length := List.length_pos_of_mem h
  have h2 : ((corr x).drop ((2 * x.length - 1 - 1) / 2))[0]? = some none := by
    rw [List.getElem?_drop, ← h1]
    congr 1
    omega
  exact List.mem_of_getElem? h2

theorem fftfreq_length {n : ℕ} {d : ℝ} {l : List ℝ} (h : fftfreq n d = .ok l) : l.length = n := by
  unfold fftfreq at h
  by_cases h0 : (n : ℝ) * d = 0
  · rw [if_pos h0] at h; cases h
  · rw [if_neg h0] at h
    dsimp only at h
    cases h
    have : n ≠ 0 := by rintro rfl; exact h0 (by simp)
    simp only [List.length_append, List.length_map, List.length_range]
    omega

theorem zip_filter_fst {α β : Type} (p : α → Bool) (l : List α) (y : List β) (h : l.length ≤ y.length) :
    ((l.zip y).filter fun x => p x.1).map Prod.fst = l.filter p := by
  induction l generalizing y with
  | nil => rfl
  | cons a l ih =>
    cases y with
    | nil => simp at h
    | cons b y =>
      rw [List.zip_cons_cons, List.filter_cons, List.filter_cons]
      have := ih y (by simpa using h)
      split_ifs
      · rw [List.map_cons, this]
      · exact this

theorem zip_filter_none {α : Type} (p : α → Bool) (l : List α) (y : List (Option ℝ))
    (hy : ∀ z ∈ y, z = none) (h : l.length ≤ y.length) :
    ((l.zip y).filter fun x => p x.1).map Prod.snd = (l.filter p).map fun _ => none := by
  induction l generalizing y with
  | nil => rfl
  | cons a l ih =>
    cases y with
    | nil => simp at h
    | cons b y =>
      rw [List.zip_cons_cons, List.filter_cons, List.filter_cons]
      have := ih y (fun z hz => hy z (List.mem_cons_of_mem _ hz)) (by simpa using h)
      split_ifs
      · rw [List.map_cons, List.map_cons, this, hy b List.mem_cons_self]
      · exact this

theorem zip_filter_some {α : Type} (p : α → Bool) (l : List α) (y : List ℝ) :
    ((l.zip (y.map some)).filter fun x => p x.1).map Prod.fst
      = ((l.zip y).filter fun x => p x.1).map Prod.fst ∧
    ((l.zip (y.map some)).filter fun x => p x.1).map Prod.snd
      = (((l.zip y).filter fun x => p x.1).map Prod.snd).map some := by
  induction l generalizing y with
  | nil => exact ⟨rfl, rfl⟩
  | cons a l ih =>
    cases y with
    | nil => exact ⟨rfl, rfl⟩
    | cons b y =>
      rw [List.map_cons, List.zip_cons_cons, List.zip_cons_cons, List.filter_cons, List.filter_cons]
      obtain ⟨h1, h2⟩ := ih y
      split_ifs
      · simp only [List.map_cons, h1, h2, and_self]
      · exact ⟨h1, h2⟩

/-- A signal with NaN: the wavenumbers of any finite signal of the same length, and no intensity. -/
theorem signalN_nan {corr : CorrelateFn} (hc : Correlates corr) (x : List (Option ℝ)) (h : none ∈ x)
    (y : List ℝ) (hl : y.length = x.length) (r : ℝ) :
    calcSignalSpectrumN corr x r = AllNan (calcSignalSpectrum y r) := by
  unfold calcSignalSpectrumN calcSignalSpectrum AllNan
  dsimp only
  rw [autocorrelationN_length hc, autocorrelation_length, hl]
  cases hf : fftfreq x.length r with
  | error e => rfl
  | ok l =>
    have hll := fftfreq_length hf
    dsimp only [bind, Except.bind, pure, Except.pure, Except.map]
    have hN : fftReN (calcAutocorrelationN corr x) = (calcAutocorrelationN corr x).map fun _ => none := by
      unfold fftReN
      rw [mapM_id_none _ (autocorrelationN_nan hc x h)]
    rw [hN]
    have hlen : (l.map fun f => f * (3335640951981521 / 10 ^ 14) * 1000).length ≤
        ((calcAutocorrelationN corr x).map fun _ => (none : Option ℝ)).length := by
      rw [List.length_map, List.length_map, autocorrelationN_length hc, hll]
    have hlen' : (l.map fun f => f * (3335640951981521 / 10 ^ 14) * 1000).length ≤
        ((fft (calcAutocorrelation y)).map Complex.re).length := by
      unfold fft
      simp only [List.length_map, List.length_range, autocorrelation_length, hll, hl, le_refl]
    rw [zip_filter_none (fun w : ℝ => decide (w ≥ 0)) _ _ (by simp) hlen,
      zip_filter_fst (fun w : ℝ => decide (w ≥ 0)) _ _ hlen,
      zip_filter_fst (fun w : ℝ => decide (w ≥ 0)) _ _ hlen']

/-- Finite signals. -/
theorem signalN_finite {corr : CorrelateFn} (hc : Correlates corr) (y : List ℝ) (r : ℝ) :
    calcSignalSpectrumN corr (y.map some) r
      = (calcSignalSpectrum y r).map fun x => (x.1, x.2.map some) := by
  unfold calcSignalSpectrumN calcSignalSpectrum
  dsimp only
  rw [autocorrelationN_length hc, autocorrelation_length, List.length_map]
  cases hf : fftfreq y.length r with
  | error e => rfl
  | ok l =>
    dsimp only [bind, Except.bind, pure, Except.pure, Except.map]
    have hN : fftReN (calcAutocorrelationN corr (y.map some))
        = ((fft (calcAutocorrelation y)).map Complex.re).map some := by
      unfold fftReN
      rw [autocorrelationN_finite hc, mapM_id_some]
      dsimp only
      rw [List.map_map]
      rfl
    rw [hN]
    generalize (l.map fun f => f * (3335640951981521 / 10 ^ 14) * 1000) = W
    obtain ⟨h1, h2⟩ := zip_filter_some (fun w : ℝ => decide (w ≥ 0)) W
      ((fft (calcAutocorrelation y)).map Complex.re)
    rw [h1, h2]

/-- What all signals of one length have in common: an exception or the wavenumbers. -/
theorem signal_common {y y' : List ℝ} (hl : y.length = y'.length) (r : ℝ) :
    (calcSignalSpectrum y r).map Prod.fst = (calcSignalSpectrum y' r).map Prod.fst := by
  cases hf : fftfreq y'.length r with
  | error e =>
    have key : ∀ z : List ℝ, z.length = y'.length → calcSignalSpectrum z r = .error e := by
      intro z hz
      unfold calcSignalSpectrum
      dsimp only
      rw [autocorrelation_length, hz, hf]
      rfl
    rw [key y hl, key y' rfl]
  | ok l =>
    have hll := fftfreq_length hf
    have key : ∀ z : List ℝ, z.length = y'.length → (calcSignalSpectrum z r).map Prod.fst
        = .ok ((l.map fun f => f * (3335640951981521 / 10 ^ 14) * 1000).filter
          fun w => decide (w ≥ 0)) := by
      intro z hz
      unfold calcSignalSpectrum
      dsimp only
      rw [autocorrelation_length, hz, hf]
      refine congrArg Except.ok (zip_filter_fst (fun w : ℝ => decide (w ≥ 0)) _ _ ?_)
      unfold fft
      simp only [List.length_map, List.length_range, autocorrelation_length, hll, hz, le_refl]
    rw [key y hl, key y' rfl]

theorem signal_lengths {y : List ℝ} {r : ℝ} {w : List ℝ × List ℝ} (h : calcSignalSpectrum y r = .ok w) :
    w.1.length = w.2.length := by
  unfold calcSignalSpectrum at h
  dsimp only at h
  cases hf : fftfreq (calcAutocorrelation y).length r with
  | error e => rw [hf] at h; cases h
  | ok l =>
    rw [hf] at h
    cases h
    simp only [List.length_map]

/-- The spectrum of any signal: the common wavenumbers, and as many intensities; all NaN if a sample
is. -/
theorem signalN_cases {corr : CorrelateFn} (hc : Correlates corr) (x : List (Option ℝ))
    {y : List ℝ} (hl : y.length = x.length) (r : ℝ) {w : List ℝ}
    (h : (calcSignalSpectrum y r).map Prod.fst = .ok w) :
    ∃ z, calcSignalSpectrumN corr x r = .ok (w, z) ∧ z.length = w.length ∧
      (none ∈ x → z = w.map fun _ => none) := by
  have hw : ∃ v, calcSignalSpectrum y r = .ok (w, v) := by
    cases hy : calcSignalSpectrum y r with
    | error e => rw [hy] at h; cases h
    | ok p =>
      rw [hy] at h
      cases h
      exact ⟨_, rfl⟩
  obtain ⟨v, hv⟩ := hw
  by_cases hn : none ∈ x
  · refine ⟨w.map fun _ => none, ?_, List.length_map .., fun _ => rfl⟩
    rw [signalN_nan hc x hn y hl, hv]
    rfl
  · have hx : ∃ y' : List ℝ, x = y'.map some := by
      refine ⟨x.map (·.getD 0), ?_⟩
      rw [List.map_map]
      conv_lhs => rw [← List.map_id x]
      refine List.map_congr_left fun a ha => ?_
      cases a with
      | none => exact absurd ha hn
      | some a => rfl
    obtain ⟨y', rfl⟩ := hx
    rw [List.length_map] at hl
    have h2 := (signal_common hl r).symm.trans h
    cases hy : calcSignalSpectrum y' r with
    | error e => rw [hy] at h2; cases h2
    | ok p =>
      rw [hy] at h2
      cases h2
      refine ⟨p.2.map some, ?_, ?_, fun h => absurd h hn⟩
      · rw [signalN_finite hc, hy]; rfl
      · rw [List.length_map, signal_lengths hy]

theorem signalN_error {corr : CorrelateFn} (hc : Correlates corr) (x : List (Option ℝ))
    {y : List ℝ} (hl : y.length = x.length) (r : ℝ) {e : PyErr} (h : calcSignalSpectrum y r = .error e) :
    calcSignalSpectrumN corr x r = .error e := by
  unfold calcSignalSpectrumN
  unfold calcSignalSpectrum at h
  dsimp only at h ⊢
  rw [autocorrelation_length, hl] at h
  rw [autocorrelationN_length hc]
  cases hf : fftfreq x.length r with
  | error e' =>
    rw [hf] at h
    cases h
    rfl
  | ok l => rw [hf] at h; cases h

/-! ## Lists of NaN -/

theorem addLN_length {a b : List (Option ℝ)} {n : ℕ} (ha : a.length = n) (hb : b.length = n) :
    (addLN a b).length = n := by
  unfold addLN
  rw [List.length_zipWith, ha, hb, min_self]

theorem scaleLN_length {a : List (Option ℝ)} {n : ℕ} (c : ℝ) (ha : a.length = n) :
    (scaleLN c a).length = n := by
  unfold scaleLN
  rw [List.length_map, ha]

theorem addLN_left {a b : List (Option ℝ)} (ha : ∀ z ∈ a, z = none) : ∀ z ∈ addLN a b, z = none := by
  unfold addLN
  intro z hz
  induction a generalizing b with
  | nil => cases hz
  | cons x a ih =>
    cases b with
    | nil => cases hz
    | cons y b =>
      rw [List.zipWith_cons_cons, List.mem_cons] at hz
      rcases hz with rfl | hz
      · rw [ha x List.mem_cons_self]; rfl
      · exact ih (fun z hz => ha z (List.mem_cons_of_mem _ hz)) hz

theorem addLN_right {a b : List (Option ℝ)} (hb : ∀ z ∈ b, z = none) : ∀ z ∈ addLN a b, z = none := by
  unfold addLN
  intro z hz
  induction a generalizing b with
  | nil => cases hz
  | cons x a ih =>
    cases b with
    | nil => cases hz
    | cons y b =>
      rw [List.zipWith_cons_cons, List.mem_cons] at hz
      rcases hz with rfl | hz
      · rw [hb y List.mem_cons_self]; cases x <;> rfl
      · exact ih (fun z hz => hb z (List.mem_cons_of_mem _ hz)) hz

theorem scaleLN_none {a : List (Option ℝ)} (c : ℝ) (ha : ∀ z ∈ a, z = none) :
    ∀ z ∈ scaleLN c a, z = none := by
  unfold scaleLN
  intro z hz
  obtain ⟨x, hx, rfl⟩ := List.mem_map.1 hz
  rw [ha x hx]
  rfl

theorem eq_map_none {a : List (Option ℝ)} {w : List ℝ} (hl : a.length = w.length)
    (ha : ∀ z ∈ a, z = none) : a = w.map fun _ => none := by
  rw [List.map_const', ← hl]
  exact List.eq_replicate_iff.2 ⟨rfl, ha⟩

theorem addLN_some (a b : List ℝ) : addLN (a.map some) (b.map some) = (addL a b).map some := by
  unfold addLN addL
  induction a generalizing b with
  | nil => rfl
  | cons x a ih =>
    cases b with
    | nil => rfl
    | cons y b =>
      simp only [List.map_cons, List.zipWith_cons_cons, ih]
      rfl

theorem scaleLN_some (c : ℝ) (a : List ℝ) : scaleLN c (a.map some) = (scaleL c a).map some := by
  unfold scaleLN scaleL
  rw [List.map_map, List.map_map]
  rfl

theorem npDiffN_length (l : List NTensor) : (npDiffN l).length = l.length - 1 := by
  unfold npDiffN
  rw [List.length_zipWith, List.length_tail]
  omega

theorem npDiff_length' (l : List (Mat3 ℝ)) : (npDiff l).length = l.length - 1 := by
  unfold npDiff
  rw [List.length_zipWith, List.length_tail]
  omega

/-- A NaN entry makes an entry of some difference NaN. -/
theorem npDiffN_none (l : List NTensor) (h2 : 2 ≤ l.length) (i j : Fin 3)
    (h : ∃ T ∈ l, T i j = none) : ∃ T ∈ npDiffN l, T i j = none := by
  obtain ⟨T, hT, hn⟩ := h
  obtain ⟨k, hk, rfl⟩ := List.getElem_of_mem hT
  have hd : ∀ k, (hk : k + 1 < l.length) → ∃ D ∈ npDiffN l, D i j
      = Option.map₂ (· - ·) (l[k + 1] i j) (l[k] i j) := by
    intro k hk
    have hk' : k < (npDiffN l).length := by rw [npDiffN_length]; omega
    refine ⟨(npDiffN l)[k], List.getElem_mem hk', ?_⟩
    have he : (npDiffN l)[k] = subN (l.tail[k]'(by rw [List.length_tail]; omega)) l[k] :=
      List.getElem_zipWith
    rw [he, List.getElem_tail]
    rfl
  by_cases hk1 : k + 1 < l.length
  · obtain ⟨D, hD, he⟩ := hd k hk1
    refine ⟨D, hD, ?_⟩
    rw [he, hn]
    cases l[k + 1] i j <;> rfl
  · obtain ⟨k', rfl⟩ : ∃ k', k = k' + 1 := ⟨k - 1, by omega⟩
    obtain ⟨D, hD, he⟩ := hd k' hk
    refine ⟨D, hD, ?_⟩
    rw [he, hn]
    rfl

theorem npDiffN_some (l : List (Mat3 ℝ)) : npDiffN (l.map liftN) = (npDiff l).map liftN := by
  unfold npDiffN npDiff
  rw [← List.map_tail, List.zipWith_map, List.map_zipWith]
  rfl

end

end Verif
