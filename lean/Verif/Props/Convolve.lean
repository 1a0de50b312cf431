import Verif.Model.Spectrum
import Verif.Spec.Spectrum
import Mathlib.Analysis.SpecialFunctions.Gaussian.GaussianIntegral
import Mathlib.Analysis.SpecialFunctions.ImproperIntegrals
import Mathlib.Algebra.BigOperators.Group.List.Lemmas

/-!
# Properties C56-C58: `convolve_spectrum` (`spectrum/utils.py`)
-/

namespace Verif
open Spec MeasureTheory

/-! ## Closed form -/

/-- The line shape with the given name. -/
noncomputable def namedLine (function : List Char) (width : ℝ) : ℝ → ℝ → ℝ :=
  if function = ['g', 'a', 'u', 's', 's', 'i', 'a', 'n'] then gaussianLine width
  else lorentzianLine width

/-- One of the two supported names. -/
def Supported (function : List Char) : Prop :=
  function = ['g', 'a', 'u', 's', 's', 'i', 'a', 'n'] ∨
    function = ['l', 'o', 'r', 'e', 'n', 't', 'z', 'i', 'a', 'n']

theorem lorentzian_ne_gaussian : lorentzianName ≠ gaussianName := by decide

theorem lineShape_eq (function : List Char) (h : Supported function) (width c x : ℝ) :
    lineShape function width c x = some (namedLine function width c x) := by
  change function = gaussianName ∨ function = lorentzianName at h
  have hn : namedLine function width =
      if function = gaussianName then gaussianLine width else lorentzianLine width := rfl
  rw [hn]
  unfold lineShape
  rcases h with rfl | rfl
  · rw [if_pos rfl, if_pos rfl]
    unfold gaussianLine
    congr 1
    rw [show -(c - x) ^ 2 / (2 * width ^ 2) = -(x - c) ^ 2 / (2 * width ^ 2) by ring_nf]
    rw [one_div_mul_one_div, div_mul_eq_mul_div, one_mul]
  · rw [if_neg lorentzian_ne_gaussian, if_pos rfl, if_neg lorentzian_ne_gaussian]
    unfold lorentzianLine
    congr 1
    rw [one_div_mul_eq_div, div_div, mul_comm _ Real.pi]
    congr 1
    · norm_num; ring
    · norm_num; ring

theorem known_iff (function : List Char) : knownShape function = true ↔ Supported function := by
  change _ ↔ function = gaussianName ∨ function = lorentzianName
  unfold knownShape; simp

theorem convolveLoop_eq (function : List Char) (h : Supported function) (width : ℝ)
    (out : List ℝ) (peaks : List (ℝ × ℝ)) (f : ℝ → ℝ) :
    convolveLoop function width out peaks (out.map f)
      = .ok (out.map fun x => f x + lineSum (namedLine function width) peaks x) := by
  induction peaks generalizing f with
  | nil => simp [convolveLoop, lineSum]
  | cons p peaks ih =>
    obtain ⟨w, i⟩ := p
    unfold convolveLoop
    rw [if_pos ((known_iff _).2 h)]
    have : List.zipWith (fun x a => a + (lineShape function width w x).getD 0 * i) out (out.map f)
        = out.map fun x => f x + i * namedLine function width w x := by
      rw [List.zipWith_map_right, List.zipWith_self]
      refine List.map_congr_left fun x _ => ?_
      rw [lineShape_eq _ h]
      simp [mul_comm]
    rw [this, ih]
    congr 1
    refine List.map_congr_left fun x _ => ?_
    simp [lineSum, add_assoc]

/-- The output grid. -/
noncomputable def gridOf (ws : List ℝ) : Option (List ℝ) → Py (List ℝ)
  | none => autoGrid ws
  | some o => .ok o

theorem convolve_eq (ws is : List ℝ) (function : List Char) (width : ℝ) (o : Option (List ℝ)) :
    convolveSpectrum ws is function width o = (gridOf ws o >>= fun out =>
      convolveSpectrum ws is function width (some out)) := by
  cases o with
  | none => rfl
  | some out => rfl

/-- C56: for valid arguments and an explicit grid the convolved spectrum is given on that grid
by the sum of lines weighted with the intensities. -/
theorem C56_value (ws is : List ℝ) (hlen : is.length = ws.length) (function : List Char)
    (hf : Supported function) (width : ℝ) (hw : 0 < width) (out : List ℝ) :
    convolveSpectrum ws is function width (some out)
      = .ok (out, out.map (lineSum (namedLine function width) (ws.zip is))) := by
  unfold convolveSpectrum
  change (if is.length ≠ ws.length then _ else _) = _
  rw [if_neg (not_not.2 hlen), if_neg (not_le.2 hw), convolveLoop_eq function hf width out]
  change Except.ok _ = Except.ok _
  simp

/-- C56: the automatic grid is as good as an explicit one. -/
theorem C56_auto_grid (ws is : List ℝ) (function : List Char) (width : ℝ) (out r : List ℝ)
    (h : convolveSpectrum ws is function width none = .ok (out, r)) :
    autoGrid ws = .ok out ∧ convolveSpectrum ws is function width (some out) = .ok (out, r) := by
  rw [convolve_eq] at h
  change (autoGrid ws >>= _) = _ at h
  cases hg : autoGrid ws with
  | error e => rw [hg] at h; cases h
  | ok o =>
    rw [hg] at h
    change convolveSpectrum ws is function width (some o) = _ at h
    have : o = out := by
      unfold convolveSpectrum at h
      change (if is.length ≠ ws.length then _ else _) = _ at h
      split_ifs at h
      cases hl : convolveLoop function width o (ws.zip is) (o.map fun _ => 0) with
      | error e => rw [hl] at h; cases h
      | ok c =>
        rw [hl] at h
        exact (Prod.mk.inj (Except.ok.inj h)).1
    subst this
    exact ⟨rfl, h⟩

theorem lineSum_linear (L : ℝ → ℝ → ℝ) (ws is js : List ℝ) (a b x : ℝ)
    (h1 : is.length = ws.length) (h2 : js.length = ws.length) :
    lineSum L (ws.zip (List.zipWith (fun i j => a * i + b * j) is js)) x
      = a * lineSum L (ws.zip is) x + b * lineSum L (ws.zip js) x := by
  induction ws generalizing is js with
  | nil => simp [lineSum]
  | cons w ws ih =>
    cases is with
    | nil => simp at h1
    | cons i is =>
      cases js with
      | nil => simp at h2
      | cons j js =>
        have := ih is js (by simpa using h1) (by simpa using h2)
        unfold lineSum at this ⊢
        simp only [List.zipWith_cons_cons, List.zip_cons_cons, List.map_cons, List.sum_cons, this]
        ring

/-- C56, linearity: the convolution of `a I + b J` is `a` times that of `I` plus `b` times that
of `J`, on any grid (explicit or automatic). -/
theorem C56_linear (ws is js : List ℝ) (h1 : is.length = ws.length) (h2 : js.length = ws.length)
    (function : List Char) (hf : Supported function) (width : ℝ) (hw : 0 < width) (a b : ℝ)
    (o : Option (List ℝ)) (out : List ℝ) (hgrid : gridOf ws o = .ok out) :
    ∃ ri rj, convolveSpectrum ws is function width o = .ok (out, ri) ∧
      convolveSpectrum ws js function width o = .ok (out, rj) ∧
      convolveSpectrum ws (List.zipWith (fun i j => a * i + b * j) is js) function width o
        = .ok (out, List.zipWith (fun i j => a * i + b * j) ri rj) := by
  simp only [convolve_eq ws _ function width o, hgrid]
  refine ⟨_, _, C56_value ws is h1 function hf width hw out,
    C56_value ws js h2 function hf width hw out, ?_⟩
  have := C56_value ws (List.zipWith (fun i j => a * i + b * j) is js) (by simp [h1, h2])
    function hf width hw out
  refine this.trans ?_
  rw [List.zipWith_map, List.zipWith_self]
  congr 2
  refine List.map_congr_left fun x _ => ?_
  exact lineSum_linear _ ws is js a b x h1 h2

theorem namedLine_pos (function : List Char) (width : ℝ) (hw : 0 < width) (c x : ℝ) :
    0 < namedLine function width c x := by
  unfold namedLine
  split_ifs
  · unfold gaussianLine; have := Real.pi_pos; positivity
  · unfold lorentzianLine; have := Real.pi_pos; positivity

/-- C56, positivity and length: nonnegative intensities give a nonnegative spectrum; the output
has the length of the grid. -/
theorem C56_nonneg (ws is : List ℝ) (hlen : is.length = ws.length) (hpos : ∀ i ∈ is, 0 ≤ i)
    (function : List Char) (hf : Supported function) (width : ℝ) (hw : 0 < width)
    (o : Option (List ℝ)) (out : List ℝ) (hgrid : gridOf ws o = .ok out) :
    ∃ r, convolveSpectrum ws is function width o = .ok (out, r) ∧ r.length = out.length ∧
      ∀ y ∈ r, 0 ≤ y := by
  rw [convolve_eq, hgrid]
  refine ⟨_, C56_value ws is hlen function hf width hw out, by simp, ?_⟩
  intro y hy
  obtain ⟨x, -, rfl⟩ := List.mem_map.1 hy
  unfold lineSum
  apply List.sum_nonneg
  intro z hz
  obtain ⟨p, hp, rfl⟩ := List.mem_map.1 hz
  exact mul_nonneg (hpos _ (List.of_mem_zip hp).2) (namedLine_pos _ _ hw _ _).le

theorem foldl_min_spec (w : ℝ) (ws : List ℝ) :
    ws.foldl min w ∈ w :: ws ∧ ∀ x ∈ w :: ws, ws.foldl min w ≤ x := by
  induction ws generalizing w with
  | nil => simp
  | cons v ws ih =>
    obtain ⟨h1, h2⟩ := ih (min w v)
    rw [List.foldl_cons]
    constructor
    · rcases List.mem_cons.1 h1 with h | h
      · rw [h]; rcases min_choice w v with e | e <;> rw [e] <;> simp
      · exact List.mem_cons_of_mem _ (List.mem_cons_of_mem _ h)
    · intro x hx
      have h0 := h2 _ List.mem_cons_self
      rcases List.mem_cons.1 hx with rfl | hx
      · exact h0.trans (min_le_left _ _)
      · rcases List.mem_cons.1 hx with rfl | hx
        · exact h0.trans (min_le_right _ _)
        · exact h2 _ (List.mem_cons_of_mem _ hx)

theorem foldl_max_spec (w : ℝ) (ws : List ℝ) :
    ws.foldl max w ∈ w :: ws ∧ ∀ x ∈ w :: ws, x ≤ ws.foldl max w := by
  induction ws generalizing w with
  | nil => simp
  | cons v ws ih =>
    obtain ⟨h1, h2⟩ := ih (max w v)
    rw [List.foldl_cons]
    constructor
    · rcases List.mem_cons.1 h1 with h | h
      · rw [h]; rcases max_choice w v with e | e <;> rw [e] <;> simp
      · exact List.mem_cons_of_mem _ (List.mem_cons_of_mem _ h)
    · intro x hx
      have h0 := h2 _ List.mem_cons_self
      rcases List.mem_cons.1 hx with rfl | hx
      · exact (le_max_left _ _).trans h0
      · rcases List.mem_cons.1 hx with rfl | hx
        · exact (le_max_right _ _).trans h0
        · exact h2 _ (List.mem_cons_of_mem _ hx)

theorem autoGrid_perm {ws ws' : List ℝ} (h : ws.Perm ws') : autoGrid ws' = autoGrid ws := by
  cases ws with
  | nil => rw [List.nil_perm.1 h]
  | cons w ws =>
    cases ws' with
    | nil => exact absurd h.symm (by simp)
    | cons w' ws' =>
      have hmin : ws'.foldl min w' = ws.foldl min w :=
        le_antisymm ((foldl_min_spec w' ws').2 _ (h.mem_iff.1 (foldl_min_spec w ws).1))
          ((foldl_min_spec w ws).2 _ (h.mem_iff.2 (foldl_min_spec w' ws').1))
      have hmax : ws'.foldl max w' = ws.foldl max w :=
        le_antisymm ((foldl_max_spec w ws).2 _ (h.mem_iff.2 (foldl_max_spec w' ws').1))
          ((foldl_max_spec w' ws').2 _ (h.mem_iff.1 (foldl_max_spec w ws).1))
      unfold autoGrid
      dsimp only
      rw [hmin, hmax]

/-- C56, order: permuting the peaks (wavenumbers together with intensities) changes neither the
grid nor the convolved spectrum. -/
theorem C56_permutation (peaks peaks' : List (ℝ × ℝ)) (h : peaks.Perm peaks')
    (function : List Char) (hf : Supported function) (width : ℝ) (hw : 0 < width)
    (o : Option (List ℝ)) :
    convolveSpectrum (peaks'.map Prod.fst) (peaks'.map Prod.snd) function width o
      = convolveSpectrum (peaks.map Prod.fst) (peaks.map Prod.snd) function width o := by
  have hg : gridOf (peaks'.map Prod.fst) o = gridOf (peaks.map Prod.fst) o := by
    cases o with
    | none => exact autoGrid_perm (h.map _)
    | some o => rfl
  have hz : ∀ l : List (ℝ × ℝ), (l.map Prod.fst).zip (l.map Prod.snd) = l := by
    intro l; induction l with
    | nil => rfl
    | cons a l ih => simp [ih]
  rw [convolve_eq (peaks'.map Prod.fst), convolve_eq (peaks.map Prod.fst), hg]
  congr 1
  funext out
  rw [C56_value _ _ (by simp) function hf width hw, C56_value _ _ (by simp) function hf width hw,
    hz, hz]
  congr 2
  refine List.map_congr_left fun x _ => ?_
  exact ((h.map fun p => p.2 * namedLine function width p.1 x).sum_eq).symm

/-- C56, additivity: the convolution of two spectra put together is the sum. -/
theorem C56_append (ws is ws' is' : List ℝ) (hlen : is.length = ws.length)
    (hlen' : is'.length = ws'.length) (function : List Char) (hf : Supported function)
    (width : ℝ) (hw : 0 < width) (out : List ℝ) :
    ∃ r r', convolveSpectrum ws is function width (some out) = .ok (out, r) ∧
      convolveSpectrum ws' is' function width (some out) = .ok (out, r') ∧
      convolveSpectrum (ws ++ ws') (is ++ is') function width (some out)
        = .ok (out, List.zipWith (· + ·) r r') := by
  refine ⟨_, _, C56_value ws is hlen function hf width hw out,
    C56_value ws' is' hlen' function hf width hw out, ?_⟩
  rw [C56_value _ _ (by simp [hlen, hlen']) function hf width hw, List.zipWith_map,
    List.zipWith_self, List.zip_append hlen.symm]
  congr 2
  refine List.map_congr_left fun x _ => ?_
  unfold lineSum
  rw [List.map_append, List.sum_append]

/-- C56, concrete case: one peak of intensity 3 at 100 evaluated at its centre with a
Lorentzian of width 2: `3 / π`. -/
example : convolveSpectrum [100] [3] ['l', 'o', 'r', 'e', 'n', 't', 'z', 'i', 'a', 'n'] 2 (some [100]) =
    .ok ([100], [3 / Real.pi]) := by
  rw [C56_value [100] [3] rfl _ (Or.inr rfl) _ (by norm_num)]
  simp [lineSum, namedLine, lorentzian_ne_gaussian, lorentzianLine, div_eq_mul_inv]

/-! ## C57: integrated intensity -/

theorem gaussianLine_integral (σ c : ℝ) (hσ : 0 < σ) :
    Integrable (gaussianLine σ c) ∧ ∫ x, gaussianLine σ c x = 1 := by
  have hb : 0 < 1 / (2 * σ ^ 2) := by positivity
  have hform : gaussianLine σ c
      = fun x => Real.exp (-(1 / (2 * σ ^ 2)) * (x - c) ^ 2) * (σ * √(2 * Real.pi))⁻¹ := by
    funext x
    unfold gaussianLine
    rw [div_eq_mul_inv]
    congr 2
    ring
  have hi := (integrable_exp_neg_mul_sq hb).comp_sub_right c
  constructor
  · rw [hform]; exact hi.mul_const _
  · rw [hform, integral_mul_const,
      integral_sub_right_eq_self (fun x => Real.exp (-(1 / (2 * σ ^ 2)) * x ^ 2)) c,
      integral_gaussian]
    have e : Real.pi / (1 / (2 * σ ^ 2)) = σ ^ 2 * (2 * Real.pi) := by field_simp
    rw [e, Real.sqrt_mul (sq_nonneg σ), Real.sqrt_sq hσ.le]
    have : 0 < σ * √(2 * Real.pi) := by have := Real.pi_pos; positivity
    exact mul_inv_cancel₀ this.ne'

theorem lorentzianLine_integral (Γ c : ℝ) (hΓ : 0 < Γ) :
    Integrable (lorentzianLine Γ c) ∧ ∫ x, lorentzianLine Γ c x = 1 := by
  set g := Γ / 2 with hg
  have hgp : 0 < g := by rw [hg]; positivity
  have hform : lorentzianLine Γ c
      = fun x => (1 + (g⁻¹ * (x - c)) ^ 2)⁻¹ * (Real.pi * g)⁻¹ := by
    funext x
    unfold lorentzianLine
    rw [← hg]
    have hp := Real.pi_pos
    have h1 : (x - c) ^ 2 + g ^ 2 ≠ 0 := by positivity
    have h2 : 1 + (g⁻¹ * (x - c)) ^ 2 ≠ 0 := by positivity
    field_simp
    ring
  have h0 : Integrable fun y : ℝ => (1 + (g⁻¹ * y) ^ 2)⁻¹ :=
    (integrable_inv_one_add_sq).comp_mul_left' (inv_ne_zero hgp.ne')
  have hi := h0.comp_sub_right c
  constructor
  · rw [hform]; exact hi.mul_const _
  · rw [hform, integral_mul_const,
      integral_sub_right_eq_self (fun y : ℝ => (1 + (g⁻¹ * y) ^ 2)⁻¹) c,
      Measure.integral_comp_mul_left (fun y : ℝ => (1 + y ^ 2)⁻¹), integral_univ_inv_one_add_sq]
    have hp := Real.pi_pos
    rw [inv_inv, abs_of_pos hgp, smul_eq_mul]
    field_simp

/-- C57: the convolved spectrum is the restriction to the grid of a function of the output
wavenumber whose integral over the real line is the sum of the input intensities. -/
theorem C57_integral (ws is : List ℝ) (hlen : is.length = ws.length) (function : List Char)
    (hf : Supported function) (width : ℝ) (hw : 0 < width) :
    ∃ F : ℝ → ℝ, (∀ out, convolveSpectrum ws is function width (some out) = .ok (out, out.map F)) ∧
      Integrable F ∧ ∫ x, F x = is.sum := by
  refine ⟨lineSum (namedLine function width) (ws.zip is),
    fun out => C56_value ws is hlen function hf width hw out, ?_⟩
  have hL : ∀ c, Integrable (namedLine function width c) ∧ ∫ x, namedLine function width c x = 1 := by
    intro c
    unfold namedLine
    split_ifs
    · exact gaussianLine_integral width c hw
    · exact lorentzianLine_integral width c hw
  have key : ∀ l : List (ℝ × ℝ), Integrable (lineSum (namedLine function width) l) ∧
      ∫ x, lineSum (namedLine function width) l x = (l.map Prod.snd).sum := by
    intro l
    induction l with
    | nil =>
      have e : lineSum (namedLine function width) [] = fun _ => 0 := by funext x; simp [lineSum]
      rw [e]
      exact ⟨integrable_zero _ _ _, by simp⟩
    | cons p l ih =>
      have e : lineSum (namedLine function width) (p :: l)
          = fun x => p.2 * namedLine function width p.1 x + lineSum (namedLine function width) l x := by
        funext x; simp [lineSum]
      have h1 : Integrable fun x => p.2 * namedLine function width p.1 x := (hL p.1).1.const_mul _
      rw [e]
      refine ⟨h1.add ih.1, ?_⟩
      rw [integral_add h1 ih.1, integral_const_mul, (hL p.1).2, ih.2]
      simp
  have := key (ws.zip is)
  rw [List.map_snd_zip hlen.le] at this
  exact this

/-- C57, concrete case: a Gaussian-broadened spectrum of two peaks with intensities 1 and 2
integrates to 3. -/
example : ∃ F : ℝ → ℝ, (∀ out, convolveSpectrum [100, 200] [1, 2] gaussianName 5 (some out)
    = .ok (out, out.map F)) ∧ ∫ x, F x = 3 := by
  obtain ⟨F, h1, -, h2⟩ := C57_integral [100, 200] [1, 2] rfl gaussianName (Or.inl rfl) 5 (by norm_num)
  exact ⟨F, h1, by rw [h2]; norm_num⟩

/-! ## C58: validation -/

/-- C58: mismatched lengths and non-positive widths raise `ValueError`. -/
theorem C58_lengths_width (ws is : List ℝ) (function : List Char) (width : ℝ) (o : Option (List ℝ))
    (h : is.length ≠ ws.length ∨ width ≤ 0) :
    convolveSpectrum ws is function width o = .error .valueError := by
  have hs : ∀ out, convolveSpectrum ws is function width (some out) = .error .valueError := by
    intro out
    unfold convolveSpectrum
    change (if is.length ≠ ws.length then _ else _) = _
    split_ifs with h1 h2
    · rfl
    · rfl
    · rcases h with h | h
      · exact absurd h h1
      · exact absurd h h2
  rw [convolve_eq]
  cases o with
  | some o => exact hs o
  | none =>
    change (autoGrid ws >>= _) = _
    cases ws with
    | nil => rfl
    | cons w ws => exact hs _

/-- C58: an unsupported line shape raises `ValueError` whenever there is a peak. -/
theorem C58_shape (w i : ℝ) (ws is : List ℝ) (function : List Char) (hf : ¬ Supported function)
    (width : ℝ) (o : Option (List ℝ)) :
    convolveSpectrum (w :: ws) (i :: is) function width o = .error .valueError := by
  have hs : ∀ out, convolveSpectrum (w :: ws) (i :: is) function width (some out)
      = .error .valueError := by
    intro out
    unfold convolveSpectrum
    change (if (i :: is).length ≠ (w :: ws).length then _ else _) = _
    split_ifs
    · rfl
    · rfl
    · have : knownShape function = false := by
        rw [← Bool.not_eq_true, known_iff]; exact hf
      rw [List.zip_cons_cons]
      unfold convolveLoop
      rw [if_neg (by rw [this]; decide)]
      rfl
  rw [convolve_eq]
  cases o with
  | some o => exact hs o
  | none => exact hs _

/-- C58, no peaks: with an explicit grid and a positive width the result is zero everywhere,
whatever the line shape; without a grid a `ValueError` is raised. -/
theorem C58_no_peaks (function : List Char) (width : ℝ) (hw : 0 < width) (out : List ℝ) :
    convolveSpectrum [] [] function width (some out) = .ok (out, out.map fun _ => 0) ∧
    convolveSpectrum [] [] function width none = .error .valueError := by
  constructor
  · unfold convolveSpectrum
    change (if width ≤ 0 then _ else _) = _
    rw [if_neg (not_le.2 hw)]
    rfl
  · rfl

/-- C58: these are the only failures. -/
theorem C58_success_iff (ws is : List ℝ) (function : List Char) (width : ℝ) (out : List ℝ) :
    (∃ r, convolveSpectrum ws is function width (some out) = .ok r) ↔
      is.length = ws.length ∧ 0 < width ∧ (ws = [] ∨ Supported function) := by
  constructor
  · rintro ⟨r, hr⟩
    have h1 : ¬ (is.length ≠ ws.length ∨ width ≤ 0) := fun h => by
      rw [C58_lengths_width ws is function width _ h] at hr; cases hr
    push Not at h1
    refine ⟨h1.1, h1.2, ?_⟩
    cases ws with
    | nil => exact Or.inl rfl
    | cons w ws =>
      cases is with
      | nil => simp at h1
      | cons i is =>
        right
        by_contra hf
        rw [C58_shape w i ws is function hf width] at hr; cases hr
  · rintro ⟨h1, h2, h3⟩
    rcases h3 with rfl | h3
    · obtain rfl := List.eq_nil_of_length_eq_zero h1
      exact ⟨_, (C58_no_peaks function width h2 out).1⟩
    · exact ⟨_, C56_value ws is h1 function h3 width h2 out⟩

/-- C58, concrete case: a misspelt shape is refused with a peak but not without. -/
example : convolveSpectrum [1] [1] ['v', 'o', 'i', 'g', 't'] 5 (some [0]) = .error .valueError ∧
    convolveSpectrum [] [] ['v', 'o', 'i', 'g', 't'] 5 (some [0]) = .ok ([0], [0]) :=
  ⟨C58_shape 1 1 [] [] _ (by unfold Supported; decide) 5 _,
   (C58_no_peaks _ 5 (by norm_num) [0]).1⟩

end Verif
