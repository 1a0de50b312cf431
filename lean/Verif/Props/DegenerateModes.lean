import Verif.Props.SelectionRules
import Verif.Props.Convolve

/-!
# Property C148: degenerate vibrations

Vibrations with the same wavenumber are only determined up to an orthogonal mixing.
-/

namespace Verif
open Spec Matrix

variable {N n : ℕ}

/-- Weighted sums of squares are kept by the mixing. -/
theorem mixing_squares {ω : Fin n → ℝ} {O : Matrix (Fin n) (Fin n) ℝ} (h : Mixing ω O)
    (g : ℝ → ℝ) (x : Fin n → ℝ) :
    ∑ k, g (ω k) * (∑ l, O k l * x l) ^ 2 = ∑ l, g (ω l) * x l ^ 2 := by
  have ho : ∀ l m, ∑ k, O k l * O k m = (1 : Matrix (Fin n) (Fin n) ℝ) l m := fun l m => by
    rw [← h.orthogonal]; simp [Matrix.mul_apply]
  have e : ∀ k l m, g (ω k) * (O k l * x l * (O k m * x m))
      = g (ω l) * (x l * x m) * (O k l * O k m) := by
    intro k l m
    by_cases hz : O k l = 0
    · simp [hz]
    · rw [h.degenerate k l hz]; ring
  calc ∑ k, g (ω k) * (∑ l, O k l * x l) ^ 2
      = ∑ k, ∑ l, ∑ m, g (ω k) * (O k l * x l * (O k m * x m)) := by
        refine Finset.sum_congr rfl fun k _ => ?_
        rw [sq, Finset.sum_mul_sum, Finset.mul_sum]
        exact Finset.sum_congr rfl fun l _ => Finset.mul_sum _ _ _
    _ = ∑ l, ∑ m, ∑ k, g (ω l) * (x l * x m) * (O k l * O k m) := by
        simp only [e]
        rw [Finset.sum_comm]
        exact Finset.sum_congr rfl fun l _ => Finset.sum_comm
    _ = ∑ l, ∑ m, g (ω l) * (x l * x m) * (1 : Matrix (Fin n) (Fin n) ℝ) l m := by
        simp only [← Finset.mul_sum, ho]
    _ = _ := by
        refine Finset.sum_congr rfl fun l _ => ?_
        rw [Finset.sum_eq_single l]
        · simp [sq]
        · intro m _ hm; simp [Matrix.one_apply_ne' hm]
        · simp

/-- The same for intensities. -/
theorem mixing_intensities {ω : Fin n → ℝ} {O : Matrix (Fin n) (Fin n) ℝ} (h : Mixing ω O)
    (g : ℝ → ℝ) (T : Fin n → Mat3 ℝ) :
    ∑ k, g (ω k) * rawIntensity (∑ l, O k l • T l) = ∑ l, g (ω l) * rawIntensity (T l) := by
  have hc : ∀ k i j, (∑ l, O k l • T l) i j = ∑ l, O k l * T l i j := by
    intro k i j
    rw [Matrix.sum_apply]; rfl
  have hlin : ∀ (k : Fin n) (x y : Fin n → ℝ), ∑ l, O k l * x l - ∑ l, O k l * y l
      = ∑ l, O k l * (x l - y l) := by
    intro k x y
    rw [← Finset.sum_sub_distrib]
    exact Finset.sum_congr rfl fun l _ => by ring
  have hlin3 : ∀ (k : Fin n), (∑ l, O k l * T l 0 0 + ∑ l, O k l * T l 1 1 + ∑ l, O k l * T l 2 2) / 3
      = ∑ l, O k l * ((T l 0 0 + T l 1 1 + T l 2 2) / 3) := by
    intro k
    rw [← Finset.sum_add_distrib, ← Finset.sum_add_distrib, Finset.sum_div]
    exact Finset.sum_congr rfl fun l _ => by ring
  have key : ∀ (c : ℝ) (x : Fin n → ℝ), ∑ k, g (ω k) * (c * (∑ l, O k l * x l) ^ 2)
      = ∑ l, g (ω l) * (c * x l ^ 2) := by
    intro c x
    have := congrArg (c * ·) (mixing_squares h g x)
    simp only [Finset.mul_sum] at this
    calc _ = ∑ k, c * (g (ω k) * (∑ l, O k l * x l) ^ 2) :=
          Finset.sum_congr rfl fun k _ => by ring
      _ = _ := this
      _ = _ := Finset.sum_congr rfl fun k _ => by ring
  have hraw : ∀ R : Mat3 ℝ, rawIntensity R
      = 45 * ((R 0 0 + R 1 1 + R 2 2) / 3) ^ 2 + 7 / 2 * (R 0 0 - R 1 1) ^ 2
        + 7 / 2 * (R 0 0 - R 2 2) ^ 2 + 7 / 2 * (R 1 1 - R 2 2) ^ 2 + 21 * R 0 1 ^ 2
        + 21 * R 0 2 ^ 2 + 21 * R 1 2 ^ 2 := by
    intro R
    unfold rawIntensity alphaSquared gammaSquared
    ring
  simp only [hraw, mul_add, Finset.sum_add_distrib, hc, hlin, hlin3]
  rw [key, key, key, key, key, key, key]

theorem ofFn_zip {α β : Type} (f : Fin n → α) (g : Fin n → β) :
    (List.ofFn f).zip (List.ofFn g) = List.ofFn fun k => (f k, g k) := by
  apply List.ext_getElem
  · simp
  · intro i h1 h2
    simp

theorem lineSum_ofFn (L : ℝ → ℝ → ℝ) (ω I : Fin n → ℝ) (x : ℝ) :
    lineSum L ((List.ofFn ω).zip (List.ofFn I)) x = ∑ k, I k * L (ω k) x := by
  unfold lineSum
  rw [ofFn_zip, List.map_ofFn, List.sum_ofFn]
  rfl

/-- The measured spectrum of vibrations with known tensors. -/
theorem measured_ofFn {M : PolModel N} {ref : Pos N ℝ} (hn : 0 < n) (ω : Fin n → ℝ)
    (D : Fin n → Pos N ℝ) (T : Fin n → Mat3 ℝ) (hT : ∀ k, ramanTensor M ref (D k) = .ok (T k))
    (args : MeasureArgs) (ha : ArgsOK args) (c : ℝ → ℝ)
    (hfin : ∀ k, totalFactor args (ω k) = some (c (ω k))) :
    ∃ s, Phonons.getRamanSpectrum ⟨ref, List.ofFn ω, List.ofFn D⟩ M = .ok s ∧
      (s.measure args).1 = .ok (List.ofFn ω, List.ofFn fun k => some (c (ω k) * rawIntensity (T k))) := by
  have hs : PhononSpectrum.init (List.ofFn ω) (List.ofFn T) = .ok ⟨List.ofFn ω, List.ofFn T⟩ := by
    unfold PhononSpectrum.init
    rw [if_neg (by simp)]
  refine ⟨⟨List.ofFn ω, List.ofFn T⟩, ?_, ?_⟩
  · unfold Phonons.getRamanSpectrum
    dsimp only
    have hm : (List.ofFn D).mapM (ramanTensor M ref) = .ok (List.ofFn T) := by
      rw [mapM_except_ok, List.forall₂_iff_get]
      refine ⟨by simp, fun i h1 h2 => ?_⟩
      simp only [List.get_eq_getElem, List.getElem_ofFn]
      exact hT _
    rw [hm]
    change (if (List.ofFn T).isEmpty then _ else _) = _
    rw [if_neg, hs]
    intro he
    rw [List.isEmpty_iff] at he
    have := congrArg List.length he
    rw [List.length_ofFn] at this
    exact hn.ne' this
  · rw [C52_phonon_measure _ _ _ hs args ha, ofFn_zip, List.map_ofFn]
    congr 3
    funext k
    simp [Function.comp, hfin k, mul_comm]

/-- C148: let the Raman tensors of the mixed vibrations be the mixed tensors (as for a polarizability
linear in the displacements).  Then, with any valid corrections, the intensities at every wavenumber add
up to the same sum, and the convolved spectra agree. -/
theorem C148_mixing (M : PolModel N) (ref : Pos N ℝ) (hn : 0 < n) (ω : Fin n → ℝ)
    (O : Matrix (Fin n) (Fin n) ℝ) (hO : Mixing ω O) (D : Fin n → Pos N ℝ) (T : Fin n → Mat3 ℝ)
    (hT : ∀ k, ramanTensor M ref (D k) = .ok (T k))
    (hT' : ∀ k, ramanTensor M ref (mixed O D k) = .ok (∑ l, O k l • T l))
    (args : MeasureArgs) (ha : ArgsOK args) (c : ℝ → ℝ)
    (hfin : ∀ k, totalFactor args (ω k) = some (c (ω k))) :
    ∃ s s' I I', Phonons.getRamanSpectrum ⟨ref, List.ofFn ω, List.ofFn D⟩ M = .ok s ∧
      Phonons.getRamanSpectrum ⟨ref, List.ofFn ω, List.ofFn (mixed O D)⟩ M = .ok s' ∧
      (s.measure args).1 = .ok (List.ofFn ω, List.ofFn fun k => some (I k)) ∧
      (s'.measure args).1 = .ok (List.ofFn ω, List.ofFn fun k => some (I' k)) ∧
      (∀ w, ∑ k with ω k = w, I' k = ∑ k with ω k = w, I k) ∧
      ∀ function, Supported function → ∀ width, 0 < width → ∀ out,
        convolveSpectrum (List.ofFn ω) (List.ofFn I') function width out
          = convolveSpectrum (List.ofFn ω) (List.ofFn I) function width out := by
  obtain ⟨s, h1, h2⟩ := measured_ofFn hn ω D T hT args ha c hfin
  obtain ⟨s', h1', h2'⟩ := measured_ofFn hn ω (mixed O D) _ hT' args ha c hfin
  refine ⟨s, s', _, _, h1, h1', h2, h2', fun w => ?_, fun function hf width hw out => ?_⟩
  · have := mixing_intensities hO (fun v => if v = w then c v else 0) T
    simp only [Finset.sum_filter]
    calc _ = ∑ k, (if ω k = w then c (ω k) else 0) * rawIntensity (∑ l, O k l • T l) :=
          Finset.sum_congr rfl fun k _ => by split_ifs <;> ring
      _ = _ := this
      _ = _ := Finset.sum_congr rfl fun k _ => by split_ifs <;> ring
  · rw [convolve_eq, convolve_eq (is := List.ofFn fun k => c (ω k) * rawIntensity (T k))]
    congr 1
    funext o
    rw [C56_value _ _ (by simp) function hf width hw, C56_value _ _ (by simp) function hf width hw]
    congr 2
    refine List.map_congr_left fun x _ => ?_
    rw [lineSum_ofFn, lineSum_ofFn]
    have := mixing_intensities hO (fun v => c v * namedLine function width v x) T
    calc _ = ∑ k, c (ω k) * namedLine function width (ω k) x * rawIntensity (∑ l, O k l • T l) :=
          Finset.sum_congr rfl fun k _ => by ring
      _ = _ := this
      _ = _ := Finset.sum_congr rfl fun k _ => by ring

theorem toCart_mixed (L : Mat3 ℝ) (c : Fin n → ℝ) (D : Fin n → Pos N ℝ) :
    toCart L (fun a i => ∑ l, c l * D l a i) = fun a j => ∑ l, c l * toCart L (D l) a j := by
  funext a j
  unfold toCart
  simp only [Finset.sum_mul, Finset.mul_sum]
  rw [Finset.sum_comm]
  exact Finset.sum_congr rfl fun l _ => Finset.sum_congr rfl fun i _ => by ring

theorem inner3_mixed (b : Pos N ℝ) (c : Fin n → ℝ) (D : Fin n → Pos N ℝ) :
    inner3 b (fun a j => ∑ l, c l * D l a j) = ∑ l, c l * inner3 b (D l) := by
  unfold inner3
  simp only [Finset.mul_sum]
  rw [Finset.sum_comm]
  calc _ = ∑ a, ∑ j, ∑ l, c l * (b a j * D l a j) := by
        rw [Finset.sum_comm]
        exact Finset.sum_congr rfl fun a _ => Finset.sum_congr rfl fun j _ =>
          Finset.sum_congr rfl fun l _ => by ring
    _ = ∑ a, ∑ l, ∑ j, c l * (b a j * D l a j) :=
        Finset.sum_congr rfl fun a _ => Finset.sum_comm
    _ = _ := Finset.sum_comm

theorem response_mixed (bs : List (Pos N ℝ)) (ss : List (Mat3 ℝ)) (ks : List Bool) (c : Fin n → ℝ)
    (f : Fin n → Pos N ℝ → ℝ) :
    response (bs.map fun b => ∑ l, c l * f l b) ss ks
      = ∑ l, c l • response (bs.map (f l)) ss ks := by
  unfold response
  induction bs generalizing ss ks with
  | nil => simp
  | cons b bs ih =>
    cases ss with
    | nil => simp
    | cons s ss =>
      cases ks with
      | nil => simp
      | cons k ks =>
        simp only [List.map_cons, List.zip_cons_cons, List.sum_cons]
        rw [ih]
        simp only [smul_add, Finset.sum_add_distrib]
        congr 1
        split_ifs
        · simp
        · simp only [smul_smul, ← Finset.sum_smul]

/-- C148 for interpolation and ART models whose interpolations have degree at most two (straight lines
and parabolas): the spectrum does not depend on the choice of degenerate vibrations. -/
theorem C148_quadratic_partial (m : IModel N) (hi : m.interps.length = m.basis.length)
    (hk : m.mask.length = m.basis.length) (cs ss qs : List (Mat3 ℝ))
    (hlen : cs.length = m.interps.length ∧ ss.length = m.interps.length ∧
      qs.length = m.interps.length)
    (hf : ∀ (n : ℕ) f c s q, m.interps[n]? = some f → cs[n]? = some c → ss[n]? = some s →
      qs[n]? = some q → ∀ x : ℝ, f x = c + x • s + x ^ 2 • q)
    (hn : 0 < n) (ω : Fin n → ℝ) (O : Matrix (Fin n) (Fin n) ℝ) (hO : Mixing ω O)
    (D : Fin n → Pos N ℝ) (hd : ∀ k a i, |D k a i| < 500) (hd' : ∀ k a i, |mixed O D k a i| < 500)
    (args : MeasureArgs) (ha : ArgsOK args) (c : ℝ → ℝ)
    (hfin : ∀ k, totalFactor args (ω k) = some (c (ω k))) :
    ∃ s s' I I',
      Phonons.getRamanSpectrum ⟨m.ref.positions, List.ofFn ω, List.ofFn D⟩ m.calcPolarizabilities
        = .ok s ∧
      Phonons.getRamanSpectrum ⟨m.ref.positions, List.ofFn ω, List.ofFn (mixed O D)⟩
        m.calcPolarizabilities = .ok s' ∧
      (s.measure args).1 = .ok (List.ofFn ω, List.ofFn fun k => some (I k)) ∧
      (s'.measure args).1 = .ok (List.ofFn ω, List.ofFn fun k => some (I' k)) ∧
      (∀ w, ∑ k with ω k = w, I' k = ∑ k with ω k = w, I k) ∧
      ∀ function, Supported function → ∀ width, 0 < width → ∀ out,
        convolveSpectrum (List.ofFn ω) (List.ofFn I') function width out
          = convolveSpectrum (List.ofFn ω) (List.ofFn I) function width out := by
  refine C148_mixing _ _ hn ω O hO D _
    (fun k => C118_quadratic m hi hk cs ss qs hlen hf (D k) (hd k)) (fun k => ?_) args ha c hfin
  rw [C118_quadratic m hi hk cs ss qs hlen hf _ (hd' k)]
  congr 1
  have e : (fun b => inner3 b (toCart m.ref.lattice (mixed O D k)))
      = fun b => ∑ l, O k l * inner3 b (toCart m.ref.lattice (D l)) := by
    funext b
    unfold mixed
    rw [toCart_mixed, inner3_mixed]
  rw [e, response_mixed m.basis ss m.mask (O k) fun l b => inner3 b (toCart m.ref.lattice (D l))]
  simp only [two_smul, smul_add, Finset.sum_add_distrib]

/-! ### Responses that are not linear -/

/-- One atom in a cubic cell; the polarizability changes with the `x` coordinate as `f`. -/
noncomputable def axisModel (f : ℝ → ℝ) : IModel 1 :=
  ⟨⟨fun _ => 14, 1, fun _ _ => 0, [⟨1, 0⟩], [], []⟩, 1, false, [one1 ![1, 0, 0]],
    [fun t => f t • (1 : Mat3 ℝ)], [false]⟩

/-- Vibrations along `x` and `y`, and a rotation mixing them. -/
noncomputable def pairModes : Fin 2 → Pos 1 ℝ := ![one1 ![1, 0, 0], one1 ![0, 1, 0]]

/-- See `pairModes`. -/
noncomputable def pairMixing : Matrix (Fin 2) (Fin 2) ℝ := !![3 / 5, 4 / 5; -4 / 5, 3 / 5]

theorem pair_mixing (w : ℝ) : Mixing (fun _ => w) pairMixing := by
  refine ⟨?_, fun _ _ _ => rfl⟩
  ext i j
  fin_cases i <;> fin_cases j <;>
    simp [pairMixing, Matrix.mul_apply, Fin.sum_univ_two] <;> norm_num

theorem pair_mixed : mixed pairMixing pairModes = ![one1 ![3 / 5, 4 / 5, 0], one1 ![-4 / 5, 3 / 5, 0]] := by
  funext k a i
  fin_cases k <;> fin_cases i <;> simp [mixed, pairMixing, pairModes, one1, Fin.sum_univ_two]

theorem axis_tensor (f : ℝ → ℝ) (x : Fin 3 → ℝ) (hx : ∀ i, |x i| < 500) :
    ramanTensor (axisModel f).calcPolarizabilities (fun _ _ => 0) (one1 x)
      = .ok ((1000 * (f (1 / 1000 * x 0) - f (-(1 / 1000) * x 0))) • (1 : Mat3 ℝ)) := by
  have := C118_tensor (axisModel f) rfl rfl (one1 x) (fun a i => hx i)
  refine this.trans ?_
  have hin : inner3 (one1 ![1, 0, 0]) (toCart 1 (one1 x)) = x 0 := by
    simp [inner3, toCart, one1, Fin.sum_univ_three, Matrix.one_apply]
  simp only [axisModel, List.zip_cons_cons, List.zip_nil_left, List.map_cons, List.map_nil,
    List.sum_cons, List.sum_nil, add_zero, Bool.false_eq_true, if_false, hin]
  rw [← sub_smul, smul_smul]

theorem intensity_one (c : ℝ) : rawIntensity (c • (1 : Mat3 ℝ)) = 45 * c ^ 2 := by
  simp [rawIntensity, alphaSquared, gammaSquared]
  ring

/-- C148, counterexample: with a cubic response the (uncorrected) total intensity of two degenerate
vibrations depends on how they are chosen, because Raman tensors are finite differences. -/
theorem C148_counterexample (w : ℝ) : ∃ (s s' : PhononSpectrum) (I I' : Fin 2 → ℝ),
    Phonons.getRamanSpectrum ⟨fun _ _ => 0, List.ofFn fun _ : Fin 2 => w, List.ofFn pairModes⟩
      (axisModel fun t => t ^ 3).calcPolarizabilities = .ok s ∧
    Phonons.getRamanSpectrum ⟨fun _ _ => 0, List.ofFn fun _ : Fin 2 => w, List.ofFn (mixed pairMixing pairModes)⟩
      (axisModel fun t => t ^ 3).calcPolarizabilities = .ok s' ∧
    (s.measure ⟨polycrystalline, false, 522, false, 300⟩).1
      = .ok (List.ofFn fun _ : Fin 2 => w, List.ofFn fun k : Fin 2 => some (I k)) ∧
    (s'.measure ⟨polycrystalline, false, 522, false, 300⟩).1
      = .ok (List.ofFn fun _ : Fin 2 => w, List.ofFn fun k : Fin 2 => some (I' k)) ∧
    ∑ k, I' k ≠ ∑ k, I k := by
  have ha : ArgsOK ⟨polycrystalline, false, 522, false, 300⟩ :=
    ⟨rfl, fun h => (by cases h), fun h => (by cases h)⟩
  have hfin : ∀ k : Fin 2, totalFactor ⟨polycrystalline, false, 522, false, 300⟩
      ((fun _ => w : Fin 2 → ℝ) k) = some ((fun _ => (1 : ℝ)) ((fun _ => w : Fin 2 → ℝ) k)) := by
    intro k
    simp [totalFactor]
  obtain ⟨s, h1, h2⟩ := measured_ofFn (M := (axisModel fun t => t ^ 3).calcPolarizabilities)
    (ref := fun _ _ => 0) (by norm_num) (fun _ => w) pairModes
    ![(2 / 10 ^ 6 : ℝ) • 1, (0 : ℝ) • 1] (fun k => by
      fin_cases k
      · refine (axis_tensor _ ![1, 0, 0] fun i => by fin_cases i <;> simp).trans ?_
        congr 2; norm_num
      · refine (axis_tensor _ ![0, 1, 0] fun i => by fin_cases i <;> simp).trans ?_
        congr 2; norm_num) _ ha (fun _ => 1) hfin
  obtain ⟨s', h1', h2'⟩ := measured_ofFn (M := (axisModel fun t => t ^ 3).calcPolarizabilities)
    (ref := fun _ _ => 0) (by norm_num) (fun _ => w) (mixed pairMixing pairModes)
    ![(2 / 10 ^ 6 * (3 / 5) ^ 3 : ℝ) • 1, (2 / 10 ^ 6 * (-4 / 5) ^ 3 : ℝ) • 1] (fun k => by
      rw [pair_mixed]
      fin_cases k
      · refine (axis_tensor _ ![3 / 5, 4 / 5, 0] fun i => by
          fin_cases i <;> simp [abs_div] <;> norm_num).trans ?_
        congr 2; norm_num
      · refine (axis_tensor _ ![-4 / 5, 3 / 5, 0] fun i => by
          fin_cases i <;> simp [abs_div] <;> norm_num).trans ?_
        congr 2; norm_num) _ ha (fun _ => 1) hfin
  refine ⟨s, s', _, _, h1, h1', h2, h2', ?_⟩
  simp only [Fin.sum_univ_two, Matrix.cons_val_zero, Matrix.cons_val_one, intensity_one]
  norm_num

/-- C148, concrete: with a linear response it does not, also after convolution. -/
example (w : ℝ) (hw : w ≠ 0) : ∃ (s s' : PhononSpectrum) (I I' : Fin 2 → ℝ),
    Phonons.getRamanSpectrum ⟨fun _ _ => 0, List.ofFn fun _ : Fin 2 => w, List.ofFn pairModes⟩
      (axisModel fun t => t).calcPolarizabilities = .ok s ∧
    Phonons.getRamanSpectrum ⟨fun _ _ => 0, List.ofFn fun _ : Fin 2 => w, List.ofFn (mixed pairMixing pairModes)⟩
      (axisModel fun t => t).calcPolarizabilities = .ok s' ∧
    (s.measure ⟨polycrystalline, true, 522, true, 300⟩).1
      = .ok (List.ofFn fun _ : Fin 2 => w, List.ofFn fun k : Fin 2 => some (I k)) ∧
    (s'.measure ⟨polycrystalline, true, 522, true, 300⟩).1
      = .ok (List.ofFn fun _ : Fin 2 => w, List.ofFn fun k : Fin 2 => some (I' k)) ∧
    convolveSpectrum (List.ofFn fun _ : Fin 2 => w) (List.ofFn I') gaussianName 5 none
      = convolveSpectrum (List.ofFn fun _ : Fin 2 => w) (List.ofFn I) gaussianName 5 none := by
  have ha : ArgsOK ⟨polycrystalline, true, 522, true, 300⟩ :=
    ⟨rfl, fun _ => by norm_num, fun _ => by norm_num⟩
  obtain ⟨s, s', I, I', h1, h2, h3, h4, -, h6⟩ := C148_quadratic_partial (axisModel fun t => t) rfl rfl
    [0] [1] [0] ⟨rfl, rfl, rfl⟩ (by
      intro n f c s q h1 h2 h3 h4 x
      cases n with
      | zero =>
        simp only [axisModel, List.getElem?_cons_zero, Option.some.injEq] at h1 h2 h3 h4
        rw [← h1, ← h2, ← h3, ← h4]
        simp
      | succ n => simp [axisModel] at h1)
    (by norm_num) (fun _ => w) pairMixing (pair_mixing w) pairModes
    (fun k a i => by fin_cases k <;> fin_cases i <;> simp [pairModes, one1])
    (fun k a i => by
      rw [pair_mixed]
      fin_cases k <;> fin_cases i <;> simp [one1, abs_div] <;> norm_num)
    ⟨polycrystalline, true, 522, true, 300⟩ ha
    (fun w => (totalFactor ⟨polycrystalline, true, 522, true, 300⟩ w).getD 0) (fun k => by
      simp [totalFactor, hw])
  exact ⟨s, s', I, I', h1, h2, h3, h4, h6 _ (Or.inl rfl) _ (by norm_num) _⟩

end Verif
