import Verif.Model.SpectrumRounding
import Verif.Props.PbcRounding
import Verif.Props.Convolve
import Mathlib.Analysis.Real.Pi.Bounds
import Mathlib.Tactic.Positivity
import Mathlib.Tactic.Linarith

/-!
# C149: intensities in floating-point arithmetic
-/

namespace Verif
open Spec

noncomputable section

/-- A float that is not a finite negative number. -/
def Spec.NotNegative (x : Option ℝ) : Prop := ∀ v, x = some v → 0 ≤ v

section
variable {rnd : ℝ → ℝ}

theorem Rounding.nonneg (h : Rounding rnd) {x : ℝ} (hx : 0 ≤ x) : 0 ≤ rnd x := by
  have := h.mono hx
  rwa [h.zero] at this

theorem Rounding.le_one (h : Rounding rnd) {x : ℝ} (hx : x ≤ 1) : rnd x ≤ 1 := by
  have := h.mono hx
  rwa [h.one] at this

theorem Rounding.nonpos (h : Rounding rnd) {x : ℝ} (hx : x ≤ 0) : rnd x ≤ 0 := by
  have := h.mono hx
  rwa [h.zero] at this

theorem sqR_nonneg (h : Rounding rnd) (x : ℝ) : 0 ≤ sqR rnd x := h.nonneg (mul_self_nonneg x)

theorem rawIntensityR_nonneg (h : Rounding rnd) (R : Mat3 ℝ) : 0 ≤ rawIntensityR rnd R := by
  have ha : 0 ≤ alphaSquaredR rnd R := sqR_nonneg h _
  have hg : 0 ≤ gammaSquaredR rnd R := by
    unfold gammaSquaredR
    refine h.nonneg (div_nonneg (h.nonneg (add_nonneg (h.nonneg (add_nonneg (h.nonneg
      (add_nonneg (sqR_nonneg h _) (sqR_nonneg h _))) (sqR_nonneg h _)))
      (h.nonneg (mul_nonneg (by norm_num) (h.nonneg (add_nonneg (h.nonneg
      (add_nonneg (sqR_nonneg h _) (sqR_nonneg h _))) (sqR_nonneg h _))))))) (by norm_num))
  exact h.nonneg (add_nonneg (h.nonneg (mul_nonneg (by norm_num) ha))
    (h.nonneg (mul_nonneg (by norm_num) hg)))

theorem npDivR_nonneg (h : Rounding rnd) {a b : ℝ} (ha : 0 ≤ a) (hb : 0 ≤ b) :
    NotNegative (npDivR rnd a b) := by
  intro v hv
  unfold npDivR at hv
  split_ifs at hv
  cases hv
  exact h.nonneg (div_nonneg ha hb)

theorem mulOptR_nonneg (h : Rounding rnd) {a b : Option ℝ} (ha : NotNegative a)
    (hb : NotNegative b) : NotNegative (mulOptR rnd a b) := by
  intro v hv
  cases a with
  | none => cases hv
  | some a =>
    cases b with
    | none => cases hv
    | some b =>
      cases hv
      exact h.nonneg (mul_nonneg (ha a rfl) (hb b rfl))

theorem addOptR_nonneg (h : Rounding rnd) {a b : Option ℝ} (ha : NotNegative a)
    (hb : NotNegative b) : NotNegative (addOptR rnd a b) := by
  intro v hv
  cases a with
  | none => cases hv
  | some a =>
    cases b with
    | none => cases hv
    | some b =>
      cases hv
      exact h.nonneg (add_nonneg (ha a rfl) (hb b rfl))

theorem notNegative_some {x : ℝ} (hx : 0 ≤ x) : NotNegative (some x) := by
  intro v hv
  cases hv
  exact hx

theorem laserEntryR_nonneg (h : Rounding rnd) (l : ℝ) {w : ℝ} (hw : 0 ≤ w) :
    NotNegative (laserEntryR rnd l w) :=
  npDivR_nonneg h (h.nonneg (by positivity)) hw

theorem boseEntryR_nonneg (h : Rounding rnd) {T w : ℝ} (hT : 0 ≤ T) (hw : 0 ≤ w) :
    NotNegative (boseEntryR rnd T w) := by
  have he : 0 ≤ rnd (rnd (w * 29979245800) * (41357 / 10 ^ 19)) :=
    h.nonneg (mul_nonneg (h.nonneg (mul_nonneg hw (by norm_num))) (by norm_num))
  have hk : 0 ≤ rnd (boltzmann * T) := h.nonneg (mul_nonneg (by unfold boltzmann; norm_num) hT)
  unfold boseEntryR
  dsimp only
  split_ifs
  · refine npDivR_nonneg h zero_le_one (h.nonneg (by norm_num))
  · exact notNegative_some le_rfl
  · intro v hv
    cases hv
  · refine npDivR_nonneg h zero_le_one (h.nonneg (sub_nonneg.2 (h.le_one ?_)))
    rw [Real.exp_le_one_iff]
    exact h.nonpos (div_nonpos_of_nonpos_of_nonneg (neg_nonpos.2 he) hk)

theorem gaussianR_nonneg (h : Rounding rnd) {width : ℝ} (hw : 0 ≤ width) (c x : ℝ) :
    NotNegative (gaussianR rnd width c x) := by
  have hc : 0 ≤ rnd (rnd (1 / width) * rnd (1 / rnd (Real.sqrt (rnd (2 * Real.pi))))) :=
    h.nonneg (mul_nonneg (h.nonneg (by positivity))
      (h.nonneg (div_nonneg zero_le_one (h.nonneg (Real.sqrt_nonneg _)))))
  unfold gaussianR
  dsimp only
  split_ifs
  · intro v hv
    cases hv
  · exact notNegative_some (h.nonneg (mul_nonneg hc le_rfl))
  · exact notNegative_some (h.nonneg (mul_nonneg hc (h.nonneg (Real.exp_pos _).le)))

theorem lorentzianR_nonneg (h : Rounding rnd) {width : ℝ} (hw : 0 ≤ width) (c x : ℝ) :
    NotNegative (lorentzianR rnd width c x) := by
  unfold lorentzianR
  dsimp only
  refine mulOptR_nonneg h (notNegative_some (h.nonneg (div_nonneg zero_le_one
    (h.nonneg Real.pi_pos.le)))) (npDivR_nonneg h (h.nonneg (by positivity))
    (h.nonneg (add_nonneg (sqR_nonneg h _) (sqR_nonneg h _))))

theorem lineShapeR_nonneg (h : Rounding rnd) (function : List Char) {width : ℝ} (hw : 0 ≤ width)
    (c x : ℝ) : NotNegative (lineShapeR rnd function width c x) := by
  unfold lineShapeR
  split_ifs
  · exact gaussianR_nonneg h hw c x
  · exact lorentzianR_nonneg h hw c x
  · intro v hv
    cases hv

theorem zipWith_nonneg {α β : Type} {P : β → Prop} {f : α → β → Option ℝ} {g : α → Prop}
    (hf : ∀ a b, g a → P b → NotNegative (f a b)) : ∀ (as : List α) (bs : List β),
    (∀ a ∈ as, g a) → (∀ b ∈ bs, P b) → ∀ x ∈ List.zipWith f as bs, NotNegative x
  | [], _, _, _ => by simp
  | _ :: _, [], _, _ => by simp
  | a :: as, b :: bs, ha, hb => by
    intro x hx
    rw [List.zipWith_cons_cons, List.mem_cons] at hx
    rcases hx with rfl | hx
    · exact hf a b (ha a (List.mem_cons_self ..)) (hb b (List.mem_cons_self ..))
    · exact zipWith_nonneg hf as bs (fun a h => ha a (List.mem_cons_of_mem _ h))
        (fun b h => hb b (List.mem_cons_of_mem _ h)) x hx

/-- C149: rounding never makes an intensity negative: with nonnegative wavenumbers and any
corrections, no entry of the measured phonon spectrum is a negative number. -/
theorem C149_nonneg (h : Rounding rnd) (s : PhononSpectrum) (args : MeasureArgs)
    (hs : ∀ w ∈ s.wavenumbers, 0 ≤ w) (ws : List ℝ) (is : List (Option ℝ))
    (hm : s.measureR rnd args = .ok (ws, is)) : ∀ x ∈ is, NotNegative x := by
  unfold PhononSpectrum.measureR at hm
  split_ifs at hm
  dsimp only [bind, Except.bind] at hm
  have h0 : ∀ x ∈ s.tensors.map fun R => some (rawIntensityR rnd R), NotNegative x := by
    intro x hx
    obtain ⟨R, -, rfl⟩ := List.mem_map.1 hx
    exact notNegative_some (rawIntensityR_nonneg h R)
  have h1 : ∀ l, applyLaserR rnd args s.wavenumbers
      (s.tensors.map fun R => some (rawIntensityR rnd R)) = .ok l → ∀ x ∈ l, NotNegative x := by
    intro l hl
    unfold applyLaserR at hl
    dsimp only at hl
    split_ifs at hl
    · cases hl
      refine zipWith_nonneg (g := NotNegative) (P := NotNegative)
        (fun a b => mulOptR_nonneg h) _ _ h0 ?_
      intro x hx
      obtain ⟨w, hw, rfl⟩ := List.mem_map.1 hx
      exact laserEntryR_nonneg h _ (hs w hw)
    · cases hl
      exact h0
  cases hl : applyLaserR rnd args s.wavenumbers
      (s.tensors.map fun R => some (rawIntensityR rnd R)) with
  | error e => rw [hl] at hm; cases hm
  | ok l =>
    rw [hl] at hm
    dsimp only at hm
    have h2 : ∀ l', applyBoseR rnd args s.wavenumbers l = .ok l' → ∀ x ∈ l', NotNegative x := by
      intro l' hl'
      unfold applyBoseR at hl'
      split_ifs at hl' with _ hT
      · cases hl'
        refine zipWith_nonneg (g := NotNegative) (P := NotNegative)
          (fun a b => mulOptR_nonneg h) _ _ (h1 l hl) ?_
        intro x hx
        obtain ⟨w, hw, rfl⟩ := List.mem_map.1 hx
        exact boseEntryR_nonneg h (not_le.1 hT).le (hs w hw)
      · cases hl'
        exact h1 l hl
    cases hl' : applyBoseR rnd args s.wavenumbers l with
    | error e => rw [hl'] at hm; cases hm
    | ok l' =>
      rw [hl'] at hm
      cases hm
      exact h2 _ hl'

/-- C149: nor does convolution: if no intensity is negative and the width is not, no entry of the
convolved spectrum is a negative number. -/
theorem C149_convolve (h : Rounding rnd) (function : List Char) (width : ℝ) (hw : 0 ≤ width)
    (out : List ℝ) (peaks : List (ℝ × Option ℝ)) (hp : ∀ p ∈ peaks, NotNegative p.2) :
    ∀ r, convolveLoopR rnd function width out peaks (out.map fun _ => some 0) = .ok r →
      ∀ x ∈ r, NotNegative x := by
  have key : ∀ (peaks : List (ℝ × Option ℝ)) (acc r : List (Option ℝ)),
      (∀ p ∈ peaks, NotNegative p.2) → (∀ x ∈ acc, NotNegative x) →
      convolveLoopR rnd function width out peaks acc = .ok r → ∀ x ∈ r, NotNegative x := by
    intro peaks
    induction peaks with
    | nil =>
      intro acc r _ ha hr
      cases hr
      exact ha
    | cons p peaks ih =>
      obtain ⟨w, i⟩ := p
      intro acc r hp ha hr
      unfold convolveLoopR at hr
      split_ifs at hr
      refine ih _ r (fun p h => hp p (List.mem_cons_of_mem _ h)) ?_ hr
      refine zipWith_nonneg (g := fun _ => True) (P := NotNegative) ?_ _ _ (fun _ _ => trivial) ha
      intro x a _ ha
      exact addOptR_nonneg h ha (mulOptR_nonneg h (lineShapeR_nonneg h _ hw _ _)
        (hp (w, i) (List.mem_cons_self ..)))
  intro r hr
  refine key peaks _ r hp ?_ hr
  intro x hx
  obtain ⟨_, -, rfl⟩ := List.mem_map.1 hx
  exact notNegative_some le_rfl

end

/-! ## Accuracy -/

section
variable {u : ℝ} {rnd : ℝ → ℝ}

/-- `y` is the nonnegative `x` after `n` roundings. -/
def Rounded (u : ℝ) (n : ℕ) (x y : ℝ) : Prop := |y - x| ≤ ((1 + u) ^ n - 1) * x

theorem Rounded.again (h : Accurate u rnd) {n : ℕ} {x y : ℝ} (hx : 0 ≤ x) (hy : Rounded u n x y) :
    Rounded u (n + 1) x (rnd y) := by
  have hu := h.nonneg
  unfold Rounded at *
  have h1 := h.error y
  have h2 : |y| ≤ (1 + u) ^ n * x := by
    have := abs_add_le (y - x) x
    rw [sub_add_cancel, abs_of_nonneg hx] at this
    linarith
  have h3 : |rnd y - x| ≤ |rnd y - y| + |y - x| := abs_sub_le ..
  calc |rnd y - x| ≤ u * ((1 + u) ^ n * x) + ((1 + u) ^ n - 1) * x := by
        have := mul_le_mul_of_nonneg_left h2 hu
        linarith
    _ = _ := by ring

theorem Rounded.mono (hu : 0 ≤ u) {m n : ℕ} (hmn : m ≤ n) {x y : ℝ} (hx : 0 ≤ x)
    (h : Rounded u m x y) : Rounded u n x y := by
  unfold Rounded at *
  have := pow_le_pow_right₀ (by linarith : 1 ≤ 1 + u) hmn
  exact h.trans (mul_le_mul_of_nonneg_right (by linarith) hx)

theorem Rounded.add {n : ℕ} {x y x' y' : ℝ} (h : Rounded u n x y) (h' : Rounded u n x' y') :
    Rounded u n (x + x') (y + y') := by
  unfold Rounded at *
  have := abs_add_le (y - x) (y' - x')
  rw [show y - x + (y' - x') = y + y' - (x + x') by ring] at this
  calc _ ≤ _ := this
    _ ≤ _ := by linarith

theorem Rounded.smul {n : ℕ} {x y : ℝ} (h : Rounded u n x y) {c : ℝ} (hc : 0 ≤ c) :
    Rounded u n (c * x) (c * y) := by
  unfold Rounded at *
  rw [← mul_sub, abs_mul, abs_of_nonneg hc]
  calc c * |y - x| ≤ c * (((1 + u) ^ n - 1) * x) := mul_le_mul_of_nonneg_left h hc
    _ = _ := by ring

theorem Rounded.half {n : ℕ} {x y : ℝ} (h : Rounded u n x y) : Rounded u n (x / 2) (y / 2) := by
  have := h.smul (by norm_num : (0 : ℝ) ≤ 1 / 2)
  rwa [one_div_mul_eq_div, one_div_mul_eq_div] at this

theorem Rounded.self (x : ℝ) : Rounded u 0 x x := by
  unfold Rounded
  simp

/-- Square of a rounded number. -/
theorem Rounded.sq (h : Accurate u rnd) (x : ℝ) : Rounded u 3 (x ^ 2) (sqR rnd (rnd x)) := by
  have hu := h.nonneg
  have h1 := h.error x
  have : Rounded u 2 (x ^ 2) (rnd x * rnd x) := by
    unfold Rounded
    rw [show rnd x * rnd x - x ^ 2 = (rnd x - x) * (rnd x - x + 2 * x) by ring, abs_mul]
    have h2 : |rnd x - x + 2 * x| ≤ u * |x| + 2 * |x| := by
      refine (abs_add_le _ _).trans ?_
      rw [abs_mul, abs_two]
      linarith
    calc _ ≤ u * |x| * (u * |x| + 2 * |x|) :=
          mul_le_mul h1 h2 (abs_nonneg _) (by positivity)
      _ = ((1 + u) ^ 2 - 1) * |x| ^ 2 := by ring
      _ = _ := by rw [sq_abs]
  exact this.again h (sq_nonneg x)

/-- Square of a number. -/
theorem Rounded.sq' (h : Accurate u rnd) (x : ℝ) : Rounded u 1 (x ^ 2) (sqR rnd x) := by
  have := (Rounded.self (u := u) (x ^ 2)).again h (sq_nonneg x)
  unfold sqR
  rwa [pow_two] at *

theorem gammaSquaredR_rounded (h : Accurate u rnd) (R : Mat3 ℝ) :
    Rounded u 7 (gammaSquared R) (gammaSquaredR rnd R) := by
  have hu := h.nonneg
  have a := (((Rounded.sq h (R 0 0 - R 1 1)).add (Rounded.sq h (R 0 0 - R 2 2))).again h
    (by positivity))
  have b := (a.add ((Rounded.sq h (R 1 1 - R 2 2)).mono hu (by norm_num : 3 ≤ 4)
    (by positivity))).again h (by positivity)
  have c := ((Rounded.sq' h (R 0 1)).add (Rounded.sq' h (R 0 2))).again h (by positivity)
  have d := (c.add ((Rounded.sq' h (R 1 2)).mono hu (by norm_num : 1 ≤ 2) (by positivity))).again h
    (by positivity)
  have e := (d.smul (by norm_num : (0 : ℝ) ≤ 6)).again h (by positivity)
  have f := (b.add (e.mono hu (by norm_num : 4 ≤ 5) (by positivity))).again h (by positivity)
  have g := f.half.again h (by positivity)
  exact g

/-- Error of the computed mean of the diagonal. -/
theorem alpha_error (h : Accurate u rnd) (hu1 : u ≤ 1 / 100) (R : Mat3 ℝ) (x g : ℝ)
    (hx : x = |(R 0 0 + R 1 1 + R 2 2) / 3|) (hg : 0 ≤ g) (hg2 : g ^ 2 = gammaSquared R) :
    |rnd (rnd (rnd (R 0 0 + R 1 1) + R 2 2) / 3) - (R 0 0 + R 1 1 + R 2 2) / 3|
      ≤ u * (27 / 10 * x + 23 / 100 * g) := by
  have hu := h.nonneg
  have hx0 : 0 ≤ x := hx ▸ abs_nonneg _
  generalize ha : R 0 0 = a at *
  generalize hb : R 1 1 = b at *
  generalize hc : R 2 2 = c at *
  have hs : |a + b| ≤ 2 * x + 2 / 3 * g := by
    have h1 : |(a - c) + (b - c)| ≤ 2 * g := by
      refine abs_le_of_sq_le_sq ?_ (by linarith)
      have : (2 * g) ^ 2 = 4 * gammaSquared R := by rw [← hg2]; ring
      rw [this]
      unfold gammaSquared
      rw [ha, hb, hc]
      nlinarith [sq_nonneg (a - b), sq_nonneg (R 0 1), sq_nonneg (R 0 2), sq_nonneg (R 1 2),
        sq_nonneg (a - c - (b - c)), sq_nonneg (a - c), sq_nonneg (b - c)]
    have h2 : a + b = 2 * ((a + b + c) / 3) + ((a - c) + (b - c)) / 3 := by ring
    rw [h2]
    refine (abs_add_le _ _).trans ?_
    rw [abs_mul, abs_two, ← hx, abs_div, abs_of_pos (by norm_num : (0 : ℝ) < 3)]
    linarith
  have e1 := h.error (a + b)
  have e2 := h.error (rnd (a + b) + c)
  have e3 := h.error (rnd (rnd (a + b) + c) / 3)
  have ht : |a + b + c| = 3 * x := by
    rw [hx, abs_div, abs_of_pos (by norm_num : (0 : ℝ) < 3)]
    ring
  have f1 : |rnd (a + b) + c - (a + b + c)| ≤ u * (2 * x + 2 / 3 * g) := by
    rw [show rnd (a + b) + c - (a + b + c) = rnd (a + b) - (a + b) by ring]
    exact e1.trans (mul_le_mul_of_nonneg_left hs hu)
  have f2 : |rnd (a + b) + c| ≤ 3 * x + u * (2 * x + 2 / 3 * g) := by
    have := abs_add_le (rnd (a + b) + c - (a + b + c)) (a + b + c)
    rw [sub_add_cancel] at this
    linarith
  have f3 : |rnd (rnd (a + b) + c) - (a + b + c)|
      ≤ u * (3 * x + u * (2 * x + 2 / 3 * g)) + u * (2 * x + 2 / 3 * g) := by
    have := abs_sub_le (rnd (rnd (a + b) + c)) (rnd (a + b) + c) (a + b + c)
    have := mul_le_mul_of_nonneg_left f2 hu
    linarith
  have f4 : |rnd (rnd (a + b) + c) / 3 - (a + b + c) / 3|
      ≤ (u * (3 * x + u * (2 * x + 2 / 3 * g)) + u * (2 * x + 2 / 3 * g)) / 3 := by
    rw [← sub_div, abs_div, abs_of_pos (by norm_num : (0 : ℝ) < 3)]
    exact div_le_div_of_nonneg_right f3 (by norm_num)
  set y := rnd (rnd (a + b) + c) / 3
  set z := (a + b + c) / 3
  have f5 : |y| ≤ |y - z| + x := by
    have := abs_add_le (y - z) z
    rw [sub_add_cancel] at this
    rw [hx]
    exact this
  have f6 : |rnd y - z| ≤ |rnd y - y| + |y - z| := abs_sub_le ..
  have f7 : u * |y| ≤ u * (|y - z| + x) := mul_le_mul_of_nonneg_left f5 hu
  have hu2 : u * u ≤ u * (1 / 100) := mul_le_mul_of_nonneg_left hu1 hu
  have f8 : |y - z| ≤ u * (169 / 100 * x + 225 / 1000 * g) := by
    refine f4.trans ?_
    have hq : 0 ≤ u * (1 / 100) - u * u := by linarith
    nlinarith [mul_nonneg hq hx0, mul_nonneg hq hg, mul_nonneg hu hx0, mul_nonneg hu hg]
  have f9 : u * |y - z| ≤ u * (u * (169 / 100 * x + 225 / 1000 * g)) :=
    mul_le_mul_of_nonneg_left f8 hu
  have hq : 0 ≤ u * (1 / 100) - u * u := by linarith
  nlinarith [mul_nonneg hq hx0, mul_nonneg hq hg, mul_nonneg hu hx0, mul_nonneg hu hg]

/-- C149: computed intensities are accurate to twelve units of roundoff relative to the exact
intensity of the given Raman tensor, however much its entries cancel. -/
theorem C149_accuracy (h : Accurate u rnd) (hu1 : u ≤ 1 / 100) (R : Mat3 ℝ) :
    |rawIntensityR rnd R - rawIntensity R| ≤ 12 * u * rawIntensity R := by
  have hu := h.nonneg
  have hG0 : 0 ≤ gammaSquared R := by unfold gammaSquared; positivity
  obtain ⟨g, hg, hg2⟩ : ∃ g, 0 ≤ g ∧ g ^ 2 = gammaSquared R :=
    ⟨_, Real.sqrt_nonneg _, Real.sq_sqrt hG0⟩
  have he := alpha_error h hu1 R _ g rfl hg hg2
  have hG := ((gammaSquaredR_rounded h R).smul (by norm_num : (0 : ℝ) ≤ 7)).again h (by positivity)
  unfold rawIntensityR rawIntensity alphaSquaredR alphaSquared sqR
  rw [← hg2] at *
  unfold Rounded at hG
  set p := rnd (rnd (rnd (R 0 0 + R 1 1) + R 2 2) / 3)
  set z := (R 0 0 + R 1 1 + R 2 2) / 3
  set x := |z|
  have hx0 : 0 ≤ x := abs_nonneg _
  have hz : z ^ 2 = x ^ 2 := (sq_abs z).symm
  have hx2 : 0 ≤ x ^ 2 := sq_nonneg x
  have hg2' : 0 ≤ g ^ 2 := sq_nonneg g
  have hq : 0 ≤ u * (1 / 100) - u * u := by
    have := mul_le_mul_of_nonneg_left hu1 hu
    linarith
  -- square of the mean
  have a1 : |p * p - x ^ 2| ≤ u * (61 / 10 * x ^ 2 + 12 / 100 * g ^ 2) := by
    rw [← hz, show p * p - z ^ 2 = (p - z) * (p - z + 2 * z) by ring, abs_mul]
    have : |p - z + 2 * z| ≤ u * (27 / 10 * x + 23 / 100 * g) + 2 * x := by
      refine (abs_add_le _ _).trans ?_
      rw [abs_mul, abs_two]
      linarith
    calc _ ≤ u * (27 / 10 * x + 23 / 100 * g) * (u * (27 / 10 * x + 23 / 100 * g) + 2 * x) :=
          mul_le_mul he this (abs_nonneg _) (by positivity)
      _ = u * u * (27 / 10 * x + 23 / 100 * g) ^ 2 + u * (54 / 10 * x ^ 2 + 46 / 100 * (x * g)) := by
          ring
      _ ≤ u * (1 / 100) * (2 * (27 / 10 * x) ^ 2 + 2 * (23 / 100 * g) ^ 2)
          + u * (54 / 10 * x ^ 2 + (46 / 100 * x ^ 2 + 115 / 1000 * g ^ 2)) := by
          refine add_le_add ?_ (mul_le_mul_of_nonneg_left ?_ hu)
          · refine mul_le_mul (by linarith) ?_ (sq_nonneg _) (by positivity)
            nlinarith [sq_nonneg (27 / 10 * x - 23 / 100 * g)]
          · nlinarith [sq_nonneg (x - g / 2)]
      _ ≤ _ := by
          have : 0 ≤ u * x ^ 2 := by positivity
          have : 0 ≤ u * g ^ 2 := by positivity
          nlinarith
  have ux : 0 ≤ u * x ^ 2 := by positivity
  have ug : 0 ≤ u * g ^ 2 := by positivity
  have uux : 0 ≤ (u * (1 / 100) - u * u) * x ^ 2 := mul_nonneg hq hx2
  have uug : 0 ≤ (u * (1 / 100) - u * u) * g ^ 2 := mul_nonneg hq hg2'
  have step : ∀ (X y b : ℝ), |y - X| ≤ b → 0 ≤ X → |rnd y - X| ≤ b + u * (X + b) := by
    intro X y b hy hX
    have h1 := h.error y
    have h2 : |rnd y - X| ≤ |rnd y - y| + |y - X| := abs_sub_le ..
    have h3 : |y| ≤ X + b := by
      have := abs_add_le (y - X) X
      rw [sub_add_cancel, abs_of_nonneg hX] at this
      linarith
    have := mul_le_mul_of_nonneg_left h3 hu
    linarith
  have a2 := step _ _ _ a1 hx2
  have a3 : |45 * rnd (p * p) - 45 * x ^ 2| ≤ 45 * (u * (72 / 10 * x ^ 2 + 13 / 100 * g ^ 2)) := by
    rw [← mul_sub, abs_mul, abs_of_pos (by norm_num : (0 : ℝ) < 45)]
    refine mul_le_mul_of_nonneg_left (a2.trans ?_) (by norm_num)
    nlinarith
  have a4 := step _ _ _ a3 (by positivity)
  have pw : (1 + u) ^ 8 - 1 ≤ 832 / 100 * u := by
    have h2 : (1 + u) ^ 2 ≤ 1 + 201 / 100 * u := by nlinarith
    have h4 : (1 + u) ^ 4 ≤ 1 + 407 / 100 * u := by
      have : ((1 + u) ^ 2) ^ 2 ≤ (1 + 201 / 100 * u) ^ 2 := pow_le_pow_left₀ (by positivity) h2 2
      nlinarith
    have : ((1 + u) ^ 4) ^ 2 ≤ (1 + 407 / 100 * u) ^ 2 := pow_le_pow_left₀ (by positivity) h4 2
    nlinarith
  have g1 : |rnd (7 * gammaSquaredR rnd R) - 7 * g ^ 2| ≤ 832 / 100 * u * (7 * g ^ 2) :=
    hG.trans (mul_le_mul_of_nonneg_right pw (by positivity))
  have s1 : |rnd (45 * rnd (p * p)) + rnd (7 * gammaSquaredR rnd R) - (45 * x ^ 2 + 7 * g ^ 2)|
      ≤ u * (374 * x ^ 2 + 65 * g ^ 2) := by
    rw [show rnd (45 * rnd (p * p)) + rnd (7 * gammaSquaredR rnd R) - (45 * x ^ 2 + 7 * g ^ 2)
      = (rnd (45 * rnd (p * p)) - 45 * x ^ 2) + (rnd (7 * gammaSquaredR rnd R) - 7 * g ^ 2) by ring]
    refine (abs_add_le _ _).trans ?_
    refine (add_le_add a4 g1).trans ?_
    nlinarith
  have s2 := step _ _ _ s1 (by positivity)
  rw [hz]
  refine s2.trans ?_
  nlinarith

end

/-! ## Without rounding -/

theorem mulOptR_id : mulOptR id = mulOpt := by
  funext a b
  cases a <;> cases b <;> rfl

theorem laserEntryR_id (l w : ℝ) : laserEntryR id l w = laserEntry l w := rfl

theorem boseEntryR_id {T : ℝ} (hT : 0 < T) (w : ℝ) : boseEntryR id T w = boseEntry T w := by
  have : boltzmann * T ≠ 0 := (mul_pos (by unfold boltzmann; norm_num) hT).ne'
  unfold boseEntryR
  dsimp only [id]
  rw [if_neg this]
  rfl

theorem rawIntensityR_id (R : Mat3 ℝ) : rawIntensityR id R = rawIntensity R := by
  unfold rawIntensityR rawIntensity alphaSquaredR alphaSquared gammaSquaredR gammaSquared sqR
  dsimp only [id]
  ring

/-- C149: without rounding, the rounded measurement is the measurement. -/
theorem C149_exact (s : PhononSpectrum) (args : MeasureArgs) :
    s.measureR id args = (s.measure args).1 := by
  unfold PhononSpectrum.measureR PhononSpectrum.measure
  split_ifs
  · rfl
  · have hl : ∀ l, applyLaserR id args s.wavenumbers l = applyLaser args s.wavenumbers l := by
      intro l
      unfold applyLaserR applyLaser laserWavenumber laserCorrection
      rw [mulOptR_id]
      by_cases h1 : args.laserCorrection = true
      · rw [if_pos h1, if_pos h1]
        by_cases h2 : args.laserWavelength = 0
        · rw [if_pos h2, if_pos h2]
          rfl
        · rw [if_neg h2, if_neg h2]
          dsimp only [id, bind, Except.bind]
          by_cases h3 : 10000000 / args.laserWavelength ≤ 0
          · rw [if_pos h3, if_pos h3]
          · rw [if_neg h3, if_neg h3]
            rfl
      · rw [if_neg h1, if_neg h1]
    have hb : ∀ l, applyBoseR id args s.wavenumbers l = applyBose args s.wavenumbers l := by
      intro l
      unfold applyBoseR applyBose boseEinsteinCorrection
      rw [mulOptR_id]
      split_ifs with h1 h2
      · rfl
      · rw [List.map_congr_left fun w _ => boseEntryR_id (not_le.1 h2) w]
        rfl
      · rfl
    simp only [hl, hb, rawIntensityR_id]

theorem lineShapeR_id {function : List Char} (hf : Supported function) {width : ℝ} (hw : 0 < width)
    (c x : ℝ) : lineShapeR id function width c x = lineShape function width c x := by
  unfold lineShapeR lineShape
  split_ifs with h1 h2
  · unfold gaussianR sqR
    dsimp only [id]
    rw [if_neg (by positivity)]
    congr 2
    ring_nf
  · unfold lorentzianR sqR npDivR
    dsimp only [id]
    rw [if_neg (add_pos_of_nonneg_of_pos (mul_self_nonneg _) (by positivity)).ne']
    unfold mulOptR
    dsimp only
    congr 2
    ring_nf
  · rfl

/-- C149: without rounding, the rounded convolution is the convolution. -/
theorem C149_convolve_exact {function : List Char} (hf : Supported function) {width : ℝ}
    (hw : 0 < width) (out : List ℝ) (peaks : List (ℝ × ℝ)) (acc : List ℝ) :
    convolveLoopR id function width out (peaks.map fun p => (p.1, some p.2)) (acc.map some)
      = (convolveLoop function width out peaks acc).map (List.map some) := by
  induction peaks generalizing acc with
  | nil => rfl
  | cons p peaks ih =>
    obtain ⟨w, i⟩ := p
    unfold convolveLoop
    rw [List.map_cons]
    unfold convolveLoopR
    split_ifs with h
    · rw [← ih]
      congr 1
      rw [List.zipWith_map_right, List.map_zipWith]
      refine congrArg (fun f => List.zipWith f out acc) ?_
      funext x a
      rw [lineShapeR_id hf hw]
      unfold lineShape
      split_ifs with h1 h2
      · rfl
      · rfl
      · exact absurd hf (by unfold Supported; tauto)
    · rfl

/-! ## Concrete cases -/

/-- A toy floating-point format that rounds numbers just below one to one. -/
def nearOne (x : ℝ) : ℝ := if 995 / 1000 ≤ x ∧ x ≤ 1 then 1 else x

theorem nearOne_accurate : Accurate (1 / 100) nearOne := by
  refine { mono := ?_, zero := ?_, one := ?_, neg_half := ?_, error := ?_ }
  · intro x y hxy
    unfold nearOne
    by_cases h1 : 995 / 1000 ≤ x ∧ x ≤ 1
    · rw [if_pos h1]
      by_cases h2 : 995 / 1000 ≤ y ∧ y ≤ 1
      · rw [if_pos h2]
      · rw [if_neg h2]
        by_contra hy
        exact h2 ⟨h1.1.trans hxy, (not_le.1 hy).le⟩
    · rw [if_neg h1]
      by_cases h2 : 995 / 1000 ≤ y ∧ y ≤ 1
      · rw [if_pos h2]
        exact hxy.trans h2.2
      · rwa [if_neg h2]
  · unfold nearOne; norm_num
  · unfold nearOne; norm_num
  · unfold nearOne; norm_num
  · intro x
    unfold nearOne
    split_ifs with h
    · rw [abs_of_nonneg (by linarith : 0 ≤ x), abs_of_nonneg (by linarith)]
      linarith
    · simp

theorem nearOne_of_lt {x : ℝ} (h : x < 995 / 1000) : nearOne x = x := by
  unfold nearOne
  rw [if_neg (by intro h'; linarith)]

theorem nearOne_of_gt {x : ℝ} (h : 1 ≤ x) : nearOne x = x := by
  unfold nearOne
  split_ifs with h'
  · linarith
  · rfl

theorem nearOne_of_near {x : ℝ} (h : 995 / 1000 ≤ x) (h' : x ≤ 1) : nearOne x = 1 := by
  unfold nearOne
  rw [if_pos ⟨h, h'⟩]

/-- C149, concrete: in the toy format the intensity of the tensor with the single entry 0.997 is 12
instead of 11.928108. -/
example : rawIntensityR nearOne (Matrix.diagonal ![997 / 1000, 0, 0]) = 12 ∧
    rawIntensity (Matrix.diagonal ![997 / 1000, 0, 0]) = 11928108 / 1000000 ∧
    |rawIntensityR nearOne (Matrix.diagonal ![997 / 1000, 0, 0])
      - rawIntensity (Matrix.diagonal ![997 / 1000, 0, 0])|
      ≤ 12 * (1 / 100) * rawIntensity (Matrix.diagonal ![997 / 1000, 0, 0]) := by
  refine ⟨?_, ?_, C149_accuracy nearOne_accurate le_rfl _⟩
  · have z := nearOne_accurate.zero
    have o := nearOne_accurate.one
    have n : nearOne (997 / 1000) = 1 := nearOne_of_near (by norm_num) (by norm_num)
    have t : nearOne (1 / 3) = 1 / 3 := nearOne_of_lt (by norm_num)
    have t' : nearOne (1 / 9) = 1 / 9 := nearOne_of_lt (by norm_num)
    have t2 : nearOne 2 = 2 := nearOne_of_gt (by norm_num)
    have t5 : nearOne 5 = 5 := nearOne_of_gt (by norm_num)
    have t7 : nearOne 7 = 7 := nearOne_of_gt (by norm_num)
    have t12 : nearOne 12 = 12 := nearOne_of_gt (by norm_num)
    have ha : alphaSquaredR nearOne (Matrix.diagonal ![997 / 1000, 0, 0]) = 1 / 9 := by
      simp only [alphaSquaredR, sqR, Matrix.diagonal_apply_eq]
      have v : (![997 / 1000, 0, 0] : Fin 3 → ℝ) 2 = 0 := rfl
      norm_num [v, n, o, t, t']
    have hg : gammaSquaredR nearOne (Matrix.diagonal ![997 / 1000, 0, 0]) = 1 := by
      simp [gammaSquaredR, sqR, n, o, z]
      norm_num [t2, o]
    rw [rawIntensityR, ha, hg]
    norm_num [t5, t7, t12]
  · simp [rawIntensity, alphaSquared, gammaSquared]
    norm_num

/-- C149, concrete: a spectrum with a negative wavenumber shows why it is excluded; with a positive
one the corrected intensity is not negative. -/
example : (∀ x ∈ [laserEntryR nearOne 19000 100], NotNegative x) ∧
    ¬ NotNegative (laserEntryR nearOne 19000 (-100)) := by
  refine ⟨?_, ?_⟩
  · intro x hx
    rw [List.mem_singleton.1 hx]
    exact laserEntryR_nonneg nearOne_accurate.toRounding _ (by norm_num)
  · intro h
    have e : laserEntryR nearOne 19000 (-100) = some (nearOne (nearOne (nearOne
        (nearOne (-100 - 19000) / 10000) ^ 4) / -100)) := by
      unfold laserEntryR npDivR
      rw [if_neg (by norm_num)]
    have h1 : nearOne (-100 - 19000) = -19100 := by rw [nearOne_of_lt (by norm_num)]; norm_num
    have h2 : nearOne (-19100 / 10000) = -191 / 100 := by
      rw [nearOne_of_lt (by norm_num)]; norm_num
    have h3 : nearOne ((-191 / 100) ^ 4) = (191 / 100) ^ 4 := by
      rw [nearOne_of_gt (by norm_num)]; norm_num
    rw [h1, h2, h3, nearOne_of_lt (by norm_num)] at e
    have := h _ e
    norm_num at this

/-- C149, concrete: two peaks, broadened in the toy format. -/
example : ∀ r, convolveLoopR nearOne lorentzianName 5 [0, 1, 2] [(1, some 3), (2, none)]
    ([0, 1, 2].map fun _ => some 0) = .ok r → ∀ x ∈ r, NotNegative x := by
  refine C149_convolve nearOne_accurate.toRounding _ _ (by norm_num) _ _ ?_
  intro p hp
  fin_cases hp
  · exact notNegative_some (by norm_num)
  · intro v hv
    cases hv

/-- C149: rounding can make corrections non-finite although the exact ones are not: the
Bose-Einstein factor at a small positive wavenumber is infinite as soon as the exponential rounds
to one. -/
theorem C149_infinite : ∃ (u : ℝ) (rnd : ℝ → ℝ) (T w : ℝ), Accurate u rnd ∧ u ≤ 1 / 100 ∧ 0 < T ∧
    0 < w ∧ boseEntryR rnd T w = none ∧ boseEntry T w ≠ none := by
  refine ⟨1 / 100, nearOne, 300, 1 / 10, nearOne_accurate, le_rfl, by norm_num, by norm_num, ?_, ?_⟩
  · unfold boseEntryR boltzmann
    dsimp only
    rw [nearOne_of_gt (x := 1 / 10 * 29979245800) (by norm_num),
      nearOne_of_lt (x := 1 / 10 * 29979245800 * (41357 / 10 ^ 19)) (by norm_num),
      nearOne_of_lt (x := 8617333262 / 10 ^ 14 * 300) (by norm_num), if_neg (by norm_num),
      nearOne_of_lt (x := -(1 / 10 * 29979245800 * (41357 / 10 ^ 19)) /
        (8617333262 / 10 ^ 14 * 300)) (by norm_num)]
    rw [nearOne_of_near (x := Real.exp _), sub_self, nearOne_accurate.zero]
    · unfold npDivR
      rw [if_pos rfl]
    · refine le_trans ?_ (Real.add_one_le_exp _)
      norm_num
    · rw [Real.exp_le_one_iff]
      norm_num
  · unfold boseEntry npDiv boltzmann
    dsimp only
    rw [if_neg]
    · simp
    · rw [sub_eq_zero]
      intro h
      have := (Real.exp_eq_one_iff _).1 h.symm
      norm_num at this

end

end Verif
