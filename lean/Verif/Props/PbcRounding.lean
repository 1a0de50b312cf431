import Verif.Props.Pbc

/-!
# C133: accuracy of displacements in floating-point arithmetic
-/

set_option linter.unusedSectionVars false

namespace Verif
open Spec

variable {K : Type} [Field K] [LinearOrder K] [IsStrictOrderedRing K] [FloorRing K] {N : ℕ}

/-- `y` is within `u` of some periodic image of `x`. -/
def Spec.NearImage (u x y : K) : Prop := ∃ z, SameImage x z ∧ |y - z| ≤ u

/-- Floating-point rounding with relative error at most `u` (the unit roundoff). -/
structure Accurate (u : K) (rnd : K → K) : Prop extends Rounding rnd where
  error : ∀ x, |rnd x - x| ≤ u * |x|

section
variable {u : K} {rnd : K → K}

theorem Accurate.nonneg (h : Accurate u rnd) : 0 ≤ u := by
  have := h.error 1
  rw [abs_one, mul_one] at this
  exact (abs_nonneg _).trans this

theorem Accurate.bound (h : Accurate u rnd) {x c : K} (hx : |x| ≤ c) : |rnd x - x| ≤ u * c :=
  (h.error x).trans (mul_le_mul_of_nonneg_left hx h.nonneg)

theorem pbc1R_near (h : Accurate u rnd) (x : K) :
    InClosedCell (pbc1R rnd x) ∧ ∃ k : ℤ, |pbc1R rnd x - (x + k)| ≤ u := by
  have hc := (C06_rounded_closed h.toRounding (N := 1) (fun _ _ => x) (fun _ _ => 0)).1 0 0
  refine ⟨hc, ?_⟩
  obtain ⟨k, hk⟩ := pbc1_sameImage x
  have hi := pbc1_inCell x
  refine ⟨k, ?_⟩
  have := h.bound (x := pbc1 x) (c := 1) (abs_le.2 ⟨by linarith [hi.1], hi.2.le⟩)
  rw [← hk]
  rw [mul_one] at this
  exact this

theorem wrap1R_near (h : Accurate u rnd) (x : K) :
    |wrap1R rnd x| ≤ 1 / 2 ∧ ∃ k : ℤ, |wrap1R rnd x - (x + k)| ≤ 3 / 2 * u := by
  have hu := h.nonneg
  refine ⟨(C06_rounded_closed h.toRounding (N := 1) (fun _ _ => x) (fun _ _ => 0)).2.2.2 x, ?_⟩
  obtain ⟨hc, k, hk⟩ := pbc1R_near h x
  have hm : mod1R rnd x = pbc1R rnd x := by
    unfold mod1R
    rw [pyMod_one]
    rfl
  unfold wrap1R
  rw [hm]
  split_ifs with hx
  · refine ⟨k - 1, ?_⟩
    have h1 := h.bound (x := pbc1R rnd x - 1) (c := 1 / 2) (abs_le.2 ⟨by linarith, by linarith [hc.2]⟩)
    rw [abs_le] at h1 hk ⊢
    push_cast
    constructor <;> linarith
  · refine ⟨k, ?_⟩
    rw [abs_le] at hk ⊢
    constructor <;> linarith

theorem displace1R_near (h : Accurate u rnd) (x y : K) :
    ∃ k : ℤ, |pbc1R rnd (rnd (pbc1R rnd x + wrap1R rnd y)) - (x + y + k)| ≤ 5 * u := by
  obtain ⟨h1, k1, h2⟩ := pbc1R_near h x
  obtain ⟨h3, k2, h4⟩ := wrap1R_near h y
  have h5 := h.bound (x := pbc1R rnd x + wrap1R rnd y) (c := 3 / 2) (by
    rw [abs_le] at h3 ⊢
    constructor <;> linarith [h1.1, h1.2])
  obtain ⟨-, k3, h6⟩ := pbc1R_near h (rnd (pbc1R rnd x + wrap1R rnd y))
  refine ⟨k1 + k2 + k3, ?_⟩
  rw [abs_le] at h2 h4 h5 h6 ⊢
  push_cast
  constructor <;> linarith

theorem calc1R_near (h : Accurate u rnd) (x y : K) :
    |wrap1R rnd (rnd (pbc1R rnd y - pbc1R rnd x))| ≤ 1 / 2 ∧
    ∃ k : ℤ, |wrap1R rnd (rnd (pbc1R rnd y - pbc1R rnd x)) - (y - x + k)| ≤ 9 / 2 * u := by
  obtain ⟨h1, k1, h2⟩ := pbc1R_near h x
  obtain ⟨h3, k2, h4⟩ := pbc1R_near h y
  have h5 := h.bound (x := pbc1R rnd y - pbc1R rnd x) (c := 1) (by
    rw [abs_le]
    constructor <;> linarith [h1.1, h1.2, h3.1, h3.2])
  obtain ⟨h6, k3, h7⟩ := wrap1R_near h (rnd (pbc1R rnd y - pbc1R rnd x))
  refine ⟨h6, k2 - k1 + k3, ?_⟩
  rw [abs_le] at h2 h4 h5 h7 ⊢
  push_cast
  constructor <;> linarith

end

/-- C133: in rounded arithmetic with unit roundoff `u`, whatever the size of the coordinates, the
results of `apply_pbc`, `displace_positions` and `calc_displacement` are off by at most `u`, `5 u`
and `9/2 u`, up to periodic images. -/
theorem C133_accuracy {u : K} {rnd : K → K} (h : Accurate u rnd) (p q d : Pos N K) (a : Fin N)
    (i : Fin 3) :
    NearImage u (p a i) (applyPbcR rnd p a i) ∧
    NearImage (5 * u) (p a i + d a i) (displacePositionsR rnd p d a i) ∧
    NearImage (9 / 2 * u) (q a i - p a i) (calcDisplacementR rnd p q a i) ∧
    |calcDisplacementR rnd p q a i| ≤ 1 / 2 := by
  refine ⟨?_, ?_, ?_, (calc1R_near h _ _).1⟩
  · obtain ⟨-, k, hk⟩ := pbc1R_near h (p a i)
    exact ⟨_, ⟨k, rfl⟩, hk⟩
  · obtain ⟨k, hk⟩ := displace1R_near h (p a i) (d a i)
    exact ⟨_, ⟨k, rfl⟩, hk⟩
  · obtain ⟨-, k, hk⟩ := calc1R_near h (p a i) (q a i)
    exact ⟨_, ⟨k, rfl⟩, hk⟩

/-- C133: a displacement that is shorter than half a cell by at least `10 u` is recovered from the
displaced positions up to `19/2 u`. -/
theorem C133_roundtrip {u : K} {rnd : K → K} (h : Accurate u rnd) (p d : Pos N K) (a : Fin N)
    (i : Fin 3) (hd : |d a i| + 19 / 2 * u < 1 / 2) :
    |calcDisplacementR rnd p (displacePositionsR rnd p d) a i - d a i| ≤ 19 / 2 * u := by
  obtain ⟨k, hk⟩ := displace1R_near h (p a i) (d a i)
  obtain ⟨h1, k', hk'⟩ := calc1R_near h (p a i) (displacePositionsR rnd p d a i)
  have hq : displacePositionsR rnd p d a i =
      pbc1R rnd (rnd (pbc1R rnd (p a i) + wrap1R rnd (d a i))) := rfl
  rw [← hq] at hk
  change |calcDisplacementR rnd p (displacePositionsR rnd p d) a i| ≤ 1 / 2 at h1
  change |calcDisplacementR rnd p (displacePositionsR rnd p d) a i - _| ≤ _ at hk'
  generalize calcDisplacementR rnd p (displacePositionsR rnd p d) a i = c at *
  have hm : |((k + k' : ℤ) : K)| < 1 := by
    have hd' := le_abs_self (d a i)
    have hd'' := neg_abs_le (d a i)
    rw [abs_le] at hk hk' h1
    rw [abs_lt]
    push_cast
    constructor <;> linarith
  have hz : k + k' = 0 := by
    rw [← Int.cast_abs] at hm
    have : |k + k'| < 1 := by exact_mod_cast hm
    exact Int.abs_lt_one_iff.1 this
  have hz' : (k : K) + k' = 0 := by exact_mod_cast hz
  rw [abs_le] at hk hk' ⊢
  constructor <;> linarith

/-- A toy floating-point format: eighths between one half and one, exact elsewhere. -/
def roundUpper (x : ℚ) : ℚ := if 1 / 2 ≤ x ∧ x ≤ 1 then roundEighth x else x

theorem roundEighth_half : roundEighth (1 / 2) = 1 / 2 := by
  unfold roundEighth
  have : ⌊(8 * (1 / 2) + 1 / 2 : ℚ)⌋ = 4 := by rw [Int.floor_eq_iff]; norm_num
  rw [this]; norm_num

theorem roundUpper_accurate : Accurate (1 / 8) roundUpper := by
  have hr := roundEighth_rounding
  have hlo : ∀ x : ℚ, 1 / 2 ≤ x → 1 / 2 ≤ roundEighth x := by
    intro x hx
    have := hr.mono hx
    rwa [roundEighth_half] at this
  have hhi : ∀ x : ℚ, x ≤ 1 → roundEighth x ≤ 1 := by
    intro x hx
    have := hr.mono hx
    rwa [hr.one] at this
  refine { mono := ?_, zero := ?_, one := ?_, neg_half := ?_, error := ?_ }
  · intro x y hxy
    unfold roundUpper
    split_ifs with h1 h2 h2
    · exact hr.mono hxy
    · have : 1 < y := by
        by_contra hy
        exact h2 ⟨h1.1.trans hxy, not_lt.1 hy⟩
      exact (hhi x h1.2).trans this.le
    · have : x < 1 / 2 := by
        by_contra hx
        exact h1 ⟨not_lt.1 hx, hxy.trans h2.2⟩
      exact this.le.trans (hlo y h2.1)
    · exact hxy
  · unfold roundUpper; norm_num
  · unfold roundUpper
    rw [if_pos (by norm_num)]
    exact hr.one
  · unfold roundUpper; norm_num
  · intro x
    unfold roundUpper
    split_ifs with h
    · rw [abs_of_nonneg (by linarith : 0 ≤ x)]
      have : |roundEighth x - x| ≤ 1 / 16 := by
        unfold roundEighth
        have h1 := Int.floor_le (8 * x + 1 / 2)
        have h2 := Int.lt_floor_add_one (8 * x + 1 / 2)
        rw [abs_le]
        constructor <;> linarith
      linarith
    · simp

/-- C133, concrete: with eighths above one half, 0.7 becomes 0.75, and the position after moving by
0.2 is within 5/8 of an image of 0.9. -/
example : pbc1R roundUpper (7 / 10) = 3 / 4 ∧ NearImage (5 * (1 / 8)) (7 / 10 + 2 / 10 : ℚ)
    (displacePositionsR (N := 1) roundUpper (fun _ _ => 7 / 10) (fun _ _ => 2 / 10) 0 0) := by
  refine ⟨?_, (C133_accuracy roundUpper_accurate (N := 1) (fun _ _ => 7 / 10) (fun _ _ => 0)
    (fun _ _ => 2 / 10) 0 0).2.1⟩
  have h0 : ⌊(7 / 10 : ℚ)⌋ = 0 := by rw [Int.floor_eq_iff]; norm_num
  have h1 : ⌊(8 * (7 / 10) + 1 / 2 : ℚ)⌋ = 6 := by rw [Int.floor_eq_iff]; norm_num
  simp only [pbc1R, pyFloorDiv, div_one, h0, Int.cast_zero, sub_zero, roundUpper, roundEighth, h1]
  norm_num

/-- C133, concrete: exact arithmetic meets the assumptions with `u = 0`. -/
example : |calcDisplacementR (N := 1) (id : ℚ → ℚ) (fun _ _ => 9 / 10)
    (displacePositionsR id (fun _ _ => 9 / 10) (fun _ _ => 1 / 4)) 0 0 - 1 / 4| ≤ 0 := by
  have h : Accurate (0 : ℚ) id :=
    { mono := fun _ _ h => h, zero := rfl, one := rfl, neg_half := rfl, error := by simp }
  have := C133_roundtrip h (N := 1) (fun _ _ => 9 / 10) (fun _ _ => 1 / 4) 0 0
    (by norm_num [abs_of_pos])
  simpa using this

end Verif
