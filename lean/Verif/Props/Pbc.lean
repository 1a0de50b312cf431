import Verif.Proofs.Pbc
import Mathlib.Data.Matrix.Diagonal

/-!
# Properties C01-C06: periodic boundary conditions (`structure/utils.py`)
-/

set_option linter.unusedSectionVars false

namespace Verif
open Spec

variable {K : Type} [Field K] [LinearOrder K] [IsStrictOrderedRing K] [FloorRing K] {N : ℕ}

/-! ## C01 -/

/-- C01: `apply_pbc` yields the unique in-cell image of every coordinate and is
idempotent. -/
theorem C01_apply_pbc (p : Pos N K) :
    (∀ a i, InCell (applyPbc p a i) ∧ SameImage (p a i) (applyPbc p a i)) ∧
    (∀ q : Pos N K, (∀ a i, InCell (q a i) ∧ SameImage (p a i) (q a i)) → q = applyPbc p) ∧
    applyPbc (applyPbc p) = applyPbc p := by
  refine ⟨fun a i => ⟨pbc1_inCell _, pbc1_sameImage _⟩, fun q hq => ?_, ?_⟩
  · funext a i; exact pbc1_unique (hq a i).2 (hq a i).1
  · funext a i; exact pbc1_of_inCell (pbc1_inCell _)

/-- C01, concrete run: `apply_pbc([[-0.25, 2.5, 1.0]]) = [[0.75, 0.5, 0.0]]`. -/
example : applyPbc (N := 1) (K := ℚ) (fun _ => ![-1/4, 5/2, 1]) = fun _ => ![3/4, 1/2, 0] := by
  funext a i
  refine (pbc1_unique (x := (![-1/4, 5/2, 1] : Fin 3 → ℚ) i) ?_ ?_).symm
  · fin_cases i
    · exact ⟨1, by norm_num⟩
    · exact ⟨-2, by norm_num⟩
    · exact ⟨-1, by norm_num⟩
  · fin_cases i <;> norm_num [InCell]

/-! ## C02 -/

/-- C02: `apply_pbc_displacement` yields the unique representative in `(-1/2,1/2]`, which
is a shortest one; it is idempotent. -/
theorem C02_apply_pbc_displacement (d : Pos N K) :
    (∀ a i, InHalfBox (applyPbcDisplacement d a i) ∧ Shortest (d a i) (applyPbcDisplacement d a i))
    ∧ (∀ e : Pos N K, (∀ a i, InHalfBox (e a i) ∧ SameImage (d a i) (e a i)) →
        e = applyPbcDisplacement d)
    ∧ applyPbcDisplacement (applyPbcDisplacement d) = applyPbcDisplacement d := by
  refine ⟨fun a i => ⟨wrap1_inHalfBox _, wrap1_shortest _⟩, fun q hq => ?_, ?_⟩
  · funext a i; exact wrap1_unique (hq a i).2 (hq a i).1
  · funext a i; exact wrap1_of_inHalfBox (wrap1_inHalfBox _)

/-- C02, concrete run: `0.75 ↦ -0.25`, `-0.5 ↦ 0.5`, `0.5 ↦ 0.5`. -/
example : applyPbcDisplacement (N := 1) (K := ℚ) (fun _ => ![3/4, -1/2, 1/2])
    = fun _ => ![-1/4, 1/2, 1/2] := by
  funext a i
  refine (wrap1_unique (x := (![3/4, -1/2, 1/2] : Fin 3 → ℚ) i) ?_ ?_).symm
  · fin_cases i
    · exact ⟨-1, by norm_num⟩
    · exact ⟨1, by norm_num⟩
    · exact ⟨0, by norm_num⟩
  · fin_cases i <;> norm_num [InHalfBox]

/-! ## C03 -/

/-- C03: `displace_positions(p,d)` is the in-cell image of `p+d`; it does not see periodic
images of either argument; displacing by `d`, then `e` is displacing by `d+e`; a zero
displacement is `apply_pbc`. -/
theorem C03_displace_positions (p d : Pos N K) :
    (∀ a i, InCell (displacePositions p d a i) ∧
      SameImage (p a i + d a i) (displacePositions p d a i)) ∧
    (∀ p' d' : Pos N K, (∀ a i, SameImage (p a i) (p' a i)) →
      (∀ a i, SameImage (d a i) (d' a i)) →
      displacePositions p' d' = displacePositions p d) ∧
    (∀ e : Pos N K, displacePositions (displacePositions p d) e
      = displacePositions p (fun a i => d a i + e a i)) ∧
    (displacePositions p (fun _ _ => 0) = applyPbc p) := by
  refine ⟨fun a i => ?_, fun p' d' hp hd => ?_, fun e => ?_, ?_⟩
  · rw [displace_apply]; exact ⟨pbc1_inCell _, pbc1_sameImage _⟩
  · funext a i
    rw [displace_apply, displace_apply]
    exact pbc1_congr ((hp a i).symm.add (hd a i).symm)
  · funext a i
    rw [displace_apply, displace_apply, displace_apply]
    rw [← add_assoc]
    exact pbc1_congr ((pbc1_sameImage _).symm.add (SameImage.refl _))
  · funext a i; rw [displace_apply, add_zero]; rfl

/-- C03, non-trivial images: shifting an atom by a lattice vector and the displacement by
another one changes the arguments but not the result. -/
example : displacePositions (N := 1) (K := ℚ) (fun _ => ![9/10, 0, 0]) (fun _ => ![3/10, 0, 0])
    = displacePositions (fun _ => ![-1/10, 2, 0]) (fun _ => ![13/10, 0, -5]) := by
  refine ((C03_displace_positions _ _).2.1 _ _ (fun a i => ?_) fun a i => ?_)
  · fin_cases i
    · exact ⟨1, by norm_num⟩
    · exact ⟨-2, by norm_num⟩
    · exact ⟨0, by norm_num⟩
  · fin_cases i
    · exact ⟨-1, by norm_num⟩
    · exact ⟨0, by norm_num⟩
    · exact ⟨5, by norm_num⟩

/-! ## C04 -/

/-- C04: `calc_displacement` and `displace_positions` are inverse to each other; the result
is the shortest displacement between images; it does not see periodic images; it is
antisymmetric except on coordinates exactly half a cell apart, where both directions
give `+1/2`. -/
theorem C04_calc_displacement (p q : Pos N K) :
    displacePositions p (calcDisplacement p q) = applyPbc q ∧
    (∀ d : Pos N K, calcDisplacement p (displacePositions p d) = applyPbcDisplacement d) ∧
    (∀ a i, Shortest (q a i - p a i) (calcDisplacement p q a i)) ∧
    (∀ p' q' : Pos N K, (∀ a i, SameImage (p a i) (p' a i)) →
      (∀ a i, SameImage (q a i) (q' a i)) → calcDisplacement p' q' = calcDisplacement p q) ∧
    (∀ a i, ¬ SameImage (q a i - p a i) (1 / 2) →
      calcDisplacement q p a i = - calcDisplacement p q a i) ∧
    (∀ a i, SameImage (q a i - p a i) (1 / 2) →
      calcDisplacement q p a i = 1 / 2 ∧ calcDisplacement p q a i = 1 / 2) := by
  refine ⟨?_, fun d => ?_, fun a i => ?_, fun p' q' hp hq => ?_, fun a i h => ?_, fun a i h => ?_⟩
  · funext a i
    rw [displace_apply, calc_apply]
    refine pbc1_congr ?_
    have := (SameImage.refl (p a i)).add (wrap1_sameImage (q a i - p a i)).symm
    simpa using this
  · funext a i
    rw [calc_apply, displace_apply]
    refine wrap1_congr ?_
    have := (pbc1_sameImage (p a i + d a i)).symm.sub (SameImage.refl (p a i))
    simpa using this
  · rw [calc_apply]; exact wrap1_shortest _
  · funext a i
    rw [calc_apply, calc_apply]
    exact wrap1_congr ((hq a i).symm.sub (hp a i).symm)
  · rw [calc_apply, calc_apply]
    have hb := wrap1_inHalfBox (q a i - p a i)
    have hne : wrap1 (q a i - p a i) ≠ 1 / 2 := fun hc =>
      h (hc ▸ wrap1_sameImage (q a i - p a i))
    refine (wrap1_unique ?_ ⟨?_, ?_⟩).symm
    · have := (wrap1_sameImage (q a i - p a i)).neg
      simpa using this
    · linarith [lt_of_le_of_ne hb.2 hne]
    · linarith [hb.1]
  · rw [calc_apply, calc_apply]
    have hh : InHalfBox (1 / 2 : K) := ⟨by linarith [half_pos (one_pos (α := K))], le_refl _⟩
    refine ⟨(wrap1_unique ?_ hh).symm, (wrap1_unique h hh).symm⟩
    have h1 := h.neg
    rw [neg_sub] at h1
    exact h1.trans ⟨1, by push_cast; ring⟩

/-- C04, both boundary cases occur: coordinates `0.1` and `0.9` are `-0.2` apart, `0` and `0.5`
are `+0.5` apart in both directions. -/
example : ¬ SameImage ((9/10 : ℚ) - 1/10) (1 / 2) ∧ SameImage ((1/2 : ℚ) - 0) (1 / 2) := by
  refine ⟨?_, ⟨0, by norm_num⟩⟩
  rintro ⟨n, h⟩
  have h2 : ((10 * n : ℤ) : ℚ) = ((-3 : ℤ) : ℚ) := by push_cast; linarith
  have h3 : 10 * n = -3 := by exact_mod_cast h2
  omega

/-! ## C05 -/

/-- C05, validation: `transform_positions` raises `ValueError` exactly when some coordinate
is outside `[0,1]`, and raises nothing else. -/
theorem C05_transform_validation (p : Pos N K) (R : Mat3 K) (t : Fin 3 → K) :
    ((∃ a i, ¬ InClosedCell (p a i)) ↔ transformPositions p R t = .error .valueError) ∧
    ((∀ a i, InClosedCell (p a i)) ↔ ∃ q, transformPositions p R t = .ok q) := by
  by_cases h : ∀ a i, InClosedCell (p a i)
  · constructor
    · refine ⟨fun ⟨a, i, h'⟩ => absurd (h a i) h', fun h' => ?_⟩
      rw [transform_ok p R t h] at h'; simp at h'
    · exact ⟨fun _ => ⟨_, transform_ok p R t h⟩, fun _ => h⟩
  · constructor
    · refine ⟨fun _ => transform_err p R t h, fun _ => ?_⟩
      push Not at h; exact h
    · refine ⟨fun h' => absurd h' h, fun ⟨q, hq⟩ => ?_⟩
      rw [transform_err p R t h] at hq; simp at hq

/-- C05, value: for in-cell positions and any rotation, or closed-cell positions and integer
rotations, the result is the in-cell image of `p @ R + t`. -/
theorem C05_transform_value (p : Pos N K) (R : Mat3 K) (t : Fin 3 → K)
    (h : (∀ a i, InCell (p a i)) ∨ (IntegerMatrix R ∧ ∀ a i, InClosedCell (p a i))) :
    ∃ q, transformPositions p R t = .ok q ∧
      ∀ a j, InCell (q a j) ∧ SameImage (∑ i, p a i * R i j + t j) (q a j) := by
  rcases h with h | ⟨hR, h⟩
  · exact ⟨_, transform_apply_inCell p R t h, fun a j => ⟨pbc1_inCell _, pbc1_sameImage _⟩⟩
  · exact ⟨_, transform_apply_int p hR t h, fun a j => ⟨pbc1_inCell _, pbc1_sameImage _⟩⟩

/-- C05: whatever is returned is in the half-open cell, hence can be transformed again. -/
theorem C05_transform_closed (p q : Pos N K) (R : Mat3 K) (t : Fin 3 → K)
    (h : transformPositions p R t = .ok q) :
    (∀ a i, InCell (q a i)) ∧ ∀ R' t', ∃ r, transformPositions q R' t' = .ok r := by
  have h0 := (C05_transform_validation p R t).2.2 ⟨q, h⟩
  rw [transform_ok p R t h0] at h
  cases h
  have hc : ∀ (a : Fin N) (i : Fin 3), InCell
      (displacePositions (applyPbc (matMulPos (applyPbc p) R)) (bcast t) a i) := fun a i => by
    rw [displace_apply]; exact pbc1_inCell _
  exact ⟨hc, fun R' t' => ⟨_, transform_ok _ R' t' fun a i => ⟨(hc a i).1, (hc a i).2.le⟩⟩⟩

/-- C05, group action: for integer rotations, transforming by `(R1,t1)` and then by `(R2,t2)`
is transforming by `(R1 R2, t1 R2 + t2)`; the identity operation is `apply_pbc`. -/
theorem C05_transform_compose (p : Pos N K) {R1 R2 : Mat3 K} (t1 t2 : Fin 3 → K)
    (h1 : IntegerMatrix R1) (h2 : IntegerMatrix R2) (h : ∀ a i, InClosedCell (p a i)) :
    (transformPositions p R1 t1 >>= fun q => transformPositions q R2 t2)
      = transformPositions p (R1 * R2) (fun j => ∑ i, t1 i * R2 i j + t2 j) ∧
    transformPositions p 1 (fun _ => 0) = .ok (applyPbc p) := by
  have h12 : IntegerMatrix (R1 * R2) := by
    obtain ⟨Z1, hZ1⟩ := h1; obtain ⟨Z2, hZ2⟩ := h2
    exact ⟨Z1 * Z2, fun i j => by simp [Matrix.mul_apply, hZ1, hZ2]⟩
  have hid : IntegerMatrix (1 : Mat3 K) := ⟨1, fun i j => by
    by_cases hij : i = j <;> simp [Matrix.one_apply, hij]⟩
  constructor
  · rw [transform_apply_int p h1 t1 h, transform_apply_int p h12 _ h]
    change transformPositions _ R2 t2 = _
    rw [transform_apply_int _ h2 t2 fun a i => ⟨(pbc1_inCell _).1, (pbc1_inCell _).2.le⟩]
    congr 1
    funext a j
    refine pbc1_congr ?_
    have hs : SameImage (∑ i, pbc1 (∑ k, p a k * R1 k i + t1 i) * R2 i j + t2 j)
        (∑ i, (∑ k, p a k * R1 k i + t1 i) * R2 i j + t2 j) := by
      refine SameImage.add (SameImage.sum _ fun i _ => ?_) (SameImage.refl _)
      obtain ⟨Z2, hZ2⟩ := h2
      rw [hZ2]
      exact (pbc1_sameImage _).symm.mul_int _
    refine hs.trans ?_
    have : ∑ i, (∑ k, p a k * R1 k i + t1 i) * R2 i j + t2 j
        = ∑ k, p a k * (R1 * R2) k j + (∑ i, t1 i * R2 i j + t2 j) := by
      simp only [Matrix.mul_apply, Fin.sum_univ_three]
      ring
    rw [this]
    exact SameImage.refl _
  · rw [transform_apply_int p hid _ h]
    congr 1
    funext a j
    simp [Matrix.one_apply, applyPbc]

/-- C05: inverse operations undo each other. -/
theorem C05_transform_inverse (p : Pos N K) {R S : Mat3 K} (t : Fin 3 → K)
    (hR : IntegerMatrix R) (hS : IntegerMatrix S) (hRS : R * S = 1)
    (h : ∀ a i, InClosedCell (p a i)) :
    (transformPositions p R t >>= fun q => transformPositions q S (fun j => -∑ i, t i * S i j))
      = .ok (applyPbc p) := by
  have hc := C05_transform_compose p t (fun j => -∑ i, t i * S i j) hR hS h
  rw [hc.1, hRS, ← hc.2]
  congr 1
  funext j
  simp

/-- The hypotheses of the C05 theorems are met by a fourfold screw operation on a two-atom
cell with one atom on the boundary. -/
example : IntegerMatrix (!![0, 1, 0; -1, 0, 0; 0, 0, 1] : Mat3 ℚ) ∧
    (!![0, 1, 0; -1, 0, 0; 0, 0, 1] : Mat3 ℚ) * !![0, -1, 0; 1, 0, 0; 0, 0, 1] = 1 ∧
    (∀ a i, InClosedCell ((![![0, 1, 1/2], ![1/4, 1/3, 9/10]] : Pos 2 ℚ) a i)) ∧
    ¬ InClosedCell (-1/4 : ℚ) := by
  refine ⟨⟨!![0, 1, 0; -1, 0, 0; 0, 0, 1], fun i j => ?_⟩, ?_, fun a i => ?_, ?_⟩
  · fin_cases i <;> fin_cases j <;> simp
  · ext i j; fin_cases i <;> fin_cases j <;> simp [Matrix.mul_apply, Fin.sum_univ_three]
  · fin_cases a <;> fin_cases i <;> norm_num [InClosedCell]
  · norm_num [InClosedCell]

/-! ## C06 -/

/-- What is assumed of floating-point rounding: it is monotone and exact on `0, ±1/2, 1`. -/
structure Rounding (rnd : K → K) : Prop where
  mono : Monotone rnd
  zero : rnd 0 = 0
  one : rnd 1 = 1
  neg_half : rnd (-(1 / 2)) = -(1 / 2)

/-- C06, positive part: in rounded arithmetic every coordinate produced by `apply_pbc` and
`displace_positions` lies in the closed cell, so `verify_positions` never rejects it, and
every wrapped displacement lies in `[-1/2,1/2]`. -/
theorem C06_rounded_closed {rnd : K → K} (hr : Rounding rnd) (p d : Pos N K) :
    (∀ a i, InClosedCell (applyPbcR rnd p a i)) ∧
    verifyPositions (applyPbcR rnd p) = .ok () ∧
    verifyPositions (displacePositionsR rnd p d) = .ok () ∧
    (∀ x : K, |wrap1R rnd x| ≤ 1 / 2) := by
  have h1 : ∀ x : K, InClosedCell (pbc1R rnd x) := fun x => by
    have h := pbc1_inCell x
    have h0 := hr.mono h.1
    have h2 := hr.mono h.2.le
    rw [hr.zero] at h0; rw [hr.one] at h2
    exact ⟨h0, h2⟩
  refine ⟨fun a i => h1 _, (verifyPositions_ok_iff _).2 fun a i => h1 _,
    (verifyPositions_ok_iff _).2 fun a i => h1 _, fun x => ?_⟩
  have hm : InClosedCell (mod1R rnd x) := by
    unfold mod1R; rw [pyMod_one]; exact h1 x
  unfold wrap1R
  split_ifs with hx
  · have a1 : rnd (-(1 / 2)) ≤ rnd (mod1R rnd x - 1) := hr.mono (by linarith)
    have a2 : rnd (mod1R rnd x - 1) ≤ rnd 0 := hr.mono (by linarith [hm.2])
    rw [hr.neg_half] at a1; rw [hr.zero] at a2
    exact abs_le.2 ⟨a1, by linarith [half_pos (one_pos (α := K))]⟩
  · push Not at hx
    exact abs_le.2 ⟨by linarith [hm.1, half_pos (one_pos (α := K))], hx⟩

/-- Round to nearest multiple of `1/8`: a toy floating-point format with the assumed laws. -/
def roundEighth (x : ℚ) : ℚ := (⌊8 * x + 1 / 2⌋ : ℤ) / 8

theorem roundEighth_rounding : Rounding roundEighth where
  mono := fun x y h => by
    unfold roundEighth
    have : ⌊8 * x + 1 / 2⌋ ≤ ⌊8 * y + 1 / 2⌋ := Int.floor_le_floor (by linarith)
    have h2 : ((⌊8 * x + 1 / 2⌋ : ℤ) : ℚ) ≤ ((⌊8 * y + 1 / 2⌋ : ℤ) : ℚ) := by exact_mod_cast this
    linarith
  zero := by
    have : ⌊(8 * 0 + 1 / 2 : ℚ)⌋ = 0 := by rw [Int.floor_eq_iff]; norm_num
    simp only [roundEighth, this]; norm_num
  one := by
    have : ⌊(8 * 1 + 1 / 2 : ℚ)⌋ = 8 := by rw [Int.floor_eq_iff]; norm_num
    simp only [roundEighth, this]; norm_num
  neg_half := by
    have : ⌊(8 * (-(1 / 2)) + 1 / 2 : ℚ)⌋ = -4 := by rw [Int.floor_eq_iff]; norm_num
    simp only [roundEighth, this]; norm_num

/-- C06, negative part: the half-open bound and idempotence fail in rounded arithmetic: a tiny
negative coordinate is returned as exactly `1`, a second application returns `0`. -/
theorem C06_rounded_counterexample :
    ∃ rnd : ℚ → ℚ, Rounding rnd ∧ ∃ x : ℚ, x < 0 ∧ pbc1R rnd x = 1 ∧
      ¬ InCell (pbc1R rnd x) ∧ pbc1R rnd (pbc1R rnd x) ≠ pbc1R rnd x := by
  have hx : pbc1R roundEighth (-1/1000) = 1 := by
    have : ⌊(-1/1000 : ℚ)⌋ = -1 := by rw [Int.floor_eq_iff]; norm_num
    have h2 : ⌊(8 * (-1/1000 - -1) + 1 / 2 : ℚ)⌋ = 8 := by rw [Int.floor_eq_iff]; norm_num
    simp only [pbc1R, pyFloorDiv, div_one, this, roundEighth]
    push_cast
    rw [h2]; norm_num
  refine ⟨roundEighth, roundEighth_rounding, -1/1000, by norm_num, hx, ?_, ?_⟩
  · rw [hx]; norm_num [InCell]
  · rw [hx]
    have h2 : ⌊(8 * (1 - 1) + 1 / 2 : ℚ)⌋ = 0 := by rw [Int.floor_eq_iff]; norm_num
    simp only [pbc1R, pyFloorDiv, div_one, Int.floor_one, roundEighth]
    push_cast
    rw [h2]; norm_num

end Verif
