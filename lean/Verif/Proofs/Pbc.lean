import Verif.Model.Pbc
import Verif.Spec.Basic

/-! Helper lemmas about the periodic-boundary functions. -/

namespace Verif
open Spec

variable {K : Type} [Field K] [LinearOrder K] [IsStrictOrderedRing K] [FloorRing K] {N : ℕ}

theorem pbc1_inCell (x : K) : InCell (pbc1 x) := by
  unfold pbc1 pyFloorDiv InCell
  rw [div_one]
  exact ⟨by linarith [Int.floor_le x], by linarith [Int.lt_floor_add_one x]⟩

theorem pbc1_sameImage (x : K) : SameImage x (pbc1 x) := by
  refine ⟨-⌊x⌋, ?_⟩
  simp [pbc1, pyFloorDiv, sub_eq_add_neg]

theorem pyMod_one (x : K) : pyMod x 1 = pbc1 x := by simp [pyMod, pbc1]

theorem pbc1_unique {x y : K} (h : SameImage x y) (hy : InCell y) : y = pbc1 x :=
  (h.symm.trans (pbc1_sameImage x)).eq_of_inCell hy (pbc1_inCell x)

theorem pbc1_congr {x y : K} (h : SameImage x y) : pbc1 x = pbc1 y :=
  pbc1_unique (h.symm.trans (pbc1_sameImage x)) (pbc1_inCell x)

theorem pbc1_eq_iff {x y : K} : pbc1 x = pbc1 y ↔ SameImage x y :=
  ⟨fun h => (pbc1_sameImage x).trans (h ▸ (pbc1_sameImage y).symm), pbc1_congr⟩

theorem pbc1_of_inCell {x : K} (h : InCell x) : pbc1 x = x :=
  (pbc1_unique (SameImage.refl x) h).symm

theorem wrap1_inHalfBox (x : K) : InHalfBox (wrap1 x) := by
  have h := pbc1_inCell x
  unfold wrap1 InHalfBox
  rw [pyMod_one]
  split_ifs with h1
  · exact ⟨by linarith [h.1], by linarith [h.2]⟩
  · push Not at h1
    exact ⟨by linarith [h.1], h1⟩

theorem wrap1_sameImage (x : K) : SameImage x (wrap1 x) := by
  unfold wrap1
  rw [pyMod_one]
  split_ifs
  · exact (pbc1_sameImage x).trans ⟨-1, by push_cast; ring⟩
  · exact pbc1_sameImage x

theorem wrap1_unique {x y : K} (h : SameImage x y) (hy : InHalfBox y) : y = wrap1 x :=
  (h.symm.trans (wrap1_sameImage x)).eq_of_inHalfBox hy (wrap1_inHalfBox x)

theorem wrap1_congr {x y : K} (h : SameImage x y) : wrap1 x = wrap1 y :=
  wrap1_unique (h.symm.trans (wrap1_sameImage x)) (wrap1_inHalfBox x)

theorem wrap1_of_inHalfBox {x : K} (h : InHalfBox x) : wrap1 x = x :=
  (wrap1_unique (SameImage.refl x) h).symm

theorem wrap1_zero : wrap1 (0 : K) = 0 :=
  wrap1_of_inHalfBox ⟨by norm_num, by norm_num⟩

theorem wrap1_shortest (x : K) : Shortest x (wrap1 x) := by
  refine ⟨wrap1_sameImage x, fun z hz => ?_⟩
  obtain ⟨n, rfl⟩ := ((wrap1_sameImage x).symm.trans hz)
  have hb := wrap1_inHalfBox x
  have hw : |wrap1 x| ≤ 1 / 2 := abs_le.2 ⟨by linarith [hb.1], hb.2⟩
  rcases eq_or_ne n 0 with rfl | hn
  · simp
  · have h1 : (1 : K) ≤ |(n : K)| := by
      rw [← Int.cast_abs]; exact_mod_cast Int.one_le_abs hn
    have h2 : |(n : K)| ≤ |wrap1 x + n| + |wrap1 x| := by
      calc |(n : K)| = |(wrap1 x + n) - wrap1 x| := by ring_nf
        _ ≤ _ := abs_sub _ _
    linarith

/-- `displace_positions` coordinatewise. -/
theorem displace_apply (p d : Pos N K) (a : Fin N) (i : Fin 3) :
    displacePositions p d a i = pbc1 (p a i + d a i) := by
  unfold displacePositions applyPbc applyPbcDisplacement
  exact pbc1_congr ((pbc1_sameImage _).symm.add (wrap1_sameImage _).symm)

/-- `calc_displacement` coordinatewise. -/
theorem calc_apply (p q : Pos N K) (a : Fin N) (i : Fin 3) :
    calcDisplacement p q a i = wrap1 (q a i - p a i) := by
  unfold calcDisplacement applyPbcDisplacement applyPbc
  exact wrap1_congr ((pbc1_sameImage _).symm.sub (pbc1_sameImage _).symm)

theorem verifyPositions_ok_iff (p : Pos N K) :
    verifyPositions p = .ok () ↔ ∀ a i, InClosedCell (p a i) := by
  unfold verifyPositions InClosedCell
  split_ifs with h
  · simp only [reduceCtorEq, false_iff]
    intro h'
    rcases h with ⟨a, i, h⟩ | ⟨a, i, h⟩
    · exact absurd (h' a i).1 (not_le.2 h)
    · exact absurd (h' a i).2 (not_le.2 h)
  · push Not at h
    simp only [true_iff]
    exact fun a i => ⟨h.1 a i, h.2 a i⟩

theorem verifyPositions_error (p : Pos N K) (h : ¬ ∀ a i, InClosedCell (p a i)) :
    verifyPositions p = .error .valueError := by
  have := mt (verifyPositions_ok_iff p).1 h
  unfold verifyPositions at *
  split_ifs with h'
  · rfl
  · simp [h'] at this

theorem transform_ok (p : Pos N K) (R : Mat3 K) (t : Fin 3 → K)
    (h : ∀ a i, InClosedCell (p a i)) :
    transformPositions p R t
      = .ok (displacePositions (applyPbc (matMulPos (applyPbc p) R)) (bcast t)) := by
  unfold transformPositions
  rw [(verifyPositions_ok_iff p).2 h]
  rfl

theorem transform_err (p : Pos N K) (R : Mat3 K) (t : Fin 3 → K)
    (h : ¬ ∀ a i, InClosedCell (p a i)) :
    transformPositions p R t = .error .valueError := by
  unfold transformPositions
  rw [verifyPositions_error p h]
  rfl

theorem matMulPos_sameImage {p q : Pos N K} (h : ∀ a i, SameImage (p a i) (q a i)) {R : Mat3 K}
    (hR : IntegerMatrix R) (a : Fin N) (j : Fin 3) :
    SameImage (matMulPos p R a j) (matMulPos q R a j) := by
  obtain ⟨Z, hZ⟩ := hR
  refine SameImage.sum _ fun i _ => ?_
  rw [hZ]
  exact (h a i).mul_int _

/-- `transform_positions` coordinatewise, for integer rotations. -/
theorem transform_apply_int (p : Pos N K) {R : Mat3 K} (hR : IntegerMatrix R) (t : Fin 3 → K)
    (h : ∀ a i, InClosedCell (p a i)) :
    transformPositions p R t = .ok (fun a j => pbc1 (∑ i, p a i * R i j + t j)) := by
  rw [transform_ok p R t h]
  congr 1
  funext a j
  rw [displace_apply]
  refine pbc1_congr (SameImage.add ?_ (SameImage.refl _))
  exact (pbc1_sameImage _).symm.trans
    (matMulPos_sameImage (fun a i => (pbc1_sameImage (p a i)).symm) hR a j)

/-- `transform_positions` coordinatewise, for positions in the half-open cell. -/
theorem transform_apply_inCell (p : Pos N K) (R : Mat3 K) (t : Fin 3 → K)
    (h : ∀ a i, InCell (p a i)) :
    transformPositions p R t = .ok (fun a j => pbc1 (∑ i, p a i * R i j + t j)) := by
  rw [transform_ok p R t fun a i => ⟨(h a i).1, (h a i).2.le⟩]
  congr 1
  funext a j
  rw [displace_apply]
  refine pbc1_congr (SameImage.add ?_ (SameImage.refl _))
  have : applyPbc p = p := by funext a i; exact pbc1_of_inCell (h a i)
  rw [this]
  exact (pbc1_sameImage _).symm

end Verif
