import Verif.Model.Reference
import Verif.Spec.Crystal
import Verif.Proofs.Pbc
import Verif.Proofs.Symmetry

/-! Helper lemmas about permutation matrices and candidates. -/

namespace Verif
open Spec

variable {N : ℕ}

theorem permMatrix_iff (ref perm : Pos N ℝ) (j i : Fin N) :
    permMatrix ref perm j i = true ↔ Within (1 / 10 ^ 5) (ref j) (perm i) := by
  unfold permMatrix Within
  rw [decide_eq_true_eq]
  constructor
  · intro h
    choose n hn using fun c => wrap1_sameImage (ref j c - perm i c)
    refine ⟨n, ?_⟩
    simpa only [← hn] using h
  · rintro ⟨n, hn⟩
    refine lt_of_le_of_lt (Real.sqrt_le_sqrt (Finset.sum_le_sum fun c _ => ?_)) hn
    have := (wrap1_shortest (ref j c - perm i c)).2 (ref j c - perm i c + n c) ⟨n c, rfl⟩
    exact sq_le_sq.2 this

theorem within_apart_contra {x y z : Fin 3 → ℝ} {ε : ℝ} (h1 : Within ε x z) (h2 : Within ε y z)
    (h : Apart (2 * ε) x y) : False := by
  obtain ⟨n, hn⟩ := h1
  obtain ⟨m, hm⟩ := h2
  have h3 := h (fun c => n c - m c)
  have key := norm2_add_le (fun c => x c - z c + n c) (fun c => -1 * (y c - z c + m c))
  rw [norm2_smul] at key
  simp only [abs_neg, abs_one, one_mul] at key
  have e : (fun i => x i - z i + ↑(n i) + -1 * (y i - z i + ↑(m i)))
      = fun c => x c - y c + ((n c - m c : ℤ) : ℝ) := by
    funext c; push_cast; ring
  rw [e] at key
  unfold norm2 dot at key
  simp only [← sq] at key
  linarith

theorem permMatrix_eq {ref perm : Pos N ℝ} {σ : Equiv.Perm (Fin N)}
    (hm : ∀ i, Within (1 / 10 ^ 5) (ref (σ i)) (perm i))
    (hs : ∀ j k, j ≠ k → Apart (2 / 10 ^ 5) (ref j) (ref k)) (j i : Fin N) :
    permMatrix ref perm j i = decide (j = σ i) := by
  rw [Bool.eq_iff_iff, permMatrix_iff, decide_eq_true_eq]
  constructor
  · intro h
    by_contra hne
    refine within_apart_contra h (hm i) ?_
    have := hs j (σ i) hne
    rwa [show (2 / 10 ^ 5 : ℝ) = 2 * (1 / 10 ^ 5) by ring] at this
  · rintro rfl; exact hm i

theorem permApply_perm (σ : Equiv.Perm (Fin N)) (P : PermMat N)
    (hP : ∀ j i, P j i = decide (j = σ i)) (q : Pos N ℝ) (a : Fin N) (c : Fin 3) :
    permApply P q (σ a) c = q a c := by
  unfold permApply
  rw [Finset.sum_eq_single a]
  · simp [hP]
  · intro b _ hb
    have : ¬ σ a = σ b := fun h => hb (σ.injective h).symm
    simp [hP, this]
  · intro h; exact absurd (Finset.mem_univ a) h

theorem permMatrixOf_shift (s : Vec3) (p : Pos N ℝ) (op : SymOp) :
    permMatrixOf s p op = permMatrixOf (fun _ => 0) p op := by
  unfold permMatrixOf
  by_cases h : ∀ a i, InClosedCell (p a i)
  · rw [transform_ok p _ _ h, transform_ok p _ _ h]
    change Except.ok _ = Except.ok _
    congr 1
    funext j i
    unfold permMatrix
    congr 3
    congr 1
    funext c
    congr 1
    rw [displace_apply, displace_apply, displace_apply, displace_apply]
    refine wrap1_congr ?_
    simp only [bcast]
    have h1 := ((pbc1_sameImage (p j c + s c)).symm.sub
      (pbc1_sameImage (applyPbc (matMulPos (applyPbc p) op.rot) i c + (op.trans c + s c))).symm)
    have h2 := ((pbc1_sameImage (p j c + 0)).sub
      (pbc1_sameImage (applyPbc (matMulPos (applyPbc p) op.rot) i c + (op.trans c + 0))))
    refine h1.trans (SameImage.trans ?_ h2)
    exact ⟨0, by push_cast; ring⟩
  · rw [transform_err p _ _ h, transform_err p _ _ h]
    rfl

theorem candidate_ok (p d : Pos N ℝ) (op : SymOp) (P : PermMat N) :
    ∃ c, candidate p (displacePositions p d) op P = .ok c := by
  unfold candidate
  rw [transform_ok _ _ _ fun a i => ?_]
  · exact ⟨_, rfl⟩
  · rw [displace_apply]; exact ⟨(pbc1_inCell _).1, (pbc1_inCell _).2.le⟩

theorem candidate_sym {p d : Pos N ℝ} {op : SymOp} {P : PermMat N} {σ : Equiv.Perm (Fin N)}
    (hsym : IsSymmetry p op.rot op.trans σ) (hP : ∀ j i, P j i = decide (j = σ i)) :
    ∃ c, candidate p (displacePositions p d) op P = .ok c ∧
      ∀ a j, c (σ a) j = wrap1 (∑ i, d a i * op.rot i j) := by
  obtain ⟨hR, hs⟩ := hsym
  unfold candidate
  rw [transform_apply_int _ hR _ fun a i => ?_]
  · refine ⟨_, rfl, fun a j => ?_⟩
    rw [calc_apply, permApply_perm σ P hP]
    refine wrap1_congr ?_
    have h1 : SameImage (pbc1 (∑ i, displacePositions p d a i * op.rot i j + op.trans j))
        (∑ i, (p a i + d a i) * op.rot i j + op.trans j) := by
      refine (pbc1_sameImage _).symm.trans (SameImage.add ?_ (SameImage.refl _))
      refine matMulPos_sameImage (p := displacePositions p d) (q := fun a i => p a i + d a i)
        (fun a i => ?_) hR a j
      rw [displace_apply]; exact (pbc1_sameImage _).symm
    have h2 := h1.sub (hs a j).symm
    have e : ∑ i, (p a i + d a i) * op.rot i j + op.trans j - (∑ i, p a i * op.rot i j + op.trans j)
        = ∑ i, d a i * op.rot i j := by
      simp only [add_mul, Finset.sum_add_distrib]; ring
    rwa [e] at h2
  · rw [displace_apply]; exact ⟨(pbc1_inCell _).1, (pbc1_inCell _).2.le⟩

/-- A genuine symmetry gives the permutation matrix of its atom bijection. -/
theorem permMatrixOf_sym {p : Pos N ℝ} {op : SymOp} {P : PermMat N} {σ : Equiv.Perm (Fin N)}
    (s : Vec3) (hsym : IsSymmetry p op.rot op.trans σ)
    (hs : ∀ j k, j ≠ k → Apart (2 / 10 ^ 5) (p j) (p k))
    (hP : permMatrixOf s p op = .ok P) (j i : Fin N) : P j i = decide (j = σ i) := by
  rw [permMatrixOf_shift] at hP
  unfold permMatrixOf at hP
  by_cases h : ∀ a i, InClosedCell (p a i)
  · rw [transform_apply_int p hsym.1 _ h] at hP
    change Except.ok _ = Except.ok _ at hP
    cases hP
    refine permMatrix_eq (fun i => ?_) (fun j k hjk n => ?_) j i
    · -- the image of atom i is an image of atom σ i
      have hsame : ∀ c, SameImage
          (displacePositions p (bcast fun _ => 0) (σ i) c
            - pbc1 (∑ k, p i k * op.rot k c + (op.trans c + 0))) 0 := fun c => by
        have h1 : SameImage (displacePositions p (bcast fun _ => (0 : ℝ)) (σ i) c) (p (σ i) c) := by
          rw [displace_apply]; simpa [bcast] using (pbc1_sameImage (p (σ i) c + 0)).symm
        have h2 : SameImage (pbc1 (∑ k, p i k * op.rot k c + (op.trans c + 0))) (p (σ i) c) := by
          refine (pbc1_sameImage _).symm.trans ?_
          simpa using hsym.2 i c
        simpa using h1.sub h2
      choose n hn using hsame
      refine ⟨n, ?_⟩
      simp only [← hn]
      norm_num
    · have hsame : ∀ a c, SameImage (p a c) (displacePositions p (bcast fun _ => (0 : ℝ)) a c) :=
        fun a c => by rw [displace_apply]; simpa [bcast] using pbc1_sameImage (p a c + 0)
      choose m hm using hsame
      have := hs j k hjk (fun c => m j c - m k c + n c)
      refine this.trans (le_of_eq ?_)
      congr 1
      refine Finset.sum_congr rfl fun c _ => ?_
      rw [hm j c, hm k c]; push_cast; ring
  · rw [transform_err p _ _ h] at hP
    cases hP

end Verif
