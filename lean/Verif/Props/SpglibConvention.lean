import Verif.Props.DofCount
import Verif.Props.InterpolationSym
import Verif.Spec.Spglib

/-!
# Property C124: operations in spglib's convention

spglib's operations act on columns, `ReferenceStructure` applies them to rows (`positions @ rotation`,
utils.py L101), i.e. it applies the transposed rotation with the same translation.
-/

namespace Verif
open Spec

variable {N : ℕ}

/-! ## When the transposed operation is a symmetry -/

/-- C124: for an operation of the crystal with orthogonal integer rotation (any operation in a cell
with orthogonal edges of equal length), the operation that the code applies is a symmetry of the
crystal exactly if the translation by `t + Rᵀ t` is one.  This holds for all symmorphic operations
(`t = 0`) and for `4₂` screws (`t + Rᵀ t` is a lattice vector), but not for `4₁` screws. -/
theorem C124_orthogonal_iff (p : Pos N ℝ) (R : Mat3 ℝ) (t : Fin 3 → ℝ) (σ τ : Equiv.Perm (Fin N))
    (hsym : ColumnSymmetry p R t σ) (hR : R.transpose * R = 1) :
    IsSymmetry p R t τ ↔
      TranslationSymmetry p (fun j => t j + ∑ i, R i j * t i) (σ.trans τ) := by
  obtain ⟨⟨Z, hZ⟩, hσ⟩ := hsym
  have hk : ∀ j k, ∑ i, R i j * R i k = if j = k then 1 else 0 := fun j k => by
    have := congrFun (congrFun hR j) k
    simpa [Matrix.mul_apply, Matrix.one_apply] using this
  have key : ∀ a j, SameImage (p a j + (t j + ∑ i, R i j * t i))
      (∑ i, p (σ a) i * R i j + t j) := fun a j => by
    have h1 : SameImage (∑ i, (∑ k, R i k * p a k + t i) * R i j) (∑ i, p (σ a) i * R i j) :=
      SameImage.sum _ fun i _ => by rw [hZ i j]; exact (hσ a i).mul_int _
    have h2 : ∑ i, (∑ k, R i k * p a k + t i) * R i j = p a j + ∑ i, R i j * t i := by
      have h3 : ∑ i, (∑ k, R i k * p a k) * R i j = ∑ k, (∑ i, R i j * R i k) * p a k := by
        simp only [Finset.sum_mul]
        rw [Finset.sum_comm]
        exact Finset.sum_congr rfl fun k _ => Finset.sum_congr rfl fun i _ => by ring
      have h4 : ∑ k, (∑ i, R i j * R i k) * p a k = p a j := by
        simp [hk]
      rw [← h4, ← h3, ← Finset.sum_add_distrib]
      exact Finset.sum_congr rfl fun i _ => by ring
    rw [h2] at h1
    have := h1.add (SameImage.refl (t j))
    rwa [show p a j + ∑ i, R i j * t i + t j = p a j + (t j + ∑ i, R i j * t i) by ring] at this
  constructor
  · rintro ⟨-, h⟩ a j
    exact (key a j).trans (h (σ a) j)
  · intro h
    refine ⟨⟨Z, hZ⟩, fun b j => ?_⟩
    obtain ⟨a, rfl⟩ := σ.surjective b
    exact (key a j).symm.trans (h a j)

/-- C124: an operation with symmetric rotation matrix acts alike on rows and columns (all operations
of order two in a cell with orthogonal edges of equal length). -/
theorem C124_symmetric (p : Pos N ℝ) (R : Mat3 ℝ) (t : Fin 3 → ℝ) (σ : Equiv.Perm (Fin N))
    (hR : R.transpose = R) : IsSymmetry p R t σ ↔ ColumnSymmetry p R t σ := by
  have h : ∀ a j, ∑ i, p a i * R i j = ∑ i, R j i * p a i := fun a j =>
    Finset.sum_congr rfl fun i _ => by rw [← congrFun (congrFun hR i) j]; exact mul_comm _ _
  unfold IsSymmetry ColumnSymmetry
  simp only [h]

/-- C124 (partial): if every reported operation is a symmetry of the crystal (in spglib's sense) and
satisfies the condition of `C124_orthogonal_iff` or has a symmetric rotation matrix, every displacement
returned by `get_equivalent_displacements` is the image of the (rescaled) displacement under a symmetry
of the crystal in spglib's sense, namely the one with the transposed rotation.
What is missing: for other operations this is false, see `C124_screw_counterexample` and
`C124_hexagonal_counterexample`. -/
theorem C124_images_partial (spglib : Mat3 ℝ → Pos N ℝ → (Fin N → ℕ) → Option SymDict)
    (nums : Fin N → ℕ) (lat : Mat3 ℝ) (p : Pos N ℝ) (s : RefStructure N)
    (hs : RefStructure.init spglib nums lat p = .ok s)
    (hsep : ∀ j k, j ≠ k → Apart (2 / 10 ^ 5) (p j) (p k))
    (hsym : ∀ op ∈ s.ops, ∃ σ, ColumnSymmetry p op.rot op.trans σ)
    (hok : ∀ op ∈ s.ops, op.rot.transpose = op.rot ∨ op.rot.transpose * op.rot = 1 ∧
      ∃ τ, TranslationSymmetry p (fun j => op.trans j + ∑ i, op.rot i j * op.trans i) τ)
    (d : Pos N ℝ) (hd : ∃ a i, ¬ SameImage (d a i) 0) :
    ∃ groups e, s.getEquivalentDisplacements d = .ok (some groups) ∧
      Rescaled (applyPbcDisplacement d) e ∧
      ∀ g ∈ groups, ∀ x ∈ g.transformations.zip g.displacements, x.1 ∈ s.ops ∧
        ∃ σ, ColumnSymmetry p x.1.rot.transpose x.1.trans σ ∧ ∀ a i, InHalfBox (x.2 (σ a) i) ∧
          SameImage (∑ j, x.1.rot.transpose i j * e a j) (x.2 (σ a) i) := by
  obtain ⟨groups, e, h1, h2, h3⟩ := C13_end_to_end spglib nums lat p s hs hsep (fun op hop => by
    obtain ⟨σ, hσ⟩ := hsym op hop
    rcases hok op hop with h | ⟨h, τ, hτ⟩
    · exact ⟨σ, (C124_symmetric p op.rot op.trans σ h).2 hσ⟩
    · refine ⟨σ.symm.trans τ, (C124_orthogonal_iff p op.rot op.trans σ _ hσ h).2 ?_⟩
      rw [← Equiv.trans_assoc, Equiv.self_trans_symm, Equiv.refl_trans]
      exact hτ) d hd
  refine ⟨groups, e, h1, h2, fun g hg x hx => ⟨(h3 g hg x hx).1, ?_⟩⟩
  obtain ⟨-, σ, ⟨⟨Z, hZ⟩, hσ⟩, h4⟩ := h3 g hg x hx
  have hc : ∀ (q : Pos N ℝ) a i, ∑ j, x.1.rot.transpose i j * q a j = ∑ j, q a j * x.1.rot j i :=
    fun q a i => Finset.sum_congr rfl fun j _ => mul_comm _ _
  refine ⟨σ, ⟨⟨Z.transpose, fun i j => hZ j i⟩, fun a i => ?_⟩, fun a i => ⟨(h4 a i).1, ?_⟩⟩
  · rw [hc]; exact hσ a i
  · rw [hc]; exact (h4 a i).2

/-! ## What happens otherwise -/

/-- C124: an atom that no transformed atom reaches gets a displacement that does not depend on the
input: it leads from its position to the corner of the cell. -/
theorem C124_unmatched (p d : Pos N ℝ) (op : SymOp) (P : PermMat N) (hR : IntegerMatrix op.rot)
    (hp : ∀ a i, InClosedCell (p a i)) (hP : permMatrixOf (comShift p) p op = .ok P) (b : Fin N)
    (hb : ∀ a, ¬ Within (1 / 10 ^ 5) (p b) (fun c => ∑ k, p a k * op.rot k c + op.trans c)) :
    ∃ c, candidate p (displacePositions p d) op P = .ok c ∧
      ∀ i, InHalfBox (c b i) ∧ SameImage (-(p b i)) (c b i) := by
  obtain ⟨P', hP', hiff⟩ := C12_entry p op hR hp
  rw [hP] at hP'
  cases hP'
  have hfalse : ∀ a, P b a = false := fun a => by
    rw [Bool.eq_false_iff, Ne, hiff]; exact hb a
  unfold candidate
  rw [transform_apply_int _ hR _ fun a i => ?_]
  · refine ⟨_, rfl, fun i => ?_⟩
    rw [calc_apply]
    have h0 : ∀ q : Pos N ℝ, permApply P q b i = 0 := fun q => by
      unfold permApply; simp [hfalse]
    rw [h0]
    have h1 := wrap1_sameImage (0 - p b i)
    rw [zero_sub] at h1
    rw [zero_sub]
    exact ⟨wrap1_inHalfBox _, h1⟩
  · rw [displace_apply]
    exact ⟨(pbc1_inCell _).1, (pbc1_inCell _).2.le⟩

/-- A coordinate that stays away from all integers keeps points apart. -/
theorem not_within {x y : Fin 3 → ℝ} (c : Fin 3) (h : ∀ n : ℤ, 1 / 20 ≤ |x c - y c + n|) :
    ¬ Within (1 / 10 ^ 5) x y := by
  rintro ⟨n, hn⟩
  have h1 : |x c - y c + n c| ≤ Real.sqrt (∑ c, (x c - y c + n c) ^ 2) := by
    rw [← Real.sqrt_sq_eq_abs]
    exact Real.sqrt_le_sqrt (Finset.single_le_sum (f := fun c => (x c - y c + n c) ^ 2)
      (fun i _ => sq_nonneg _) (Finset.mem_univ c))
  have := h (n c)
  norm_num at hn
  linarith

theorem twentieth_far (k : ℤ) (hk : k % 20 ≠ 0) {x : ℝ} (hx : x = k / 20) (n : ℤ) :
    1 / 20 ≤ |x + n| := by
  have h : (1 : ℤ) ≤ |k + 20 * n| := Int.one_le_abs (by omega)
  have h' : (1 : ℝ) ≤ |(k : ℝ) + 20 * n| := by exact_mod_cast h
  rw [hx, show (k : ℝ) / 20 + n = (k + 20 * n) / 20 by ring, abs_div, abs_of_pos (by norm_num : (0 : ℝ) < 20)]
  linarith

/-! ## Crystals on a grid of twentieths -/

/-- Positions given in twentieths of the cell edges. -/
noncomputable def gridPos (Z : Fin N → Fin 3 → ℤ) : Pos N ℝ := fun a i => (Z a i : ℝ) / 20

/-- An operation with integer rotation and a translation in twentieths. -/
noncomputable def gridOp (R : Matrix (Fin 3) (Fin 3) ℤ) (t : Fin 3 → ℤ) : SymOp :=
  ⟨fun i j => (R i j : ℝ), fun i => (t i : ℝ) / 20⟩

theorem twentieth_same (k l : ℤ) (h : (k - l) % 20 = 0) : SameImage ((k : ℝ) / 20) ((l : ℝ) / 20) := by
  obtain ⟨m, hm⟩ := Int.dvd_of_emod_eq_zero h
  refine ⟨-m, ?_⟩
  have : (k : ℝ) - l = 20 * m := by exact_mod_cast hm
  push_cast
  linarith

theorem grid_column (Z : Fin N → Fin 3 → ℤ) (R : Matrix (Fin 3) (Fin 3) ℤ) (t : Fin 3 → ℤ)
    (σ : Equiv.Perm (Fin N)) (h : ∀ a i, (∑ j, R i j * Z a j + t i - Z (σ a) i) % 20 = 0) :
    ColumnSymmetry (gridPos Z) (gridOp R t).rot (gridOp R t).trans σ := by
  refine ⟨⟨R, fun i j => rfl⟩, fun a i => ?_⟩
  have := twentieth_same _ _ (h a i)
  rwa [show ((∑ j, R i j * Z a j + t i : ℤ) : ℝ) / 20
    = ∑ j, (gridOp R t).rot i j * gridPos Z a j + (gridOp R t).trans i by
      simp only [gridPos, gridOp]
      push_cast
      rw [add_div, Finset.sum_div]
      congr 1
      exact Finset.sum_congr rfl fun j _ => by ring] at this

theorem grid_image (Z : Fin N → Fin 3 → ℤ) (R : Matrix (Fin 3) (Fin 3) ℤ) (t : Fin 3 → ℤ) (a : Fin N)
    (c : Fin 3) : ∑ k, gridPos Z a k * (gridOp R t).rot k c + (gridOp R t).trans c
      = ((∑ k, Z a k * R k c + t c : ℤ) : ℝ) / 20 := by
  simp only [gridPos, gridOp]
  push_cast
  rw [add_div, Finset.sum_div]
  congr 1
  exact Finset.sum_congr rfl fun j _ => by ring

theorem grid_row (Z : Fin N → Fin 3 → ℤ) (R : Matrix (Fin 3) (Fin 3) ℤ) (t : Fin 3 → ℤ)
    (σ : Equiv.Perm (Fin N)) (h : ∀ a i, (∑ j, Z a j * R j i + t i - Z (σ a) i) % 20 = 0) :
    IsSymmetry (gridPos Z) (gridOp R t).rot (gridOp R t).trans σ := by
  refine ⟨⟨R, fun i j => rfl⟩, fun a i => ?_⟩
  rw [grid_image]
  exact twentieth_same _ _ (h a i)

theorem grid_unmatched (Z : Fin N → Fin 3 → ℤ) (R : Matrix (Fin 3) (Fin 3) ℤ) (t : Fin 3 → ℤ)
    (b a : Fin N) (h : ∃ c, (Z b c - (∑ k, Z a k * R k c + t c)) % 20 ≠ 0) :
    ¬ Within (1 / 10 ^ 5) (gridPos Z b)
      (fun c => ∑ k, gridPos Z a k * (gridOp R t).rot k c + (gridOp R t).trans c) := by
  obtain ⟨c, hc⟩ := h
  refine not_within c (twentieth_far _ hc ?_)
  rw [grid_image]
  unfold gridPos
  push_cast
  ring

theorem grid_apart (Z : Fin N → Fin 3 → ℤ) (h : ∀ j k, j ≠ k → ∃ c, (Z j c - Z k c) % 20 ≠ 0) :
    ∀ j k, j ≠ k → Apart (2 / 10 ^ 5) (gridPos Z j) (gridPos Z k) := by
  intro j k hjk n
  obtain ⟨c, hc⟩ := h j k hjk
  have h1 := twentieth_far _ hc (x := gridPos Z j c - gridPos Z k c) (by
    unfold gridPos; push_cast; ring) (n c)
  have h2 : |gridPos Z j c - gridPos Z k c + n c|
      ≤ Real.sqrt (∑ c, (gridPos Z j c - gridPos Z k c + n c) ^ 2) := by
    rw [← Real.sqrt_sq_eq_abs]
    exact Real.sqrt_le_sqrt (Finset.single_le_sum
      (f := fun c => (gridPos Z j c - gridPos Z k c + n c) ^ 2)
      (fun i _ => sq_nonneg _) (Finset.mem_univ c))
  norm_num at h1 ⊢
  linarith

theorem grid_closed (Z : Fin N → Fin 3 → ℤ) (h : ∀ a i, 0 ≤ Z a i ∧ Z a i ≤ 20) :
    ∀ a i, InClosedCell (gridPos Z a i) := by
  intro a i
  obtain ⟨h1, h2⟩ := h a i
  have h1' : (0 : ℝ) ≤ Z a i := by exact_mod_cast h1
  have h2' : (Z a i : ℝ) ≤ 20 := by exact_mod_cast h2
  unfold gridPos InClosedCell
  constructor <;> linarith

/-- If no atom is reached, the candidate is the same for all displacements. -/
theorem grid_bad (Z : Fin N → Fin 3 → ℤ) (hZ : ∀ a i, 0 ≤ Z a i ∧ Z a i ≤ 20)
    (R : Matrix (Fin 3) (Fin 3) ℤ) (t : Fin 3 → ℤ) (P : PermMat N)
    (hP : permMatrixOf (comShift (gridPos Z)) (gridPos Z) (gridOp R t) = .ok P)
    (h : ∀ b a, ∃ c, (Z b c - (∑ k, Z a k * R k c + t c)) % 20 ≠ 0)
    (W : Fin N → Fin 3 → ℤ) (hW : ∀ a i, -10 < W a i ∧ W a i ≤ 10) (hWZ : ∀ a i, (-Z a i - W a i) % 20 = 0)
    (hN : 0 < N) (d : Pos N ℝ) :
    candidate (gridPos Z) (displacePositions (gridPos Z) d) (gridOp R t) P = .ok (gridPos W) := by
  have hc := fun b => C124_unmatched (gridPos Z) d (gridOp R t) P ⟨R, fun i j => rfl⟩ (grid_closed Z hZ)
    hP b fun a => grid_unmatched Z R t b a (h b a)
  obtain ⟨c, hc0, -⟩ := hc ⟨0, hN⟩
  rw [hc0]
  congr 1
  funext a i
  obtain ⟨c', hc', hh⟩ := hc a
  rw [hc0] at hc'
  cases hc'
  obtain ⟨h1, h2⟩ := hh i
  refine ((h2.symm.trans ?_).eq_of_inHalfBox h1 ?_)
  · have := twentieth_same _ _ (hWZ a i)
    unfold gridPos
    push_cast at this
    rwa [neg_div] at this
  · obtain ⟨w1, w2⟩ := hW a i
    have w1' : (-10 : ℝ) < W a i := by exact_mod_cast w1
    have w2' : (W a i : ℝ) ≤ 10 := by exact_mod_cast w2
    unfold gridPos InHalfBox
    constructor <;> linarith

/-- Inner product of integer displacements. -/
def gridDot (U V : Fin N → Fin 3 → ℤ) : ℤ := ∑ a, ∑ i, U a i * V a i

theorem grid_sum (U V : Fin N → Fin 3 → ℤ) :
    ∑ x, flat (gridPos U) x * flat (gridPos V) x = (gridDot U V : ℝ) / 400 := by
  unfold gridDot
  rw [Fintype.sum_prod_type]
  push_cast
  rw [Finset.sum_div]
  refine Finset.sum_congr rfl fun a _ => ?_
  rw [Finset.sum_div]
  refine Finset.sum_congr rfl fun i _ => ?_
  simp only [flat, gridPos]
  ring

theorem grid_ne (U : Fin N → Fin 3 → ℤ) (h : 0 < gridDot U U) : flat (gridPos U) ≠ 0 := by
  intro h0
  have h1 := grid_sum U U
  rw [h0] at h1
  have h2 : (0 : ℝ) < gridDot U U := by exact_mod_cast h
  simp only [Pi.zero_apply, mul_zero, Finset.sum_const_zero] at h1
  linarith

theorem grid_cos (U V : Fin N → Fin 3 → ℤ) :
    cosine (flat (gridPos U)) (flat (gridPos V))
      = gridDot U V / (Real.sqrt (gridDot U U) * Real.sqrt (gridDot V V)) := by
  have h : ∀ W : Fin N → Fin 3 → ℤ, Real.sqrt ((gridDot W W : ℝ) / 400) = Real.sqrt (gridDot W W) / 20 := by
    intro W
    rw [Real.sqrt_div' _ (by norm_num), show (400 : ℝ) = 20 ^ 2 by norm_num, Real.sqrt_sq (by norm_num)]
  unfold cosine
  simp only [sq, grid_sum, h]
  by_cases h1 : Real.sqrt (gridDot U U : ℝ) = 0
  · simp [h1]
  by_cases h2 : Real.sqrt (gridDot V V : ℝ) = 0
  · simp [h2]
  field_simp
  norm_num

theorem grid_orth (U V : Fin N → Fin 3 → ℤ) (hU : 0 < gridDot U U) (hV : 0 < gridDot V V)
    (h : gridDot U V = 0) : Orthogonal (flat (gridPos U)) (flat (gridPos V)) := by
  refine ⟨grid_ne U hU, grid_ne V hV, ?_⟩
  rw [grid_cos, h]
  norm_num [angTol]

theorem grid_self (U : Fin N → Fin 3 → ℤ) (hU : 0 < gridDot U U) :
    Collinear (flat (gridPos U)) (flat (gridPos U)) := by
  refine ⟨grid_ne U hU, grid_ne U hU, ?_⟩
  have h : (0 : ℝ) < gridDot U U := by exact_mod_cast hU
  rw [grid_cos, Real.mul_self_sqrt h.le, div_self h.ne']
  norm_num [angTol]

theorem grid_neither (U V : Fin N → Fin 3 → ℤ)
    (h1 : gridDot U U * gridDot V V < 100 * gridDot U V ^ 2)
    (h2 : 100 * gridDot U V ^ 2 < 81 * (gridDot U U * gridDot V V)) (hU : 0 < gridDot U U)
    (hV : 0 < gridDot V V) :
    ¬ Orthogonal (flat (gridPos U)) (flat (gridPos V)) ∧
    ¬ Collinear (flat (gridPos U)) (flat (gridPos V)) := by
  have hU' : (0 : ℝ) < gridDot U U := by exact_mod_cast hU
  have hV' : (0 : ℝ) < gridDot V V := by exact_mod_cast hV
  have h1' : (gridDot U U : ℝ) * gridDot V V < 100 * (gridDot U V : ℝ) ^ 2 := by exact_mod_cast h1
  have h2' : 100 * (gridDot U V : ℝ) ^ 2 < 81 * ((gridDot U U : ℝ) * gridDot V V) := by exact_mod_cast h2
  have hc : cosine (flat (gridPos U)) (flat (gridPos V)) ^ 2
      = (gridDot U V : ℝ) ^ 2 / (gridDot U U * gridDot V V) := by
    rw [grid_cos, div_pow, mul_pow, Real.sq_sqrt hU'.le, Real.sq_sqrt hV'.le]
  have hp : (0 : ℝ) < gridDot U U * gridDot V V := mul_pos hU' hV'
  have l1 : 1 / 100 < cosine (flat (gridPos U)) (flat (gridPos V)) ^ 2 := by
    rw [hc, lt_div_iff₀ hp]; linarith
  have l2 : cosine (flat (gridPos U)) (flat (gridPos V)) ^ 2 < 81 / 100 := by
    rw [hc, div_lt_iff₀ hp]; linarith
  rw [← sq_abs] at l1 l2
  have h0 := abs_nonneg (cosine (flat (gridPos U)) (flat (gridPos V)))
  constructor
  · rintro ⟨_, _, h⟩
    norm_num [angTol] at h
    nlinarith
  · rintro ⟨_, _, h⟩
    norm_num [angTol] at h
    nlinarith

/-! ## A fourfold screw axis -/

/-- Four atoms around a `4₁` axis (in twentieths of the edges). -/
def screwZ : Fin 4 → Fin 3 → ℤ := ![![4, 2, 0], ![18, 4, 5], ![16, 18, 10], ![2, 16, 15]]

/-- The screw operation and its powers. -/
def screwR : Fin 4 → Matrix (Fin 3) (Fin 3) ℤ :=
  ![1, !![0, -1, 0; 1, 0, 0; 0, 0, 1], !![-1, 0, 0; 0, -1, 0; 0, 0, 1], !![0, 1, 0; -1, 0, 0; 0, 0, 1]]

def screwT : Fin 4 → Fin 3 → ℤ := ![0, ![0, 0, 5], ![0, 0, 10], ![0, 0, 15]]

noncomputable def screwOp (k : Fin 4) : SymOp := gridOp (screwR k) (screwT k)

/-- What the code takes for an image: every atom moves to the corner of the cell. -/
def screwW : Fin 4 → Fin 3 → ℤ := ![![-4, -2, 0], ![2, -4, -5], ![4, 2, 10], ![-2, 4, 5]]

/-- Atom 0 is displaced along the axis. -/
def screwD : Fin 4 → Fin 3 → ℤ := ![![0, 0, 2], 0, 0, 0]

/-- Its true image under the square of the screw operation: atom 2 displaced along the axis. -/
def screwD2 : Fin 4 → Fin 3 → ℤ := ![0, 0, ![0, 0, 2], 0]

theorem screw_column (k : Fin 4) :
    ColumnSymmetry (gridPos screwZ) (screwOp k).rot (screwOp k).trans (Equiv.addRight k) :=
  grid_column _ _ _ _ (by revert k; decide)

/-- The candidate of an operation that is a symmetry in the row convention. -/
theorem grid_good (Z : Fin N → Fin 3 → ℤ) (hZ : ∀ j k, j ≠ k → ∃ c, (Z j c - Z k c) % 20 ≠ 0)
    (R : Matrix (Fin 3) (Fin 3) ℤ) (t : Fin 3 → ℤ) (P : PermMat N)
    (hP : permMatrixOf (comShift (gridPos Z)) (gridPos Z) (gridOp R t) = .ok P)
    (σ : Equiv.Perm (Fin N)) (h : ∀ a i, (∑ j, Z a j * R j i + t i - Z (σ a) i) % 20 = 0)
    (U V : Fin N → Fin 3 → ℤ) (hV : ∀ a i, -10 < V a i ∧ V a i ≤ 10)
    (hUV : ∀ a i, ∑ j, U a j * R j i = V (σ a) i) :
    candidate (gridPos Z) (displacePositions (gridPos Z) (gridPos U)) (gridOp R t) P
      = .ok (gridPos V) := by
  obtain ⟨c, hc, hh⟩ := C13_candidate (gridPos Z) (gridPos U) (gridOp R t) P σ (grid_apart Z hZ)
    (grid_row Z R t σ h) hP
  rw [hc]
  congr 1
  funext b i
  obtain ⟨a, rfl⟩ := σ.surjective b
  obtain ⟨h1, h2⟩ := hh a i
  have he : ∑ j, gridPos U a j * (gridOp R t).rot j i = gridPos V (σ a) i := by
    unfold gridPos gridOp
    rw [← hUV]
    push_cast
    rw [Finset.sum_div]
    exact Finset.sum_congr rfl fun j _ => by ring
  rw [he] at h2
  refine (h2.eq_of_inHalfBox ?_ h1).symm
  obtain ⟨w1, w2⟩ := hV (σ a) i
  have w1' : (-10 : ℝ) < V (σ a) i := by exact_mod_cast w1
  have w2' : (V (σ a) i : ℝ) ≤ 10 := by exact_mod_cast w2
  unfold gridPos InHalfBox
  constructor <;> linarith

/-- What spglib reports for the screw crystal. -/
noncomputable def screwSpglib : Mat3 ℝ → Pos 4 ℝ → (Fin 4 → ℕ) → Option SymDict :=
  fun _ _ _ => some ⟨[screwOp 0, screwOp 1, screwOp 2, screwOp 3], [0, 0, 0, 0]⟩

theorem screw_init (nums : Fin 4 → ℕ) : ∃ s,
    RefStructure.init screwSpglib nums 1 (gridPos screwZ) = .ok s ∧
    s.ops = [screwOp 0, screwOp 1, screwOp 2, screwOp 3] := by
  have h : ∀ k, ∃ P, permMatrixOf (comShift (gridPos screwZ)) (gridPos screwZ) (screwOp k) = .ok P :=
    fun k => by
      obtain ⟨P, hP, -⟩ := C12_entry (gridPos screwZ) (screwOp k) (screw_column k).1
        (grid_closed screwZ (by decide))
      exact ⟨P, hP⟩
  choose P hP using h
  refine ⟨⟨nums, 1, gridPos screwZ, _, [P 0, P 1, P 2, P 3], [0, 0, 0, 0]⟩, ?_, rfl⟩
  unfold RefStructure.init screwSpglib
  dsimp only
  have : computePermutationMatrices [screwOp 0, screwOp 1, screwOp 2, screwOp 3] (gridPos screwZ)
      = .ok [P 0, P 1, P 2, P 3] := by
    rw [computePermutationMatrices, mapM_except_ok]
    exact .cons (hP 0) (.cons (hP 1) (.cons (hP 2) (.cons (hP 3) .nil)))
  rw [this]
  rfl

theorem screw_scale : scaleDisplacement (gridPos screwD) = some (gridPos screwD) := by
  have hb : applyPbcDisplacement (gridPos screwD) = gridPos screwD := by
    funext a i
    refine wrap1_of_inHalfBox ?_
    have h : ∀ a i, -10 < screwD a i ∧ screwD a i ≤ 10 := by decide
    obtain ⟨w1, w2⟩ := h a i
    have w1' : (-10 : ℝ) < screwD a i := by exact_mod_cast w1
    have w2' : (screwD a i : ℝ) ≤ 10 := by exact_mod_cast w2
    unfold gridPos InHalfBox
    constructor <;> linarith
  have hn : norm2 (flat (gridPos screwD)) = 1 / 10 := by
    unfold norm2 dot
    rw [grid_sum, show gridDot screwD screwD = 4 by decide,
      show ((4 : ℤ) : ℝ) / 400 = (1 / 10) ^ 2 by norm_num, Real.sqrt_sq (by norm_num)]
  unfold scaleDisplacement
  dsimp only
  rw [hb, hn, if_neg (by norm_num)]
  congr 1
  funext a i
  norm_num

theorem screw_groups (nums : Fin 4 → ℕ) (s : RefStructure 4)
    (hs : RefStructure.init screwSpglib nums 1 (gridPos screwZ) = .ok s)
    (hops : s.ops = [screwOp 0, screwOp 1, screwOp 2, screwOp 3]) :
    s.getEquivalentDisplacements (gridPos screwD)
      = .ok (some [⟨[gridPos screwD], [screwOp 0]⟩, ⟨[gridPos screwW], [screwOp 1]⟩]) := by
  obtain ⟨hpos, hlat, hperm⟩ := init_facts hs
  rw [hops] at hperm
  obtain ⟨P0, Ps, hP0, hperm, e1⟩ := List.forall₂_cons_left_iff.1 hperm
  obtain ⟨P1, Ps1, hP1, hperm, e2⟩ := List.forall₂_cons_left_iff.1 hperm
  obtain ⟨P2, Ps2, hP2, hperm, e3⟩ := List.forall₂_cons_left_iff.1 hperm
  obtain ⟨P3, Ps3, hP3, hperm, e4⟩ := List.forall₂_cons_left_iff.1 hperm
  cases hperm
  subst e4 e3 e2
  unfold RefStructure.getEquivalentDisplacements
  rw [screw_scale]
  dsimp only
  rw [hops, e1, hpos]
  have c0 := grid_good screwZ (by decide) (screwR 0) (screwT 0) P0 hP0 (Equiv.refl _) (by decide)
    screwD screwD (by decide) (by decide)
  have c1 := grid_bad screwZ (by decide) (screwR 1) (screwT 1) P1 hP1 (by decide) screwW (by decide)
    (by decide) (by norm_num) (gridPos screwD)
  have c2 := grid_good screwZ (by decide) (screwR 2) (screwT 2) P2 hP2 (Equiv.addRight 2) (by decide)
    screwD screwD2 (by decide) (by decide)
  have c3 := grid_bad screwZ (by decide) (screwR 3) (screwT 3) P3 hP3 (by decide) screwW (by decide)
    (by decide) (by norm_num) (gridPos screwD)
  have hD : 0 < gridDot screwD screwD := by decide
  have hW : 0 < gridDot screwW screwW := by decide
  have hD2 : 0 < gridDot screwD2 screwD2 := by decide
  have i0 : eqInsert ⟨[], []⟩ (screwOp 0) (gridPos screwD)
      = ⟨[⟨[gridPos screwD], [screwOp 0]⟩], [gridPos screwD]⟩ := by
    unfold eqInsert
    rw [if_pos (by simp [isOrthogonalToAll, firstIndexFrom])]
    rfl
  have i1 : eqInsert ⟨[⟨[gridPos screwD], [screwOp 0]⟩], [gridPos screwD]⟩ (screwOp 1) (gridPos screwW)
      = ⟨[⟨[gridPos screwD], [screwOp 0]⟩, ⟨[gridPos screwW], [screwOp 1]⟩],
        [gridPos screwD, gridPos screwW]⟩ := by
    unfold eqInsert
    rw [if_pos]
    · rfl
    · rw [C08_all_orthogonal]
      intro x hx
      simp only [List.map_cons, List.map_nil, List.mem_singleton] at hx
      subst hx
      exact grid_orth _ _ hW hD (by decide)
  have hneither := grid_neither screwD2 screwW (by decide) (by decide) hD2 hW
  have i2 : eqInsert ⟨[⟨[gridPos screwD], [screwOp 0]⟩, ⟨[gridPos screwW], [screwOp 1]⟩],
        [gridPos screwD, gridPos screwW]⟩ (screwOp 2) (gridPos screwD2)
      = ⟨[⟨[gridPos screwD], [screwOp 0]⟩, ⟨[gridPos screwW], [screwOp 1]⟩],
        [gridPos screwD, gridPos screwW]⟩ := by
    unfold eqInsert
    rw [if_neg]
    · dsimp only
      rw [if_neg]
      rw [not_not, (C09_neg_one _ _).2]
      intro x hx
      simp only [List.map_cons, List.map_nil, List.mem_cons, List.not_mem_nil, or_false] at hx
      rcases hx with rfl | rfl
      · rintro ⟨_, _, h⟩
        rw [grid_cos, show gridDot screwD2 screwD = 0 by decide] at h
        norm_num [angTol] at h
      · exact hneither.2
    · rw [C08_all_orthogonal]
      intro h
      exact hneither.1 (h _ (by simp))
  have i3 : eqInsert ⟨[⟨[gridPos screwD], [screwOp 0]⟩, ⟨[gridPos screwW], [screwOp 1]⟩],
        [gridPos screwD, gridPos screwW]⟩ (screwOp 3) (gridPos screwW)
      = ⟨[⟨[gridPos screwD], [screwOp 0]⟩, ⟨[gridPos screwW], [screwOp 1]⟩],
        [gridPos screwD, gridPos screwW]⟩ := by
    have hself := grid_self screwW hW
    have hnc : ¬ Collinear (flat (gridPos screwW)) (flat (gridPos screwD)) := by
      rintro ⟨_, _, h⟩
      rw [grid_cos, show gridDot screwW screwD = 0 by decide] at h
      norm_num [angTol] at h
    unfold eqInsert
    rw [if_neg]
    · have hcol : isNonCollinearWithAll (flat (gridPos screwW))
          (List.map flat [gridPos screwD, gridPos screwW]) = 1 := by
        unfold isNonCollinearWithAll
        simp only [List.map_cons, List.map_nil, firstIndexFrom]
        rw [if_neg (fun h => hnc ((areCollinear_iff _ _).1 h)), if_pos ((areCollinear_iff _ _).2 hself)]
        rfl
      dsimp only
      rw [hcol, if_pos (by norm_num)]
      have hcl : allClose5 (gridPos screwW) (gridPos screwW) = true :=
        (allClose5_iff _ _).2 fun a i => by rw [sub_self, abs_zero]; positivity
      simp [modAt, hcl]
    · rw [C08_all_orthogonal]
      intro h
      obtain ⟨_, _, h2⟩ := h (flat (gridPos screwW)) (by simp)
      have h1 := hself.2.2
      norm_num [angTol] at h1 h2
      linarith
  simp only [List.zip_cons_cons, List.zip_nil_left, eqLoop]
  change (candidate _ _ _ _ >>= _) >>= _ = _
  rw [show candidate (gridPos screwZ) (displacePositions (gridPos screwZ) (gridPos screwD)) (screwOp 0) P0
    = .ok (gridPos screwD) from c0]
  change (candidate _ _ _ _ >>= _) >>= _ = _
  rw [show candidate (gridPos screwZ) (displacePositions (gridPos screwZ) (gridPos screwD)) (screwOp 1) P1
    = .ok (gridPos screwW) from c1, i0]
  change (candidate _ _ _ _ >>= _) >>= _ = _
  rw [show candidate (gridPos screwZ) (displacePositions (gridPos screwZ) (gridPos screwD)) (screwOp 2) P2
    = .ok (gridPos screwD2) from c2, i1]
  change (candidate _ _ _ _ >>= _) >>= _ = _
  rw [show candidate (gridPos screwZ) (displacePositions (gridPos screwZ) (gridPos screwD)) (screwOp 3) P3
    = .ok (gridPos screwW) from c3, i2]
  change (pure _ >>= _ : Py _) = _
  rw [i3]
  rfl

/-- C124, the unrestricted claim is false: a cubic cell with four equal atoms around a `4₁` axis.  All
four operations are symmetries of the crystal in spglib's sense and form a group.  Atom 0 is displaced
along the axis; its images are displacements of one atom each.  `get_equivalent_displacements` returns
the displacement itself and one in which *all* atoms move to the corner of the cell; the image of the
displacement under the twofold screw operation (atom 2 along the axis) is missing. -/
theorem C124_screw_counterexample :
    ∃ (p : Pos 4 ℝ) (spglib : Mat3 ℝ → Pos 4 ℝ → (Fin 4 → ℕ) → Option SymDict) (s : RefStructure 4)
      (d w : Pos 4 ℝ) (o₀ o₁ : SymOp),
      RefStructure.init spglib (fun _ => 14) 1 p = .ok s ∧
      (∀ j k, j ≠ k → Apart (2 / 10 ^ 5) (p j) (p k)) ∧
      (∀ op ∈ s.ops, PreservesLengths 1 op.rot ∧ ∃ σ, ColumnSymmetry p op.rot op.trans σ) ∧
      (∀ o ∈ s.ops, ∀ o' ∈ s.ops, ∃ o'' ∈ s.ops, o''.rot = o.rot * o'.rot ∧
        ∀ i, SameImage (∑ j, o.rot i j * o'.trans j + o.trans i) (o''.trans i)) ∧
      (∀ a i, d a i = if a = 0 ∧ i = 2 then 1 / 10 else 0) ∧
      s.getEquivalentDisplacements d = .ok (some [⟨[d], [o₀]⟩, ⟨[w], [o₁]⟩]) ∧
      ∀ a, (∃ i, w a i ≠ 0) ∧ ∀ i, SameImage (p a i + w a i) 0 := by
  obtain ⟨s, hs, hops⟩ := screw_init fun _ => 14
  have hmem : ∀ op ∈ s.ops, ∃ k, op = screwOp k := by
    intro op hop
    rw [hops] at hop
    simp only [List.mem_cons, List.not_mem_nil, or_false] at hop
    rcases hop with h | h | h | h
    exacts [⟨0, h⟩, ⟨1, h⟩, ⟨2, h⟩, ⟨3, h⟩]
  have hin : ∀ k, screwOp k ∈ s.ops := by
    intro k
    rw [hops]
    fin_cases k <;> simp
  refine ⟨gridPos screwZ, screwSpglib, s, gridPos screwD, gridPos screwW, screwOp 0, screwOp 1, hs,
    grid_apart screwZ (by decide), fun op hop => ?_, fun o ho o' ho' => ?_, fun a i => ?_,
    screw_groups _ s hs hops, fun a => ⟨?_, fun i => ?_⟩⟩
  · obtain ⟨k, rfl⟩ := hmem op hop
    refine ⟨?_, _, screw_column k⟩
    have h : ∀ k, (screwR k).transpose * screwR k = 1 := by decide
    have h' := congrArg (fun M : Matrix (Fin 3) (Fin 3) ℤ => M.map (Int.castRingHom ℝ)) (h k)
    simp only [Matrix.map_mul, Matrix.transpose_map] at h'
    unfold PreservesLengths
    rw [Matrix.transpose_one, one_mul, mul_one]
    refine Eq.trans h' ?_
    ext i j
    simp [Matrix.one_apply]
  · obtain ⟨k, rfl⟩ := hmem o ho
    obtain ⟨l, rfl⟩ := hmem o' ho'
    refine ⟨screwOp (k + l), hin _, ?_, fun i => ?_⟩
    · have h : ∀ k l, screwR (k + l) = screwR k * screwR l := by decide
      ext i j
      have := congrFun (congrFun (h k l) i) j
      simp only [screwOp, gridOp, Matrix.mul_apply] at this ⊢
      rw [this]
      push_cast
      rfl
    · have h : ∀ k l i, (∑ j, screwR k i j * screwT l j + screwT k i - screwT (k + l) i) % 20 = 0 := by
        decide
      have := twentieth_same _ _ (h k l i)
      simp only [screwOp, gridOp]
      push_cast at this
      rw [add_div, Finset.sum_div] at this
      simpa only [mul_div_assoc] using this
  · have h : ∀ a i, screwD a i = if a = 0 ∧ i = 2 then 2 else 0 := by decide
    unfold gridPos
    rw [h]
    split <;> norm_num
  · have h : ∀ a, ∃ i, screwW a i ≠ 0 := by decide
    obtain ⟨i, hi⟩ := h a
    refine ⟨i, ?_⟩
    unfold gridPos
    have : (screwW a i : ℝ) ≠ 0 := by exact_mod_cast hi
    positivity
  · have h : ∀ a i, (screwZ a i + screwW a i - 0) % 20 = 0 := by decide
    have := twentieth_same _ _ (h a i)
    unfold gridPos
    push_cast at this
    rwa [add_div, zero_div] at this

/-! ## A threefold axis in a hexagonal cell -/

/-- Three atoms around a threefold axis of a hexagonal cell (in twentieths). -/
def hexZ : Fin 3 → Fin 3 → ℤ := ![![4, 1, 0], ![19, 3, 0], ![17, 16, 0]]

/-- The threefold rotation in hexagonal coordinates (columns). -/
def hexR : Matrix (Fin 3) (Fin 3) ℤ := !![0, -1, 0; 1, -1, 0; 0, 0, 1]

/-- All atoms moved to the corner of the cell. -/
def hexW : Fin 3 → Fin 3 → ℤ := ![![-4, -1, 0], ![1, -3, 0], ![3, 4, 0]]

/-- C124, the unrestricted claim is false even without translations: three equal atoms around the
threefold axis of a hexagonal cell.  The rotation is a symmetry of the crystal and preserves lengths.
The code matches no atom with any other, and whatever the displacement, its "image" is the displacement
of all atoms to the corner of the cell. -/
theorem C124_hexagonal_counterexample :
    ∃ (p : Pos 3 ℝ) (op : SymOp) (P : PermMat 3) (w : Pos 3 ℝ),
      (∀ j k, j ≠ k → Apart (2 / 10 ^ 5) (p j) (p k)) ∧
      hexLattice.det ≠ 0 ∧ PreservesLengths hexLattice op.rot ∧
      (∃ σ, ColumnSymmetry p op.rot op.trans σ) ∧ op.trans = 0 ∧
      permMatrixOf (comShift p) p op = .ok P ∧ (∀ b a, P b a = false) ∧
      (∀ a, (∃ i, w a i ≠ 0) ∧ ∀ i, SameImage (p a i + w a i) 0) ∧
      ∀ d, candidate p (displacePositions p d) op P = .ok w := by
  have hcol : ColumnSymmetry (gridPos hexZ) (gridOp hexR 0).rot (gridOp hexR 0).trans
      (Equiv.addRight 1) := grid_column _ _ _ _ (by decide)
  obtain ⟨P, hP, hiff⟩ := C12_entry (gridPos hexZ) (gridOp hexR 0) hcol.1 (grid_closed hexZ (by decide))
  have hun : ∀ b a, ∃ c, (hexZ b c - (∑ k, hexZ a k * hexR k c + (0 : Fin 3 → ℤ) c)) % 20 ≠ 0 := by decide
  refine ⟨gridPos hexZ, gridOp hexR 0, P, gridPos hexW, grid_apart hexZ (by decide), hex_det, ?_,
    ⟨_, hcol⟩, ?_, hP, fun b a => ?_, fun a => ⟨?_, fun i => ?_⟩, fun d => ?_⟩
  · have h3 : Real.sqrt 3 * Real.sqrt 3 = 3 := Real.mul_self_sqrt (by norm_num)
    have hM : hexLattice * hexLattice.transpose = !![1, -1 / 2, 0; -1 / 2, 1, 0; 0, 0, 1] := by
      ext i j
      simp only [Matrix.mul_apply, Matrix.transpose_apply, Fin.sum_univ_three]
      fin_cases i <;> fin_cases j <;> norm_num [hexLattice, vec_two]
      rw [div_mul_div_comm, h3]
      norm_num
    have hrot : (gridOp hexR 0).rot = !![0, -1, 0; 1, -1, 0; 0, 0, 1] := by
      ext i j
      fin_cases i <;> fin_cases j <;> simp [gridOp, hexR]
    unfold PreservesLengths
    rw [hM, hrot]
    ext i j
    fin_cases i <;> fin_cases j <;> (simp [Matrix.mul_apply, Fin.sum_univ_three]; try norm_num)
  · funext i; simp [gridOp]
  · rw [Bool.eq_false_iff, Ne, hiff]
    exact grid_unmatched hexZ hexR 0 b a (hun b a)
  · have h : ∀ a, ∃ i, hexW a i ≠ 0 := by decide
    obtain ⟨i, hi⟩ := h a
    refine ⟨i, ?_⟩
    unfold gridPos
    have : (hexW a i : ℝ) ≠ 0 := by exact_mod_cast hi
    positivity
  · have h : ∀ a i, (hexZ a i + hexW a i - 0) % 20 = 0 := by decide
    have := twentieth_same _ _ (h a i)
    unfold gridPos
    push_cast at this
    rwa [add_div, zero_div] at this
  · exact grid_bad hexZ (by decide) hexR 0 P hP hun hexW (by decide) (by decide) (by norm_num) d

/-! ## Where the claim holds -/

/-- C124, concrete: four atoms around a `4₂` axis: the condition of `C124_images_partial` holds although the rotation
matrix is not symmetric and the translation does not vanish. -/
example : ∃ (p : Pos 4 ℝ) (op : SymOp) (σ : Equiv.Perm (Fin 4)),
    ColumnSymmetry p op.rot op.trans σ ∧ op.rot.transpose ≠ op.rot ∧ op.rot.transpose * op.rot = 1 ∧
    (∃ i, op.trans i ≠ 0) ∧
    ∃ τ, TranslationSymmetry p (fun j => op.trans j + ∑ i, op.rot i j * op.trans i) τ := by
  have hrot : (gridOp (screwR 1) ![0, 0, 10]).rot = !![0, -1, 0; 1, 0, 0; 0, 0, 1] := by
    ext i j
    fin_cases i <;> fin_cases j <;> simp [gridOp, screwR]
  refine ⟨gridPos ![![4, 0, 0], ![0, 4, 10], ![16, 0, 0], ![0, 16, 10]],
    gridOp (screwR 1) ![0, 0, 10], Equiv.addRight 1, grid_column _ _ _ _ (by decide), ?_, ?_,
    ⟨2, by simp [gridOp]⟩, Equiv.refl _, ?_⟩
  · intro h
    rw [hrot] at h
    have := congrFun (congrFun h 0) 1
    norm_num at this
  · rw [hrot]
    ext i j
    fin_cases i <;> fin_cases j <;> simp [Matrix.mul_apply, Fin.sum_univ_three]
  · intro a i
    refine ⟨if i = 2 then -1 else 0, ?_⟩
    fin_cases i <;> simp [gridOp, screwR, Fin.sum_univ_three] <;> norm_num

end Verif
