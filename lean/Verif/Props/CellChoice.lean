import Verif.Props.ArtLinear
import Verif.Props.Continuity
import Mathlib.LinearAlgebra.Matrix.NonsingularInverse

/-!
# C154: the choice of lattice vectors

A crystal can be described in many cells: new lattice vectors `U L` with an integer matrix `U` whose
inverse `V` is an integer matrix as well, and fractional coordinates changed to match.
-/

namespace Verif

open Spec

noncomputable section

namespace Spec

/-- `p` (in the old cell) and `p'` (in the new cell with lattice vectors `U L`) are the same
atoms, up to lattice vectors. -/
def SameAtoms (U : Matrix (Fin 3) (Fin 3) ℤ) (p p' : Fin N → Fin 3 → ℝ) : Prop :=
  ∀ a j, ∃ n : ℤ, (∑ k, p' a k * (U k j : ℝ)) - p a j = n

/-- New fractional coordinates of a displacement with old fractional coordinates `w`. -/
def recoordinate (V : Matrix (Fin 3) (Fin 3) ℤ) (w : Fin N → Fin 3 → ℝ) : Fin N → Fin 3 → ℝ :=
  fun a k => ∑ j, w a j * (V j k : ℝ)

/-- New lattice vectors that are the old ones in the order `σ`, multiplied by `s`. -/
def axesMatrix (σ : Equiv.Perm (Fin 3)) (s : Fin 3 → ℤ) : Matrix (Fin 3) (Fin 3) ℤ :=
  Matrix.of fun i j => if j = σ i then s i else 0

end Spec

/-- `m'` is the model `m` described in the cell with lattice vectors `U L`. -/
structure SameModel (U : Matrix (Fin 3) (Fin 3) ℤ) (m m' : IModel N) : Prop where
  refPol : m'.refPol = m.refPol
  basis : m'.basis = m.basis
  interps : m'.interps = m.interps
  mask : m'.mask = m.mask
  lattice : ∀ k j, m'.ref.lattice k j = ∑ i, (U k i : ℝ) * m.ref.lattice i j
  positions : SameAtoms U m.ref.positions m'.ref.positions

theorem recoordinate_cart (U V : Matrix (Fin 3) (Fin 3) ℤ) (hVU : V * U = 1) (w : Pos N ℝ)
    (L L' : Mat3 ℝ) (hL : ∀ k j, L' k j = ∑ i, (U k i : ℝ) * L i j) :
    toCart L' (recoordinate V w) = toCart L w := by
  have hVU' : ∀ j i, ∑ k, (V j k : ℝ) * (U k i : ℝ) = if j = i then 1 else 0 := by
    intro j i
    have := congrFun (congrFun hVU j) i
    rw [Matrix.mul_apply, Matrix.one_apply] at this
    exact_mod_cast this
  funext a c
  unfold toCart recoordinate
  calc ∑ k, (∑ j, w a j * (V j k : ℝ)) * L' k c
      = ∑ j, ∑ i, (w a j * L i c) * ∑ k, (V j k : ℝ) * (U k i : ℝ) := by
        simp only [hL, Finset.sum_mul, Finset.mul_sum]
        conv_rhs => rw [Finset.sum_comm]
        rw [Finset.sum_comm]
        refine Finset.sum_congr rfl fun j _ => ?_
        rw [Finset.sum_comm]
        refine Finset.sum_congr rfl fun i _ => Finset.sum_congr rfl fun k _ => ?_
        ring
    _ = ∑ i, w a i * L i c := by
        refine Finset.sum_congr rfl fun j _ => ?_
        simp [hVU']

/-- The new coordinates of a displacement are a displacement between the new coordinates. -/
theorem recoordinate_image (U V : Matrix (Fin 3) (Fin 3) ℤ) (hUV : U * V = 1) (p p' q q' w : Pos N ℝ)
    (hp : SameAtoms U p p') (hq : SameAtoms U q q') (hw : ∀ a i, SameImage (q a i - p a i) (w a i))
    (a : Fin N) (k : Fin 3) : SameImage (q' a k - p' a k) (recoordinate V w a k) := by
  have hUV' : ∀ k l, ∑ j, (U k j : ℝ) * (V j l : ℝ) = if k = l then 1 else 0 := by
    intro k l
    have := congrFun (congrFun hUV k) l
    rw [Matrix.mul_apply, Matrix.one_apply] at this
    exact_mod_cast this
  choose np hnp using hp a
  choose nq hnq using hq a
  choose nw hnw using hw a
  refine ⟨∑ j, (np j - nq j + nw j) * V j k, ?_⟩
  have hj : ∀ j, w a j = (∑ l, (q' a l - p' a l) * (U l j : ℝ)) + ((np j - nq j + nw j : ℤ) : ℝ) := by
    intro j
    have h1 := hnp j
    have h2 := hnq j
    have h3 := hnw j
    have h4 : ∑ l, (q' a l - p' a l) * (U l j : ℝ)
        = (∑ l, q' a l * (U l j : ℝ)) - ∑ l, p' a l * (U l j : ℝ) := by
      rw [← Finset.sum_sub_distrib]
      refine Finset.sum_congr rfl fun l _ => ?_
      ring
    push_cast
    linarith
  unfold recoordinate
  calc ∑ j, w a j * (V j k : ℝ)
      = ∑ j, ((∑ l, (q' a l - p' a l) * (U l j : ℝ)) * (V j k : ℝ)
          + ((np j - nq j + nw j : ℤ) : ℝ) * (V j k : ℝ)) := by
        refine Finset.sum_congr rfl fun j _ => ?_
        rw [hj j]
        ring
    _ = (∑ l, (q' a l - p' a l) * ∑ j, (U l j : ℝ) * (V j k : ℝ))
          + ∑ j, ((np j - nq j + nw j : ℤ) : ℝ) * (V j k : ℝ) := by
        rw [Finset.sum_add_distrib]
        congr 1
        simp only [Finset.sum_mul, Finset.mul_sum]
        rw [Finset.sum_comm]
        refine Finset.sum_congr rfl fun l _ => Finset.sum_congr rfl fun j _ => ?_
        ring
    _ = q' a k - p' a k + ((∑ j, (np j - nq j + nw j) * V j k : ℤ) : ℝ) := by
        simp only [hUV']
        push_cast
        simp

/-- C154: a model described in two cells predicts the same polarizability for the same atoms,
provided the displacement from the reference lies in the half box of both cells. -/
theorem C154_cells_partial (U V : Matrix (Fin 3) (Fin 3) ℤ) (hUV : U * V = 1) (m m' : IModel N)
    (h : SameModel U m m') (hi : m.interps.length = m.basis.length)
    (hk : m.mask.length = m.basis.length) (q q' w : Pos N ℝ) (hq : SameAtoms U q q')
    (hw : NearestImage m.ref.positions q w) (hbox : ∀ a i, InHalfBox (recoordinate V w a i)) :
    evalOne m'.calcPolarizabilities q' = evalOne m.calcPolarizabilities q := by
  have hw' : NearestImage m'.ref.positions q' (recoordinate V w) := fun a i =>
    ⟨hbox a i, recoordinate_image U V hUV _ _ _ _ _ h.positions hq (fun a i => (hw a i).2) a i⟩
  rw [evalOne_expansion m hi hk q w hw,
    evalOne_expansion m' (by rw [h.interps, h.basis, hi]) (by rw [h.mask, h.basis, hk]) q' _ hw',
    h.refPol, h.basis, h.interps, h.mask,
    recoordinate_cart U V (mul_eq_one_comm.1 hUV) w _ _ h.lattice]

/-- C154, small displacements: it suffices that the displacement is short compared with the entries
of the inverse change of cell. -/
theorem C154_small (U V : Matrix (Fin 3) (Fin 3) ℤ) (hUV : U * V = 1) (m m' : IModel N)
    (h : SameModel U m m') (hi : m.interps.length = m.basis.length)
    (hk : m.mask.length = m.basis.length) (q q' w : Pos N ℝ) (hq : SameAtoms U q q')
    (hw : NearestImage m.ref.positions q w) (δ : ℝ) (hδ : ∀ a i, |w a i| ≤ δ)
    (hV : ∀ k, δ * ∑ j, |(V j k : ℝ)| < 1 / 2) :
    evalOne m'.calcPolarizabilities q' = evalOne m.calcPolarizabilities q := by
  refine C154_cells_partial U V hUV m m' h hi hk q q' w hq hw fun a k => ?_
  have h1 : |recoordinate V w a k| < 1 / 2 := by
    refine lt_of_le_of_lt ?_ (hV k)
    unfold recoordinate
    refine (Finset.abs_sum_le_sum_abs _ _).trans ?_
    rw [Finset.mul_sum]
    refine Finset.sum_le_sum fun j _ => ?_
    rw [abs_mul]
    exact mul_le_mul_of_nonneg_right (hδ a j) (abs_nonneg _)
  exact ⟨(abs_lt.1 h1).1, (abs_lt.1 h1).2.le⟩

/-- C154, renaming the axes: if the new lattice vectors are the old ones in another order, some of them
reversed, predictions agree at every configuration that is not half a cell away from the reference. -/
theorem C154_axes (σ : Equiv.Perm (Fin 3)) (s : Fin 3 → ℤ) (hs : ∀ i, s i = 1 ∨ s i = -1)
    (m m' : IModel N) (h : SameModel (axesMatrix σ s) m m')
    (hi : m.interps.length = m.basis.length) (hk : m.mask.length = m.basis.length)
    (q q' w : Pos N ℝ) (hq : SameAtoms (axesMatrix σ s) q q')
    (hw : NearestImage m.ref.positions q w) (hne : ∀ a i, w a i ≠ 1 / 2) :
    evalOne m'.calcPolarizabilities q' = evalOne m.calcPolarizabilities q := by
  have hsq : ∀ i, s i * s i = 1 := fun i => by rcases hs i with e | e <;> rw [e] <;> rfl
  refine C154_cells_partial _ (axesMatrix σ s).transpose ?_ m m' h hi hk q q' w hq hw ?_
  · ext i k
    rw [Matrix.mul_apply, Matrix.one_apply]
    rw [Finset.sum_eq_single (σ i)]
    · by_cases e : i = k
      · subst e
        simp [axesMatrix, hsq]
      · simp [axesMatrix, e]
    · intro j _ hj
      simp [axesMatrix, hj]
    · intro hn
      exact absurd (Finset.mem_univ _) hn
  · intro a k
    have e : recoordinate (axesMatrix σ s).transpose w a k = w a (σ k) * (s k : ℝ) := by
      unfold recoordinate
      rw [Finset.sum_eq_single (σ k)]
      · simp [axesMatrix]
      · intro j _ hj
        simp [axesMatrix, hj]
      · intro hn
        exact absurd (Finset.mem_univ _) hn
    rw [e]
    obtain ⟨h1, h2⟩ := (hw a (σ k)).1
    have h3 := lt_of_le_of_ne h2 (hne a (σ k))
    rcases hs k with e | e <;> rw [e] <;> constructor <;> push_cast <;> linarith

/-- C154, phonons: Raman tensors computed in the two cells agree, provided the displacements
are short enough. -/
theorem C154_raman (U V : Matrix (Fin 3) (Fin 3) ℤ) (hUV : U * V = 1) (m m' : IModel N)
    (h : SameModel U m m') (hi : m.interps.length = m.basis.length)
    (hk : m.mask.length = m.basis.length) (d : Pos N ℝ) (δ : ℝ) (hδ : ∀ a i, |d a i| ≤ δ)
    (h1 : δ < 500) (hV : ∀ k, δ * ∑ j, |(V j k : ℝ)| < 500) :
    ramanTensor m'.calcPolarizabilities m'.ref.positions (recoordinate V d)
      = ramanTensor m.calcPolarizabilities m.ref.positions d := by
  have hVU' : ∀ j i, ∑ k, (V j k : ℝ) * (U k i : ℝ) = if j = i then 1 else 0 := by
    intro j i
    have hVU : V * U = 1 := mul_eq_one_comm.1 hUV
    have := congrFun (congrFun hVU j) i
    rw [Matrix.mul_apply, Matrix.one_apply] at this
    exact_mod_cast this
  have key : ∀ t : ℝ, |t| = 1 / 1000 →
      evalOne m'.calcPolarizabilities (fun a i => m'.ref.positions a i + t * recoordinate V d a i)
        = evalOne m.calcPolarizabilities fun a i => m.ref.positions a i + t * d a i := by
    intro t ht
    have hb : ∀ a i, |t * d a i| ≤ δ / 1000 := by
      intro a i
      rw [abs_mul, ht]
      linarith [hδ a i]
    refine C154_small U V hUV m m' h hi hk _ _ (fun a i => t * d a i) ?_
      (nearest_of_small _ _ _ fun a i => lt_of_le_of_lt (hb a i) (by linarith)) (δ / 1000) hb ?_
    · intro a j
      obtain ⟨n, hn⟩ := h.positions a j
      refine ⟨n, ?_⟩
      have e : ∑ k, recoordinate V d a k * (U k j : ℝ) = d a j := by
        unfold recoordinate
        calc ∑ k, (∑ i, d a i * (V i k : ℝ)) * (U k j : ℝ)
            = ∑ i, d a i * ∑ k, (V i k : ℝ) * (U k j : ℝ) := by
              simp only [Finset.sum_mul, Finset.mul_sum]
              rw [Finset.sum_comm]
              refine Finset.sum_congr rfl fun i _ => Finset.sum_congr rfl fun k _ => ?_
              ring
          _ = d a j := by simp [hVU']
      have e2 : ∑ k, (m'.ref.positions a k + t * recoordinate V d a k) * (U k j : ℝ)
          = (∑ k, m'.ref.positions a k * (U k j : ℝ))
            + t * ∑ k, recoordinate V d a k * (U k j : ℝ) := by
        rw [Finset.mul_sum, ← Finset.sum_add_distrib]
        refine Finset.sum_congr rfl fun k _ => ?_
        ring
      rw [e2, e]
      linarith
    · intro k
      have := hV k
      rw [div_mul_eq_mul_div]
      linarith
  have k1 := key (1 / 1000) (by norm_num)
  have k2 := key (-(1 / 1000)) (by norm_num)
  unfold ramanTensor centralDifference
  dsimp only
  have c1 : ∀ (p e : Pos N ℝ), (fun a i => p a i + e a i * (1 / 1000))
      = fun a i => p a i + 1 / 1000 * e a i := fun p e => by funext a i; ring
  have c2 : ∀ (p e : Pos N ℝ), (fun a i => p a i - e a i * (1 / 1000))
      = fun a i => p a i + -(1 / 1000) * e a i := fun p e => by funext a i; ring
  rw [c1, c2, c1, c2, k1, k2]

/-! ### A sheared cell -/

/-- The third component of the first lattice vector is increased by one. -/
def shear : Matrix (Fin 3) (Fin 3) ℤ := !![1, 0, 1; 0, 1, 0; 0, 0, 1]

/-- The inverse. -/
def unshear : Matrix (Fin 3) (Fin 3) ℤ := !![1, 0, -1; 0, 1, 0; 0, 0, 1]

theorem shear_inverse : shear * unshear = 1 := by decide

theorem shear_row : shear 0 0 = 1 ∧ shear 0 1 = 0 ∧ shear 0 2 = 1 ∧ shear 1 0 = 0 ∧ shear 1 1 = 1 ∧
    shear 1 2 = 0 ∧ shear 2 0 = 0 ∧ shear 2 1 = 0 ∧ shear 2 2 = 1 := by decide

theorem unshear_row : unshear 0 0 = 1 ∧ unshear 0 1 = 0 ∧ unshear 0 2 = -1 ∧ unshear 1 0 = 0 ∧
    unshear 1 1 = 1 ∧ unshear 1 2 = 0 ∧ unshear 2 0 = 0 ∧ unshear 2 1 = 0 ∧ unshear 2 2 = 1 := by decide

/-- The two-atom molecule in the sheared cell. -/
def bondSheared (f : ℝ → Mat3 ℝ) : IModel 2 :=
  ⟨⟨fun _ => 8, fun i j => (shear i j : ℝ), ![![0, 0, 2 / 5], ![0, 0, 3 / 5]],
    [⟨1, 0⟩, ⟨-1, 0⟩], [], []⟩, 1, false,
    [![![0, 0, -1], ![0, 0, 1]]], [f], [false]⟩

theorem bond_same (f : ℝ → Mat3 ℝ) : SameModel shear (bondModel f) (bondSheared f) := by
  refine ⟨rfl, rfl, rfl, rfl, ?_, ?_⟩
  · intro k j
    fin_cases k <;> fin_cases j <;>
      simp [bondSheared, bondModel, shear_row, Fin.sum_univ_three, Matrix.one_apply, vec_two]
  · intro a j
    refine ⟨0, ?_⟩
    fin_cases a <;> fin_cases j <;>
      simp [bondSheared, bondModel, shear_row, Fin.sum_univ_three, vec_two]

/-- C154, concrete: stretching the bond by a tenth of the cell and moving an atom sideways gives the same
prediction in both cells, one that depends on the stretch. -/
example (B : Mat3 ℝ) :
    evalOne (bondSheared fun t => t • B).calcPolarizabilities ![![0, 0, 2 / 5], ![1 / 10, 0, 3 / 5]]
      = evalOne (bondModel fun t => t • B).calcPolarizabilities ![![0, 0, 2 / 5], ![1 / 10, 0, 7 / 10]] ∧
    evalOne (bondModel fun t => t • B).calcPolarizabilities ![![0, 0, 2 / 5], ![1 / 10, 0, 7 / 10]]
      = .ok (1 + (1 / 10 : ℝ) • B) := by
  have hn : NearestImage (bondModel fun t => t • B).ref.positions
      ![![0, 0, 2 / 5], ![1 / 10, 0, 7 / 10]] ![![0, 0, 0], ![1 / 10, 0, 1 / 10]] := by
    intro a i
    refine ⟨?_, 0, ?_⟩
    · fin_cases a <;> fin_cases i <;> norm_num [vec_two, InHalfBox]
    · fin_cases a <;> fin_cases i <;> norm_num [vec_two, bondModel]
  refine ⟨?_, ?_⟩
  · refine C154_small shear unshear shear_inverse _ _ (bond_same _) rfl rfl _ _ _ ?_ hn (1 / 10) ?_ ?_
    · intro a j
      refine ⟨0, ?_⟩
      fin_cases a <;> fin_cases j <;> simp [shear_row, Fin.sum_univ_three, vec_two] <;> norm_num
    · intro a i
      fin_cases a <;> fin_cases i <;> norm_num [vec_two]
    · intro k
      fin_cases k <;> simp [unshear_row, Fin.sum_univ_three, vec_two] <;> norm_num
  · rw [evalOne_expansion (bondModel fun t => t • B) rfl rfl _ _ hn]
    simp only [expansion, bondModel, List.zip_cons_cons, List.zip_nil_left, List.map_cons,
      List.map_nil, List.sum_cons, List.sum_nil, add_zero, Bool.false_eq_true, if_false]
    congr 3
    simp [inner3, toCart, Fin.sum_univ_three, Fin.sum_univ_two, Matrix.one_apply, vec_two]

/-- C154, counterexample: for larger displacements the prediction depends on the cell.  The same atoms
are described in both cells, yet the bond counts as compressed by 0.4 in one and stretched by
0.6 in the other. -/
theorem C154_counterexample (B : Mat3 ℝ) :
    ∃ q q' : Pos 2 ℝ, SameAtoms shear q q' ∧
      evalOne (bondModel fun t => t • B).calcPolarizabilities q = .ok (1 + (-(2 / 5) : ℝ) • B) ∧
      evalOne (bondSheared fun t => t • B).calcPolarizabilities q' = .ok (1 + (3 / 5 : ℝ) • B) := by
  refine ⟨![![0, 0, 2 / 5], ![2 / 5, 0, 1 / 5]], ![![0, 0, 2 / 5], ![2 / 5, 0, -(1 / 5)]], ?_, ?_, ?_⟩
  · intro a j
    refine ⟨0, ?_⟩
    fin_cases a <;> fin_cases j <;> simp [shear_row, Fin.sum_univ_three, vec_two] <;> norm_num
  · rw [evalOne_expansion (bondModel fun t => t • B) rfl rfl _
      ![![0, 0, 0], ![2 / 5, 0, -(2 / 5)]] ?_]
    · simp only [expansion, bondModel, List.zip_cons_cons, List.zip_nil_left, List.map_cons,
        List.map_nil, List.sum_cons, List.sum_nil, add_zero, Bool.false_eq_true, if_false]
      congr 3
      simp [inner3, toCart, Fin.sum_univ_three, Fin.sum_univ_two, Matrix.one_apply, vec_two]
    · intro a i
      refine ⟨?_, 0, ?_⟩
      · fin_cases a <;> fin_cases i <;> norm_num [vec_two, InHalfBox]
      · fin_cases a <;> fin_cases i <;> norm_num [vec_two, bondModel]
  · rw [evalOne_expansion (bondSheared fun t => t • B) rfl rfl _
      ![![0, 0, 0], ![2 / 5, 0, 1 / 5]] ?_]
    · simp only [expansion, bondSheared, List.zip_cons_cons, List.zip_nil_left, List.map_cons,
        List.map_nil, List.sum_cons, List.sum_nil, add_zero, Bool.false_eq_true, if_false]
      congr 3
      norm_num [inner3, toCart, Fin.sum_univ_three, Fin.sum_univ_two, shear_row, vec_two]
    · intro a i
      refine ⟨?_, (![![0, 0, 0], ![0, 0, 1]] : Fin 2 → Fin 3 → ℤ) a i, ?_⟩
      · fin_cases a <;> fin_cases i <;> norm_num [vec_two, InHalfBox]
      · fin_cases a <;> fin_cases i <;> norm_num [vec_two, bondSheared]

/-! ## Which changes of the cell are harmless -/

/-- One atom that responds to displacements along the Cartesian direction `c`. -/
def probeModel (L : Mat3 ℝ) (c : Fin 3) : IModel 1 :=
  ⟨⟨fun _ => 14, L, fun _ _ => 0, [⟨1, 0⟩], [], []⟩, 1, false, [fun _ j => if j = c then 1 else 0],
    [fun t => t • (1 : Mat3 ℝ)], [false]⟩

theorem probe_eval (L : Mat3 ℝ) (c : Fin 3) (q w : Pos 1 ℝ) (hw : NearestImage (fun _ _ => 0) q w) :
    evalOne (probeModel L c).calcPolarizabilities q = .ok (1 + toCart L w 0 c • (1 : Mat3 ℝ)) := by
  rw [evalOne_expansion (probeModel L c) rfl rfl q w hw]
  simp [expansion, probeModel, inner3]

/-- An integer matrix whose columns have absolute sum at most one is, if it has an inverse, the inverse
of a matrix that renames axes. -/
theorem axes_of_columns (U V : Matrix (Fin 3) (Fin 3) ℤ) (hUV : U * V = 1)
    (hV : ∀ k, ∑ j, |V j k| ≤ 1) : ∃ σ s, (∀ i, s i = 1 ∨ s i = -1) ∧ U = axesMatrix σ s := by
  have hmul : ∀ i k, ∑ j, U i j * V j k = if i = k then 1 else 0 := by
    intro i k
    have := congrFun (congrFun hUV i) k
    rwa [Matrix.mul_apply, Matrix.one_apply] at this
  have hex : ∀ k, ∃ j, V j k ≠ 0 := by
    intro k
    by_contra hn
    push Not at hn
    have := hmul k k
    simp [hn] at this
  choose τ hτ using hex
  have hz : ∀ k j, j ≠ τ k → V j k = 0 := by
    intro k j hj
    by_contra hne
    have h1 : |V (τ k) k| + |V j k| ≤ ∑ j, |V j k| := by
      have := Finset.sum_le_sum_of_subset_of_nonneg (f := fun j => |V j k|)
        (Finset.subset_univ ({τ k, j} : Finset (Fin 3))) fun _ _ _ => abs_nonneg _
      rwa [Finset.sum_pair (Ne.symm hj)] at this
    have h2 := Int.one_le_abs (hτ k)
    have h3 := Int.one_le_abs hne
    have h4 := hV k
    omega
  have hs : ∀ k, V (τ k) k = 1 ∨ V (τ k) k = -1 := by
    intro k
    have h1 : |V (τ k) k| ≤ 1 := by
      refine le_trans ?_ (hV k)
      exact Finset.single_le_sum (f := fun j => |V j k|) (fun _ _ => abs_nonneg _) (Finset.mem_univ _)
    have h2 := Int.one_le_abs (hτ k)
    have h3 : |V (τ k) k| = 1 := le_antisymm h1 h2
    exact eq_or_eq_neg_of_abs_eq h3
  have hone : ∀ i k, U i (τ k) * V (τ k) k = if i = k then 1 else 0 := by
    intro i k
    rw [← hmul i k, Finset.sum_eq_single (τ k)]
    · intro j _ hj
      rw [hz k j hj, mul_zero]
    · intro hn
      exact absurd (Finset.mem_univ _) hn
  have hinj : Function.Injective τ := by
    intro k l h
    by_contra hne
    have h1 := hone k k
    have h2 := hone k l
    rw [if_pos rfl] at h1
    rw [if_neg hne, ← h] at h2
    rcases mul_eq_zero.1 h2 with h3 | h3
    · rw [h3, zero_mul] at h1
      exact zero_ne_one h1
    · rw [h] at h3
      exact hτ l h3
  refine ⟨Equiv.ofBijective τ (Finite.injective_iff_bijective.1 hinj), fun k => V (τ k) k, hs, ?_⟩
  ext i j
  obtain ⟨k, rfl⟩ := (Finite.injective_iff_bijective.1 hinj).2 j
  have h1 := hone i k
  simp only [axesMatrix, Matrix.of_apply, Equiv.ofBijective_apply]
  by_cases hik : i = k
  · subst hik
    rw [if_pos rfl] at h1 ⊢
    rcases hs i with h2 | h2 <;> rw [h2] at h1 ⊢ <;> omega
  · rw [if_neg hik] at h1
    rw [if_neg fun h => hik (hinj h).symm]
    rcases mul_eq_zero.1 h1 with h2 | h2
    · exact h2
    · exact absurd h2 (hτ k)

/-- C154, exactly: the changes of the cell under which all predictions for displacements of less than half
a cell stay the same are those that only rename and reverse axes.  For all others there are already
models of one atom that predict something else. -/
theorem C154_axes_iff (U V : Matrix (Fin 3) (Fin 3) ℤ) (hUV : U * V = 1) :
    (∀ m m' : IModel 1, SameModel U m m' → m.interps.length = m.basis.length →
      m.mask.length = m.basis.length → ∀ q q' w, SameAtoms U q q' → NearestImage m.ref.positions q w →
      (∀ a i, w a i ≠ 1 / 2) → evalOne m'.calcPolarizabilities q' = evalOne m.calcPolarizabilities q) ↔
    ∃ σ s, (∀ i, s i = 1 ∨ s i = -1) ∧ U = axesMatrix σ s := by
  constructor
  · intro h
    refine axes_of_columns U V hUV fun k => ?_
    by_contra hlt
    push Not at hlt
    have hVU : V * U = 1 := mul_eq_one_comm.1 hUV
    have hVU' : ∀ j i, ∑ k, (V j k : ℝ) * (U k i : ℝ) = if j = i then 1 else 0 := by
      intro j i
      have := congrFun (congrFun hVU j) i
      rw [Matrix.mul_apply, Matrix.one_apply] at this
      exact_mod_cast this
    have hUV' : ∀ j i, ∑ k, (U j k : ℝ) * (V k i : ℝ) = if j = i then 1 else 0 := by
      intro j i
      have := congrFun (congrFun hUV j) i
      rw [Matrix.mul_apply, Matrix.one_apply] at this
      exact_mod_cast this
    set w : Pos 1 ℝ := fun _ j => 3 / 8 * ((V j k).sign : ℝ) with hwdef
    have hbnd : ∀ a j, |w a j| ≤ 3 / 8 := by
      intro a j
      rw [hwdef]
      dsimp only
      rcases lt_trichotomy (V j k) 0 with h0 | h0 | h0
      · rw [Int.sign_eq_neg_one_of_neg h0]; norm_num [abs_of_pos]
      · rw [h0]; norm_num
      · rw [Int.sign_eq_one_of_pos h0]; norm_num [abs_of_pos]
    have hw : NearestImage (fun (_ : Fin 1) _ => (0 : ℝ)) w w := fun a i => by
      have := abs_le.1 (hbnd a i)
      exact ⟨⟨by linarith, by linarith⟩, 0, by simp⟩
    have hw' := calcDisplacement_nearest (fun (_ : Fin 1) _ => (0 : ℝ)) (recoordinate V w)
    set w' := calcDisplacement (fun (_ : Fin 1) _ => (0 : ℝ)) (recoordinate V w)
    have hcart : ∀ c, ∑ i, w' 0 i * (U i c : ℝ) = w 0 c := by
      intro c
      have h1 := h (probeModel 1 c) (probeModel (fun i j => (U i j : ℝ)) c)
        ⟨rfl, rfl, rfl, rfl, fun k j => by simp [probeModel, Matrix.one_apply], fun a j => ⟨0, by
          simp [probeModel]⟩⟩ rfl rfl w (recoordinate V w) w (fun a j => ⟨0, by
            unfold recoordinate
            simp only [Finset.sum_mul]
            rw [Finset.sum_comm]
            simp only [mul_assoc, ← Finset.mul_sum, hVU']
            simp⟩) hw fun a i => by
              have := abs_le.1 (hbnd a i)
              intro h2
              linarith
      replace h1 := ((probe_eval (fun i j => (U i j : ℝ)) c _ _ hw').symm.trans h1).trans (probe_eval 1 c _ _ hw)
      have h2 := congrFun (congrFun (Except.ok.inj h1) 0) 0
      simp only [Matrix.add_apply, Matrix.smul_apply, Matrix.one_apply_eq, smul_eq_mul, mul_one] at h2
      have h3 := add_left_cancel h2
      unfold toCart at h3
      rw [h3]
      simp [Matrix.one_apply]
    have hrec : w' 0 k = ∑ j, w 0 j * (V j k : ℝ) := by
      simp only [← hcart, Finset.sum_mul]
      rw [Finset.sum_comm]
      simp only [mul_assoc, ← Finset.mul_sum, hUV']
      simp
    have hbig : (3 / 4 : ℝ) ≤ w' 0 k := by
      rw [hrec]
      have h1 : ∀ j, w 0 j * (V j k : ℝ) = 3 / 8 * ((|V j k| : ℤ) : ℝ) := by
        intro j
        rw [hwdef]
        dsimp only
        rw [mul_assoc, ← Int.cast_mul, Int.sign_mul_self_eq_abs]
      simp only [h1]
      rw [← Finset.mul_sum, ← Int.cast_sum]
      have h2 : (2 : ℤ) ≤ ∑ j, |V j k| := hlt
      have h3 : (2 : ℝ) ≤ ((∑ j, |V j k| : ℤ) : ℝ) := by exact_mod_cast h2
      linarith
    linarith [(hw' 0 k).1.2]
  · rintro ⟨σ, s, hs, rfl⟩ m m' hm hi hk q q' w hq hw hne
    exact C154_axes σ s hs m m' hm hi hk q q' w hq hw hne

/-- C154_axes_iff, concrete: exchanging two axes is harmless, the shear is not. -/
example : (∃ σ s, (∀ i, s i = 1 ∨ s i = -1) ∧
      (!![0, 1, 0; 1, 0, 0; 0, 0, -1] : Matrix (Fin 3) (Fin 3) ℤ) = axesMatrix σ s) ∧
    ¬ ∃ σ s, (∀ i, s i = 1 ∨ s i = -1) ∧ shear = axesMatrix σ s := by
  constructor
  · refine ⟨Equiv.swap 0 1, ![1, 1, -1], by decide, by decide⟩
  · rintro ⟨σ, s, hs, h⟩
    have h0 := congrFun (congrFun h 0) 0
    have h2 := congrFun (congrFun h 0) 2
    simp only [axesMatrix, Matrix.of_apply, shear_row] at h0 h2
    by_cases hσ : (0 : Fin 3) = σ 0
    · rw [if_neg (by rw [← hσ]; decide)] at h2
      exact absurd h2 (by decide)
    · rw [if_neg hσ] at h0
      exact absurd h0 (by decide)

end

end Verif
