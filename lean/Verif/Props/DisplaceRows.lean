import Verif.Model.DisplaceRows
import Verif.Props.Displace
import Verif.Model.Write

/-!
# C165: displaced positions for arrays of other sizes
-/

namespace Verif

open Spec

variable {M N k : ℕ}

theorem displacedRowsBy_eq (s : RefStructure N) (hL : s.lattice.det ≠ 0) (u : Option (Pos M ℝ)) (x : ℝ) :
    displacedRowsBy s u x = displaceRows s
      (u.map fun u => applyPbcDisplacement (matMulPos (fun a i => u a i * x) s.lattice⁻¹)) := by
  unfold displacedRowsBy npInv
  rw [if_neg hL]
  rfl

/-- C165: with one row per atom the result is the documented one. -/
theorem C165_one_row_per_atom (hN : 0 < N) (s : RefStructure N) (cart : Pos N ℝ) (amps : List ℝ) :
    getDisplacedRows s cart amps = (getDisplacedPositions s cart amps).map (List.map positionRows) := by
  have hu : unitRows cart = (normalize (flat cart)).map fun u a i => u (a, i) := by
    unfold unitRows
    rw [if_neg hN.ne']
  unfold getDisplacedRows getDisplacedPositions
  rw [hu]
  dsimp only
  have h : ∀ x, displacedRowsBy s ((normalize (flat cart)).map fun u a i => u (a, i)) x
      = (displacedBy s (normalize (flat cart)) x).map positionRows := by
    intro x
    unfold displacedRowsBy displacedBy RefStructure.getFracDisplacement
    cases hi : npInv s.lattice with
    | error e => cases normalize (flat cart) <;> rfl
    | ok inv =>
      cases normalize (flat cart) with
      | none =>
        change displaceRows s none = _
        unfold displaceRows
        rw [if_pos (Or.inl rfl)]
        rfl
      | some u =>
        change displaceRows s (some _) = _
        unfold displaceRows broadcastRows
        rw [if_pos (Or.inl rfl)]
        dsimp only [Option.bind, Option.map]
        rw [dif_pos rfl]
        rfl
  induction amps with
  | nil => rfl
  | cons x l ih =>
    rw [List.mapM_cons, List.mapM_cons, ih, h]
    cases displacedBy s (normalize (flat cart)) x with
    | error e => rfl
    | ok y =>
      cases List.mapM (displacedBy s (normalize (flat cart))) l <;> rfl

/-- C165: with another number of rows, except one, displacing several atoms raises `ValueError`. -/
theorem C165_other_sizes (s : RefStructure N) (hL : s.lattice.det ≠ 0) (cart : Pos M ℝ)
    (amps : List ℝ) (hne : amps ≠ []) (hMN : M ≠ N) (hM : M ≠ 1) (hN : N ≠ 1) :
    getDisplacedRows s cart amps = .error .valueError := by
  unfold getDisplacedRows
  cases amps with
  | nil => exact absurd rfl hne
  | cons x l =>
    rw [List.mapM_cons, displacedRowsBy_eq s hL]
    unfold displaceRows
    rw [if_neg (by tauto), dif_neg hN]
    rfl

/-- C165: a single row does not displace a single atom: every atom of each returned structure is
displaced by `amplitude` times the unit vector along the row, modulo lattice vectors. -/
theorem C165_single_row (s : RefStructure N) (hL : s.lattice.det ≠ 0) (hN : N ≠ 1)
    (cart : Pos 1 ℝ) (hc : cart 0 ≠ 0) (amps : List ℝ) :
    ∃ ps : List (Pos N ℝ), getDisplacedRows s cart amps = .ok (ps.map fun p => positionRows (some p)) ∧
      List.Forall₂ (fun x q => (∀ a i, InCell (q a i)) ∧
        ∀ a, ∃ n : Fin 3 → ℤ, ∀ j, ∑ i, (q a i - s.positions a i) * s.lattice i j
          = x * (cart 0 j / Real.sqrt (∑ i, cart 0 i ^ 2)) + ∑ i, n i * s.lattice i j) amps ps := by
  have hne : flat cart ≠ 0 := fun h => hc (by funext i; exact congrFun h (0, i))
  have hn : norm2 (flat cart) = Real.sqrt (∑ i, cart 0 i ^ 2) := by
    unfold norm2 dot
    rw [Fintype.sum_prod_type, Fin.sum_univ_one]
    simp [flat, sq]
  have hu : unitRows cart = some fun a i => cart a i / norm2 (flat cart) := by
    unfold unitRows normalize
    rw [if_neg (by norm_num), if_neg (norm2_pos hne).ne']
    rfl
  have hrow : ∀ x, ∃ q : Pos N ℝ, displacedRowsBy s (unitRows cart) x = .ok (positionRows (some q)) ∧
      (∀ a i, InCell (q a i)) ∧ ∀ a, ∃ n : Fin 3 → ℤ,
        ∀ j, ∑ i, (q a i - s.positions a i) * s.lattice i j
          = x * (cart 0 j / Real.sqrt (∑ i, cart 0 i ^ 2)) + ∑ i, n i * s.lattice i j := by
    intro x
    obtain ⟨q, h1, h2, n, h3⟩ := displacedBy_some s hL
      (fun y : Fin N × Fin 3 => cart 0 y.2 / norm2 (flat cart)) x
    refine ⟨q, ?_, h2, fun a => ⟨n a, fun j => ?_⟩⟩
    · rw [displacedRowsBy_eq s hL, hu]
      unfold displaceRows broadcastRows
      rw [if_pos (Or.inr rfl)]
      dsimp only [Option.bind, Option.map]
      rw [dif_neg (Ne.symm hN), dif_pos rfl]
      unfold displacedBy RefStructure.getFracDisplacement npInv at h1
      rw [if_neg hL] at h1
      have h1 := Option.some.inj (Except.ok.inj h1)
      rw [← h1]
      rfl
    · rw [← hn]
      exact h3 a j
  unfold getDisplacedRows
  choose g hg hR using hrow
  refine ⟨amps.map g, ?_, ?_⟩
  · rw [mapM_except_ok, List.map_map, List.forall₂_map_right_iff, List.forall₂_same]
    intro x _
    exact hg x
  · rw [List.forall₂_map_right_iff, List.forall₂_same]
    intro x _
    exact hR x

/-- C165: several rows for a structure of one atom give positions of that many atoms, which
`write_structure` refuses. -/
theorem C165_single_atom (s : RefStructure 1) (hL : s.lattice.det ≠ 0) (cart : Pos M ℝ)
    (hM : M ≠ 1) (amps : List ℝ) :
    ∃ ps, getDisplacedRows s cart amps = .ok ps ∧ ps.length = amps.length ∧
      ∀ rows ∈ ps, rows.length = M ∧ ∀ printable lattice z label,
        poscarContent printable lattice [z] rows label = .error .valueError := by
  have hrow : ∀ x, ∃ rows, displacedRowsBy s (unitRows cart) x = .ok rows ∧ rows.length = M := by
    intro x
    rw [displacedRowsBy_eq s hL]
    unfold displaceRows
    rw [if_neg (by tauto), dif_pos rfl]
    exact ⟨_, rfl, by simp [arrayRows]⟩
  choose g hg hl using hrow
  refine ⟨amps.map g, ?_, by simp, ?_⟩
  · unfold getDisplacedRows
    rw [mapM_except_ok, List.forall₂_map_right_iff, List.forall₂_same]
    intro x _
    exact hg x
  · intro rows hr
    obtain ⟨x, _, rfl⟩ := List.mem_map.1 hr
    refine ⟨hl x, fun printable lattice z label => ?_⟩
    unfold poscarContent verifyStructure
    by_cases hz : [z].all (fun n => (dictGet atomSymbols n).isSome)
    · rw [if_neg (not_not.2 hz), if_pos (by rw [hl]; exact hM)]
      rfl
    · rw [if_pos hz]
      rfl

/-- C165: a direction with three components is the documented case. -/
theorem C165_three_components (s : RefStructure N) (atomIndex : ℤ) (d : Vec3) (amps : List ℝ) :
    getAstDisplacedComponents s atomIndex d amps = getAstDisplacedPositions s atomIndex d amps := by
  unfold getAstDisplacedComponents getAstDisplacedPositions
  cases pyIndex N atomIndex with
  | none => rfl
  | some a =>
    dsimp only
    rw [if_pos (Or.inl rfl)]
    cases normalize d with
    | none => rfl
    | some u =>
      dsimp only [Option.bind]
      unfold directionRow
      rw [dif_pos rfl]
      rfl

/-- C165: a direction with a single component `c` displaces the atom along the diagonal `(c,c,c)` of
the laboratory frame. -/
theorem C165_one_component (s : RefStructure N) (atomIndex : ℤ) (d : Fin 1 → ℝ) (amps : List ℝ) :
    getAstDisplacedComponents s atomIndex d amps
      = getAstDisplacedPositions s atomIndex (fun _ => d 0) amps := by
  have h1 : norm2 d = |d 0| := by
    unfold norm2 dot
    rw [Fin.sum_univ_one, Real.sqrt_mul_self_eq_abs]
  have h3 : norm2 (fun _ : Fin 3 => d 0) = Real.sqrt 3 * |d 0| := by
    unfold norm2 dot
    rw [Fin.sum_univ_three, show d 0 * d 0 + d 0 * d 0 + d 0 * d 0 = 3 * (d 0 * d 0) by ring,
      Real.sqrt_mul (by norm_num), Real.sqrt_mul_self_eq_abs]
  have hs3 : (0 : ℝ) < Real.sqrt 3 := Real.sqrt_pos.2 (by norm_num)
  unfold getAstDisplacedComponents getAstDisplacedPositions
  cases pyIndex N atomIndex with
  | none => rfl
  | some a =>
    dsimp only
    rw [if_pos (Or.inr rfl)]
    by_cases h0 : d 0 = 0
    · have e1 : normalize d = none := by
        unfold normalize; rw [if_pos (by rw [h1, h0, abs_zero])]
      have e2 : normalize (fun _ : Fin 3 => d 0) = none := by
        unfold normalize; rw [if_pos (by rw [h3, h0, abs_zero, mul_zero])]
      rw [e1, e2]
      rfl
    · have ha : |d 0| ≠ 0 := abs_ne_zero.2 h0
      have e1 : (normalize d).bind directionRow = some fun _ => d 0 / |d 0| := by
        unfold normalize
        rw [if_neg (by rw [h1]; exact ha)]
        dsimp only [Option.bind]
        unfold directionRow
        rw [dif_neg (by norm_num), dif_pos rfl, h1]
        rfl
      have e2 : normalize (fun _ : Fin 3 => d 0)
          = some fun _ => d 0 / (Real.sqrt 3 * |d 0|) := by
        unfold normalize
        rw [if_neg (by rw [h3]; exact mul_ne_zero hs3.ne' ha), h3]
      rw [e1, e2]
      dsimp only
      rw [← C21_magnitude_ignored s (fun b => if b = a then fun _ => d 0 / (Real.sqrt 3 * |d 0|)
        else fun _ => 0) (Real.sqrt 3) hs3]
      congr 1
      funext b i
      by_cases hb : b = a
      · rw [if_pos hb, if_pos hb]
        field_simp
      · rw [if_neg hb, if_neg hb, mul_zero]

/-- C165: other numbers of components are refused. -/
theorem C165_other_components (s : RefStructure N) (atomIndex : ℤ) (a : Fin N)
    (ha : Addresses N atomIndex a) (d : Fin k → ℝ) (h3 : k ≠ 3) (h1 : k ≠ 1) (amps : List ℝ) :
    getAstDisplacedComponents s atomIndex d amps = .error .valueError := by
  unfold getAstDisplacedComponents
  rw [(pyIndex_some_iff N atomIndex a).2 ha]
  dsimp only
  rw [if_neg (by tauto)]

/-- C165, concrete: two atoms in a unit cell.  The row `(2, 0, 0)` moves both atoms along x, three rows
are refused; a direction with the single component 2 moves the atom along `(1,1,1)`, a direction
with two components is refused. -/
example (s : RefStructure 2) (hs : s.lattice = 1) :
    (∃ ps : List (Pos 2 ℝ), getDisplacedRows s (fun _ : Fin 1 => ![2, 0, 0]) [1 / 10]
        = .ok (ps.map fun p => positionRows (some p)) ∧ ps.length = 1) ∧
      getDisplacedRows s (fun _ : Fin 3 => ![2, 0, 0]) [1 / 10] = .error .valueError ∧
      getAstDisplacedComponents s (-1) ![2] [1 / 10]
        = getAstDisplacedPositions s (-1) (fun _ => 2) [1 / 10] ∧
      getAstDisplacedComponents s (-1) ![2, 0] [1 / 10] = .error .valueError := by
  have hL : s.lattice.det ≠ 0 := by rw [hs]; simp
  refine ⟨?_, C165_other_sizes s hL _ _ (by simp) (by norm_num) (by norm_num) (by norm_num),
    C165_one_component s _ _ _, C165_other_components s _ 1 ?_ _ (by norm_num) (by norm_num) _⟩
  · obtain ⟨ps, h1, h2⟩ := C165_single_row s hL (by norm_num) (fun _ : Fin 1 => ![2, 0, 0])
      (fun h => by have := congrFun h 0; simp at this) [1 / 10]
    exact ⟨ps, h1, h2.length_eq.symm⟩
  · unfold Addresses
    norm_num

/-- C165, concrete: two rows for one atom. -/
example (s : RefStructure 1) (hs : s.lattice = 1) :
    ∃ ps, getDisplacedRows s (fun _ : Fin 2 => ![2, 0, 0]) [1 / 10, 1 / 5] = .ok ps ∧ ps.length = 2 ∧
      ∀ rows ∈ ps, rows.length = 2 := by
  obtain ⟨ps, h1, h2, h3⟩ := C165_single_atom s (by rw [hs]; simp) (fun _ : Fin 2 => ![2, 0, 0])
    (by norm_num) [1 / 10, 1 / 5]
  exact ⟨ps, h1, h2, fun rows hr => (h3 rows hr).1⟩

end Verif
