import Verif.Model.Displace
import Verif.Proofs.Index
import Verif.Props.Reference

/-!
# Properties C21, C22: displaced structures (`structure/_displace.py`)
-/

namespace Verif
open Spec

variable {N : ℕ}

theorem displacedBy_some (s : RefStructure N) (hL : s.lattice.det ≠ 0) (u : Fin N × Fin 3 → ℝ)
    (x : ℝ) : ∃ q, displacedBy s (some u) x = .ok (some q) ∧ (∀ a i, InCell (q a i)) ∧
      ∃ n : Fin N → Fin 3 → ℤ, ∀ a j, ∑ i, (q a i - s.positions a i) * s.lattice i j
        = x * u (a, j) + ∑ i, n a i * s.lattice i j := by
  unfold displacedBy
  obtain ⟨f, hf, _, -, -⟩ := (C18_cart_frac_cart s fun a i => u (a, i) * x).2 hL
  have hf' := hf
  unfold RefStructure.getFracDisplacement npInv at hf'
  rw [if_neg hL] at hf'
  have hf2 : f = applyPbcDisplacement (matMulPos (fun a i => u (a, i) * x) s.lattice⁻¹) :=
    (Except.ok.inj hf').symm
  simp only [hf]
  refine ⟨_, rfl, fun a i => by rw [displace_apply]; exact pbc1_inCell _, ?_⟩
  choose n hn using fun a i => (pbc1_sameImage (s.positions a i + f a i))
  choose m hm using fun a i => wrap1_sameImage (matMulPos (fun a i => u (a, i) * x) s.lattice⁻¹ a i)
  refine ⟨fun a i => n a i + m a i, fun a j => ?_⟩
  have h1 : ∀ i, displacePositions s.positions f a i - s.positions a i
      = matMulPos (fun a i => u (a, i) * x) s.lattice⁻¹ a i + ((n a i + m a i : ℤ) : ℝ) := by
    intro i
    rw [displace_apply, hn, hf2]
    change _ + wrap1 _ + _ - _ = _
    rw [hm]; push_cast; ring
  simp only [h1, add_mul, Finset.sum_add_distrib]
  congr 1
  have := congrFun (congrFun (matMulPos_inv_left hL fun a i => u (a, i) * x) a) j
  rw [mul_comm x]; exact this

theorem mapM_some_of {α β : Type} {f : α → Py (Option β)} {R : α → β → Prop} (l : List α)
    (h : ∀ x, ∃ y, f x = .ok (some y) ∧ R x y) :
    ∃ r : List β, l.mapM f = .ok (r.map some) ∧ List.Forall₂ R l r := by
  choose g hg hR using h
  refine ⟨l.map g, ?_, ?_⟩
  · rw [mapM_except_ok, List.map_map, List.forall₂_map_right_iff, List.forall₂_same]
    intro a _; exact hg a
  · rw [List.forall₂_map_right_iff, List.forall₂_same]
    intro a _; exact hR a

/-- C21: one in-cell structure per amplitude, in order; the Cartesian displacement of the
k-th structure from the reference is `amplitude_k` times the unit displacement, modulo
lattice vectors. -/
theorem C21_displaced_positions (s : RefStructure N) (hL : s.lattice.det ≠ 0)
    (d : Pos N ℝ) (hd : d ≠ 0) (amps : List ℝ) :
    ∃ ps : List (Pos N ℝ), getDisplacedPositions s d amps = .ok (ps.map some) ∧
      List.Forall₂ (fun x q => (∀ a i, InCell (q a i)) ∧
        ∃ n : Fin N → Fin 3 → ℤ, ∀ a j, ∑ i, (q a i - s.positions a i) * s.lattice i j
          = x * (d a j / Real.sqrt (∑ b, ∑ k, d b k ^ 2)) + ∑ i, n a i * s.lattice i j)
        amps ps := by
  have hne : flat d ≠ 0 := fun h => hd (by funext a i; exact congrFun h (a, i))
  unfold getDisplacedPositions normalize
  dsimp only
  rw [if_neg (norm2_pos hne).ne']
  have hn : norm2 (flat d) = Real.sqrt (∑ b, ∑ k, d b k ^ 2) := by
    unfold norm2 dot
    rw [Fintype.sum_prod_type]
    simp [flat, sq]
  rw [← hn]
  exact mapM_some_of amps fun x => displacedBy_some s hL (fun i => flat d i / norm2 (flat d)) x

/-- C21: the magnitude of the displacement is ignored (any positive factor). -/
theorem C21_magnitude_ignored (s : RefStructure N) (d : Pos N ℝ) (c : ℝ) (hc : 0 < c)
    (amps : List ℝ) :
    getDisplacedPositions s (fun a i => c * d a i) amps = getDisplacedPositions s d amps := by
  unfold getDisplacedPositions
  have : normalize (flat fun a i => c * d a i) = normalize (flat d) := by
    have h1 : flat (fun a i => c * d a i) = fun x => c * flat d x := rfl
    unfold normalize
    rw [h1, norm2_smul, abs_of_pos hc]
    by_cases h0 : norm2 (flat d) = 0
    · rw [h0]; simp
    · rw [if_neg h0, if_neg (mul_ne_zero hc.ne' h0)]
      congr 1
      funext i
      rw [mul_div_mul_left _ _ hc.ne']
  rw [this]

/-- C21, concrete: a hypothesis-satisfying call (sheared cell, one atom, two amplitudes). -/
example (s : RefStructure 1) (hs : s.lattice = !![2, 0, 0; 1, 3, 0; 0, 1, 4]) :
    ∃ ps : List (Pos 1 ℝ), getDisplacedPositions s (fun _ => ![0, 3, 4]) [1 / 10, -2] = .ok (ps.map some) ∧
      ps.length = 2 := by
  have hdet : s.lattice.det ≠ 0 := by rw [hs]; simp [Matrix.det_fin_three]
  obtain ⟨ps, h1, h2⟩ := C21_displaced_positions s hdet (fun _ => ![0, 3, 4])
    (fun h => by have := congrFun (congrFun h 0) 1; simp at this) [1 / 10, -2]
  exact ⟨ps, h1, h2.length_eq.symm⟩

/-- C22: only the addressed atom moves, by `amplitude` times the unit direction modulo
lattice vectors; all other atoms are at their in-cell image. -/
theorem C22_ast_displaced_positions (s : RefStructure N) (hL : s.lattice.det ≠ 0)
    (atomIndex : ℤ) (k : Fin N) (hk : Addresses N atomIndex k) (d : Vec3) (hd : d ≠ 0)
    (amps : List ℝ) :
    ∃ ps : List (Pos N ℝ), getAstDisplacedPositions s atomIndex d amps = .ok (ps.map some) ∧
      List.Forall₂ (fun x q => (∀ a i, InCell (q a i)) ∧
        (∀ a, a ≠ k → ∀ i, SameImage (s.positions a i) (q a i)) ∧
        ∃ n : Fin 3 → ℤ, ∀ j, ∑ i, (q k i - s.positions k i) * s.lattice i j
          = x * (d j / Real.sqrt (∑ c, d c ^ 2)) + ∑ i, n i * s.lattice i j)
        amps ps := by
  unfold getAstDisplacedPositions
  rw [(pyIndex_some_iff N atomIndex k).2 hk]
  have hpos := norm2_pos hd
  have hnorm : normalize d = some fun j => d j / norm2 d := by
    unfold normalize; rw [if_neg hpos.ne']
  simp only [hnorm]
  have hn1 : norm2 d = Real.sqrt (∑ c, d c ^ 2) := by unfold norm2 dot; simp [sq]
  set u : Vec3 := fun j => d j / norm2 d with hu
  have hu1 : ∑ j, u j ^ 2 = 1 := by
    have : ∑ j, u j ^ 2 = (∑ j, d j ^ 2) / norm2 d ^ 2 := by
      simp only [hu, div_pow, Finset.sum_div]
    rw [this, norm2_sq, dot]
    have h0 : (∑ j, d j ^ 2) ≠ 0 := by
      have := dot_self_eq_zero.not.2 hd
      simpa [dot, sq] using this
    simp only [← sq]
    exact div_self h0
  set D : Pos N ℝ := fun a => if a = k then u else fun _ => 0 with hD
  have hsum : ∑ b, ∑ c, D b c ^ 2 = 1 := by
    rw [Finset.sum_eq_single k]
    · simp only [hD, if_pos]; exact hu1
    · intro b _ hb; simp [hD, hb]
    · intro h; exact absurd (Finset.mem_univ k) h
  have hDne : D ≠ 0 := by
    intro h
    rw [h] at hsum
    simp at hsum
  obtain ⟨ps, h1, h2⟩ := C21_displaced_positions s hL D hDne amps
  rw [hsum, Real.sqrt_one] at h2
  refine ⟨ps, h1, h2.imp ?_⟩
  rintro x q ⟨hc, n, hn⟩
  refine ⟨hc, fun a ha i => ?_, n k, fun j => ?_⟩
  · have h3 : ∀ j, matMulPos (fun (_ : Fin 1) i => q a i - s.positions a i) s.lattice 0 j
        = matMulPos (fun (_ : Fin 1) i => (n a i : ℝ)) s.lattice 0 j := fun j => by
      have := hn a j
      simp only [hD, if_neg ha, zero_div, mul_zero, zero_add] at this
      exact this
    have h4 : (matMulPos (fun (_ : Fin 1) i => q a i - s.positions a i) s.lattice)
        = matMulPos (fun (_ : Fin 1) i => (n a i : ℝ)) s.lattice := by
      funext b j; fin_cases b; exact h3 j
    have h5 := congrArg (fun M => matMulPos M s.lattice⁻¹) h4
    simp only [matMulPos_inv_right hL] at h5
    have h6 := congrFun (congrFun h5 0) i
    exact ⟨n a i, by linarith⟩
  · have := hn k j
    simp only [hD, if_pos, div_one] at this
    rw [this, hu, ← hn1]

/-- C22: `IndexError` is raised exactly for indexes outside `-N..N-1`, whatever the
direction and amplitudes. -/
theorem C22_index_error (s : RefStructure N) (hL : s.lattice.det ≠ 0) (atomIndex : ℤ)
    (d : Vec3) (amps : List ℝ) :
    getAstDisplacedPositions s atomIndex d amps = .error .indexError ↔
      (atomIndex < -(N : ℤ) ∨ (N : ℤ) ≤ atomIndex) := by
  constructor
  · intro h
    by_contra hcon
    have : pyIndex N atomIndex ≠ none := fun h' => hcon ((pyIndex_none_iff _ _).1 h')
    obtain ⟨k, hk⟩ := Option.ne_none_iff_exists'.1 this
    by_cases hd : d = 0
    · unfold getAstDisplacedPositions at h
      rw [hk] at h
      have hn : normalize d = none := by
        unfold normalize; rw [if_pos (norm2_eq_zero.2 hd)]
      simp only [hn] at h
      have : amps.mapM (displacedBy s none) = .ok (amps.map fun _ => none) := by
        rw [mapM_except_ok, List.forall₂_map_right_iff, List.forall₂_same]
        intro a _
        unfold displacedBy npInv
        rw [if_neg hL]; rfl
      rw [this] at h; cases h
    · obtain ⟨ps, h1, _⟩ := C22_ast_displaced_positions s hL atomIndex k
        ((pyIndex_some_iff _ _ _).1 hk) d hd amps
      rw [h1] at h; cases h
  · intro h
    unfold getAstDisplacedPositions
    rw [(pyIndex_none_iff _ _).2 h]

/-- C22, concrete: index `-1` addresses the last of two atoms; index `2` is an error. -/
example : Addresses 2 (-1) 1 ∧ ∀ s : RefStructure 2, s.lattice = 1 →
    getAstDisplacedPositions s 2 ![1, 0, 0] [1] = .error .indexError :=
  ⟨Or.inr (by norm_num), fun s hs =>
    (C22_index_error s (by rw [hs]; simp) 2 _ _).2 (Or.inr (by norm_num))⟩

end Verif
