import Verif.Proofs.EqLoop
import Verif.Proofs.EquivAtoms
import Verif.Props.Constants

/-!
# Properties C11-C20: the reference structure (`structure/_reference.py`)
-/

namespace Verif
open Spec

variable {N : ℕ}

/-! ## C11 -/

/-- C11: if the transformed positions are the reference positions relabelled by `σ` (up to
lattice translations and less than the `1e-5` tolerance) and distinct reference atoms are
at least twice the tolerance apart, the computed matrix is the permutation matrix of `σ` and
multiplying by it puts the row of atom `i` at row `σ i`. -/
theorem C11_permutation_matrix (ref perm : Pos N ℝ) (σ : Equiv.Perm (Fin N))
    (hm : ∀ i, Within (1 / 10 ^ 5) (ref (σ i)) (perm i))
    (hs : ∀ j k, j ≠ k → Apart (2 / 10 ^ 5) (ref j) (ref k)) :
    (∀ j i, permMatrix ref perm j i = true ↔ j = σ i) ∧
    (∀ (q : Pos N ℝ) i, permApply (permMatrix ref perm) q (σ i) = q i) ∧
    (∀ i, Within (1 / 10 ^ 5) (ref i) (permApply (permMatrix ref perm) perm i)) := by
  have h := permMatrix_eq hm hs
  have h2 : ∀ (q : Pos N ℝ) i, permApply (permMatrix ref perm) q (σ i) = q i := fun q i => by
    funext c; exact permApply_perm σ _ h q i c
  refine ⟨fun j i => by rw [h]; simp, h2, fun i => ?_⟩
  obtain ⟨k, rfl⟩ := σ.surjective i
  rw [h2]; exact hm k

/-- C11, exact relabelling: if the permuted positions are the reference positions relabelled by
`σ` up to lattice translations, it is enough that distinct atoms are at least the tolerance of
`1e-5` apart. -/
theorem C11_exact (ref perm : Pos N ℝ) (σ : Equiv.Perm (Fin N))
    (hm : ∀ i c, SameImage (ref (σ i) c) (perm i c))
    (hs : ∀ j k, j ≠ k → Apart (1 / 10 ^ 5) (ref j) (ref k)) :
    (∀ j i, permMatrix ref perm j i = true ↔ j = σ i) ∧
    (∀ (q : Pos N ℝ) i, permApply (permMatrix ref perm) q (σ i) = q i) ∧
    (∀ i c, SameImage (ref i c) (permApply (permMatrix ref perm) perm i c)) := by
  have h : ∀ j i, permMatrix ref perm j i = true ↔ j = σ i := by
    intro j i
    rw [permMatrix_iff]
    choose n hn using hm i
    constructor
    · rintro ⟨m, hlt⟩
      by_contra hne
      have := hs j (σ i) hne (fun c => m c - n c)
      refine absurd hlt (not_lt.mpr (this.trans (le_of_eq ?_)))
      congr 1
      refine Finset.sum_congr rfl fun c _ => ?_
      rw [hn c]; push_cast; ring
    · rintro rfl
      refine ⟨n, ?_⟩
      have : ∑ c, (ref (σ i) c - perm i c + (n c : ℝ)) ^ 2 = 0 :=
        Finset.sum_eq_zero fun c _ => by rw [hn c]; ring
      rw [this, Real.sqrt_zero]; norm_num
  have h' : ∀ j i, permMatrix ref perm j i = decide (j = σ i) := fun j i => by
    rw [Bool.eq_iff_iff, h, decide_eq_true_eq]
  have h2 : ∀ (q : Pos N ℝ) i, permApply (permMatrix ref perm) q (σ i) = q i := fun q i => by
    funext c; exact permApply_perm σ _ h' q i c
  refine ⟨h, h2, fun i c => ?_⟩
  obtain ⟨k, rfl⟩ := σ.surjective i
  rw [h2]; exact hm k c

/-- Two atoms of a CsCl-like cell. -/
noncomputable def csCl : Pos 2 ℝ := fun a _ => if a = 0 then 0 else 1 / 2

theorem csCl_apart : ∀ j k, j ≠ k → Apart (2 / 10 ^ 5) (csCl j) (csCl k) := by
  intro j k hjk n
  have h : ∀ m : ℤ, (1 / 4 : ℝ) ≤ ((m : ℝ) + 1 / 2) ^ 2 := fun m => by
    have : (0 : ℤ) ≤ m * (m + 1) := by
      rcases le_or_gt 0 m with h | h
      · positivity
      · nlinarith
    have : (0 : ℝ) ≤ (m : ℝ) * (m + 1) := by exact_mod_cast this
    nlinarith
  have key : (2 / 10 ^ 5 : ℝ) ^ 2 ≤ ∑ c, (csCl j c - csCl k c + n c) ^ 2 := by
    have h0 : (1 / 4 : ℝ) ≤ (csCl j 0 - csCl k 0 + n 0) ^ 2 := by
      fin_cases j <;> fin_cases k
      · exact absurd rfl hjk
      · have := h (n 0 - 1); push_cast at this
        simp only [csCl]; norm_num; nlinarith
      · have := h (n 0); simp only [csCl]; norm_num; nlinarith
      · exact absurd rfl hjk
    rw [Fin.sum_univ_three]
    nlinarith [sq_nonneg (csCl j 1 - csCl k 1 + n 1), sq_nonneg (csCl j 2 - csCl k 2 + n 2)]
  calc (2 / 10 ^ 5 : ℝ) = Real.sqrt ((2 / 10 ^ 5) ^ 2) := (Real.sqrt_sq (by norm_num)).symm
    _ ≤ _ := Real.sqrt_le_sqrt key

/-- C11, concrete: the body-centring translation (a genuine exchange of the two atoms of
`csCl`, one of them arriving in a neighbouring cell) satisfies the hypotheses. -/
example : permMatrix csCl (fun a i => csCl a i + 1 / 2) 1 0 = true ∧
    permMatrix csCl (fun a i => csCl a i + 1 / 2) 0 0 = false := by
  have h := (C11_permutation_matrix csCl (fun a i => csCl a i + 1 / 2) (Equiv.swap 0 1)
    (fun i => by
      fin_cases i
      · refine ⟨0, ?_⟩; simp [csCl]
      · refine ⟨fun _ => 1, ?_⟩; simp [csCl]; norm_num) csCl_apart).1
  constructor
  · rw [h]; rfl
  · rw [Bool.eq_false_iff, Ne, h]; decide

/-- C11, exact, concrete: the same exchange with the smaller separation. -/
example : permMatrix csCl (fun a i => csCl a i + 1 / 2) 1 0 = true := by
  refine ((C11_exact csCl (fun a i => csCl a i + 1 / 2) (Equiv.swap 0 1) (fun i c => ?_)
    fun j k h n => le_trans (by norm_num) (csCl_apart j k h n)).1 1 0).2 rfl
  fin_cases i
  · exact ⟨0, by simp [csCl]⟩
  · exact ⟨1, by simp [csCl]; norm_num⟩

/-! ## C12 -/

/-- C12: the permutation matrices do not depend on the centre-of-mass shift. -/
theorem C12_shift_independent (ops : List SymOp) (p : Pos N ℝ) (shift : Vec3) :
    computePermutationMatrices ops p = ops.mapM (permMatrixOf shift p) := by
  unfold computePermutationMatrices
  congr 1
  funext op
  rw [permMatrixOf_shift, permMatrixOf_shift shift]

/-- C12: in particular they equal those computed without any shift, and so, when
positions are in the closed cell, entry `(j,i)` says exactly whether some image of atom `j` is
within `1e-5` of the transformed atom `i`. -/
theorem C12_entry (p : Pos N ℝ) (op : SymOp) (hR : IntegerMatrix op.rot)
    (hp : ∀ a i, InClosedCell (p a i)) :
    ∃ P, permMatrixOf (comShift p) p op = .ok P ∧ ∀ j i, P j i = true ↔
      Within (1 / 10 ^ 5) (p j) (fun c => ∑ k, p i k * op.rot k c + op.trans c) := by
  rw [permMatrixOf_shift]
  unfold permMatrixOf
  rw [transform_apply_int p hR _ hp]
  refine ⟨_, rfl, fun j i => ?_⟩
  rw [permMatrix_iff]
  have hsame : ∀ c, SameImage (p j c - (∑ k, p i k * op.rot k c + op.trans c))
      (displacePositions p (bcast fun _ => 0) j c
        - pbc1 (∑ k, p i k * op.rot k c + (op.trans c + 0))) := fun c => by
    refine SameImage.sub ?_ ?_
    · rw [displace_apply]; simpa [bcast] using pbc1_sameImage (p j c + 0)
    · rw [add_zero]; exact pbc1_sameImage _
  choose m hm using hsame
  unfold Within
  constructor
  · rintro ⟨n, hn⟩
    refine ⟨fun c => m c + n c, lt_of_eq_of_lt ?_ hn⟩
    congr 1
    refine Finset.sum_congr rfl fun c _ => ?_
    rw [hm c]; push_cast; ring
  · rintro ⟨n, hn⟩
    refine ⟨fun c => n c - m c, lt_of_eq_of_lt ?_ hn⟩
    congr 1
    refine Finset.sum_congr rfl fun c _ => ?_
    rw [hm c]; push_cast; ring

/-- The identity operation. -/
def idOp : SymOp := ⟨1, 0⟩

/-- Inversion at the origin. -/
def invOp : SymOp := ⟨-1, 0⟩

/-- The body-centring translation of `csCl` (a symmetry if both atoms are equal). -/
noncomputable def centreOp : SymOp := ⟨1, fun _ => 1 / 2⟩

theorem idOp_sym (p : Pos N ℝ) : IsSymmetry p idOp.rot idOp.trans (Equiv.refl _) := by
  refine ⟨⟨1, fun i j => ?_⟩, fun a j => ⟨0, ?_⟩⟩
  · simp [idOp, Matrix.one_apply]
  · simp [idOp, Matrix.one_apply]

theorem invOp_sym : IsSymmetry csCl invOp.rot invOp.trans (Equiv.refl _) := by
  refine ⟨⟨-1, fun i j => ?_⟩, fun a j => ⟨if a = 0 then 0 else 1, ?_⟩⟩
  · simp [invOp, Matrix.one_apply, apply_ite]
  · fin_cases a
    · simp [invOp, csCl]
    · simp [invOp, csCl, Matrix.one_apply]; norm_num

theorem centreOp_sym : IsSymmetry csCl centreOp.rot centreOp.trans (Equiv.swap 0 1) := by
  refine ⟨⟨1, fun i j => ?_⟩, fun a j => ?_⟩
  · simp [centreOp, Matrix.one_apply]
  · fin_cases a
    · refine ⟨0, ?_⟩; simp [centreOp, csCl, Matrix.one_apply]
    · refine ⟨-1, ?_⟩; simp [centreOp, csCl, Matrix.one_apply]; norm_num

theorem csCl_closed : ∀ a i, InClosedCell (csCl a i) := by
  intro a i; fin_cases a <;> norm_num [csCl, InClosedCell]

/-- C12, concrete: the hypotheses of `C12_entry` hold for `csCl` and the centring. -/
example : ∃ P, permMatrixOf (comShift csCl) csCl centreOp = .ok P :=
  let ⟨P, h, _⟩ := C12_entry csCl centreOp centreOp_sym.1 csCl_closed
  ⟨P, h⟩

/-! ## C13 -/

/-- C13: for a genuine symmetry operation `(R,t)` taking atom `a` to atom `σ a`, the
candidate displacement of atom `σ a` is the wrapped `d_a R`: neither the translation nor
the reference positions matter. -/
theorem C13_candidate (p d : Pos N ℝ) (op : SymOp) (P : PermMat N) (σ : Equiv.Perm (Fin N))
    (hs : ∀ j k, j ≠ k → Apart (2 / 10 ^ 5) (p j) (p k))
    (hsym : IsSymmetry p op.rot op.trans σ)
    (hP : permMatrixOf (comShift p) p op = .ok P) :
    ∃ c, candidate p (displacePositions p d) op P = .ok c ∧
      ∀ a j, InHalfBox (c (σ a) j) ∧ SameImage (∑ i, d a i * op.rot i j) (c (σ a) j) := by
  obtain ⟨c, hc, h⟩ := candidate_sym (d := d) hsym (permMatrixOf_sym _ hsym hs hP)
  refine ⟨c, hc, fun a j => ?_⟩
  rw [h]
  exact ⟨wrap1_inHalfBox _, wrap1_sameImage _⟩

/-- C13, concrete: displacing atom 0 of `csCl` along x, the centring operation yields the
same displacement on atom 1. -/
example : ∃ P c, permMatrixOf (comShift csCl) csCl centreOp = .ok P ∧
    candidate csCl (displacePositions csCl fun a => if a = 0 then ![1 / 10, 0, 0] else 0)
      centreOp P = .ok c ∧ c 1 0 = 1 / 10 ∧ c 0 0 = 0 := by
  obtain ⟨P, hP, _⟩ := C12_entry csCl centreOp centreOp_sym.1 csCl_closed
  obtain ⟨c, hc, h⟩ := C13_candidate csCl (fun a => if a = 0 then ![1 / 10, 0, 0] else 0)
    centreOp P (Equiv.swap 0 1) csCl_apart centreOp_sym hP
  refine ⟨P, c, hP, hc, ?_, ?_⟩
  · have := h 0 0
    simp only [centreOp, Matrix.one_apply, Fin.sum_univ_three] at this
    simp only [Equiv.swap_apply_left] at this
    norm_num [show (2 : Fin 3) ≠ 0 by decide] at this
    refine (this.2.eq_of_inHalfBox ?_ this.1).symm; norm_num [InHalfBox]
  · have := h 1 0
    simp only [centreOp, Matrix.one_apply, Fin.sum_univ_three] at this
    simp only [Equiv.swap_apply_right] at this
    norm_num [show (2 : Fin 3) ≠ 0 by decide] at this
    refine (this.2.eq_of_inHalfBox ?_ this.1).symm; norm_num [InHalfBox]

/-! ## C14, C15 -/

theorem scaleDisplacement_spec (d : Pos N ℝ) (hd : ∃ a i, ¬ SameImage (d a i) 0) :
    ∃ e, scaleDisplacement d = some e ∧ Rescaled (applyPbcDisplacement d) e := by
  have hne : flat (applyPbcDisplacement d) ≠ 0 := by
    obtain ⟨a, i, h⟩ := hd
    intro h0
    have := congrFun h0 (a, i)
    exact h (by rw [← show wrap1 (d a i) = 0 from this]; exact wrap1_sameImage _)
  have hpos := norm2_pos hne
  unfold scaleDisplacement
  dsimp only
  rw [if_neg hpos.ne']
  refine ⟨_, rfl, ⟨1 / (norm2 (flat (applyPbcDisplacement d)) * 10), by positivity, fun a i => ?_⟩, ?_⟩
  · ring
  · have h2 := norm2_sq (flat (applyPbcDisplacement d))
    have h3 : ∑ a, ∑ i, applyPbcDisplacement d a i ^ 2
        = norm2 (flat (applyPbcDisplacement d)) ^ 2 := by
      rw [h2, dot, Fintype.sum_prod_type]
      exact Finset.sum_congr rfl fun a _ => Finset.sum_congr rfl fun i _ => by simp [flat, sq]
    simp only [div_pow, ← Finset.sum_div]
    rw [h3]
    field_simp
    norm_num

theorem getEquivalentDisplacements_spec (s : RefStructure N) (d : Pos N ℝ)
    (hd : ∃ a i, ¬ SameImage (d a i) 0) :
    ∃ (e : Pos N ℝ) (new : List (SymOp × Pos N ℝ)) (st : EqState N),
      Rescaled (applyPbcDisplacement d) e ∧ scaleDisplacement d = some e ∧
      eqLoop s.positions (displacePositions s.positions e) (s.ops.zip s.perms) ⟨[], []⟩ = .ok st ∧
      s.getEquivalentDisplacements d = .ok (some st.result) ∧ EqInv new st ∧
      List.Forall₂ (fun x y => x.1 = y.1 ∧
        candidate s.positions (displacePositions s.positions e) x.1 x.2 = .ok y.2)
        (s.ops.zip s.perms) new := by
  obtain ⟨e, he, hr⟩ := scaleDisplacement_spec d hd
  obtain ⟨new, st, h1, h2, h3⟩ := eqLoop_inv s.positions e (s.ops.zip s.perms) [] ⟨[], []⟩ eqInv_empty
  refine ⟨e, new, st, hr, he, h1, ?_, by simpa using h2, h3⟩
  unfold RefStructure.getEquivalentDisplacements
  rw [he]
  dsimp only
  rw [h1]
  rfl

/-- C14: for every displacement that is not a lattice translation,
`get_equivalent_displacements` succeeds; every returned dictionary has equally many
(and at least one) displacements and transformations; first displacements of different
dictionaries are orthogonal; the displacements of a dictionary are collinear with its
first; no two displacements of a dictionary coincide. -/
theorem C14_equivalent_displacements_structure (s : RefStructure N) (d : Pos N ℝ)
    (hd : ∃ a i, ¬ SameImage (d a i) 0) :
    ∃ groups, s.getEquivalentDisplacements d = .ok (some groups) ∧
      (∀ g ∈ groups, g.displacements ≠ [] ∧ g.displacements.length = g.transformations.length) ∧
      groups.Pairwise (fun g g' => ∀ h h', g.displacements.head? = some h →
        g'.displacements.head? = some h' → Orthogonal (flatten h) (flatten h')) ∧
      (∀ g ∈ groups, ∀ h, g.displacements.head? = some h →
        ∀ m ∈ g.displacements.tail, Collinear (flatten m) (flatten h)) ∧
      (∀ g ∈ groups, g.displacements.Pairwise fun m c => ¬ Coincide c m) := by
  obtain ⟨e, new, st, _, _, _, h1, hI, _⟩ := getEquivalentDisplacements_spec s d hd
  refine ⟨_, h1, fun g hg => ⟨fun h => ?_, hI.len g hg⟩, ?_, hI.coll, hI.nodup⟩
  · have : (none : Option (Pos N ℝ)) ∈ st.result.map fun g => g.displacements.head? :=
      List.mem_map.2 ⟨g, hg, by rw [h]; rfl⟩
    rw [hI.heads] at this; simp at this
  · have h2 : (st.result.map fun g => g.displacements.head?).Pairwise
        (fun a b => ∀ h h', a = some h → b = some h' → Orthogonal (flatten h) (flatten h')) := by
      rw [hI.heads, List.pairwise_map]
      refine hI.orth.imp fun {a b} hab h h' ha hb => ?_
      cases ha; cases hb; exact hab
    rw [List.pairwise_map] at h2
    exact h2

/-- C15: each returned displacement is the candidate of the transformation at the same
index (transform the positions displaced by the rescaled displacement, permute, subtract);
the recorded (operation, candidate) pairs form a sub-multiset of those of all operations;
and each operation is recorded, or duplicates a recorded displacement of the dictionary
it is collinear with, or was dropped because its candidate was neither orthogonal to all nor
collinear with any of the first displacements recorded at that time. -/
theorem C15_equivalent_displacements_provenance (s : RefStructure N) (d : Pos N ℝ)
    (hd : ∃ a i, ¬ SameImage (d a i) 0) :
    ∃ groups e, s.getEquivalentDisplacements d = .ok (some groups) ∧
      Rescaled (applyPbcDisplacement d) e ∧
      ∃ cands : List (SymOp × Pos N ℝ),
        List.Forall₂ (fun (x : SymOp × PermMat N) y => x.1 = y.1 ∧ ∃ q,
          transformPositions (displacePositions s.positions e) x.1.rot x.1.trans = .ok q ∧
          y.2 = calcDisplacement s.positions (permApply x.2 q)) (s.ops.zip s.perms) cands ∧
        (groups.flatMap fun g => g.transformations.zip g.displacements).Subperm cands ∧
        ∀ x ∈ cands,
          (∃ g ∈ groups, x ∈ g.transformations.zip g.displacements) ∨
          (∃ g ∈ groups, (∃ h, g.displacements.head? = some h ∧
            Collinear (flatten x.2) (flatten h)) ∧ ∃ m ∈ g.displacements, Coincide x.2 m) ∨
          (∃ gs, gs <+: groups ∧
            (∃ g ∈ gs, ∃ h, g.displacements.head? = some h ∧ ¬ Orthogonal (flatten x.2) (flatten h)) ∧
            ∀ g ∈ gs, ∀ h, g.displacements.head? = some h → ¬ Collinear (flatten x.2) (flatten h)) := by
  obtain ⟨e, new, st, hr, _, _, h1, hI, hF⟩ := getEquivalentDisplacements_spec s d hd
  refine ⟨_, e, h1, hr, new, ?_, hI.prov, fun x hx => ?_⟩
  · refine hF.imp fun x y hxy => ⟨hxy.1, ?_⟩
    have h2 := hxy.2
    unfold candidate at h2
    cases hq : transformPositions (displacePositions s.positions e) x.1.rot x.1.trans with
    | error er => rw [hq] at h2; cases h2
    | ok q => rw [hq] at h2; exact ⟨q, rfl, (Except.ok.inj h2).symm⟩
  · rcases hI.cover x hx with h | h | ⟨hs, h1, ⟨h, hh, hno⟩, hnc⟩
    · exact Or.inl h
    · exact Or.inr (Or.inl h)
    · refine Or.inr (Or.inr ⟨st.result.take hs.length, List.take_prefix _ _, ?_, ?_⟩)
      · have e1 : (st.result.take hs.length).map (fun g => g.displacements.head?) = hs.map some := by
          rw [List.map_take, hI.heads, ← List.map_take, ← List.prefix_iff_eq_take.1 h1]
        obtain ⟨g, hg, hgh⟩ := List.mem_map.1 (show some h ∈ (st.result.take hs.length).map
          (fun g => g.displacements.head?) by rw [e1]; exact List.mem_map_of_mem hh)
        exact ⟨g, hg, h, hgh, hno⟩
      · have e1 : (st.result.take hs.length).map (fun g => g.displacements.head?) = hs.map some := by
          rw [List.map_take, hI.heads, ← List.map_take, ← List.prefix_iff_eq_take.1 h1]
        intro g hg h' hh'
        have : some h' ∈ (st.result.take hs.length).map (fun g => g.displacements.head?) :=
          List.mem_map.2 ⟨g, hg, hh'⟩
        rw [e1] at this
        obtain ⟨h'', h1'', h2''⟩ := List.mem_map.1 this
        cases h2''
        exact hnc _ h1''

/-- C13/C15 end to end: if the operations reported by spglib are genuine symmetries of a
structure with separated atoms, every returned displacement is the image of the rescaled
displacement under the transformation at the same index. -/
theorem C13_end_to_end (spglib : Mat3 ℝ → Pos N ℝ → (Fin N → ℕ) → Option SymDict)
    (nums : Fin N → ℕ) (lat : Mat3 ℝ) (p : Pos N ℝ) (s : RefStructure N)
    (hs : RefStructure.init spglib nums lat p = .ok s)
    (hsep : ∀ j k, j ≠ k → Apart (2 / 10 ^ 5) (p j) (p k))
    (hsym : ∀ op ∈ s.ops, ∃ σ, IsSymmetry p op.rot op.trans σ)
    (d : Pos N ℝ) (hd : ∃ a i, ¬ SameImage (d a i) 0) :
    ∃ groups e, s.getEquivalentDisplacements d = .ok (some groups) ∧
      Rescaled (applyPbcDisplacement d) e ∧
      ∀ g ∈ groups, ∀ x ∈ g.transformations.zip g.displacements, x.1 ∈ s.ops ∧
        ∃ σ, IsSymmetry p x.1.rot x.1.trans σ ∧ ∀ a j, InHalfBox (x.2 (σ a) j) ∧
          SameImage (∑ i, e a i * x.1.rot i j) (x.2 (σ a) j) := by
  -- the permutation matrices belong to the operations
  have hinit : s.positions = p ∧ List.Forall₂ (fun op P => permMatrixOf (comShift p) p op = .ok P)
      s.ops s.perms := by
    unfold RefStructure.init at hs
    split at hs
    · cases hs
    · rename_i sym _
      cases hperm : computePermutationMatrices sym.ops p with
      | error er => rw [hperm] at hs; cases hs
      | ok Ps =>
        rw [hperm] at hs; cases hs
        exact ⟨rfl, (mapM_except_ok _ _ _).1 hperm⟩
  obtain ⟨hpos, hperms⟩ := hinit
  obtain ⟨e, new, st, hr, _, _, h1, hI, hF⟩ := getEquivalentDisplacements_spec s d hd
  refine ⟨_, e, h1, hr, fun g hg x hx => ?_⟩
  have hx' : x ∈ new := hI.prov.subset (List.mem_flatMap.2 ⟨g, hg, hx⟩)
  obtain ⟨k, hk⟩ := List.mem_iff_getElem?.1 hx'
  have hlen := hF.length_eq
  have hkl : k < new.length := by
    by_contra hcon
    rw [List.getElem?_eq_none (by omega)] at hk; cases hk
  have hkz : k < (s.ops.zip s.perms).length := by omega
  have hk2 := (List.forall₂_iff_get.1 hF).2 k hkz hkl
  have hxk : x = new[k] := by rw [List.getElem?_eq_getElem hkl] at hk; cases hk; rfl
  simp only [List.get_eq_getElem, ← hxk, List.getElem_zip] at hk2
  obtain ⟨h3, h4⟩ := hk2
  have hko : k < s.ops.length := by simp at hkz; omega
  have hkp : k < s.perms.length := by simp at hkz; omega
  have hmem : x.1 ∈ s.ops := h3 ▸ List.getElem_mem hko
  obtain ⟨σ, hσ⟩ := hsym _ hmem
  refine ⟨hmem, σ, hσ, ?_⟩
  have hPk := (List.forall₂_iff_get.1 hperms).2 k hko hkp
  simp only [List.get_eq_getElem] at hPk
  rw [h3] at hPk h4
  obtain ⟨c, hc, hcc⟩ := C13_candidate p e x.1 _ σ hsep hσ hPk
  rw [hpos, hc] at h4
  cases h4
  exact hcc

/-! ## C16 -/

theorem modAt_grow (f : EqGroup N → EqGroup N)
    (hf : ∀ g, g.displacements <+: (f g).displacements ∧ g.transformations <+: (f g).transformations)
    (k : ℕ) (l : List (EqGroup N)) (j : ℕ) (g : EqGroup N) (h : l[j]? = some g) :
    ∃ g', (modAt f k l)[j]? = some g' ∧ g.displacements <+: g'.displacements ∧
      g.transformations <+: g'.transformations := by
  induction l generalizing k j with
  | nil => simp at h
  | cons x l ih =>
    cases k with
    | zero =>
      cases j with
      | zero =>
        simp only [List.getElem?_cons_zero, Option.some.injEq] at h
        subst h
        exact ⟨f x, rfl, hf x⟩
      | succ j => exact ⟨g, by simpa [modAt] using h, List.prefix_rfl, List.prefix_rfl⟩
    | succ k =>
      cases j with
      | zero => exact ⟨g, by simpa [modAt] using h, List.prefix_rfl, List.prefix_rfl⟩
      | succ j =>
        obtain ⟨g', h1, h2⟩ := ih k j (by simpa using h)
        exact ⟨g', by simpa [modAt] using h1, h2⟩

theorem eqInsert_grow (st : EqState N) (op : SymOp) (c : Pos N ℝ) (j : ℕ) (g : EqGroup N)
    (h : st.result[j]? = some g) :
    ∃ g', (eqInsert st op c).result[j]? = some g' ∧ g.displacements <+: g'.displacements ∧
      g.transformations <+: g'.transformations := by
  unfold eqInsert
  dsimp only
  split_ifs
  · refine ⟨g, ?_, List.prefix_rfl, List.prefix_rfl⟩
    have hlt : j < st.result.length := by
      by_contra hcon
      rw [List.getElem?_eq_none (by omega)] at h; cases h
    rw [List.getElem?_append_left hlt, h]
  · refine modAt_grow _ (fun g => ?_) _ _ _ _ h
    split_ifs
    · exact ⟨List.prefix_rfl, List.prefix_rfl⟩
    · exact ⟨List.prefix_append _ _, List.prefix_append _ _⟩
  · exact ⟨g, h, List.prefix_rfl, List.prefix_rfl⟩

theorem eqLoop_grow (p q : Pos N ℝ) (l : List (SymOp × PermMat N)) (st st' : EqState N)
    (h : eqLoop p q l st = .ok st') (j : ℕ) (g : EqGroup N) (hg : st.result[j]? = some g) :
    ∃ g', st'.result[j]? = some g' ∧ g.displacements <+: g'.displacements ∧
      g.transformations <+: g'.transformations := by
  induction l generalizing st g with
  | nil => cases h; exact ⟨g, hg, List.prefix_rfl, List.prefix_rfl⟩
  | cons x l ih =>
    obtain ⟨op, P⟩ := x
    unfold eqLoop at h
    cases hc : candidate p q op P with
    | error er => rw [hc] at h; cases h
    | ok c =>
      rw [hc] at h
      obtain ⟨g1, h1, h2, h3⟩ := eqInsert_grow st op c j g hg
      obtain ⟨g2, h4, h5, h6⟩ := ih _ h g1 h1
      exact ⟨g2, h4, h2.trans h5, h3.trans h6⟩

/-- C16: if the first operation of the structure is the identity, the first displacement of
the first dictionary is the wrapped input displacement rescaled to norm 1/10 (and its
transformation is the identity). -/
theorem C16_first_is_input (spglib : Mat3 ℝ → Pos N ℝ → (Fin N → ℕ) → Option SymDict)
    (nums : Fin N → ℕ) (lat : Mat3 ℝ) (p : Pos N ℝ) (s : RefStructure N)
    (hs : RefStructure.init spglib nums lat p = .ok s)
    (hsep : ∀ j k, j ≠ k → Apart (2 / 10 ^ 5) (p j) (p k))
    (rest : List SymOp) (hid : s.ops = ⟨1, 0⟩ :: rest)
    (d : Pos N ℝ) (hd : ∃ a i, ¬ SameImage (d a i) 0) :
    ∃ g gs e, s.getEquivalentDisplacements d = .ok (some (g :: gs)) ∧
      g.displacements.head? = some e ∧ g.transformations.head? = some ⟨1, 0⟩ ∧
      Rescaled (applyPbcDisplacement d) e := by
  have hinit : s.positions = p ∧ List.Forall₂ (fun op P => permMatrixOf (comShift p) p op = .ok P)
      s.ops s.perms := by
    unfold RefStructure.init at hs
    split at hs
    · cases hs
    · rename_i sym _
      cases hperm : computePermutationMatrices sym.ops p with
      | error er => rw [hperm] at hs; cases hs
      | ok Ps =>
        rw [hperm] at hs; cases hs
        exact ⟨rfl, (mapM_except_ok _ _ _).1 hperm⟩
  obtain ⟨hpos, hperms⟩ := hinit
  rw [hid] at hperms
  cases hp : s.perms with
  | nil => rw [hp] at hperms; cases hperms
  | cons P Ps =>
  rw [hp] at hperms
  obtain ⟨hP, _⟩ := List.forall₂_cons.1 hperms
  obtain ⟨e, new, st, hr, _, hloop, h1, hI, _⟩ := getEquivalentDisplacements_spec s d hd
  rw [hid, hp, hpos, List.zip_cons_cons] at hloop
  obtain ⟨c, hc, hcc⟩ := C13_candidate p e ⟨1, 0⟩ P (Equiv.refl _) hsep (idOp_sym p) hP
  have hce : c = e := by
    funext a j
    have h2 := hcc a j
    have h3 : ∑ i, e a i * (1 : Mat3 ℝ) i j = e a j := by simp [Matrix.one_apply]
    rw [h3] at h2
    refine (h2.2.eq_of_inHalfBox ?_ h2.1).symm
    have hle : e a j ^ 2 ≤ 1 / 100 := by
      rw [← hr.2]
      refine le_trans ?_ (Finset.single_le_sum (f := fun a => ∑ i, e a i ^ 2)
        (fun b _ => Finset.sum_nonneg fun i _ => sq_nonneg _) (Finset.mem_univ a))
      exact Finset.single_le_sum (f := fun i => e a i ^ 2) (fun i _ => sq_nonneg _)
        (Finset.mem_univ j)
    have := abs_le_of_sq_le_sq' (show e a j ^ 2 ≤ (1 / 10 : ℝ) ^ 2 by linarith) (by norm_num)
    constructor <;> linarith [this.1, this.2]
  unfold eqLoop at hloop
  rw [hc] at hloop
  have h0 : (eqInsert (⟨[], []⟩ : EqState N) ⟨1, 0⟩ c).result[0]? = some ⟨[c], [⟨1, 0⟩]⟩ := by
    unfold eqInsert isOrthogonalToAll
    simp [firstIndexFrom]
  obtain ⟨g, hg, hg1, hg2⟩ := eqLoop_grow _ _ _ _ _ hloop 0 _ h0
  cases hres : st.result with
  | nil => rw [hres] at hg; simp at hg
  | cons g' gs =>
    rw [hres] at hg h1
    simp only [List.getElem?_cons_zero, Option.some.injEq] at hg
    subst hg
    refine ⟨g', gs, e, h1, ?_, ?_, hr⟩
    · obtain ⟨t, ht⟩ := hg1
      rw [← ht, hce]; rfl
    · obtain ⟨t, ht⟩ := hg2
      rw [← ht]; rfl

/-- An (oracle for an) spglib answer for `csCl` with two different atoms. -/
def exSpglib : Mat3 ℝ → Pos 2 ℝ → (Fin 2 → ℕ) → Option SymDict :=
  fun _ _ _ => some ⟨[idOp, invOp], [0, 1]⟩

theorem exInit : ∃ s, RefStructure.init exSpglib ![55, 17] 1 csCl = .ok s ∧
    s.ops = [idOp, invOp] := by
  obtain ⟨P, hP, _⟩ := C12_entry csCl idOp (idOp_sym csCl).1 csCl_closed
  obtain ⟨Q, hQ, _⟩ := C12_entry csCl invOp invOp_sym.1 csCl_closed
  refine ⟨⟨![55, 17], 1, csCl, [idOp, invOp], [P, Q], [0, 1]⟩, ?_, rfl⟩
  unfold RefStructure.init exSpglib computePermutationMatrices
  simp only [List.mapM_cons, hP, hQ, List.mapM_nil]
  rfl

/-- C13-C16, concrete: all hypotheses hold for CsCl with identity and inversion and a
displacement of the first atom. -/
example : ∃ s groups e, RefStructure.init exSpglib ![55, 17] 1 csCl = .ok s ∧
    s.getEquivalentDisplacements (fun a => if a = 0 then ![3 / 4, 0, 0] else 0)
      = .ok (some groups) ∧ groups ≠ [] ∧
    Rescaled (applyPbcDisplacement fun a => if a = (0 : Fin 2) then ![3 / 4, 0, 0] else 0) e := by
  obtain ⟨s, hs, hops⟩ := exInit
  have hd : ∃ a i, ¬ SameImage ((fun a : Fin 2 => if a = 0 then ![3 / 4, 0, 0] else 0) a i : ℝ) 0 := by
    refine ⟨0, 0, ?_⟩
    rintro ⟨n, hn⟩
    simp at hn
    have : (4 * n : ℝ) = -3 := by linarith
    have : 4 * n = -3 := by exact_mod_cast this
    omega
  obtain ⟨g, gs, e, h1, _, _, h3⟩ := C16_first_is_input exSpglib _ _ csCl s hs csCl_apart [invOp] hops _ hd
  exact ⟨s, _, e, hs, h1, by simp, h3⟩

/-! ## C17 -/

/-- `ValidEquiv`, spelled out: every atom's representative is itself or an earlier atom
that represents itself. -/
theorem validEquiv_iff (e : List ℕ) :
    ValidEquiv e e.length ↔ ∀ (i : ℕ) (hi : i < e.length),
      e[i] = i ∨ (e[i] < i ∧ e[e[i]]? = some e[i]) := by
  unfold ValidEquiv
  constructor
  · intro h i hi; exact h i hi _ (List.getElem?_eq_getElem hi)
  · intro h i hi k hk
    rw [List.getElem?_eq_getElem hi] at hk; cases hk; exact h i hi

/-- C17: if every representative is its own representative and not later in the list, the
dictionary has exactly the self-representing atoms as keys (in order), each key's list
consists of exactly the other atoms it represents (in order), every atom occurs exactly once
among keys and lists, and the number of keys is `num_nonequivalent_atoms`. -/
theorem C17_equivalent_atom_dict (s : RefStructure N)
    (hv : ∀ (i : ℕ) (hi : i < s.equivAtoms.length), s.equivAtoms[i] = i ∨
      (s.equivAtoms[i] < i ∧ s.equivAtoms[s.equivAtoms[i]]? = some s.equivAtoms[i])) :
    ∃ d, s.getEquivalentAtomDict = .ok d ∧
      d.map Prod.fst = (List.range s.equivAtoms.length).filter (fun i => s.equivAtoms[i]? = some i) ∧
      (∀ k l, (k, l) ∈ d → l = (List.range s.equivAtoms.length).filter
        fun i => i ≠ k ∧ s.equivAtoms[i]? = some k) ∧
      (d.flatMap fun x => x.1 :: x.2).Perm (List.range s.equivAtoms.length) ∧
      d.length = s.numNonequivalentAtoms := by
  rw [← validEquiv_iff] at hv
  have h := (equivAtomLoop_spec s.equivAtoms 0 (by simp) (by intro i hi; omega)).1 hv
  refine ⟨_, h, equivDict_keys _ _, ?_, ?_, ?_⟩
  · intro k l hkl
    simp only [equivDict, List.mem_map, Prod.mk.injEq] at hkl
    obtain ⟨_, _, rfl, rfl⟩ := hkl
    rfl
  · rw [List.perm_ext_iff_of_nodup ?_ List.nodup_range]
    · intro i
      simp only [equivDict, List.mem_flatMap, List.mem_map, List.mem_filter, List.mem_range,
        decide_eq_true_eq]
      constructor
      · rintro ⟨x, ⟨k, ⟨hk, hk'⟩, rfl⟩, hi⟩
        simp only [List.mem_cons, List.mem_filter, List.mem_range, decide_eq_true_eq] at hi
        rcases hi with rfl | hi
        · exact hk
        · exact hi.1
      · intro hi
        rcases hv i hi _ (List.getElem?_eq_getElem hi) with h | ⟨h, h'⟩
        · refine ⟨_, ⟨i, ⟨hi, ?_⟩, rfl⟩, by simp⟩
          rw [List.getElem?_eq_getElem hi, h]
        · refine ⟨_, ⟨s.equivAtoms[i], ⟨by omega, h'⟩, rfl⟩, ?_⟩
          simp only [List.mem_cons, List.mem_filter, List.mem_range, decide_eq_true_eq]
          right
          exact ⟨hi, by omega, List.getElem?_eq_getElem hi⟩
    · unfold equivDict
      rw [List.nodup_flatMap]
      constructor
      · intro x hx
        obtain ⟨k, _, rfl⟩ := List.mem_map.1 hx
        rw [List.nodup_cons]
        exact ⟨by simp, List.nodup_range.filter _⟩
      · rw [List.pairwise_map]
        have : ((List.range s.equivAtoms.length).filter fun i => s.equivAtoms[i]? = some i).Pairwise
            (fun a b => a ≠ b ∧ s.equivAtoms[a]? = some a ∧ s.equivAtoms[b]? = some b) := by
          refine (List.nodup_range.filter _).imp_of_mem ?_
          intro a b ha hb hab
          simp only [List.mem_filter, List.mem_range, decide_eq_true_eq] at ha hb
          exact ⟨hab, ha.2, hb.2⟩
        refine this.imp ?_
        rintro a b ⟨hab, ha, hb⟩
        intro x hx hy
        simp only [Function.comp, List.mem_cons, List.mem_filter, List.mem_range,
          decide_eq_true_eq] at hx hy
        rcases hx with rfl | hx <;> rcases hy with rfl | hy
        · exact hab rfl
        · rw [ha] at hy; exact hab (Option.some.inj hy.2.2)
        · rw [hb] at hx; exact hab (Option.some.inj hx.2.2).symm
        · rw [hx.2.2] at hy; exact hab (Option.some.inj hy.2.2)
  · unfold RefStructure.numNonequivalentAtoms
    rw [← List.length_map (f := Prod.fst), equivDict_keys]
    refine List.Perm.length_eq ?_
    rw [List.perm_ext_iff_of_nodup (List.nodup_range.filter _) (List.nodup_dedup _)]
    intro k
    simp only [List.mem_filter, List.mem_range, decide_eq_true_eq, List.mem_dedup]
    constructor
    · rintro ⟨_, hk⟩; exact List.mem_of_getElem? hk
    · intro hk
      obtain ⟨i, hi, rfl⟩ := List.mem_iff_getElem.1 hk
      rcases hv i hi _ (List.getElem?_eq_getElem hi) with h | ⟨h, h'⟩
      · rw [h]; exact ⟨hi, by rw [List.getElem?_eq_getElem hi, h]⟩
      · exact ⟨by omega, h'⟩

/-- C17: otherwise a `KeyError` is raised (some representative had not been seen). -/
theorem C17_key_error (s : RefStructure N)
    (hv : ¬ ∀ (i : ℕ) (hi : i < s.equivAtoms.length), s.equivAtoms[i] = i ∨
      (s.equivAtoms[i] < i ∧ s.equivAtoms[s.equivAtoms[i]]? = some s.equivAtoms[i])) :
    s.getEquivalentAtomDict = .error .keyError := by
  rw [← validEquiv_iff] at hv
  exact (equivAtomLoop_spec s.equivAtoms 0 (by simp) (by intro i hi; omega)).2 hv

/-- C17, concrete: `[0,0,2,0,2]` gives `{0: [1,3], 2: [4]}`; `[1,1]` raises `KeyError`. -/
example (s : RefStructure N) (h : s.equivAtoms = [0, 0, 2, 0, 2]) :
    s.getEquivalentAtomDict = .ok [(0, [1, 3]), (2, [4])] := by
  unfold RefStructure.getEquivalentAtomDict; rw [h]; rfl

example (s : RefStructure N) (h : s.equivAtoms = [1, 1]) :
    s.getEquivalentAtomDict = .error .keyError := by
  unfold RefStructure.getEquivalentAtomDict; rw [h]; rfl

/-! ## C18 -/

theorem matMulPos_inv_right {L : Mat3 ℝ} (h : L.det ≠ 0) (d : Pos N ℝ) :
    matMulPos (matMulPos d L) L⁻¹ = d := by
  have hu : IsUnit L.det := isUnit_iff_ne_zero.2 h
  have e : ∀ (M : Mat3 ℝ) (d : Pos N ℝ), matMulPos d M = (Matrix.of d * M : Matrix (Fin N) (Fin 3) ℝ) := by
    intro M d; funext a j; simp [matMulPos, Matrix.mul_apply]
  rw [e, e]
  have : (Matrix.of (Matrix.of d * L : Matrix (Fin N) (Fin 3) ℝ) * L⁻¹ : Matrix (Fin N) (Fin 3) ℝ)
      = Matrix.of d := by
    change (Matrix.of d * L) * L⁻¹ = _
    rw [Matrix.mul_assoc, Matrix.mul_nonsing_inv _ hu, Matrix.mul_one]
  rw [this]; rfl

theorem matMulPos_inv_left {L : Mat3 ℝ} (h : L.det ≠ 0) (d : Pos N ℝ) :
    matMulPos (matMulPos d L⁻¹) L = d := by
  have hu : IsUnit L.det := isUnit_iff_ne_zero.2 h
  have e : ∀ (M : Mat3 ℝ) (d : Pos N ℝ), matMulPos d M = (Matrix.of d * M : Matrix (Fin N) (Fin 3) ℝ) := by
    intro M d; funext a j; simp [matMulPos, Matrix.mul_apply]
  rw [e, e]
  have : (Matrix.of (Matrix.of d * L⁻¹ : Matrix (Fin N) (Fin 3) ℝ) * L : Matrix (Fin N) (Fin 3) ℝ)
      = Matrix.of d := by
    change (Matrix.of d * L⁻¹) * L = _
    rw [Matrix.mul_assoc, Matrix.nonsing_inv_mul _ hu, Matrix.mul_one]
  rw [this]; rfl

/-- C18: fractional → Cartesian → fractional is the wrapped displacement. -/
theorem C18_frac_cart_frac (s : RefStructure N) (hL : s.lattice.det ≠ 0) (d : Pos N ℝ) :
    s.getFracDisplacement (s.getCartDisplacement d) = .ok (applyPbcDisplacement d) := by
  unfold RefStructure.getFracDisplacement RefStructure.getCartDisplacement npInv
  rw [if_neg hL]
  change Except.ok _ = _
  rw [matMulPos_inv_right hL]
  congr 1
  funext a i
  exact wrap1_of_inHalfBox (wrap1_inHalfBox _)

/-- C18: Cartesian → fractional → Cartesian gives `c` up to a lattice vector for each atom,
and `c` itself if its fractional coordinates lie in `(-1/2,1/2]`.  A singular lattice
raises `LinAlgError`. -/
theorem C18_cart_frac_cart (s : RefStructure N) (c : Pos N ℝ) :
    (s.lattice.det = 0 → s.getFracDisplacement c = .error .linAlgError) ∧
    (s.lattice.det ≠ 0 → ∃ f, s.getFracDisplacement c = .ok f ∧
      (∀ a i, InHalfBox (f a i)) ∧
      (∃ n : Fin N → Fin 3 → ℤ, ∀ a j,
        s.getCartDisplacement f a j = c a j + ∑ i, n a i * s.lattice i j) ∧
      ∀ f' : Pos N ℝ, (∀ a i, InHalfBox (f' a i)) → (∀ a j, c a j = ∑ i, f' a i * s.lattice i j) →
        f = f' ∧ s.getCartDisplacement f = c) := by
  unfold RefStructure.getFracDisplacement npInv
  constructor
  · intro h; rw [if_pos h]; rfl
  · intro hL
    rw [if_neg hL]
    refine ⟨_, rfl, fun a i => wrap1_inHalfBox _, ?_, ?_⟩
    · choose n hn using fun a i => wrap1_sameImage (matMulPos c s.lattice⁻¹ a i)
      refine ⟨n, fun a j => ?_⟩
      have h1 : s.getCartDisplacement (applyPbcDisplacement (matMulPos c s.lattice⁻¹)) a j
          = ∑ i, (matMulPos c s.lattice⁻¹ a i + n a i) * s.lattice i j := by
        unfold RefStructure.getCartDisplacement
        change ∑ i, wrap1 (wrap1 _) * _ = _
        refine Finset.sum_congr rfl fun i _ => ?_
        rw [wrap1_of_inHalfBox (wrap1_inHalfBox _), hn]
      rw [h1]
      simp only [add_mul, Finset.sum_add_distrib]
      congr 1
      exact congrFun (congrFun (matMulPos_inv_left hL c) a) j
    · intro f' hf' hc
      have hc' : c = matMulPos f' s.lattice := by funext a j; exact hc a j
      have e1 : applyPbcDisplacement (matMulPos c s.lattice⁻¹) = f' := by
        rw [hc', matMulPos_inv_right hL]
        funext a i; exact wrap1_of_inHalfBox (hf' a i)
      refine ⟨e1, ?_⟩
      rw [e1, hc']
      unfold RefStructure.getCartDisplacement
      congr 1
      funext a i; exact wrap1_of_inHalfBox (hf' a i)

/-- C18, concrete: hypotheses hold for a sheared cell and a displacement by (0.25, -0.5, 0.125)
in fractional coordinates (the component -0.5 is wrapped). -/
example (s : RefStructure 1) (hs : s.lattice = !![2, 0, 0; 1, 3, 0; 0, 1, 4])
    (d d' : Pos 1 ℝ) (hd : d = fun _ => ![1 / 4, -1 / 2, 1 / 8])
    (hd' : d' = fun _ => ![1 / 4, 1 / 2, 1 / 8]) :
    s.getFracDisplacement (s.getCartDisplacement d) = .ok d' := by
  have hdet : s.lattice.det ≠ 0 := by
    rw [hs]; simp [Matrix.det_fin_three]
  have he : applyPbcDisplacement d = d' := by
    funext a i
    subst hd hd'
    refine (wrap1_unique (x := (![1 / 4, -1 / 2, 1 / 8] : Fin 3 → ℝ) i) ?_ ?_).symm
    · fin_cases i
      · exact ⟨0, by norm_num⟩
      · exact ⟨1, by norm_num⟩
      · exact ⟨0, by norm_num⟩
    · fin_cases i <;> norm_num [InHalfBox]
  rw [C18_frac_cart_frac s hdet, he]

/-! ## C19 -/

/-- C19 (partial: the unrestricted claim "only the direction matters" is false, see
`C19_frac_direction_counterexample`): inside the box the fractional direction is the exact linear image, so
scaling the Cartesian direction by any `k` that stays inside the box scales the result; and
converting back gives the input. -/
theorem C19_direction_partial (s : RefStructure N) (hL : s.lattice.det ≠ 0) (f : Vec3)
    (hf : ∀ i, InHalfBox (f i)) :
    s.getCartDirection f = (fun j => ∑ i, f i * s.lattice i j) ∧
    s.getFracDirection (s.getCartDirection f) = .ok f ∧
    ∀ k : ℝ, (∀ i, InHalfBox (k * f i)) →
      s.getFracDirection (fun j => k * s.getCartDirection f j) = .ok (fun i => k * f i) ∧
      s.getCartDirection (fun i => k * f i) = fun j => k * s.getCartDirection f j := by
  have h1 : ∀ g : Vec3, (∀ i, InHalfBox (g i)) →
      s.getCartDirection g = fun j => ∑ i, g i * s.lattice i j := by
    intro g hg
    unfold RefStructure.getCartDirection
    funext j
    exact Finset.sum_congr rfl fun i _ => by rw [wrap1_of_inHalfBox (hg i)]
  have h2 : ∀ g : Vec3, (∀ i, InHalfBox (g i)) →
      s.getFracDirection (fun j => ∑ i, g i * s.lattice i j) = .ok g := by
    intro g hg
    unfold RefStructure.getFracDirection npInv
    rw [if_neg hL]
    change Except.ok _ = _
    congr 1
    funext j
    have := congrFun (congrFun (matMulPos_inv_right hL (N := 1) fun _ => g) 0) j
    simp only [matMulPos] at this
    rw [this]
    exact wrap1_of_inHalfBox (hg j)
  refine ⟨h1 f hf, by rw [h1 f hf]; exact h2 f hf, fun k hk => ?_⟩
  have h3 : (fun j => k * s.getCartDirection f j) = fun j => ∑ i, (k * f i) * s.lattice i j := by
    funext j
    rw [h1 f hf, Finset.mul_sum]
    exact Finset.sum_congr rfl fun i _ => by ring
  rw [h3]
  exact ⟨h2 _ hk, h1 _ hk⟩

/-- C19, negation: outside the box the direction may vanish or be reversed: in the unit
cubic cell `get_frac_direction([1,0,0]) = 0` and `get_frac_direction([0.75,0,0])` points
along `-x`. -/
theorem C19_frac_direction_counterexample (s : RefStructure N) (hL : s.lattice = 1) :
    s.getFracDirection ![1, 0, 0] = .ok ![0, 0, 0] ∧
    s.getFracDirection ![3 / 4, 0, 0] = .ok ![-1 / 4, 0, 0] := by
  have h : ∀ g g' : Vec3, (∀ i, SameImage (g i) (g' i)) → (∀ i, InHalfBox (g' i)) →
      s.getFracDirection g = .ok g' := by
    intro g g' h1 h2
    unfold RefStructure.getFracDirection npInv
    rw [hL, if_neg (by simp)]
    change Except.ok _ = _
    congr 1
    funext j
    simp only [inv_one, Matrix.one_apply, mul_ite, mul_one, mul_zero, Finset.sum_ite_eq',
      Finset.mem_univ, if_true]
    exact (wrap1_unique (h1 j) (h2 j)).symm
  constructor
  · refine h _ _ (fun i => ?_) (fun i => ?_)
    · fin_cases i
      · exact ⟨-1, by norm_num⟩
      · exact ⟨0, by norm_num⟩
      · exact ⟨0, by norm_num⟩
    · fin_cases i <;> norm_num [InHalfBox]
  · refine h _ _ (fun i => ?_) (fun i => ?_)
    · fin_cases i
      · exact ⟨-1, by norm_num⟩
      · exact ⟨0, by norm_num⟩
      · exact ⟨0, by norm_num⟩
    · fin_cases i <;> norm_num [InHalfBox]

/-- C19, concrete: hypotheses of `C19_direction_partial` hold for a cubic cell of edge 4 and
the direction (1,1,0)/4. -/
example : ∃ s : RefStructure 1, s.getFracDirection ![1, 1, 0] = .ok ![1 / 4, 1 / 4, 0] := by
  have hdet : (!![4, 0, 0; 0, 4, 0; 0, 0, 4] : Mat3 ℝ).det ≠ 0 := by
    simp [Matrix.det_fin_three]
  refine ⟨⟨fun _ => 1, !![4, 0, 0; 0, 4, 0; 0, 0, 4], fun _ _ => 0, [], [], []⟩, ?_⟩
  have h := C19_direction_partial
    (⟨fun _ => 1, !![4, 0, 0; 0, 4, 0; 0, 0, 4], fun _ _ => 0, [], [], []⟩ : RefStructure 1) hdet
    ![1 / 4, 1 / 4, 0] (fun i => by fin_cases i <;> norm_num [InHalfBox])
  rw [← h.2.1, h.1]
  congr 1
  funext j
  fin_cases j <;> simp [Fin.sum_univ_three]

/-! ## C20 -/

/-- C20: if all atomic numbers are known elements, the returned indexes are strictly
increasing and atom `a` is returned iff its symbol is requested; an unknown atomic number
raises `KeyError`. -/
theorem C20_get_atom_indexes (s : RefStructure N) (symbols : List Word) :
    ((∀ a, 1 ≤ s.atomicNumbers a ∧ s.atomicNumbers a ≤ 118) →
      ∃ l, s.getAtomIndexes (.many symbols) = .ok l ∧ l.Pairwise (· < ·) ∧
        ∀ a, a ∈ l ↔ ∃ sym ∈ symbols, dictGet atomicNumbers sym = some (s.atomicNumbers a)) ∧
    ((∃ a, ¬ (1 ≤ s.atomicNumbers a ∧ s.atomicNumbers a ≤ 118)) →
      s.getAtomIndexes (.many symbols) = .error .keyError) ∧
    ∀ sym, s.getAtomIndexes (.one sym) = s.getAtomIndexes (.many [sym]) := by
  refine ⟨fun h => ?_, fun h => ?_, fun sym => rfl⟩
  · choose f hf using fun a => (C90_atomic_numbers_range (s.atomicNumbers a)).2 (h a)
    have hm : ((List.finRange N).mapM fun a => symbolOf (s.atomicNumbers a)) = .ok ((List.finRange N).map f) := by
      rw [mapM_except_ok, List.forall₂_map_right_iff, List.forall₂_same]
      intro a _
      unfold symbolOf
      rw [hf]
    unfold RefStructure.getAtomIndexes
    dsimp only
    rw [hm]
    refine ⟨_, rfl, ?_, fun a => ?_⟩
    · have h1 : (List.finRange N).Pairwise (· < ·) := List.pairwise_lt_finRange N
      have h2 : ((List.finRange N).zip ((List.finRange N).map f)).map Prod.fst = List.finRange N := by
        rw [List.map_fst_zip]; simp
      rw [← h2, List.pairwise_map] at h1
      rw [List.pairwise_map]
      exact h1.filter _
    · simp only [List.mem_map, List.mem_filter, decide_eq_true_eq]
      have hz : ∀ x : Fin N × Word, x ∈ (List.finRange N).zip ((List.finRange N).map f) ↔
          x.2 = f x.1 := by
        rintro ⟨b, w⟩
        rw [List.mem_iff_getElem]
        constructor
        · rintro ⟨i, hi, h⟩
          simp only [List.getElem_zip, List.getElem_map, Prod.mk.injEq] at h
          rw [← h.2, ← h.1]
        · intro h
          refine ⟨b, by simp, ?_⟩
          simpa using h.symm
      constructor
      · rintro ⟨x, ⟨hx1, hx2⟩, rfl⟩
        rw [hz] at hx1
        exact ⟨x.2, hx2, (C90_tables_inverse _ _).2 (hx1 ▸ hf x.1)⟩
      · rintro ⟨sym, hs, hd⟩
        have : f a = sym := by
          have := (C90_tables_inverse _ _).1 hd
          rw [hf] at this; exact Option.some.inj this
        exact ⟨(a, f a), ⟨(hz _).2 rfl, by simpa [this] using hs⟩, rfl⟩
  · obtain ⟨a, ha⟩ := h
    have hno : dictGet atomSymbols (s.atomicNumbers a) = none := by
      by_contra hcon
      obtain ⟨x, hx⟩ := Option.ne_none_iff_exists'.1 hcon
      exact ha ((C90_atomic_numbers_range _).1 ⟨x, hx⟩)
    unfold RefStructure.getAtomIndexes
    dsimp only
    have : ∀ l : List (Fin N), a ∈ l → (l.mapM fun a => symbolOf (s.atomicNumbers a)) = .error .keyError := by
      intro l
      induction l with
      | nil => simp
      | cons b l ih =>
        intro hb
        rw [List.mapM_cons]
        rcases List.mem_cons.1 hb with rfl | hb
        · unfold symbolOf; rw [hno]; rfl
        · rw [ih hb]
          unfold symbolOf
          cases dictGet atomSymbols (s.atomicNumbers b) <;> rfl
    rw [this _ (List.mem_finRange a)]
    rfl

/-- C20, concrete: in TiO2-like `[22,8,8]`, "O" selects atoms 1 and 2. -/
example : ∃ l, (⟨![22, 8, 8], 1, fun _ _ => 0, [], [], []⟩ : RefStructure 3).getAtomIndexes
    (.one ['O']) = .ok l ∧ (1 : Fin 3) ∈ l ∧ (0 : Fin 3) ∉ l := by
  have h := C20_get_atom_indexes (⟨![22, 8, 8], 1, fun _ _ => 0, [], [], []⟩ : RefStructure 3) [['O']]
  obtain ⟨l, h1, _, h3⟩ := h.1 (fun a => by fin_cases a <;> decide)
  have hO : dictGet atomicNumbers ['O'] = some 8 := by decide
  refine ⟨l, (h.2.2 _).trans h1, (h3 1).2 ⟨_, by simp, hO⟩, fun h0 => ?_⟩
  obtain ⟨sym, hs, hd⟩ := (h3 0).1 h0
  rw [List.mem_singleton] at hs
  rw [hs, hO] at hd
  cases hd

end Verif
