import Verif.Props.SelectionRules

/-!
# Property C147: rigid translations of the crystal
-/

namespace Verif
open Spec

variable {N : ℕ}

/-- The pairing of a displacement pattern with a rigid translation only involves the net displacement
of the pattern. -/
theorem inner3_rigid (b : Pos N ℝ) (x : Fin 3 → ℝ) :
    inner3 b (fun _ => x) = ∑ j, (∑ a, b a j) * x j := by
  unfold inner3
  rw [Finset.sum_comm]
  exact Finset.sum_congr rfl fun j _ => by rw [Finset.sum_mul]

theorem inner3_add_right (b D E : Pos N ℝ) :
    inner3 b (fun a j => D a j + E a j) = inner3 b D + inner3 b E := by
  unfold inner3
  rw [← Finset.sum_add_distrib]
  refine Finset.sum_congr rfl fun a _ => ?_
  rw [← Finset.sum_add_distrib]
  exact Finset.sum_congr rfl fun j _ => mul_add _ _ _

theorem toCart_add (L : Mat3 ℝ) (w v : Pos N ℝ) :
    toCart L (fun a i => w a i + v a i) = fun a j => toCart L w a j + toCart L v a j := by
  funext a j
  unfold toCart
  rw [← Finset.sum_add_distrib]
  exact Finset.sum_congr rfl fun i _ => add_mul _ _ _

/-- C147: if the atoms move by zero in total along every unmasked degree of freedom, then translating
all atoms by the same (fractional) vector does not change the prediction, as long as no atom leaves the
half cell around its reference position. -/
theorem C147_invariant_partial (m : IModel N) (hi : m.interps.length = m.basis.length)
    (hk : m.mask.length = m.basis.length)
    (hnet : ∀ x ∈ m.basis.zip (m.interps.zip m.mask), x.2.2 = false → ∀ j, ∑ a, x.1 a j = 0)
    (q q' w : Pos N ℝ) (x : Fin 3 → ℝ) (hq : ∀ a i, SameImage (q' a i) (q a i + x i))
    (hw : NearestImage m.ref.positions q w) (hbox : ∀ a i, InHalfBox (w a i + x i)) :
    evalOne m.calcPolarizabilities q' = evalOne m.calcPolarizabilities q := by
  rw [evalOne_expansion m hi hk q w hw, evalOne_expansion m hi hk q' (fun a i => w a i + x i) ?_]
  · congr 1
    unfold expansion
    congr 2
    refine List.map_congr_left fun y hy => ?_
    by_cases hm : y.2.2 = true
    · rw [if_pos hm, if_pos hm]
    · rw [if_neg hm, if_neg hm, toCart_add, inner3_add_right]
      have h0 : inner3 y.1 (toCart m.ref.lattice fun _ => x) = 0 := by
        have e : toCart m.ref.lattice (fun _ : Fin N => x)
            = fun _ => fun j => ∑ i, x i * m.ref.lattice i j := rfl
        rw [e, inner3_rigid]
        refine Finset.sum_eq_zero fun j _ => ?_
        rw [hnet y hy (by simpa using hm) j, zero_mul]
      rw [h0, add_zero]
  · intro a i
    refine ⟨hbox a i, ?_⟩
    obtain ⟨n, hn⟩ := hq a i
    obtain ⟨k, hk⟩ := (hw a i).2
    exact ⟨n + k, by push_cast; linarith⟩

theorem square_sum_zero (D : Pos N ℝ) : ∀ l : List (Pos N ℝ × (ℝ → Mat3 ℝ) × Bool),
    (∀ x ∈ l, x.2.1 = fun t => t ^ 2 • (1 : Mat3 ℝ)) →
    0 ≤ (l.map fun x => if x.2.2 then 0 else x.2.1 (inner3 x.1 D)).sum 0 0 ∧
    ((l.map fun x => if x.2.2 then 0 else x.2.1 (inner3 x.1 D)).sum 0 0 = 0 →
      ∀ x ∈ l, x.2.2 = false → inner3 x.1 D = 0)
  | [], _ => by simp
  | (b, f, k) :: l, h => by
    obtain ⟨h1, h2⟩ := square_sum_zero D l fun x hx => h x (List.mem_cons_of_mem _ hx)
    have hf : f = fun t => t ^ 2 • (1 : Mat3 ℝ) := h (b, f, k) List.mem_cons_self
    subst hf
    simp only [List.map_cons, List.sum_cons, Matrix.add_apply]
    cases k with
    | true =>
      simp only [if_true, Matrix.zero_apply, zero_add]
      refine ⟨h1, fun h0 x hx hm => ?_⟩
      rcases List.mem_cons.1 hx with rfl | hx
      · cases hm
      · exact h2 h0 x hx hm
    | false =>
      simp only [Bool.false_eq_true, if_false, Matrix.smul_apply, Matrix.one_apply_eq, smul_eq_mul, mul_one]
      have hsq := sq_nonneg (inner3 b D)
      refine ⟨by linarith, fun h0 x hx hm => ?_⟩
      rcases List.mem_cons.1 hx with rfl | hx
      · exact pow_eq_zero_iff (two_ne_zero) |>.1 (by linarith)
      · exact h2 (by linarith) x hx hm

/-- C147, exactly: with given degrees of freedom, predictions are unchanged by rigid translations whatever
the interpolations, if and only if the atoms move by zero in total along every unmasked degree of
freedom. -/
theorem C147_invariant_iff (m : IModel N) (hL : m.ref.lattice.det ≠ 0)
    (hk : m.mask.length = m.basis.length) :
    (∀ interps : List (ℝ → Mat3 ℝ), interps.length = m.basis.length →
      ∀ (q q' w : Pos N ℝ) (x : Fin 3 → ℝ), (∀ a i, SameImage (q' a i) (q a i + x i)) →
      NearestImage m.ref.positions q w → (∀ a i, InHalfBox (w a i + x i)) →
      evalOne ({ m with interps := interps } : IModel N).calcPolarizabilities q'
        = evalOne ({ m with interps := interps } : IModel N).calcPolarizabilities q) ↔
    ∀ y ∈ m.basis.zip m.mask, y.2 = false → ∀ j, ∑ a, y.1 a j = 0 := by
  constructor
  · intro h y hy hm j
    set I : List (ℝ → Mat3 ℝ) := List.replicate m.basis.length fun t => t ^ 2 • (1 : Mat3 ℝ) with hI
    have hIl : I.length = m.basis.length := List.length_replicate
    set S := ∑ i, |m.ref.lattice⁻¹ j i| with hS
    have hS0 : 0 ≤ S := Finset.sum_nonneg fun _ _ => abs_nonneg _
    set t := 1 / (2 + 2 * S) with ht
    have ht0 : 0 < t := by positivity
    set x : Fin 3 → ℝ := fun i => t * m.ref.lattice⁻¹ j i with hx
    have hxb : ∀ i, |x i| < 1 / 2 := by
      intro i
      have h1 : |m.ref.lattice⁻¹ j i| ≤ S :=
        Finset.single_le_sum (f := fun i => |m.ref.lattice⁻¹ j i|) (fun _ _ => abs_nonneg _)
          (Finset.mem_univ i)
      rw [hx]
      dsimp only
      rw [abs_mul, abs_of_pos ht0, ht, one_div, inv_mul_lt_iff₀ (by positivity)]
      linarith
    have hcart : ∀ c, ∑ i, x i * m.ref.lattice i c = if j = c then t else 0 := by
      intro c
      have h1 := congrFun (congrFun (Matrix.nonsing_inv_mul m.ref.lattice
        (isUnit_iff_ne_zero.2 hL)) j) c
      rw [Matrix.mul_apply, Matrix.one_apply] at h1
      simp only [hx, mul_assoc]
      rw [← Finset.mul_sum, h1]
      simp
    have h0 : NearestImage m.ref.positions m.ref.positions fun _ _ => 0 := fun a i =>
      ⟨by norm_num [InHalfBox], 0, by simp⟩
    have hx' : NearestImage m.ref.positions (fun a i => m.ref.positions a i + x i) fun _ => x := fun a i =>
      ⟨⟨by linarith [(abs_lt.1 (hxb i)).1], (abs_lt.1 (hxb i)).2.le⟩, 0, by simp⟩
    have h1 := h I hIl m.ref.positions (fun a i => m.ref.positions a i + x i) (fun _ _ => 0) x
      (fun a i => SameImage.refl _) h0 fun a i => by
        rw [zero_add]
        exact (hx' a i).1
    have e1 := evalOne_expansion ({ m with interps := I } : IModel N) hIl hk _ _ h0
    have e2 := evalOne_expansion ({ m with interps := I } : IModel N) hIl hk _ _ hx'
    have h2 := congrFun (congrFun (Except.ok.inj ((e2.symm.trans h1).trans e1)) 0) 0
    unfold expansion at h2
    simp only [Matrix.add_apply] at h2
    have h3 := add_left_cancel h2
    have hall : ∀ z ∈ m.basis.zip (I.zip m.mask), z.2.1 = fun t => t ^ 2 • (1 : Mat3 ℝ) := by
      intro z hz
      exact List.eq_of_mem_replicate (List.of_mem_zip (List.of_mem_zip hz).2).1
    have hzero : ((m.basis.zip (I.zip m.mask)).map fun z => if z.2.2 then 0 else
        z.2.1 (inner3 z.1 (toCart m.ref.lattice fun _ _ => 0))).sum 0 0 = 0 := by
      have : (m.basis.zip (I.zip m.mask)).map (fun z => if z.2.2 then (0 : Mat3 ℝ) else
          z.2.1 (inner3 z.1 (toCart m.ref.lattice fun _ _ => 0)))
          = (m.basis.zip (I.zip m.mask)).map fun _ => 0 := by
        refine List.map_congr_left fun z hz => ?_
        rw [hall z hz]
        simp [inner3, toCart]
      rw [this]
      simp
    obtain ⟨z, hz, hz1, hz2⟩ : ∃ z ∈ m.basis.zip (I.zip m.mask), z.1 = y.1 ∧ z.2.2 = y.2 := by
      obtain ⟨n, hn, rfl⟩ := List.getElem_of_mem hy
      rw [List.length_zip] at hn
      refine ⟨_, List.getElem_mem (n := n) (by rw [List.length_zip, List.length_zip]; omega), ?_, ?_⟩
      · simp
      · simp
    have h4 := (square_sum_zero _ _ hall).2 (h3.trans hzero) z hz (hz2.trans hm)
    have h5 : (toCart m.ref.lattice fun (_ : Fin N) => x) = fun _ c => ∑ i, x i * m.ref.lattice i c := rfl
    rw [h5, inner3_rigid, hz1] at h4
    simp only [hcart] at h4
    simp only [mul_ite, mul_zero, Finset.sum_ite_eq, Finset.mem_univ, if_true] at h4
    exact (mul_eq_zero.1 h4).resolve_right ht0.ne'
  · intro h interps hi q q' w x hq hw hbox
    refine C147_invariant_partial { m with interps := interps } hi hk ?_ q q' w x hq hw hbox
    intro z hz hm
    refine h (z.1, z.2.2) ?_ hm
    obtain ⟨n, hn, rfl⟩ := List.getElem_of_mem hz
    simp only [List.length_zip] at hn
    rw [List.getElem_zip, List.getElem_zip]
    rw [List.mem_iff_getElem]
    refine ⟨n, ?_, ?_⟩
    · rw [List.length_zip]
      omega
    · rw [List.getElem_zip]

/-- C147: the Raman tensor of a rigid translation (an acoustic vibration at long wavelength), for
interpolations of degree at most two: twice the slopes weighted with the net displacement of the degrees
of freedom.  It need not vanish. -/
theorem C147_acoustic (m : IModel N) (hi : m.interps.length = m.basis.length)
    (hk : m.mask.length = m.basis.length) (cs ss qs : List (Mat3 ℝ))
    (hlen : cs.length = m.interps.length ∧ ss.length = m.interps.length ∧
      qs.length = m.interps.length)
    (hf : ∀ (n : ℕ) f c s q, m.interps[n]? = some f → cs[n]? = some c → ss[n]? = some s →
      qs[n]? = some q → ∀ x : ℝ, f x = c + x • s + x ^ 2 • q)
    (x : Fin 3 → ℝ) (hx : ∀ i, |x i| < 500) :
    ramanTensor m.calcPolarizabilities m.ref.positions (fun _ => x)
      = .ok (2 • response (m.basis.map fun b =>
          ∑ j, (∑ a, b a j) * ∑ i, x i * m.ref.lattice i j) ss m.mask) := by
  rw [C118_quadratic m hi hk cs ss qs hlen hf _ fun _ i => hx i]
  congr 4
  funext b
  exact inner3_rigid b _

/-- C147, counterexample: one atom per cell.  Every configuration is a rigid translation of the crystal,
which has no effect on its polarizability; after `add_dof` along (0, 0.6, 0.8) with data `A`, `B` at
amplitudes ∓0.1, the model predicts different polarizabilities for translated crystals whenever `B` is
not the reference value. -/
theorem C147_counterexample (nums : Fin 1 → ℕ) (pol A B : Mat3 ℝ) (h : B ≠ pol) :
    ∃ (s : RefStructure 1) (o : Outcome 1) (q q' : Pos 1 ℝ) (x : Fin 3 → ℝ),
      RefStructure.init mirSpglib nums 1 (fun _ _ => 0) = .ok s ∧
      o = (IModel.init s pol false).addDof lookupSpline true (one1 mirU)
        [-(1 / 10), 1 / 10] [A, B] 2 true ∧ o.result = .ok () ∧
      (∀ a i, q' a i = q a i + x i) ∧
      evalOne o.state.calcPolarizabilities q ≠ evalOne o.state.calcPolarizabilities q' := by
  obtain ⟨s, hs, hops⟩ := mirInit nums
  obtain ⟨f, hf, _⟩ := mir_add₁ nums s hs hops pol A B
  obtain ⟨-, h2, h3⟩ := C120_not_equivariant nums pol A B lookupSpline lookupSpline_interpolates true s
    hs hops _ rfl (by rw [hf])
  refine ⟨s, _, one1 ![0, 1 / 6, 0], one1 ![1 / 6, 0, 0], fun i => (![1 / 6, 0, 0] : Fin 3 → ℝ) i - (![0, 1 / 6, 0] : Fin 3 → ℝ) i, hs,
    rfl, by rw [hf], fun a i => ?_, ?_⟩
  · unfold one1; ring
  · rw [h2, h3]
    exact fun he => h (Except.ok.inj he)

/-- C147, concrete: translating the molecule by (0.1, 0.2, -0.1) from a stretched configuration changes
nothing, whatever the response of the bond. -/
example (f : ℝ → Mat3 ℝ) :
    evalOne (bondModel f).calcPolarizabilities ![![1 / 10, 1 / 5, 1 / 4], ![1 / 10, 1 / 5, 11 / 20]]
    = evalOne (bondModel f).calcPolarizabilities ![![0, 0, 7 / 20], ![0, 0, 13 / 20]] := by
  refine C147_invariant_partial (bondModel f) rfl rfl ?_ _ _
    ![![0, 0, -1 / 20], ![0, 0, 1 / 20]] ![1 / 10, 1 / 5, -1 / 10] ?_ ?_ ?_
  · intro x hx _ j
    simp only [bondModel, List.zip_cons_cons, List.zip_nil_left, List.mem_singleton] at hx
    subst hx
    fin_cases j <;> simp [Fin.sum_univ_two, vec_two]
  · intro a i
    refine ⟨0, ?_⟩
    fin_cases a <;> fin_cases i <;> norm_num [vec_two]
  · intro a i
    refine ⟨?_, 0, ?_⟩
    · fin_cases a <;> fin_cases i <;> norm_num [vec_two, InHalfBox]
    · fin_cases a <;> fin_cases i <;> norm_num [vec_two, bondModel]
  · intro a i
    fin_cases a <;> fin_cases i <;> norm_num [vec_two, InHalfBox]

/-- C147_invariant_iff, concrete: the stretching of the bond of the molecule has zero net displacement. -/
example (f : ℝ → Mat3 ℝ) : (bondModel f).ref.lattice.det ≠ 0 ∧
    ∀ y ∈ (bondModel f).basis.zip (bondModel f).mask, y.2 = false → ∀ j, ∑ a, y.1 a j = 0 := by
  refine ⟨by simp [bondModel], ?_⟩
  intro y hy _ j
  simp only [bondModel, List.zip_cons_cons, List.zip_nil_left, List.mem_singleton] at hy
  subst hy
  fin_cases j <;> simp [Fin.sum_univ_two, vec_two]

end Verif
