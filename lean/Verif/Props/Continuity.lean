import Verif.Props.RigidMotion
import Verif.Props.DegenerateModes
import Verif.Props.PbcRounding
import Mathlib.Topology.Algebra.Monoid
import Mathlib.Topology.Instances.Matrix
import Mathlib.Topology.MetricSpace.Pseudo.Pi
import Mathlib.Algebra.Order.BigOperators.Ring.Finset

/-!
# Property C150: predictions depend continuously on the positions
-/

namespace Verif
open Spec

variable {N : ℕ}

/-- Cauchy-Schwarz inequality for `(N,3)` arrays. -/
theorem inner3_sq_le (b D : Pos N ℝ) : inner3 b D ^ 2 ≤ inner3 b b * inner3 D D := by
  have e : ∀ x y : Pos N ℝ, inner3 x y = ∑ k : Fin N × Fin 3, x k.1 k.2 * y k.1 k.2 := by
    intro x y
    unfold inner3
    rw [Fintype.sum_prod_type]
  have := Finset.sum_mul_sq_le_sq_mul_sq Finset.univ (fun k : Fin N × Fin 3 => b k.1 k.2)
    fun k => D k.1 k.2
  rw [e, e, e]
  simpa only [pow_two] using this

theorem inner3_sub_right (b D E : Pos N ℝ) :
    inner3 b (fun a j => D a j - E a j) = inner3 b D - inner3 b E := by
  have := inner3_add_right b (fun a j => D a j - E a j) E
  simp only [sub_add_cancel] at this
  linarith

theorem masked_sum_bound {α : Type} (f g : α → Mat3 ℝ) (bound : ℝ) (i j : Fin 3) :
    ∀ l : List (α × Bool), (∀ x ∈ l, x.2 = false → |f x.1 i j - g x.1 i j| ≤ bound) →
      |(l.map fun x => if x.2 then 0 else f x.1).sum i j
        - (l.map fun x => if x.2 then 0 else g x.1).sum i j|
      ≤ ((l.map Prod.snd).count false : ℝ) * bound
  | [], _ => by simp
  | (a, true) :: l, h => by
    have := masked_sum_bound f g bound i j l fun x hx => h x (List.mem_cons_of_mem _ hx)
    simpa using this
  | (a, false) :: l, h => by
    have ih := masked_sum_bound f g bound i j l fun x hx => h x (List.mem_cons_of_mem _ hx)
    have h0 := h (a, false) (List.mem_cons_self ..) rfl
    simp only [List.map_cons, List.sum_cons, Matrix.add_apply, Bool.false_eq_true, if_false,
      List.count_cons_self, Nat.cast_add, Nat.cast_one]
    rw [add_sub_add_comm]
    refine (abs_add_le _ _).trans ?_
    dsimp only at h0
    linarith

/-- C150: if the interpolations of the unmasked degrees of freedom change by at most `C` per unit of
amplitude, then two predictions differ by at most the number of these degrees of freedom times `C` times
the (Cartesian) distance of the two displacements from the reference structure. -/
theorem C150_lipschitz (m : IModel N) (hi : m.interps.length = m.basis.length)
    (hk : m.mask.length = m.basis.length) (C : ℝ) (hC : 0 ≤ C)
    (hunit : ∀ b ∈ m.basis, inner3 b b = 1)
    (hlip : ∀ x ∈ m.interps.zip m.mask, x.2 = false → ∀ (s t : ℝ) (i j : Fin 3),
      |x.1 s i j - x.1 t i j| ≤ C * |s - t|)
    (q q' w w' : Pos N ℝ) (hw : NearestImage m.ref.positions q w)
    (hw' : NearestImage m.ref.positions q' w') (r : ℝ) (hr : 0 ≤ r)
    (hd : ∑ a, ∑ j, (toCart m.ref.lattice w' a j - toCart m.ref.lattice w a j) ^ 2 ≤ r ^ 2) :
    ∃ A B, evalOne m.calcPolarizabilities q = .ok A ∧ evalOne m.calcPolarizabilities q' = .ok B ∧
      ∀ i j, |B i j - A i j| ≤ (m.mask.count false : ℝ) * (C * r) := by
  refine ⟨_, _, evalOne_expansion m hi hk q w hw, evalOne_expansion m hi hk q' w' hw', ?_⟩
  intro i j
  unfold expansion
  rw [Matrix.add_apply, Matrix.add_apply, add_sub_add_left_eq_sub]
  have key := masked_sum_bound
    (fun x : Pos N ℝ × (ℝ → Mat3 ℝ) => x.2 (inner3 x.1 (toCart m.ref.lattice w')))
    (fun x : Pos N ℝ × (ℝ → Mat3 ℝ) => x.2 (inner3 x.1 (toCart m.ref.lattice w))) (C * r) i j
    ((m.basis.zip (m.interps.zip m.mask)).map fun x => ((x.1, x.2.1), x.2.2)) ?_
  · rw [List.map_map, List.map_map, List.map_map] at key
    have hc : (m.basis.zip (m.interps.zip m.mask)).map
        (Prod.snd ∘ fun x => ((x.1, x.2.1), x.2.2)) = m.mask := by
      have : (Prod.snd ∘ fun x : Pos N ℝ × (ℝ → Mat3 ℝ) × Bool => ((x.1, x.2.1), x.2.2))
          = Prod.snd ∘ Prod.snd := rfl
      rw [this, ← List.map_map, List.map_snd_zip, List.map_snd_zip]
      · omega
      · rw [List.length_zip]
        omega
    rw [hc] at key
    exact key
  · intro x hx hm
    obtain ⟨y, hy, rfl⟩ := List.mem_map.1 hx
    obtain ⟨b, f, k⟩ := y
    dsimp only at hm ⊢
    have hb := (List.of_mem_zip (a := b) (b := (f, k)) hy)
    refine (hlip (f, k) hb.2 hm _ _ i j).trans (mul_le_mul_of_nonneg_left ?_ hC)
    rw [← inner3_sub_right]
    refine abs_le_of_sq_le_sq ?_ hr
    refine (inner3_sq_le b _).trans ?_
    rw [hunit b hb.1, one_mul]
    refine le_trans (le_of_eq ?_) hd
    unfold inner3
    exact Finset.sum_congr rfl fun a _ => Finset.sum_congr rfl fun j _ => (pow_two _).symm

theorem continuous_expansion (m : IModel N) (w : Pos N ℝ)
    (hcont : ∀ x ∈ m.interps.zip m.mask, x.2 = false → Continuous x.1) :
    Continuous fun e : Pos N ℝ => expansion m.refPol m.basis m.interps m.mask
      (toCart m.ref.lattice fun a i => w a i + e a i) := by
  unfold expansion
  refine continuous_const.add ?_
  refine continuous_list_sum _ fun x hx => ?_
  obtain ⟨b, f, k⟩ := x
  have hb := (List.of_mem_zip (a := b) (b := (f, k)) hx)
  dsimp only
  cases k with
  | true => simpa using continuous_const
  | false =>
    simp only [Bool.false_eq_true, if_false]
    refine (hcont (f, false) hb.2 rfl).comp ?_
    unfold inner3 toCart
    fun_prop

theorem expansion_continuous (m : IModel N) (hcont : ∀ x ∈ m.interps.zip m.mask, x.2 = false → Continuous x.1)
    (w : Pos N ℝ) (ε : ℝ) (hε : 0 < ε) : ∃ δ > 0, ∀ e : Pos N ℝ, (∀ a i, |e a i| < δ) → ∀ i j,
      |expansion m.refPol m.basis m.interps m.mask
        (toCart m.ref.lattice fun a i => w a i + e a i) i j
      - expansion m.refPol m.basis m.interps m.mask (toCart m.ref.lattice w) i j| < ε := by
  have hmat : ∀ i j, ContinuousAt (fun e : Pos N ℝ => expansion m.refPol m.basis m.interps m.mask
      (toCart m.ref.lattice fun a i => w a i + e a i) i j) 0 := fun i j =>
    ((continuous_expansion m w hcont).matrix_elem i j).continuousAt
  have h1 : ∀ᶠ e in nhds (0 : Pos N ℝ), ∀ i j,
      |expansion m.refPol m.basis m.interps m.mask
        (toCart m.ref.lattice fun a i => w a i + e a i) i j
      - expansion m.refPol m.basis m.interps m.mask (toCart m.ref.lattice w) i j| < ε := by
    refine Filter.eventually_all.2 fun i => Filter.eventually_all.2 fun j => ?_
    have := Metric.continuousAt_iff'.1 (hmat i j) ε hε
    simpa [Real.dist_eq] using this
  obtain ⟨δ, hδ, h2⟩ := Metric.eventually_nhds_iff.1 h1
  refine ⟨δ, hδ, fun e he => h2 ?_⟩
  rw [dist_pi_lt_iff hδ]
  intro a
  rw [dist_pi_lt_iff hδ]
  intro i
  simpa [Real.dist_eq] using he a i

/-- C150: if the interpolations of the unmasked degrees of freedom are continuous, then so are
predictions, at every configuration in which no coordinate of an atom is half a cell away from its
reference position; configurations are compared up to periodic images. -/
theorem C150_continuous_partial (m : IModel N) (hi : m.interps.length = m.basis.length)
    (hk : m.mask.length = m.basis.length)
    (hcont : ∀ x ∈ m.interps.zip m.mask, x.2 = false → Continuous x.1)
    (q w : Pos N ℝ) (hw : ∀ a i, SameImage (q a i - m.ref.positions a i) (w a i))
    (hhalf : ∀ a i, |w a i| < 1 / 2) (ε : ℝ) (hε : 0 < ε) :
    ∃ A δ, evalOne m.calcPolarizabilities q = .ok A ∧ 0 < δ ∧
      ∀ q' : Pos N ℝ, (∀ a i, NearImage δ (q a i) (q' a i)) →
        ∃ B, evalOne m.calcPolarizabilities q' = .ok B ∧ ∀ i j, |B i j - A i j| < ε := by
  have hq : NearestImage m.ref.positions q w := fun a i =>
    ⟨⟨by linarith [(abs_lt.1 (hhalf a i)).1], (abs_lt.1 (hhalf a i)).2.le⟩, hw a i⟩
  -- a margin to half a cell
  obtain ⟨μ, hμ, hmargin⟩ : ∃ μ > 0, ∀ a i, |w a i| + μ < 1 / 2 := by
    rcases isEmpty_or_nonempty (Fin N) with hN | hN
    · exact ⟨1, one_pos, fun a => (hN.false a).elim⟩
    · obtain ⟨k, hk⟩ := Finite.exists_max fun k : Fin N × Fin 3 => |w k.1 k.2|
      refine ⟨(1 / 2 - |w k.1 k.2|) / 2, by linarith [hhalf k.1 k.2], fun a i => ?_⟩
      have := hk (a, i)
      dsimp only at this
      linarith [hhalf k.1 k.2]
  obtain ⟨δ, hδ, h⟩ := expansion_continuous m hcont w ε hε
  refine ⟨_, min (δ / 2) μ, evalOne_expansion m hi hk q w hq, by positivity, ?_⟩
  intro q' hq'
  choose z hz hz' using hq'
  have hsmall : ∀ a i, |q' a i - z a i| < δ ∧ |q' a i - z a i| ≤ μ := fun a i =>
    ⟨(hz' a i).trans_lt (lt_of_le_of_lt (min_le_left _ _) (by linarith)),
      (hz' a i).trans (min_le_right _ _)⟩
  refine ⟨_, evalOne_expansion m hi hk q' (fun a i => w a i + (q' a i - z a i)) ?_, ?_⟩
  · intro a i
    have h1 := abs_le.1 (hsmall a i).2
    have h2 := hmargin a i
    have h3 := neg_abs_le (w a i)
    have h4 := le_abs_self (w a i)
    refine ⟨⟨by linarith, by linarith⟩, ?_⟩
    obtain ⟨n, hn⟩ := hz a i
    obtain ⟨k, hk⟩ := hw a i
    exact ⟨k - n, by push_cast; linarith⟩
  · exact h _ fun a i => (hsmall a i).1

theorem exists_pos_le {ι : Type} [Finite ι] (f : ι → ℝ) (h : ∀ k, 0 < f k) : ∃ δ > 0, ∀ k, δ ≤ f k := by
  rcases isEmpty_or_nonempty ι with hι | hι
  · exact ⟨1, one_pos, fun k => (hι.false k).elim⟩
  · obtain ⟨k, hk⟩ := Finite.exists_min f
    exact ⟨f k, h k, hk⟩

/-- The displacement `v` is `w` with some of the coordinates of half a cell reversed. -/
def OtherImage (w v : Pos N ℝ) : Prop := ∀ a i, v a i = w a i ∨ w a i = 1 / 2 ∧ v a i = -(1 / 2)

/-- C150, exactly: predictions with continuous interpolations are continuous at a configuration if and
only if it makes no difference for the model in which direction coordinates of half a cell are counted. -/
theorem C150_continuous_iff (m : IModel N) (hi : m.interps.length = m.basis.length)
    (hk : m.mask.length = m.basis.length)
    (hcont : ∀ x ∈ m.interps.zip m.mask, x.2 = false → Continuous x.1)
    (q w : Pos N ℝ) (hw : NearestImage m.ref.positions q w) :
    (∀ ε > 0, ∃ A δ, evalOne m.calcPolarizabilities q = .ok A ∧ 0 < δ ∧
      ∀ q' : Pos N ℝ, (∀ a i, NearImage δ (q a i) (q' a i)) →
        ∃ B, evalOne m.calcPolarizabilities q' = .ok B ∧ ∀ i j, |B i j - A i j| < ε) ↔
    ∀ v, OtherImage w v → expansion m.refPol m.basis m.interps m.mask (toCart m.ref.lattice v)
      = expansion m.refPol m.basis m.interps m.mask (toCart m.ref.lattice w) := by
  have hA := evalOne_expansion m hi hk q w hw
  constructor
  · intro h v hv
    ext i j
    refine eq_of_abs_sub_le_all fun ε hε => ?_
    obtain ⟨A, δ, hA', hδ, h1⟩ := h (ε / 2) (by positivity)
    cases hA.symm.trans hA'
    obtain ⟨δ', hδ', h2⟩ := expansion_continuous m hcont v (ε / 2) (by positivity)
    have ht : 0 < min δ (min (δ' / 2) (1 / 4)) := by positivity
    obtain ⟨t, ht0, ht1, ht2, ht3⟩ : ∃ t : ℝ, 0 < t ∧ t ≤ δ ∧ t ≤ δ' / 2 ∧ t ≤ 1 / 4 :=
      ⟨_, ht, min_le_left _ _, (min_le_right _ _).trans (min_le_left _ _),
        (min_le_right _ _).trans (min_le_right _ _)⟩
    set e : Pos N ℝ := fun a i => if v a i = w a i then 0 else t with he
    have hcase : ∀ a i, (v a i = w a i ∧ e a i = 0) ∨ (w a i = 1 / 2 ∧ v a i = -(1 / 2) ∧ e a i = t) := by
      intro a i
      by_cases hvw : v a i = w a i
      · exact Or.inl ⟨hvw, if_pos hvw⟩
      · rcases hv a i with h | h
        · exact absurd h hvw
        · exact Or.inr ⟨h.1, h.2, if_neg hvw⟩
    obtain ⟨B, hB, h3⟩ := h1 (fun a i => q a i + e a i) fun a i => ⟨q a i, SameImage.refl _, by
      rcases hcase a i with h | h
      · simp [h.2, hδ.le]
      · simp [h.2.2, abs_of_pos ht0, ht1]⟩
    have hB' := evalOne_expansion m hi hk (fun a i => q a i + e a i) (fun a i => v a i + e a i) (by
      intro a i
      obtain ⟨⟨hb1, hb2⟩, n, hn⟩ := hw a i
      dsimp only
      rcases hcase a i with h | h
      · rw [h.1, h.2, add_zero, add_zero]
        exact ⟨⟨hb1, hb2⟩, n, hn⟩
      · rw [h.2.1, h.2.2]
        refine ⟨⟨by linarith, by linarith⟩, n - 1, ?_⟩
        rw [h.1] at hn
        push_cast
        linarith)
    cases hB.symm.trans hB'
    have h4 := h3 i j
    have h5 := h2 e (fun a i => by
      rcases hcase a i with h | h
      · rw [h.2, abs_zero]; exact hδ'
      · rw [h.2.2, abs_of_pos ht0]; linarith) i j
    rw [abs_lt] at h4 h5
    rw [abs_le]
    constructor <;> linarith [h4.1, h4.2, h5.1, h5.2]
  · intro h ε hε
    classical
    set flip : (Fin N → Fin 3 → Bool) → Pos N ℝ := fun S a i =>
      if w a i = 1 / 2 ∧ S a i = true then -(1 / 2) else w a i with hflip
    have hother : ∀ S, OtherImage w (flip S) := by
      intro S a i
      by_cases hS : w a i = 1 / 2 ∧ S a i = true
      · exact Or.inr ⟨hS.1, if_pos hS⟩
      · exact Or.inl (if_neg hS)
    choose δS hδS hnear using fun S => expansion_continuous m hcont (flip S) ε hε
    obtain ⟨δ, hδ, hle⟩ := exists_pos_le δS hδS
    obtain ⟨μ, hμ, hmargin⟩ : ∃ μ > 0, ∀ k : Fin N × Fin 3, μ ≤ min (w k.1 k.2 + 1 / 2)
        (if w k.1 k.2 = 1 / 2 then 1 else 1 / 2 - w k.1 k.2) := by
      refine exists_pos_le _ fun k => lt_min (by linarith [(hw k.1 k.2).1.1]) ?_
      by_cases h1 : w k.1 k.2 = 1 / 2
      · rw [if_pos h1]; exact one_pos
      · rw [if_neg h1]
        linarith [lt_of_le_of_ne (hw k.1 k.2).1.2 h1]
    have ht : 0 < min (δ / 2) (min (μ / 2) (1 / 4)) := by positivity
    refine ⟨_, _, hA, ht, fun q' hq' => ?_⟩
    choose z hz hz' using hq'
    have hsmall : ∀ a i, |q' a i - z a i| < δ ∧ |q' a i - z a i| ≤ μ / 2 ∧ |q' a i - z a i| ≤ 1 / 4 :=
      fun a i => ⟨(hz' a i).trans_lt (lt_of_le_of_lt (min_le_left _ _) (by linarith)),
        (hz' a i).trans ((min_le_right _ _).trans (min_le_left _ _)),
        (hz' a i).trans ((min_le_right _ _).trans (min_le_right _ _))⟩
    set S : Fin N → Fin 3 → Bool := fun a i => decide (0 < q' a i - z a i) with hS
    refine ⟨_, evalOne_expansion m hi hk q' (fun a i => flip S a i + (q' a i - z a i)) ?_, ?_⟩
    · intro a i
      obtain ⟨⟨hb1, hb2⟩, n, hn⟩ := hw a i
      obtain ⟨k, hkz⟩ := hz a i
      obtain ⟨-, hs1, hs2⟩ := hsmall a i
      rw [abs_le] at hs1 hs2
      have hm := le_min_iff.1 (hmargin (a, i))
      dsimp only at hm
      by_cases hf : w a i = 1 / 2 ∧ S a i = true
      · have hv : flip S a i = -(1 / 2) := if_pos hf
        have hp : 0 < q' a i - z a i := of_decide_eq_true hf.2
        dsimp only
        rw [hv]
        refine ⟨⟨by linarith, by linarith [hs2.2]⟩, n - 1 - k, ?_⟩
        rw [hf.1] at hn
        push_cast
        linarith
      · have hv : flip S a i = w a i := if_neg hf
        dsimp only
        rw [hv]
        refine ⟨⟨by linarith [hm.1, hs1.1], ?_⟩, n - k, by push_cast; linarith⟩
        by_cases h1 : w a i = 1 / 2
        · have : ¬ 0 < q' a i - z a i := fun hp => hf ⟨h1, decide_eq_true hp⟩
          linarith
        · rw [if_neg h1] at hm
          linarith [hm.2, hs1.2]
    · intro i j
      rw [← h _ (hother S)]
      exact hnear S _ (fun a i => (hsmall a i).1.trans_le (hle S)) i j

/-- C150, counterexample: at half a cell predictions jump.  For a molecule whose response is linear in
the bond length there are configurations as close as desired whose predictions differ by the whole
response to half a cell or more. -/
theorem C150_counterexample (B : Mat3 ℝ) (δ : ℝ) (h0 : 0 < δ) (h1 : δ ≤ 1 / 4) :
    ∃ q q' : Pos 2 ℝ, (∀ a i, |q' a i - q a i| ≤ δ) ∧
      evalOne (bondModel fun t => t • B).calcPolarizabilities q = .ok (1 + (1 / 2 : ℝ) • B) ∧
      evalOne (bondModel fun t => t • B).calcPolarizabilities q' = .ok (1 + (δ - 1 / 2) • B) := by
  have key : ∀ t : ℝ, expansion (bondModel fun t => t • B).refPol (bondModel fun t => t • B).basis
      (bondModel fun t => t • B).interps (bondModel fun t => t • B).mask
      (toCart (bondModel fun t => t • B).ref.lattice ![![0, 0, 0], ![0, 0, t]]) = 1 + t • B := by
    intro t
    simp only [expansion, bondModel, List.zip_cons_cons, List.zip_nil_left, List.map_cons,
      List.map_nil, List.sum_cons, List.sum_nil, add_zero, Bool.false_eq_true, if_false]
    congr 2
    simp [inner3, toCart, Fin.sum_univ_three, Fin.sum_univ_two, Matrix.one_apply, vec_two]
  refine ⟨![![0, 0, 2 / 5], ![0, 0, 11 / 10]], ![![0, 0, 2 / 5], ![0, 0, 11 / 10 + δ]], ?_, ?_, ?_⟩
  · intro a i
    fin_cases a <;> fin_cases i <;> simp [vec_two, h0.le, abs_of_pos h0]
  · rw [evalOne_expansion (bondModel fun t => t • B) rfl rfl _ ![![0, 0, 0], ![0, 0, 1 / 2]] ?_, key]
    intro a i
    refine ⟨?_, 0, ?_⟩
    · fin_cases a <;> fin_cases i <;> norm_num [vec_two, InHalfBox]
    · fin_cases a <;> fin_cases i <;> norm_num [vec_two, bondModel]
  · rw [evalOne_expansion (bondModel fun t => t • B) rfl rfl _
      ![![0, 0, 0], ![0, 0, δ - 1 / 2]] ?_, key]
    intro a i
    fin_cases a <;> fin_cases i <;> refine ⟨?_, ?_⟩
    all_goals try (norm_num [vec_two, InHalfBox]; done)
    all_goals try (refine ⟨0, ?_⟩; norm_num [vec_two, bondModel]; done)
    · simp only [vec_two, InHalfBox]
      constructor
      · change -(1 / 2) < δ - 1 / 2
        linarith
      · change δ - 1 / 2 ≤ 1 / 2
        linarith
    · refine ⟨-1, ?_⟩
      change δ - 1 / 2 = 11 / 10 + δ - 3 / 5 + ((-1 : ℤ) : ℝ)
      norm_num
      ring

/-- C150, concrete: moving an atom by 0.01 along `x` and 0.02 along `y` changes the prediction by at
most 0.03 times the largest slope. -/
example (f : ℝ → ℝ) (hf : ∀ s t : ℝ, |f s - f t| ≤ 2 * |s - t|) :
    ∃ A B, evalOne (axisModel f).calcPolarizabilities (fun _ _ => 0) = .ok A ∧
      evalOne (axisModel f).calcPolarizabilities (one1 ![1 / 100, 1 / 50, 0]) = .ok B ∧
      ∀ i j, |B i j - A i j| ≤ 2 * (3 / 100) := by
  obtain ⟨A, B, hA, hB, h⟩ := C150_lipschitz (axisModel f) rfl rfl 2 (by norm_num) (by
      intro b hb
      rw [List.mem_singleton.1 hb]
      simp [inner3, one1, Fin.sum_univ_three]) (by
      intro x hx _ s t i j
      simp only [axisModel, List.zip_cons_cons, List.zip_nil_left, List.mem_singleton] at hx
      subst hx
      dsimp only
      rw [Matrix.smul_apply, Matrix.smul_apply, ← sub_smul, smul_eq_mul, Matrix.one_apply]
      split_ifs
      · rw [mul_one]; exact hf s t
      · rw [mul_zero, abs_zero]; positivity)
    (fun _ _ => 0) (one1 ![1 / 100, 1 / 50, 0]) (fun _ _ => 0) (one1 ![1 / 100, 1 / 50, 0])
    (fun a i => ⟨by norm_num [InHalfBox], 0, by simp [axisModel]⟩) (by
      intro a i
      refine ⟨?_, 0, by simp [axisModel]⟩
      fin_cases i <;> norm_num [InHalfBox, one1, vec_two]) (3 / 100) (by norm_num) (by
      simp [toCart, axisModel, one1, Fin.sum_univ_three, Matrix.one_apply]
      norm_num)
  refine ⟨A, B, hA, hB, fun i j => (h i j).trans (le_of_eq ?_)⟩
  simp [axisModel]

/-- C150, concrete: continuity at the configuration one cell and a quarter away. -/
example (f : ℝ → ℝ) (hf : Continuous f) (ε : ℝ) (hε : 0 < ε) :
    ∃ A δ, evalOne (axisModel f).calcPolarizabilities (fun _ _ => 5 / 4) = .ok A ∧ 0 < δ ∧
      ∀ q' : Pos 1 ℝ, (∀ a i, NearImage δ (5 / 4) (q' a i)) →
        ∃ B, evalOne (axisModel f).calcPolarizabilities q' = .ok B ∧ ∀ i j, |B i j - A i j| < ε := by
  refine C150_continuous_partial (axisModel f) rfl rfl ?_ (fun _ _ => 5 / 4) (fun _ _ => 1 / 4)
    (fun a i => ⟨-1, by norm_num [axisModel]⟩) (fun a i => by norm_num [abs_of_pos]) ε hε
  intro x hx _
  simp only [axisModel, List.zip_cons_cons, List.zip_nil_left, List.mem_singleton] at hx
  subst hx
  dsimp only
  fun_prop

/-- C150_continuous_iff, concrete: with one atom displaced by half a cell along the only degree of freedom,
predictions are continuous exactly if the response to half a cell is the same in both directions. -/
example (f : ℝ → ℝ) (hf : Continuous f) :
    (∀ ε > 0, ∃ A δ, evalOne (axisModel f).calcPolarizabilities (one1 ![1 / 2, 0, 0]) = .ok A ∧ 0 < δ ∧
      ∀ q' : Pos 1 ℝ, (∀ a i, NearImage δ (one1 ![1 / 2, 0, 0] a i) (q' a i)) →
        ∃ B, evalOne (axisModel f).calcPolarizabilities q' = .ok B ∧ ∀ i j, |B i j - A i j| < ε) ↔
    f (-(1 / 2)) = f (1 / 2) := by
  rw [C150_continuous_iff (axisModel f) rfl rfl (by
    intro x hx _
    simp only [axisModel, List.zip_cons_cons, List.zip_nil_left, List.mem_singleton] at hx
    subst hx
    dsimp only
    fun_prop) _ (one1 ![1 / 2, 0, 0]) (fun a i => by
      refine ⟨?_, 0, by simp [axisModel]⟩
      fin_cases i <;> norm_num [InHalfBox, one1, vec_two])]
  have key : ∀ v : Pos 1 ℝ, expansion (axisModel f).refPol (axisModel f).basis (axisModel f).interps
      (axisModel f).mask (toCart (axisModel f).ref.lattice v) = 1 + f (v 0 0) • (1 : Mat3 ℝ) := by
    intro v
    simp [expansion, axisModel, inner3, toCart, one1, Fin.sum_univ_three, Matrix.one_apply]
  simp only [key]
  constructor
  · intro h
    have := congrFun (congrFun (h (one1 ![-(1 / 2), 0, 0]) (by
      intro a i
      fin_cases i
      · exact Or.inr ⟨rfl, rfl⟩
      · exact Or.inl rfl
      · exact Or.inl rfl)) 0) 0
    simpa [one1] using this
  · intro h v hv
    rcases hv 0 0 with h0 | ⟨-, h0⟩
    · rw [h0]
    · rw [h0, h]; rfl

end Verif
