import Verif.Model.InterpolationRounding
import Verif.Props.Continuity
import Verif.Props.SpectrumRounding
import Verif.Spec.PredictionError
import Mathlib.Algebra.Order.BigOperators.Group.Multiset

/-!
# C155: predictions in floating-point arithmetic
-/

namespace Verif
open Spec

noncomputable section

variable {N : ℕ} {u : ℝ} {rnd : ℝ → ℝ}

/-! ### Sums -/

theorem summed_error (h : Accurate u rnd) {k : ℕ} {s : Multiset ℝ} {y : ℝ} (hs : Summed rnd k s y) :
    |y - s.sum| ≤ ((1 + u) ^ k - 1) * (s.map abs).sum := by
  have hu := h.nonneg
  have hpow : ∀ k : ℕ, (1 : ℝ) ≤ (1 + u) ^ k := fun k => one_le_pow₀ (by linarith)
  have hsum : ∀ s : Multiset ℝ, 0 ≤ (s.map abs).sum := fun s =>
    Multiset.sum_nonneg fun x hx => by
      obtain ⟨z, _, rfl⟩ := Multiset.mem_map.1 hx
      exact abs_nonneg z
  induction hs with
  | zero k => simp
  | exact k x =>
    have := hpow k
    simp only [Multiset.sum_singleton, sub_self, abs_zero, Multiset.map_singleton]
    exact mul_nonneg (by linarith) (abs_nonneg x)
  | rounded k x =>
    simp only [Multiset.sum_singleton, Multiset.map_singleton]
    refine (h.error x).trans (mul_le_mul_of_nonneg_right ?_ (abs_nonneg x))
    have h1 := hpow k
    have h2 : (1 + u) ^ k * (1 + u) ≥ 1 * (1 + u) := mul_le_mul_of_nonneg_right h1 (by linarith)
    rw [pow_succ]
    linarith
  | @add k s t x y _ _ ihs iht =>
    rw [Multiset.sum_add, Multiset.map_add, Multiset.sum_add]
    have e := h.error (x + y)
    have hxs : |x| ≤ (1 + u) ^ k * (s.map abs).sum := by
      have h1 : |s.sum| ≤ (s.map abs).sum := Multiset.abs_sum_le_sum_abs
      have h2 := abs_sub_abs_le_abs_sub x s.sum
      linarith
    have hyt : |y| ≤ (1 + u) ^ k * (t.map abs).sum := by
      have h1 : |t.sum| ≤ (t.map abs).sum := Multiset.abs_sum_le_sum_abs
      have h2 := abs_sub_abs_le_abs_sub y t.sum
      linarith
    have h3 : |rnd (x + y) - (s.sum + t.sum)| ≤ |rnd (x + y) - (x + y)| + (|x - s.sum| + |y - t.sum|) := by
      have h4 : rnd (x + y) - (s.sum + t.sum) = (rnd (x + y) - (x + y)) + ((x - s.sum) + (y - t.sum)) := by ring
      rw [h4]
      exact (abs_add_le _ _).trans (add_le_add le_rfl (abs_add_le _ _))
    have h5 : u * |x + y| ≤ u * (|x| + |y|) := mul_le_mul_of_nonneg_left (abs_add_le _ _) hu
    have h6 : u * (|x| + |y|) ≤ u * ((1 + u) ^ k * (s.map abs).sum + (1 + u) ^ k * (t.map abs).sum) :=
      mul_le_mul_of_nonneg_left (add_le_add hxs hyt) hu
    rw [pow_succ]
    linarith

theorem dot_error (h : Accurate u rnd) {ι : Type} [Fintype ι] {x y : ι → ℝ} {z : ℝ}
    (hz : DotR rnd x y z) :
    |z - ∑ i, x i * y i| ≤ ((1 + u) ^ (Fintype.card ι + 1) - 1) * ∑ i, |x i| * |y i| := by
  have := summed_error h hz
  rw [Multiset.map_map] at this
  simp only [Function.comp_def, abs_mul] at this
  exact this

/-- Sums can be evaluated. -/
theorem summed_exists (rnd : ℝ → ℝ) (s : Multiset ℝ) : ∃ y, Summed rnd (s.card + 1) s y := by
  induction s using Multiset.induction_on with
  | empty => exact ⟨0, Summed.zero _⟩
  | cons a s ih =>
    obtain ⟨y, hy⟩ := ih
    refine ⟨rnd (rnd a + y), ?_⟩
    have := Summed.add (Summed.rounded (rnd := rnd) s.card a) hy
    rw [Multiset.card_cons]
    rwa [Multiset.singleton_add] at this

theorem dot_exists (rnd : ℝ → ℝ) {ι : Type} [Fintype ι] (x y : ι → ℝ) : ∃ z, DotR rnd x y z := by
  obtain ⟨z, hz⟩ := summed_exists rnd (Finset.univ.val.map fun i => x i * y i)
  refine ⟨z, ?_⟩
  unfold DotR
  rwa [Multiset.card_map, Finset.card_val, Finset.card_univ] at hz

/-! ### Displacements -/

theorem fracR_near (h : Accurate u rnd) (ref q w : Pos N ℝ) (hw : ∀ a i, SameImage (q a i - ref a i) (w a i))
    (hm : ∀ a i, |w a i| + 6 * u < 1 / 2) (a : Fin N) (i : Fin 3) :
    |fracDisplacementR rnd ref q a i - w a i| ≤ 6 * u ∧ |fracDisplacementR rnd ref q a i| ≤ 1 / 2 := by
  have hu := h.nonneg
  obtain ⟨h1, k1, h2⟩ := calc1R_near h (ref a i) (q a i)
  obtain ⟨h3, k2, h4⟩ := wrap1R_near h (wrap1R rnd (rnd (pbc1R rnd (q a i) - pbc1R rnd (ref a i))))
  obtain ⟨n, hn⟩ := hw a i
  refine ⟨?_, h3⟩
  change |wrap1R rnd (wrap1R rnd (rnd (pbc1R rnd (q a i) - pbc1R rnd (ref a i)))) - w a i| ≤ 6 * u
  set c := wrap1R rnd (rnd (pbc1R rnd (q a i) - pbc1R rnd (ref a i)))
  set d := wrap1R rnd c
  have hz : |d - (w a i + ((k1 + k2 - n : ℤ) : ℝ))| ≤ 6 * u := by
    rw [abs_le] at h2 h4 ⊢
    push_cast
    constructor <;> linarith
  have hint : |((k1 + k2 - n : ℤ) : ℝ)| < 1 := by
    have h5 := hm a i
    have h6 := le_abs_self (w a i)
    have h7 := neg_abs_le (w a i)
    rw [abs_le] at hz h3
    rw [abs_lt]
    constructor <;> linarith [hz.1, hz.2, h3.1, h3.2]
  have h0 : k1 + k2 - n = 0 := by
    have : |(k1 + k2 - n : ℤ)| < 1 := by exact_mod_cast hint
    exact Int.abs_lt_one_iff.1 this
  rw [h0] at hz
  simpa using hz

/-! ### Accumulation -/

theorem round_step (h : Accurate u rnd) {x e v c S F E ε g : ℝ} (he : |e| ≤ S)
    (hc : |c| ≤ F) (hx : |x - e| ≤ (g - 1) * S + g * E) (hv : |v - c| ≤ (g - 1) * F + g * ε) :
    |rnd (x + v) - (e + c)| ≤ (g * (1 + u) - 1) * (S + F) + g * (1 + u) * (E + ε) := by
  have hu := h.nonneg
  have h1 := h.error (x + v)
  have h2 : |x + v| ≤ (S + F) + (|x - e| + |v - c|) := by
    have : x + v = (e + c) + ((x - e) + (v - c)) := by ring
    rw [this]
    refine (abs_add_le _ _).trans (add_le_add ?_ (abs_add_le _ _))
    exact (abs_add_le _ _).trans (add_le_add he hc)
  have h3 : |rnd (x + v) - (e + c)| ≤ |rnd (x + v) - (x + v)| + (|x - e| + |v - c|) := by
    have : rnd (x + v) - (e + c) = (rnd (x + v) - (x + v)) + ((x - e) + (v - c)) := by ring
    rw [this]
    exact (abs_add_le _ _).trans (add_le_add le_rfl (abs_add_le _ _))
  have h4 : u * |x + v| ≤ u * ((S + F) + (|x - e| + |v - c|)) := mul_le_mul_of_nonneg_left h2 hu
  have h5 : |x - e| + |v - c| ≤ (g - 1) * (S + F) + g * (E + ε) := by linarith
  have h6 : u * (|x - e| + |v - c|) ≤ u * ((g - 1) * (S + F) + g * (E + ε)) :=
    mul_le_mul_of_nonneg_left h5 hu
  linarith

/-- The loop over the degrees of freedom.  `c` are the exact contributions. -/
theorem accumulateR_error (h : Accurate u rnd) (F ε : ℝ) (hF : 0 ≤ F) (hε : 0 ≤ ε) :
    ∀ (l : List (ℝ × (ℝ → Mat3 ℝ) × Bool × Mat3 ℝ)) (acc r e : Mat3 ℝ) (n : ℕ),
      accumulateR rnd (l.map fun x => x.1) (l.map fun x => x.2.1) (l.map fun x => x.2.2.1) acc = .ok r →
      (∀ x ∈ l, ∀ i j, |x.2.2.2 i j| ≤ F ∧ |oneMinus x.2.2.1 * x.2.1 x.1 i j - x.2.2.2 i j| ≤ ε) →
      (∀ i j, |e i j| ≤ n * F ∧
        |acc i j - e i j| ≤ ((1 + u) ^ (n + 1) - 1) * (n * F) + (1 + u) ^ (n + 1) * (n * ε)) →
      ∀ i j, |(e + (l.map fun x => x.2.2.2).sum) i j| ≤ (n + l.length : ℕ) * F ∧
        |r i j - (e + (l.map fun x => x.2.2.2).sum) i j|
          ≤ ((1 + u) ^ (n + l.length + 1) - 1) * ((n + l.length : ℕ) * F)
            + (1 + u) ^ (n + l.length + 1) * ((n + l.length : ℕ) * ε)
  | [], acc, r, e, n, hr, _, hacc, i, j => by
    cases hr
    simpa using hacc i j
  | (t, f, k, c) :: l, acc, r, e, n, hr, hl, hacc, i, j => by
    have hu := h.nonneg
    have ih := accumulateR_error h F ε hF hε l (fun i j => rnd (acc i j + rnd (oneMinus k * f t i j))) r
      (e + c) (n + 1) hr (fun x hx => hl x (List.mem_cons_of_mem _ hx)) ?_ i j
    · rw [List.map_cons, List.sum_cons, ← add_assoc, List.length_cons,
        show n + (l.length + 1) = n + 1 + l.length by omega]
      exact ih
    · intro i j
      obtain ⟨h1, h2⟩ := hl _ (List.mem_cons_self ..) i j
      obtain ⟨h3, h4⟩ := hacc i j
      dsimp only at h1 h2
      have hg : 1 + u ≤ (1 + u) ^ (n + 1) := by
        have := one_le_pow₀ (n := n) (by linarith : (1 : ℝ) ≤ 1 + u)
        rw [pow_succ]
        have := mul_le_mul_of_nonneg_right this (by linarith : 0 ≤ 1 + u)
        linarith
      have hv : |rnd (oneMinus k * f t i j) - c i j|
          ≤ ((1 + u) ^ (n + 1) - 1) * F + (1 + u) ^ (n + 1) * ε := by
        have e1 := h.error (oneMinus k * f t i j)
        set v := oneMinus k * f t i j
        have e2 : |v| ≤ F + ε := by
          have := abs_sub_abs_le_abs_sub v (c i j)
          linarith
        have e3 : |rnd v - c i j| ≤ |rnd v - v| + |v - c i j| := abs_sub_le _ _ _
        have e4 : u * |v| ≤ u * (F + ε) := mul_le_mul_of_nonneg_left e2 hu
        have e5 : u * F ≤ ((1 + u) ^ (n + 1) - 1) * F :=
          mul_le_mul_of_nonneg_right (by linarith) hF
        have e6 : (1 + u) * ε ≤ (1 + u) ^ (n + 1) * ε := mul_le_mul_of_nonneg_right hg hε
        linarith
      refine ⟨?_, ?_⟩
      · rw [Matrix.add_apply]
        push_cast
        refine (abs_add_le _ _).trans ?_
        linarith
      · have := round_step h h3 h1 h4 hv
        rw [Matrix.add_apply, pow_succ]
        push_cast
        refine this.trans (le_of_eq ?_)
        ring


/-- The items of the loop, together with their exact contributions. -/
theorem loop_items (A : Pos N ℝ → ℝ → Prop) (B : (ℝ → Mat3 ℝ) → (ℝ → Mat3 ℝ) → Prop) (E : Pos N ℝ) :
    ∀ (basis : List (Pos N ℝ)) (amps : List ℝ) (interps fs : List (ℝ → Mat3 ℝ)) (mask : List Bool),
      List.Forall₂ A basis amps → List.Forall₂ B interps fs → interps.length = basis.length →
      mask.length = basis.length →
      ∃ l : List (ℝ × (ℝ → Mat3 ℝ) × Bool × Mat3 ℝ), (l.map fun x => x.1) = amps ∧
        (l.map fun x => x.2.1) = fs ∧ (l.map fun x => x.2.2.1) = mask ∧
        (l.map fun x => x.2.2.2) = ((basis.zip (interps.zip mask)).map fun x =>
          if x.2.2 then 0 else x.2.1 (inner3 x.1 E)) ∧
        ∀ x ∈ l, ∃ b f, b ∈ basis ∧ (f, x.2.2.1) ∈ interps.zip mask ∧ A b x.1 ∧ B f x.2.1 ∧
          x.2.2.2 = if x.2.2.1 then 0 else f (inner3 b E)
  | [], _, [], _, [], .nil, .nil, _, _ => ⟨[], rfl, rfl, rfl, rfl, fun x hx => by cases hx⟩
  | [], _, _ :: _, _, _, _, _, h, _ => by simp at h
  | [], _, [], _, _ :: _, _, _, _, h => by simp at h
  | _ :: _, _, [], _, _, _, _, h, _ => by simp at h
  | _ :: _, _, _ :: _, _, [], _, _, _, h => by simp at h
  | b :: bs, _, f :: is, _, k :: ks, .cons (b := t) (l₂ := ts) h1 h2,
      .cons (b := g) (l₂ := gs) h3 h4, h5, h6 => by
    obtain ⟨l, e1, e2, e3, e4, hl⟩ := loop_items A B E bs ts is gs ks h2 h4 (by simpa using h5)
      (by simpa using h6)
    refine ⟨(t, g, k, if k then 0 else f (inner3 b E)) :: l, ?_, ?_, ?_, ?_, ?_⟩
    · rw [List.map_cons, e1]
    · rw [List.map_cons, e2]
    · rw [List.map_cons, e3]
    · rw [List.map_cons, e4]
      rfl
    · intro x hx
      rcases List.mem_cons.1 hx with rfl | hx
      · exact ⟨b, f, List.mem_cons_self .., List.mem_cons_self .., h1, h3, rfl⟩
      · obtain ⟨b', f', q1, q2, q3⟩ := hl x hx
        exact ⟨b', f', List.mem_cons_of_mem _ q1, List.mem_cons_of_mem _ q2, q3⟩

/-! ### Amplitudes -/

theorem cart_error (h : Accurate u rnd) (L : Mat3 ℝ) (d w : Pos N ℝ) (Λ : ℝ)
    (hL : ∀ j, ∑ i, |L i j| ≤ Λ) (hd : ∀ a i, |d a i - w a i| ≤ 6 * u ∧ |d a i| ≤ 1 / 2)
    (D : Pos N ℝ) (hD : ∀ a j, DotR rnd (d a) (fun i => L i j) (D a j)) (a : Fin N) (j : Fin 3) :
    |D a j - toCart L w a j| ≤ cartesianError u Λ := by
  have hu := h.nonneg
  have h1 := dot_error h (hD a j)
  rw [Fintype.card_fin] at h1
  have hp : (1 : ℝ) ≤ (1 + u) ^ 4 := one_le_pow₀ (by linarith)
  have h2 : ∑ i, |d a i| * |L i j| ≤ Λ / 2 := by
    have : ∑ i, |d a i| * |L i j| ≤ ∑ i, 1 / 2 * |L i j| :=
      Finset.sum_le_sum fun i _ => mul_le_mul_of_nonneg_right (hd a i).2 (abs_nonneg _)
    rw [← Finset.mul_sum] at this
    linarith [hL j]
  have h3 : |∑ i, d a i * L i j - toCart L w a j| ≤ 6 * u * Λ := by
    unfold toCart
    rw [← Finset.sum_sub_distrib]
    refine (Finset.abs_sum_le_sum_abs _ _).trans ?_
    have : ∑ i, |d a i * L i j - w a i * L i j| ≤ ∑ i, 6 * u * |L i j| :=
      Finset.sum_le_sum fun i _ => by
        rw [← sub_mul, abs_mul]
        exact mul_le_mul_of_nonneg_right (hd a i).1 (abs_nonneg _)
    rw [← Finset.mul_sum] at this
    exact this.trans (mul_le_mul_of_nonneg_left (hL j) (by linarith))
  have h4 : |D a j - toCart L w a j|
      ≤ |D a j - ∑ i, d a i * L i j| + |∑ i, d a i * L i j - toCart L w a j| := abs_sub_le _ _ _
  have h5 : ((1 + u) ^ 4 - 1) * ∑ i, |d a i| * |L i j| ≤ ((1 + u) ^ 4 - 1) * (Λ / 2) :=
    mul_le_mul_of_nonneg_left h2 (by linarith)
  unfold cartesianError
  change |D a j - ∑ i, d a i * L i j| ≤ ((1 + u) ^ 4 - 1) * ∑ i, |d a i| * |L i j| at h1
  linarith

theorem amplitude_error (h : Accurate u rnd) (b D E : Pos N ℝ) (t δ ρ β : ℝ) (hδ : 0 ≤ δ) (hρ : 0 ≤ ρ)
    (hb : ∑ a, ∑ j, |b a j| ≤ β) (hD : ∀ a j, |D a j - E a j| ≤ δ) (hE : ∀ a j, |E a j| ≤ ρ)
    (ht : DotR rnd (flat b) (flat D) t) :
    |t - inner3 b E| ≤ β * (δ + ((1 + u) ^ (3 * N + 1) - 1) * (ρ + δ)) := by
  have hu := h.nonneg
  have h1 := dot_error h ht
  rw [Fintype.card_prod, Fintype.card_fin, Fintype.card_fin, mul_comm N 3] at h1
  have e1 : ∑ k : Fin N × Fin 3, flat b k * flat D k = inner3 b D := dot_flat b D
  rw [e1] at h1
  have hp : (1 : ℝ) ≤ (1 + u) ^ (3 * N + 1) := one_le_pow₀ (by linarith)
  have hb' : ∑ k : Fin N × Fin 3, |flat b k| ≤ β := by
    rw [Fintype.sum_prod_type]
    exact hb
  have h2 : ∑ k : Fin N × Fin 3, |flat b k| * |flat D k| ≤ β * (ρ + δ) := by
    have : ∑ k : Fin N × Fin 3, |flat b k| * |flat D k| ≤ ∑ k : Fin N × Fin 3, |flat b k| * (ρ + δ) :=
      Finset.sum_le_sum fun k _ => by
        refine mul_le_mul_of_nonneg_left ?_ (abs_nonneg _)
        have q1 := hD k.1 k.2
        have q2 := hE k.1 k.2
        have q3 := abs_sub_abs_le_abs_sub (D k.1 k.2) (E k.1 k.2)
        unfold flat
        linarith
    rw [← Finset.sum_mul] at this
    exact this.trans (mul_le_mul_of_nonneg_right hb' (by linarith))
  have h3 : |inner3 b D - inner3 b E| ≤ β * δ := by
    rw [← inner3_sub_right]
    unfold inner3
    refine (Finset.abs_sum_le_sum_abs _ _).trans ?_
    have : ∑ a, |∑ j, b a j * (D a j - E a j)| ≤ ∑ a, ∑ j, |b a j| * δ :=
      Finset.sum_le_sum fun a _ => (Finset.abs_sum_le_sum_abs _ _).trans
        (Finset.sum_le_sum fun j _ => by
          rw [abs_mul]
          exact mul_le_mul_of_nonneg_left (hD a j) (abs_nonneg _))
    simp only [← Finset.sum_mul] at this
    exact this.trans (mul_le_mul_of_nonneg_right hb hδ)
  have h4 : |t - inner3 b E| ≤ |t - inner3 b D| + |inner3 b D - inner3 b E| := abs_sub_le _ _ _
  have h5 := mul_le_mul_of_nonneg_left h2 (by linarith : (0 : ℝ) ≤ (1 + u) ^ (3 * N + 1) - 1)
  have h6 : ((1 + u) ^ (3 * N + 1) - 1) * (β * (ρ + δ)) = β * (((1 + u) ^ (3 * N + 1) - 1) * (ρ + δ)) := by ring
  linarith

theorem inner3_abs_le (b E : Pos N ℝ) (ρ β : ℝ) (hρ : 0 ≤ ρ)
    (hb : ∑ a, ∑ j, |b a j| ≤ β) (hE : ∀ a j, |E a j| ≤ ρ) : |inner3 b E| ≤ β * ρ := by
  unfold inner3
  refine (Finset.abs_sum_le_sum_abs _ _).trans ?_
  have : ∑ a, |∑ j, b a j * E a j| ≤ ∑ a, ∑ j, |b a j| * ρ :=
    Finset.sum_le_sum fun a _ => (Finset.abs_sum_le_sum_abs _ _).trans
      (Finset.sum_le_sum fun j _ => by
        rw [abs_mul]
        exact mul_le_mul_of_nonneg_left (hE a j) (abs_nonneg _))
  simp only [← Finset.sum_mul] at this
  exact this.trans (mul_le_mul_of_nonneg_right hb hρ)

/-! ### Predictions -/

/-- C155: in floating-point arithmetic with relative error `u` per operation, whatever the order of
additions inside matrix products, a prediction differs from the exact one by at most an explicit
amount which vanishes with `u` and with the error `η` of evaluating the splines.

`Λ` bounds the absolute column sums of the lattice, `β` the absolute sums of basis vectors, `C` the slopes
of the interpolations, `F` their values and `P` the reference polarizability; `T` is the range of
amplitudes for which the splines are known to be accurate.  No coordinate of an atom may be within
`6 u` of half a cell from its reference position. -/
theorem C155_accuracy (h : Accurate u rnd) (m : IModel N) (fs : List (ℝ → Mat3 ℝ))
    (hi : m.interps.length = m.basis.length) (hk : m.mask.length = m.basis.length)
    (Λ β C F P η T : ℝ) (hL : ∀ j, ∑ i, |m.ref.lattice i j| ≤ Λ)
    (hβ : 0 ≤ β) (hb : ∀ b ∈ m.basis, ∑ a, ∑ j, |b a j| ≤ β)
    (hC : 0 ≤ C) (hF : 0 ≤ F) (hη : 0 ≤ η) (hP : ∀ i j, |m.refPol i j| ≤ P)
    (hT : β * (Λ / 2) + amplitudeError u N Λ β ≤ T)
    (hlip : ∀ x ∈ m.interps.zip m.mask, x.2 = false → ∀ s t : ℝ, |s| ≤ T → |t| ≤ T → ∀ i j,
      |x.1 s i j - x.1 t i j| ≤ C * |s - t|)
    (hval : ∀ x ∈ m.interps.zip m.mask, x.2 = false → ∀ t : ℝ, |t| ≤ T → ∀ i j, |x.1 t i j| ≤ F)
    (hfs : List.Forall₂ (fun f g => ∀ t : ℝ, |t| ≤ T → ∀ i j, |g t i j - f t i j| ≤ η) m.interps fs)
    (q w : Pos N ℝ) (hw : ∀ a i, SameImage (q a i - m.ref.positions a i) (w a i))
    (hm : ∀ a i, |w a i| + 6 * u < 1 / 2) :
    ∃ A₀, evalOne m.calcPolarizabilities q = .ok A₀ ∧ (∃ A, PredictsR rnd m fs q A) ∧
      ∀ A, PredictsR rnd m fs q A → ∀ i j,
        |A i j - A₀ i j| ≤ predictionError u N m.basis.length Λ β C F P η := by
  have hu := h.nonneg
  have hΛ : 0 ≤ Λ := (Finset.sum_nonneg fun i _ => abs_nonneg _).trans (hL 0)
  have hq : NearestImage m.ref.positions q w := fun a i => by
    have h1 := hm a i
    exact ⟨⟨by linarith [neg_abs_le (w a i)], by linarith [le_abs_self (w a i)]⟩, hw a i⟩
  have hp4 : (1 : ℝ) ≤ (1 + u) ^ 4 := one_le_pow₀ (by linarith)
  have hpN : (1 : ℝ) ≤ (1 + u) ^ (3 * N + 1) := one_le_pow₀ (by linarith)
  have hδ : 0 ≤ cartesianError u Λ := by
    unfold cartesianError
    have := mul_nonneg (by linarith : (0 : ℝ) ≤ (1 + u) ^ 4 - 1) (by linarith : (0 : ℝ) ≤ Λ / 2)
    have := mul_nonneg hu hΛ
    linarith
  have hτ : 0 ≤ amplitudeError u N Λ β := by
    unfold amplitudeError
    refine mul_nonneg hβ (add_nonneg hδ (mul_nonneg (by linarith) (by linarith)))
  refine ⟨_, evalOne_expansion m hi hk q w hq, ?_, ?_⟩
  · -- an evaluation exists
    choose D hD using fun a j => dot_exists rnd (fracDisplacementR rnd m.ref.positions q a)
      (fun i => m.ref.lattice i j)
    choose amp hamp using fun b : Pos N ℝ => dot_exists rnd (flat b) (flat D)
    have hacc : ∀ (ts : List ℝ) (gs : List (ℝ → Mat3 ℝ)) (ks : List Bool) (acc : Mat3 ℝ),
        gs.length = ts.length → ks.length = ts.length → ∃ r, accumulateR rnd ts gs ks acc = .ok r := by
      intro ts
      induction ts with
      | nil =>
        intro gs ks acc h1 h2
        obtain rfl := List.eq_nil_of_length_eq_zero h1
        obtain rfl := List.eq_nil_of_length_eq_zero h2
        exact ⟨acc, rfl⟩
      | cons t ts ih =>
        intro gs ks acc h1 h2
        match gs, ks, h1, h2 with
        | g :: gs, k :: ks, h1, h2 =>
          exact ih gs ks _ (by simpa using h1) (by simpa using h2)
    obtain ⟨r, hr⟩ := hacc (m.basis.map amp) fs m.mask 0
      (by rw [List.length_map, ← hfs.length_eq, hi]) (by rw [List.length_map, hk])
    refine ⟨_, D, m.basis.map amp, r, hD, ?_, hr, rfl⟩
    rw [List.forall₂_map_right_iff]
    exact List.forall₂_same.2 fun b _ => hamp b
  · rintro A ⟨D, amps, acc, hD, hamps, hacc, rfl⟩ i j
    have hDerr := cart_error h m.ref.lattice _ w Λ hL (fracR_near h m.ref.positions q w hw hm) D hD
    set E := toCart m.ref.lattice w with hEdef
    have hE : ∀ a j, |E a j| ≤ Λ / 2 := by
      intro a j
      rw [hEdef]
      unfold toCart
      refine (Finset.abs_sum_le_sum_abs _ _).trans ?_
      have : ∑ i, |w a i * m.ref.lattice i j| ≤ ∑ i, 1 / 2 * |m.ref.lattice i j| :=
        Finset.sum_le_sum fun i _ => by
          rw [abs_mul]
          exact mul_le_mul_of_nonneg_right (by linarith [hm a i]) (abs_nonneg _)
      rw [← Finset.mul_sum] at this
      linarith [hL j]
    obtain ⟨l, e1, e2, e3, e4, hl⟩ := loop_items _ _ E m.basis amps m.interps fs m.mask hamps hfs hi hk
    have hlen : l.length = m.basis.length := by
      have := congrArg List.length e3
      rw [List.length_map] at this
      omega
    have key := accumulateR_error h F (η + C * amplitudeError u N Λ β) hF
      (add_nonneg hη (mul_nonneg hC hτ)) l 0 acc 0 0 (by rw [e1, e2, e3]; exact hacc) ?_ (by simp) i j
    · rw [zero_add, zero_add, e4, hlen] at key
      obtain ⟨k1, k2⟩ := key
      set X := ((m.basis.zip (m.interps.zip m.mask)).map fun x =>
          if x.2.2 then 0 else x.2.1 (inner3 x.1 E)).sum
      have hp : (1 : ℝ) ≤ (1 + u) ^ (m.basis.length + 1) := one_le_pow₀ (by linarith)
      have hP0 : 0 ≤ P := (abs_nonneg _).trans (hP 0 0)
      have := round_step h (v := m.refPol i j) (c := m.refPol i j) (F := P) (ε := 0) k1 (hP i j) k2
        (by rw [sub_self, abs_zero, mul_zero, add_zero]; exact mul_nonneg (by linarith) hP0)
      unfold expansion
      rw [Matrix.add_apply, add_comm (m.refPol i j)]
      refine this.trans (le_of_eq ?_)
      unfold predictionError
      rw [pow_succ (1 + u) (m.basis.length + 1)]
      ring
    · intro x hx i' j'
      obtain ⟨b, f, hbm, hfm, hA, hB, hc⟩ := hl x hx
      have ht := amplitude_error h b D E x.1 _ _ β hδ (by linarith : 0 ≤ Λ / 2) (hb b hbm) hDerr hE hA
      change |x.1 - inner3 b E| ≤ amplitudeError u N Λ β at ht
      have hin := inner3_abs_le b E _ β (by linarith : 0 ≤ Λ / 2) (hb b hbm) hE
      have hxT : |x.1| ≤ T := by
        have := abs_sub_abs_le_abs_sub x.1 (inner3 b E)
        linarith
      have hET : |inner3 b E| ≤ T := by linarith
      rw [hc]
      cases hk' : x.2.2.1 with
      | true =>
        simp only [if_true, oneMinus, zero_mul]
        rw [Matrix.zero_apply, sub_zero, abs_zero]
        exact ⟨hF, add_nonneg hη (mul_nonneg hC hτ)⟩
      | false =>
        rw [hk'] at hfm
        simp only [Bool.false_eq_true, if_false, oneMinus, one_mul]
        refine ⟨hval _ hfm rfl _ hET i' j', ?_⟩
        have g1 := hB x.1 hxT i' j'
        have g2 := hlip _ hfm rfl x.1 (inner3 b E) hxT hET i' j'
        have g3 := mul_le_mul_of_nonneg_left ht hC
        refine (abs_sub_le _ (f x.1 i' j') _).trans ?_
        dsimp only at g2
        linarith

/-! ### Raman tensors -/

theorem expansion_near (m : IModel N) (hi : m.interps.length = m.basis.length)
    (hk : m.mask.length = m.basis.length) (β C T ρ δ : ℝ) (hC : 0 ≤ C) (hρ : 0 ≤ ρ) (hδ : 0 ≤ δ)
    (hβ : 0 ≤ β) (hb : ∀ b ∈ m.basis, ∑ a, ∑ j, |b a j| ≤ β) (hT : β * ρ ≤ T)
    (hlip : ∀ x ∈ m.interps.zip m.mask, x.2 = false → ∀ s t : ℝ, |s| ≤ T → |t| ≤ T → ∀ i j,
      |x.1 s i j - x.1 t i j| ≤ C * |s - t|)
    (D E : Pos N ℝ) (hD : ∀ a j, |D a j| ≤ ρ) (hE : ∀ a j, |E a j| ≤ ρ)
    (hDE : ∀ a j, |D a j - E a j| ≤ δ) (i j : Fin 3) :
    |expansion m.refPol m.basis m.interps m.mask D i j
      - expansion m.refPol m.basis m.interps m.mask E i j| ≤ m.basis.length * (C * (β * δ)) := by
  unfold expansion
  rw [Matrix.add_apply, Matrix.add_apply, add_sub_add_left_eq_sub]
  have key := masked_sum_bound
    (fun x : Pos N ℝ × (ℝ → Mat3 ℝ) => x.2 (inner3 x.1 D))
    (fun x : Pos N ℝ × (ℝ → Mat3 ℝ) => x.2 (inner3 x.1 E)) (C * (β * δ)) i j
    ((m.basis.zip (m.interps.zip m.mask)).map fun x => ((x.1, x.2.1), x.2.2)) ?_
  · rw [List.map_map, List.map_map, List.map_map] at key
    refine key.trans (mul_le_mul_of_nonneg_right ?_ (by positivity))
    have h1 := List.count_le_length (a := false) (l := (m.basis.zip (m.interps.zip m.mask)).map
        (Prod.snd ∘ fun x => ((x.1, x.2.1), x.2.2)))
    rw [List.length_map, List.length_zip, List.length_zip] at h1
    exact_mod_cast h1.trans (min_le_left _ _)
  · intro x hx hm
    obtain ⟨y, hy, rfl⟩ := List.mem_map.1 hx
    obtain ⟨b, f, k⟩ := y
    dsimp only at hm ⊢
    have hb' := (List.of_mem_zip (a := b) (b := (f, k)) hy)
    refine (hlip (f, k) hb'.2 hm _ _ ((inner3_abs_le b D ρ β hρ (hb b hb'.1) hD).trans hT)
      ((inner3_abs_le b E ρ β hρ (hb b hb'.1) hE).trans hT) i j).trans
      (mul_le_mul_of_nonneg_left ?_ hC)
    rw [← inner3_sub_right]
    exact inner3_abs_le b _ δ β hδ (hb b hb'.1) hDE

/-- A prediction at positions that are themselves rounded. -/
theorem prediction_near (h : Accurate u rnd) (m : IModel N) (fs : List (ℝ → Mat3 ℝ))
    (hi : m.interps.length = m.basis.length) (hk : m.mask.length = m.basis.length)
    (Λ β C F P η T : ℝ) (hL : ∀ j, ∑ i, |m.ref.lattice i j| ≤ Λ)
    (hβ : 0 ≤ β) (hb : ∀ b ∈ m.basis, ∑ a, ∑ j, |b a j| ≤ β)
    (hC : 0 ≤ C) (hF : 0 ≤ F) (hη : 0 ≤ η) (hP : ∀ i j, |m.refPol i j| ≤ P)
    (hT : β * (Λ / 2) + amplitudeError u N Λ β ≤ T)
    (hlip : ∀ x ∈ m.interps.zip m.mask, x.2 = false → ∀ s t : ℝ, |s| ≤ T → |t| ≤ T → ∀ i j,
      |x.1 s i j - x.1 t i j| ≤ C * |s - t|)
    (hval : ∀ x ∈ m.interps.zip m.mask, x.2 = false → ∀ t : ℝ, |t| ≤ T → ∀ i j, |x.1 t i j| ≤ F)
    (hfs : List.Forall₂ (fun f g => ∀ t : ℝ, |t| ≤ T → ∀ i j, |g t i j - f t i j| ≤ η) m.interps fs)
    (q w : Pos N ℝ) (e : ℝ) (he : 0 ≤ e)
    (hq : ∀ a i, |q a i - (m.ref.positions a i + w a i)| ≤ e)
    (hm : ∀ a i, |w a i| + e + 6 * u < 1 / 2) :
    (∃ A, PredictsR rnd m fs q A) ∧ ∀ A, PredictsR rnd m fs q A → ∀ i j,
      |A i j - expansion m.refPol m.basis m.interps m.mask (toCart m.ref.lattice w) i j|
        ≤ predictionError u N m.basis.length Λ β C F P η + m.basis.length * (C * (β * (Λ * e))) := by
  have hu := h.nonneg
  have hΛ : 0 ≤ Λ := (Finset.sum_nonneg fun i _ => abs_nonneg _).trans (hL 0)
  set v : Pos N ℝ := fun a i => q a i - m.ref.positions a i with hv
  have hvw : ∀ a i, |v a i - w a i| ≤ e := fun a i => by
    have := hq a i
    rwa [← sub_sub] at this
  have hv1 : ∀ a i, |v a i| + 6 * u < 1 / 2 := fun a i => by
    have h1 := hm a i
    have h2 := hvw a i
    have h3 := abs_sub_abs_le_abs_sub (v a i) (w a i)
    linarith
  have hcart : ∀ (x : Pos N ℝ) (r : ℝ), 0 ≤ r → (∀ a i, |x a i| ≤ r) → ∀ a j,
      |toCart m.ref.lattice x a j| ≤ Λ * r := by
    intro x r hr hx a j
    unfold toCart
    refine (Finset.abs_sum_le_sum_abs _ _).trans ?_
    have : ∑ i, |x a i * m.ref.lattice i j| ≤ ∑ i, r * |m.ref.lattice i j| :=
      Finset.sum_le_sum fun i _ => by
        rw [abs_mul]
        exact mul_le_mul_of_nonneg_right (hx a i) (abs_nonneg _)
    rw [← Finset.mul_sum] at this
    have h2 := mul_le_mul_of_nonneg_left (hL j) hr
    linarith
  obtain ⟨A₀, h0, hex, hall⟩ := C155_accuracy h m fs hi hk Λ β C F P η T hL hβ hb hC hF hη hP hT hlip
    hval hfs q v (fun a i => ⟨0, by simp [hv]⟩) hv1
  have hnear : NearestImage m.ref.positions q v := fun a i => by
    have h1 := hv1 a i
    exact ⟨⟨by linarith [neg_abs_le (v a i)], by linarith [le_abs_self (v a i)]⟩, 0, by simp [hv]⟩
  rw [evalOne_expansion m hi hk q v hnear] at h0
  injection h0 with h0
  refine ⟨hex, fun A hA i j => ?_⟩
  have h1 := hall A hA i j
  have hτ : 0 ≤ amplitudeError u N Λ β := by
    have hp4 : (1 : ℝ) ≤ (1 + u) ^ 4 := one_le_pow₀ (by linarith)
    have hpN : (1 : ℝ) ≤ (1 + u) ^ (3 * N + 1) := one_le_pow₀ (by linarith)
    have hδ : 0 ≤ cartesianError u Λ := by
      unfold cartesianError
      have := mul_nonneg (by linarith : (0 : ℝ) ≤ (1 + u) ^ 4 - 1) (by linarith : (0 : ℝ) ≤ Λ / 2)
      have := mul_nonneg hu hΛ
      linarith
    unfold amplitudeError
    exact mul_nonneg hβ (add_nonneg hδ (mul_nonneg (by linarith) (by linarith)))
  have h2 := expansion_near m hi hk β C T (Λ * (1 / 2)) (Λ * e) hC (by linarith) (mul_nonneg hΛ he) hβ
    hb (by linarith) hlip (toCart m.ref.lattice v) (toCart m.ref.lattice w)
    (hcart v _ (by norm_num) fun a i => by linarith [hv1 a i])
    (hcart w _ (by norm_num) fun a i => by linarith [hm a i])
    (fun a j => by
      have := hcart (fun a i => v a i - w a i) e he hvw a j
      unfold toCart at this ⊢
      rw [← Finset.sum_sub_distrib]
      simpa only [sub_mul] using this) i j
  rw [h0] at h2
  exact (abs_sub_le _ _ _).trans (add_le_add h1 h2)

/-- Rounded difference quotient. -/
theorem quotient_near (h : Accurate u rnd) (hu1 : u < 1) (s s₀ ρ : ℝ) (hs : |s - s₀| ≤ 2 * ρ) :
    |rnd (rnd s / rnd (1 / 1000)) - 1000 * s₀|
      ≤ quotientError u * |1000 * s₀| + (1 + quotientError u) * (2000 * ρ) := by
  have hu := h.nonneg
  have hρ : 0 ≤ ρ := by linarith [abs_nonneg (s - s₀)]
  set c := rnd (1 / 1000)
  set a := rnd s
  have hc := h.error (1 / 1000)
  rw [abs_of_pos (by norm_num : (0 : ℝ) < 1 / 1000), abs_le] at hc
  have hc1 : (1 - u) / 1000 ≤ c := by linarith [hc.1]
  have h1u : 0 < 1 - u := by linarith
  have hc0 : 0 < c := lt_of_lt_of_le (by positivity) hc1
  have hci : 1 / c ≤ 1000 / (1 - u) := by
    rw [div_le_div_iff₀ hc0 h1u]
    linarith
  have hci0 : 0 < 1 / c := by positivity
  have hcd : |1 / c - 1000| ≤ u * (1000 / (1 - u)) := by
    have e : 1 / c - 1000 = (1 / 1000 - c) * 1000 * (1 / c) := by
      field_simp
    rw [e, abs_mul, abs_of_pos hci0]
    have : |(1 / 1000 - c) * 1000| ≤ u := by
      rw [abs_le]
      constructor <;> linarith [hc.1, hc.2]
    exact mul_le_mul this hci hci0.le hu
  have ha := h.error s
  have ha' : |a| ≤ (1 + u) * |s| := by
    have := abs_sub_abs_le_abs_sub a s
    linarith
  have hb := h.error (a / c)
  have e1 : |a / c| ≤ (1 + u) * |s| * (1000 / (1 - u)) := by
    rw [div_eq_mul_one_div, abs_mul, abs_of_pos hci0]
    exact mul_le_mul ha' hci hci0.le (by positivity)
  have e2 : |a / c - 1000 * s| ≤ 2 * u * (|s| * (1000 / (1 - u))) := by
    have e : a / c - 1000 * s = (a - s) * (1 / c) + s * (1 / c - 1000) := by
      field_simp
      ring
    rw [e]
    refine (abs_add_le _ _).trans ?_
    rw [abs_mul, abs_mul, abs_of_pos hci0]
    have q1 : |a - s| * (1 / c) ≤ u * |s| * (1000 / (1 - u)) :=
      mul_le_mul ha hci hci0.le (by positivity)
    have q2 := mul_le_mul_of_nonneg_left hcd (abs_nonneg s)
    linarith
  have hq : quotientError u * (1000 * |s|)
      = u * ((1 + u) * |s| * (1000 / (1 - u))) + 2 * u * (|s| * (1000 / (1 - u))) := by
    unfold quotientError
    field_simp
    ring
  have hq0 : 0 ≤ quotientError u := by
    unfold quotientError
    have : 1 ≤ (1 + u) ^ 2 / (1 - u) := by
      rw [le_div_iff₀ h1u]
      nlinarith
    linarith
  have e3 : |rnd (a / c) - 1000 * s| ≤ quotientError u * (1000 * |s|) := by
    rw [hq]
    refine (abs_sub_le _ (a / c) _).trans (add_le_add ?_ e2)
    exact hb.trans (mul_le_mul_of_nonneg_left e1 hu)
  have e4 : |1000 * s - 1000 * s₀| ≤ 2000 * ρ := by
    rw [← mul_sub, abs_mul, abs_of_pos (by norm_num : (0 : ℝ) < 1000)]
    linarith
  have e5 : 1000 * |s| ≤ |1000 * s₀| + 2000 * ρ := by
    rw [abs_mul, abs_of_pos (by norm_num : (0 : ℝ) < 1000)]
    have := abs_sub_abs_le_abs_sub s s₀
    linarith
  have e6 := mul_le_mul_of_nonneg_left e5 hq0
  have e7 := abs_sub_le (rnd (a / c)) (1000 * s) (1000 * s₀)
  linarith

/-- Rounded displaced positions. -/
theorem step_near (h : Accurate u rnd) (r d M : ℝ) (hr : |r| ≤ 1) (hd : |d| ≤ M) :
    |rnd (r + rnd (d * rnd (1 / 1000))) - (r + d / 1000)| ≤ stepError u M ∧
    |rnd (r - rnd (d * rnd (1 / 1000))) - (r + -(d / 1000))| ≤ stepError u M := by
  have hu := h.nonneg
  have hc := h.error (1 / 1000)
  set c := rnd (1 / 1000)
  rw [abs_of_pos (by norm_num : (0 : ℝ) < 1 / 1000)] at hc
  have hx := h.error (d * c)
  set x := rnd (d * c)
  have hM : 0 ≤ M := (abs_nonneg d).trans hd
  have h1 : |d * c - d / 1000| ≤ M / 1000 * u := by
    have : d * c - d / 1000 = d * (c - 1 / 1000) := by ring
    rw [this, abs_mul]
    have := mul_le_mul hd hc (abs_nonneg _) hM
    linarith
  have hd' : |d / 1000| ≤ M / 1000 := by
    rw [abs_div, abs_of_pos (by norm_num : (0 : ℝ) < 1000)]
    linarith
  have h2 : |d * c| ≤ M / 1000 * (1 + u) := by
    have := abs_sub_abs_le_abs_sub (d * c) (d / 1000)
    linarith
  have h3 : |x - d / 1000| ≤ M / 1000 * ((1 + u) ^ 2 - 1) := by
    have q1 := abs_sub_le x (d * c) (d / 1000)
    have q2 := mul_le_mul_of_nonneg_left h2 hu
    linarith
  have h4 : |x| ≤ M / 1000 * (1 + u) ^ 2 := by
    have := abs_sub_abs_le_abs_sub x (d / 1000)
    linarith
  have key : ∀ y z : ℝ, |y| ≤ M / 1000 * (1 + u) ^ 2 → |y - z| ≤ M / 1000 * ((1 + u) ^ 2 - 1) →
      |rnd (r + y) - (r + z)| ≤ stepError u M := by
    intro y z hy hyz
    have q1 := h.error (r + y)
    have q2 : |r + y| ≤ 1 + M / 1000 * (1 + u) ^ 2 := (abs_add_le _ _).trans (add_le_add hr hy)
    have q3 := abs_sub_le (rnd (r + y)) (r + y) (r + z)
    have q4 : r + y - (r + z) = y - z := by ring
    rw [q4] at q3
    have q5 := mul_le_mul_of_nonneg_left q2 hu
    unfold stepError
    have q6 : M / 1000 * ((1 + u) ^ 3 - 1) = M / 1000 * ((1 + u) ^ 2 - 1) + u * (M / 1000 * (1 + u) ^ 2) := by
      ring
    rw [q6]
    linarith
  refine ⟨key x _ h4 h3, ?_⟩
  rw [sub_eq_add_neg]
  refine key (-x) _ (by rwa [abs_neg]) ?_
  rw [neg_sub_neg, abs_sub_comm]
  exact h3

/-- C155: Raman tensors of phonons in floating-point arithmetic.  The difference quotient multiplies
the error of predictions by 2000. -/
theorem C155_raman (h : Accurate u rnd) (hu1 : u < 1) (m : IModel N) (fs : List (ℝ → Mat3 ℝ))
    (hi : m.interps.length = m.basis.length) (hk : m.mask.length = m.basis.length)
    (Λ β C F P η T M : ℝ) (hL : ∀ j, ∑ i, |m.ref.lattice i j| ≤ Λ)
    (hβ : 0 ≤ β) (hb : ∀ b ∈ m.basis, ∑ a, ∑ j, |b a j| ≤ β)
    (hC : 0 ≤ C) (hF : 0 ≤ F) (hη : 0 ≤ η) (hP : ∀ i j, |m.refPol i j| ≤ P)
    (hT : β * (Λ / 2) + amplitudeError u N Λ β ≤ T)
    (hlip : ∀ x ∈ m.interps.zip m.mask, x.2 = false → ∀ s t : ℝ, |s| ≤ T → |t| ≤ T → ∀ i j,
      |x.1 s i j - x.1 t i j| ≤ C * |s - t|)
    (hval : ∀ x ∈ m.interps.zip m.mask, x.2 = false → ∀ t : ℝ, |t| ≤ T → ∀ i j, |x.1 t i j| ≤ F)
    (hfs : List.Forall₂ (fun f g => ∀ t : ℝ, |t| ≤ T → ∀ i j, |g t i j - f t i j| ≤ η) m.interps fs)
    (hr : ∀ a i, |m.ref.positions a i| ≤ 1) (d : Pos N ℝ) (hM : 0 ≤ M) (hd : ∀ a i, |d a i| ≤ M)
    (hm : M / 1000 + stepError u M + 6 * u < 1 / 2) :
    ∃ R₀, ramanTensor m.calcPolarizabilities m.ref.positions d = .ok R₀ ∧
      (∃ R, RamanR rnd m fs m.ref.positions d R) ∧
      ∀ R, RamanR rnd m fs m.ref.positions d R → ∀ i j,
        |R i j - R₀ i j| ≤ ramanError u N m.basis.length Λ β C F P η M (R₀ i j) := by
  have hu := h.nonneg
  have hs0 : 0 ≤ stepError u M := by
    unfold stepError
    have h3 : (1 : ℝ) ≤ (1 + u) ^ 3 := one_le_pow₀ (by linarith)
    have := mul_nonneg (by linarith : 0 ≤ M / 1000) (by linarith : (0 : ℝ) ≤ (1 + u) ^ 3 - 1)
    linarith
  have hw : ∀ a i, |d a i / 1000| ≤ M / 1000 := fun a i => by
    rw [abs_div, abs_of_pos (by norm_num : (0 : ℝ) < 1000)]
    linarith [hd a i]
  have hplus := prediction_near h m fs hi hk Λ β C F P η T hL hβ hb hC hF hη hP hT hlip hval hfs
    (fun a i => rnd (m.ref.positions a i + rnd (d a i * rnd (1 / 1000)))) (fun a i => d a i / 1000)
    (stepError u M) hs0 (fun a i => (step_near h _ _ M (hr a i) (hd a i)).1)
    (fun a i => by linarith [hw a i])
  have hminus := prediction_near h m fs hi hk Λ β C F P η T hL hβ hb hC hF hη hP hT hlip hval hfs
    (fun a i => rnd (m.ref.positions a i - rnd (d a i * rnd (1 / 1000)))) (fun a i => -(d a i / 1000))
    (stepError u M) hs0 (fun a i => (step_near h _ _ M (hr a i) (hd a i)).2)
    (fun a i => by rw [abs_neg]; linarith [hw a i])
  have hn : ∀ (q v : Pos N ℝ), (∀ a i, q a i = m.ref.positions a i + v a i) → (∀ a i, |v a i| < 1 / 2) →
      NearestImage m.ref.positions q v := fun q v hq hv a i =>
    ⟨⟨by linarith [neg_abs_le (v a i), hv a i], by linarith [le_abs_self (v a i), hv a i]⟩, 0, by
      rw [hq]; push_cast; ring⟩
  have e1 := evalOne_expansion m hi hk (fun a i => m.ref.positions a i + d a i * centralDifference)
    (fun a i => d a i / 1000) (hn _ _ (fun a i => by unfold centralDifference; ring)
      fun a i => by linarith [hw a i])
  have e2 := evalOne_expansion m hi hk (fun a i => m.ref.positions a i - d a i * centralDifference)
    (fun a i => -(d a i / 1000)) (hn _ _ (fun a i => by unfold centralDifference; ring)
      fun a i => by rw [abs_neg]; linarith [hw a i])
  set X := expansion m.refPol m.basis m.interps m.mask (toCart m.ref.lattice fun a i => d a i / 1000)
  set Y := expansion m.refPol m.basis m.interps m.mask (toCart m.ref.lattice fun a i => -(d a i / 1000))
  refine ⟨(1 / centralDifference) • (X - Y), ?_, ?_, ?_⟩
  · unfold ramanTensor
    dsimp only
    rw [e1, e2]
    rfl
  · obtain ⟨A, hA⟩ := hplus.1
    obtain ⟨B, hB⟩ := hminus.1
    exact ⟨_, A, B, hA, hB, rfl⟩
  · rintro R ⟨A, B, hA, hB, rfl⟩ i j
    have h1 := hplus.2 A hA i j
    have h2 := hminus.2 B hB i j
    have e3 : ((1 / centralDifference) • (X - Y)) i j = 1000 * (X i j - Y i j) := by
      rw [Matrix.smul_apply, Matrix.sub_apply, smul_eq_mul]
      unfold centralDifference
      norm_num
    rw [e3]
    unfold ramanError
    refine quotient_near h hu1 _ _ _ ?_
    have e4 : A i j - B i j - (X i j - Y i j) = (A i j - X i j) - (B i j - Y i j) := by ring
    rw [e4]
    refine (abs_sub _ _).trans ?_
    linarith

theorem summed_id {k : ℕ} {s : Multiset ℝ} {y : ℝ} (hs : Summed id k s y) : y = s.sum := by
  induction hs with
  | zero k => rfl
  | exact k x => simp
  | rounded k x => simp
  | add _ _ ihs iht => rw [Multiset.sum_add, ihs, iht, id]

theorem dot_id {ι : Type} [Fintype ι] {x y : ι → ℝ} {z : ℝ} : DotR id x y z ↔ z = ∑ i, x i * y i := by
  constructor
  · exact fun h => summed_id h
  · rintro rfl
    obtain ⟨z, hz⟩ := dot_exists id x y
    have : z = ∑ i, x i * y i := summed_id hz
    rwa [this] at hz

theorem accumulate_id (D : Pos N ℝ) : ∀ (bs : List (Pos N ℝ)) (fs : List (ℝ → Mat3 ℝ)) (ks : List Bool)
    (acc : Mat3 ℝ), accumulate [D] bs fs ks [acc]
      = (accumulateR id (bs.map fun b => getAmplitude b D) fs ks acc).map fun r => [r]
  | [], [], [], _ => rfl
  | [], [], _ :: _, _ => rfl
  | [], _ :: _, [], _ => rfl
  | [], _ :: _, _ :: _, _ => rfl
  | _ :: _, [], [], _ => rfl
  | _ :: _, [], _ :: _, _ => rfl
  | _ :: _, _ :: _, [], _ => rfl
  | b :: bs, f :: fs, k :: ks, acc => accumulate_id D bs fs ks _

/-- C155: without rounding the same computation gives the model's value, whatever the order of
additions, and fails when the model fails. -/
theorem C155_exact (m : IModel N) (q : Pos N ℝ) (A : Mat3 ℝ) :
    PredictsR id m m.interps q A ↔ evalOne m.calcPolarizabilities q = .ok A := by
  set D₀ := m.ref.getCartDisplacement (calcDisplacement m.ref.positions q) with hD₀
  have hD : ∀ D : Pos N ℝ, (∀ a j, DotR id (fracDisplacementR id m.ref.positions q a)
      (fun i => m.ref.lattice i j) (D a j)) ↔ D = D₀ := by
    intro D
    simp only [dot_id]
    constructor
    · intro h
      funext a j
      exact h a j
    · rintro rfl a j
      rfl
  have hamp : ∀ amps : List ℝ, List.Forall₂ (fun b t => DotR id (flat b) (flat D₀) t) m.basis amps
      ↔ amps = m.basis.map fun b => getAmplitude b D₀ := by
    intro amps
    have e : ∀ b t, DotR id (flat b) (flat D₀) t ↔ getAmplitude b D₀ = t := by
      intro b t
      rw [dot_id, eq_comm]
      rfl
    simp only [e]
    rw [eq_comm, ← List.forall₂_eq_eq_eq, List.forall₂_map_left_iff]
  have hP : PredictsR id m m.interps q A ↔ ∃ acc, accumulateR id
      (m.basis.map fun b => getAmplitude b D₀) m.interps m.mask 0 = .ok acc ∧ acc + m.refPol = A := by
    constructor
    · rintro ⟨D, amps, acc, h1, h2, h3, rfl⟩
      obtain rfl := (hD D).1 h1
      obtain rfl := (hamp amps).1 h2
      exact ⟨acc, h3, rfl⟩
    · rintro ⟨acc, h3, rfl⟩
      exact ⟨D₀, _, acc, (hD D₀).2 rfl, (hamp _).2 rfl, h3, rfl⟩
  rw [hP]
  unfold evalOne IModel.calcPolarizabilities
  simp only [List.map_cons, List.map_nil]
  rw [← hD₀, accumulate_id]
  cases h : accumulateR id (m.basis.map fun b => getAmplitude b D₀) m.interps m.mask 0 with
  | error e =>
    constructor
    · rintro ⟨acc, h', -⟩
      cases h'
    · intro h'
      simp only [Except.map] at h'
      cases hd : m.dummy <;> rw [hd] at h' <;> cases h'
  | ok r =>
    constructor
    · rintro ⟨acc, h', rfl⟩
      cases h'
      rfl
    · intro h'
      refine ⟨r, rfl, ?_⟩
      cases h'
      rfl

/-! ### Rounding next to half a cell -/

/-- Numbers slightly above one half become one half. -/
def nearHalf (u x : ℝ) : ℝ := if 1 / 2 ≤ x ∧ x ≤ (1 + u) / 2 then 1 / 2 else x

theorem nearHalf_accurate (h0 : 0 ≤ u) (h1 : u < 1) : Accurate u (nearHalf u) := by
  refine { mono := ?_, zero := ?_, one := ?_, neg_half := ?_, error := ?_ }
  · intro x y hxy
    unfold nearHalf
    split_ifs with a b b
    · exact le_rfl
    · exact a.1.trans hxy
    · by_contra hc
      exact a ⟨(not_le.1 hc).le, hxy.trans b.2⟩
    · exact hxy
  · unfold nearHalf
    norm_num
  · unfold nearHalf
    rw [if_neg]
    intro h
    linarith [h.2]
  · unfold nearHalf
    norm_num
  · intro x
    unfold nearHalf
    split_ifs with a
    · rw [abs_of_nonneg (by linarith [a.1] : (0 : ℝ) ≤ x), abs_le]
      constructor
      · nlinarith [a.1, a.2]
      · nlinarith [a.1, a.2]
    · rw [sub_self, abs_zero]
      exact mul_nonneg h0 (abs_nonneg x)

/-- A sum with one term different from zero. -/
theorem dot_single {ι : Type} [Fintype ι] [DecidableEq ι] (h0 : rnd 0 = 0) (x y : ι → ℝ) (v : ℝ) (k : ι)
    (hv : x k * y k = v) (hr : rnd v = v) (hz : ∀ i, i ≠ k → x i * y i = 0) : DotR rnd x y v := by
  have hzeros : ∀ n l : ℕ, Summed rnd (n + l) (Multiset.replicate n 0) 0 := by
    intro n
    induction n with
    | zero => exact fun l => Summed.zero _
    | succ n ih =>
      intro l
      have := Summed.add (Summed.exact (rnd := rnd) (n + l) 0) (ih l)
      rw [add_zero, h0, Multiset.singleton_add] at this
      rw [Multiset.replicate_succ, show n + 1 + l = n + l + 1 by omega]
      exact this
  have hs : (Finset.univ.val.map fun i => x i * y i)
      = {v} + Multiset.replicate (Fintype.card ι - 1) 0 := by
    rw [← Finset.insert_erase (Finset.mem_univ k), Finset.insert_val_of_notMem (Finset.notMem_erase k _),
      Multiset.map_cons, hv, Multiset.singleton_add]
    congr 1
    rw [Multiset.eq_replicate]
    constructor
    · rw [Multiset.card_map, Finset.card_val, Finset.card_erase_of_mem (Finset.mem_univ k),
        Finset.card_univ]
    · intro b hb
      obtain ⟨i, hi, rfl⟩ := Multiset.mem_map.1 hb
      exact hz i (Finset.ne_of_mem_erase hi)
  unfold DotR
  rw [hs]
  have hc : 0 < Fintype.card ι := Fintype.card_pos_iff.2 ⟨k⟩
  have := Summed.add (Summed.exact (rnd := rnd) (Fintype.card ι - 1 + 1) v)
    (hzeros (Fintype.card ι - 1) 1)
  rw [add_zero, hr] at this
  rwa [show Fintype.card ι - 1 + 1 = Fintype.card ι by omega] at this

/-- C155, counterexample: the condition on half a cell cannot be omitted.  However small `u`, there
are a rounding with relative error `u`, a molecule and a configuration for which the computed
polarizability differs from the exact one by the response to nearly a whole cell. -/
theorem C155_counterexample (h0 : 0 < u) (h1 : u < 1 / 5) :
    ∃ (rnd : ℝ → ℝ) (q : Pos 2 ℝ) (A A₀ : Mat3 ℝ), Accurate u rnd ∧
      PredictsR rnd (bondModel fun t => t • 1) [fun t => t • 1] q A ∧
      evalOne (bondModel fun t => t • 1).calcPolarizabilities q = .ok A₀ ∧
      A 0 0 - A₀ 0 0 = 1 - u / 4 := by
  have hacc := nearHalf_accurate h0.le (by linarith : u < 1)
  have fix : ∀ x : ℝ, x < 1 / 2 ∨ (1 + u) / 2 < x → nearHalf u x = x := by
    intro x hx
    unfold nearHalf
    rw [if_neg]
    rintro ⟨a, b⟩
    rcases hx with hx | hx <;> linarith
  have half : nearHalf u (1 / 2) = 1 / 2 := by
    unfold nearHalf
    rw [if_pos ⟨le_rfl, by linarith⟩]
  have hfl : ∀ (x : ℝ) (n : ℤ), (n : ℝ) ≤ x → x < n + 1 → pyFloorDiv x 1 = (n : ℝ) := by
    intro x n h2 h3
    unfold pyFloorDiv
    rw [div_one, Int.floor_eq_iff.2 ⟨h2, h3⟩]
  have hmod : ∀ (x : ℝ) (n : ℤ), (n : ℝ) ≤ x → x < n + 1 → pyMod x 1 = x - n := by
    intro x n h2 h3
    unfold pyMod
    rw [hfl x n h2 h3, one_mul]
  have hpbc : ∀ (x : ℝ) (n : ℤ), (n : ℝ) ≤ x → x < n + 1 →
      (x - n < 1 / 2 ∨ (1 + u) / 2 < x - n) → pbc1R (nearHalf u) x = x - n := by
    intro x n h2 h3 h4
    unfold pbc1R
    rw [hfl x n h2 h3, fix _ h4]
  have hw0 : wrap1R (nearHalf u) 0 = 0 := by
    unfold wrap1R mod1R
    rw [hmod 0 0 (by norm_num) (by norm_num), fix _ (by norm_num)]
    norm_num
  have hw1 : ∀ x : ℝ, pyMod x 1 = 1 / 2 ∨ pyMod x 1 = 1 / 2 + u / 4 → wrap1R (nearHalf u) x = 1 / 2 := by
    intro x hx
    have : mod1R (nearHalf u) x = 1 / 2 := by
      unfold mod1R
      rcases hx with hx | hx
      · rw [hx, half]
      · rw [hx]
        unfold nearHalf
        rw [if_pos ⟨by linarith, by linarith⟩]
    unfold wrap1R
    rw [this, if_neg (lt_irrefl _)]
  set q : Pos 2 ℝ := ![![0, 0, 2 / 5], ![0, 0, 11 / 10 + u / 4]] with hq
  set B : ℝ → Mat3 ℝ := fun t => t • 1 with hB
  have hd : ∀ a i, fracDisplacementR (nearHalf u) (bondModel B).ref.positions q a i
      = (![![0, 0, 0], ![0, 0, 1 / 2]] : Pos 2 ℝ) a i := by
    have z : ∀ x : ℝ, wrap1R (nearHalf u) (wrap1R (nearHalf u) (nearHalf u (x - x))) = 0 := by
      intro x
      rw [sub_self, fix 0 (by norm_num), hw0, hw0]
    have e : wrap1R (nearHalf u) (wrap1R (nearHalf u) (nearHalf u
        (pbc1R (nearHalf u) (11 / 10 + u / 4) - pbc1R (nearHalf u) (3 / 5)))) = 1 / 2 := by
      rw [hpbc (11 / 10 + u / 4) 1 (by push_cast; linarith) (by push_cast; linarith)
        (Or.inl (by push_cast; linarith)),
        hpbc (3 / 5) 0 (by norm_num) (by norm_num) (Or.inr (by push_cast; linarith)),
        fix _ (Or.inl (by push_cast; linarith))]
      have e1 : wrap1R (nearHalf u) (11 / 10 + u / 4 - (1 : ℤ) - (3 / 5 - (0 : ℤ))) = 1 / 2 := by
        refine hw1 _ (Or.inr ?_)
        rw [hmod _ (-1) (by push_cast; linarith) (by push_cast; linarith)]
        push_cast
        ring
      rw [e1]
      refine hw1 _ (Or.inl ?_)
      rw [hmod _ 0 (by norm_num) (by norm_num)]
      norm_num
    intro a i
    fin_cases a <;> fin_cases i
    · exact z _
    · exact z _
    · exact z _
    · exact z _
    · exact z _
    · exact e
  have rz : nearHalf u 0 = 0 := fix 0 (by norm_num)
  refine ⟨nearHalf u, q, (3 / 2 : ℝ) • 1, 1 + (u / 4 - 1 / 2) • 1, hacc, ?_, ?_, ?_⟩
  · refine ⟨![![0, 0, 0], ![0, 0, 1 / 2]], [1 / 2], (1 / 2 : ℝ) • 1, ?_, ?_, ?_, ?_⟩
    · intro a j
      refine dot_single rz _ _ _ j ?_ ?_ ?_
      · rw [hd]
        simp [bondModel]
      · fin_cases a <;> fin_cases j <;> first | exact rz | exact half
      · intro i hi
        simp [bondModel, hi]
    · refine List.Forall₂.cons ?_ List.Forall₂.nil
      refine dot_single rz _ _ _ (1, 2) ?_ half ?_
      · simp [flat, vec_two]
      · rintro ⟨a, i⟩ hi
        fin_cases a <;> fin_cases i <;> simp [flat, vec_two] at hi ⊢
    · change Except.ok _ = Except.ok _
      congr 1
      funext i j
      by_cases hij : i = j
      · subst hij
        simp [hB, oneMinus]
        rw [← one_div, half, half]
      · simp [hB, oneMinus, hij, rz]
    · funext i j
      by_cases hij : i = j
      · subst hij
        simp [bondModel]
        rw [fix _ (Or.inr (by linarith))]
        norm_num
      · simp [bondModel, hij, rz]
  · rw [evalOne_expansion (bondModel B) rfl rfl q ![![0, 0, 0], ![0, 0, u / 4 - 1 / 2]] ?_]
    · simp only [expansion, bondModel, List.zip_cons_cons, List.zip_nil_left, List.map_cons,
        List.map_nil, List.sum_cons, List.sum_nil, add_zero, Bool.false_eq_true, if_false]
      rw [hB]
      congr 3
      simp [inner3, toCart, Fin.sum_univ_three, Fin.sum_univ_two, Matrix.one_apply, vec_two]
    · intro a i
      fin_cases a <;> fin_cases i <;> refine ⟨?_, ?_⟩
      all_goals try (norm_num [vec_two, InHalfBox]; done)
      all_goals try (refine ⟨0, ?_⟩; norm_num [vec_two, bondModel, hq]; done)
      · constructor
        · change -(1 / 2) < u / 4 - 1 / 2
          linarith
        · change u / 4 - 1 / 2 ≤ 1 / 2
          linarith
      · refine ⟨-1, ?_⟩
        change u / 4 - 1 / 2 = 11 / 10 + u / 4 - 3 / 5 + ((-1 : ℤ) : ℝ)
        norm_num
        ring
  · simp
    ring

theorem pow_le_linear (h0 : 0 ≤ u) (n : ℕ) (hn : n * u ≤ 1 / 2) : (1 + u) ^ n ≤ 1 + 2 * (n * u) := by
  induction n with
  | zero => simp
  | succ n ih =>
    have hn' : (n : ℝ) * u ≤ 1 / 2 := by
      push_cast at hn
      linarith
    have h1 := ih hn'
    have h2 : (1 + u) ^ n * (1 + u) ≤ (1 + 2 * (n * u)) * (1 + u) :=
      mul_le_mul_of_nonneg_right h1 (by linarith)
    rw [pow_succ]
    push_cast
    have h3 : 2 * (n * u) * u ≤ 1 * u := mul_le_mul_of_nonneg_right (by linarith) h0
    linarith

/-- C155: the bound is of the order of `u` times the number of degrees of freedom and of atoms. -/
theorem C155_linear (n : ℕ) (Λ β C F P η : ℝ) (h0 : 0 ≤ u) (h1 : u ≤ 1 / 20)
    (hn : (n + 2) * u ≤ 1 / 2) (hN : (3 * N + 1) * u ≤ 1 / 2) (hΛ : 0 ≤ Λ) (hβ : 0 ≤ β) (hC : 0 ≤ C)
    (hF : 0 ≤ F) (hP : 0 ≤ P) (hη : 0 ≤ η) :
    predictionError u N n Λ β C F P η
      ≤ 2 * (n + 2) * u * (n * F + P) + 2 * n * (η + C * β * Λ * (6 * N + 12) * u) := by
  have p4 : (1 + u) ^ 4 ≤ 1 + 8 * u := by
    have := pow_le_linear h0 4 (by push_cast; linarith)
    push_cast at this
    linarith
  have pN : (1 + u) ^ (3 * N + 1) ≤ 1 + 2 * ((3 * N + 1) * u) := by
    have := pow_le_linear h0 (3 * N + 1) (by push_cast; linarith)
    push_cast at this
    exact this
  have pn : (1 + u) ^ (n + 2) ≤ 1 + 2 * ((n + 2) * u) := by
    have := pow_le_linear h0 (n + 2) (by push_cast; linarith)
    push_cast at this
    exact this
  have hc : cartesianError u Λ ≤ 10 * u * Λ := by
    unfold cartesianError
    have := mul_le_mul_of_nonneg_right (by linarith : (1 + u) ^ 4 - 1 ≤ 8 * u)
      (by linarith : 0 ≤ Λ / 2)
    linarith
  have hc' : Λ / 2 + cartesianError u Λ ≤ Λ := by
    have := mul_le_mul_of_nonneg_right h1 hΛ
    linarith
  have hcn : 0 ≤ Λ / 2 + cartesianError u Λ := by
    unfold cartesianError
    have h4 : (1 : ℝ) ≤ (1 + u) ^ 4 := one_le_pow₀ (by linarith)
    have := mul_nonneg (by linarith : (0 : ℝ) ≤ (1 + u) ^ 4 - 1) (by linarith : (0 : ℝ) ≤ Λ / 2)
    have := mul_nonneg h0 hΛ
    linarith
  have ha : amplitudeError u N Λ β ≤ β * Λ * (6 * N + 12) * u := by
    unfold amplitudeError
    have e1 : ((1 + u) ^ (3 * N + 1) - 1) * (Λ / 2 + cartesianError u Λ)
        ≤ 2 * ((3 * N + 1) * u) * Λ :=
      mul_le_mul (by linarith) hc' hcn (by positivity)
    have e2 : cartesianError u Λ + ((1 + u) ^ (3 * N + 1) - 1) * (Λ / 2 + cartesianError u Λ)
        ≤ Λ * (6 * N + 12) * u := by linarith
    have := mul_le_mul_of_nonneg_left e2 hβ
    linarith
  unfold predictionError
  have t1 : ((1 + u) ^ (n + 2) - 1) * (n * F + P) ≤ 2 * ((n + 2) * u) * (n * F + P) :=
    mul_le_mul_of_nonneg_right (by linarith) (by positivity)
  have t2 : n * (η + C * amplitudeError u N Λ β) ≤ n * (η + C * β * Λ * (6 * N + 12) * u) := by
    refine mul_le_mul_of_nonneg_left ?_ (Nat.cast_nonneg n)
    have := mul_le_mul_of_nonneg_left ha hC
    linarith
  have t3 : (1 + u) ^ (n + 2) * (n * (η + C * amplitudeError u N Λ β))
      ≤ 2 * (n * (η + C * β * Λ * (6 * N + 12) * u)) := by
    have q1 : (1 + u) ^ (n + 2) ≤ 2 := by linarith
    have q2 : 0 ≤ n * (η + C * β * Λ * (6 * N + 12) * u) := by positivity
    calc (1 + u) ^ (n + 2) * (n * (η + C * amplitudeError u N Λ β))
        ≤ (1 + u) ^ (n + 2) * (n * (η + C * β * Λ * (6 * N + 12) * u)) :=
          mul_le_mul_of_nonneg_left t2 (by positivity)
      _ ≤ 2 * (n * (η + C * β * Λ * (6 * N + 12) * u)) := mul_le_mul_of_nonneg_right q1 q2
  linarith

/-- The bound in double precision for a model of a crystal: 200 atoms, 600 degrees of freedom, a cell
of 30 Å, basis vectors of unit length, responses of up to 1 with slopes of up to 10, reference
polarizability of up to 100, and splines evaluated to `1e-13`. -/
example : predictionError (1 / 2 ^ 53) 200 600 30 25 10 1 100 (1 / 10 ^ 13) < 1 / 10 ^ 5 := by
  refine lt_of_le_of_lt (C155_linear 600 30 25 10 1 100 (1 / 10 ^ 13) ?_ ?_ ?_ ?_ ?_ ?_ ?_ ?_ ?_ ?_) ?_
  all_goals norm_num

/-- Hypotheses of `C155_accuracy` for a diatomic molecule, at a stretched bond in a cell further
along. -/
example : ∃ A, PredictsR nearOne (bondModel fun t => t • 1) [fun t => t • 1]
      ![![0, 0, 2 / 5], ![0, 0, 17 / 10]] A ∧
    ∀ i j, |A i j - (1 + (1 / 10 : ℝ) • (1 : Mat3 ℝ)) i j| ≤ predictionError (1 / 100) 2 1 1 2 1 2 1 0 := by
  have hL : ∀ j, ∑ i, |(bondModel fun t => t • 1).ref.lattice i j| ≤ 1 := by
    intro j
    fin_cases j <;> simp [bondModel, Fin.sum_univ_three, Matrix.one_apply]
  have hb : ∀ b ∈ (bondModel fun t => t • 1).basis, ∑ a, ∑ j, |b a j| ≤ 2 := by
    intro b hb
    obtain rfl := List.mem_singleton.1 hb
    norm_num [Fin.sum_univ_three, Fin.sum_univ_two, vec_two]
  have hP : ∀ i j, |(bondModel fun t => t • 1).refPol i j| ≤ 1 := by
    intro i j
    by_cases hij : i = j <;> simp [bondModel, Matrix.one_apply, hij]
  have hone : ∀ (t : ℝ) (i j : Fin 3), |(t • (1 : Mat3 ℝ)) i j| ≤ |t| := by
    intro t i j
    by_cases hij : i = j <;> simp [Matrix.one_apply, hij]
  have hw : NearestImage (bondModel fun t => t • 1).ref.positions ![![0, 0, 2 / 5], ![0, 0, 17 / 10]]
      ![![0, 0, 0], ![0, 0, 1 / 10]] := by
    intro a i
    fin_cases a <;> fin_cases i <;> refine ⟨?_, ?_⟩
    all_goals try (norm_num [vec_two, InHalfBox]; done)
    all_goals try (refine ⟨0, ?_⟩; norm_num [vec_two, bondModel]; done)
    refine ⟨-1, ?_⟩
    change (1 / 10 : ℝ) = 17 / 10 - 3 / 5 + ((-1 : ℤ) : ℝ)
    norm_num
  have hm : ∀ a i, |(![![0, 0, 0], ![0, 0, 1 / 10]] : Pos 2 ℝ) a i| + 6 * (1 / 100) < 1 / 2 := by
    intro a i
    fin_cases a <;> fin_cases i <;> simp [vec_two] <;> norm_num
  obtain ⟨A₀, h0, ⟨A, hA⟩, hall⟩ := C155_accuracy nearOne_accurate (bondModel fun t => t • 1)
    [fun t => t • 1] rfl rfl 1 2 1 2 1 0 2 hL (by norm_num) hb (by norm_num) (by norm_num) le_rfl hP
    (by unfold amplitudeError cartesianError; norm_num)
    (by
      intro x hx _ s t _ _ i j
      obtain rfl := List.mem_singleton.1 hx
      dsimp only
      rw [← Matrix.sub_apply, ← sub_smul, one_mul]
      exact hone _ i j)
    (by
      intro x hx _ t ht i j
      obtain rfl := List.mem_singleton.1 hx
      exact (hone t i j).trans ht)
    (List.Forall₂.cons (fun t _ i j => by simp) List.Forall₂.nil)
    ![![0, 0, 2 / 5], ![0, 0, 17 / 10]] ![![0, 0, 0], ![0, 0, 1 / 10]] (fun a i => (hw a i).2) hm
  refine ⟨A, hA, fun i j => ?_⟩
  have e : A₀ = 1 + (1 / 10 : ℝ) • (1 : Mat3 ℝ) := by
    rw [evalOne_expansion (bondModel fun t => t • 1) rfl rfl _ _ hw] at h0
    injection h0 with h0
    rw [← h0]
    simp only [expansion, bondModel, List.zip_cons_cons, List.zip_nil_left, List.map_cons,
      List.map_nil, List.sum_cons, List.sum_nil, add_zero, Bool.false_eq_true, if_false]
    congr 2
    simp [inner3, toCart, Fin.sum_univ_three, Fin.sum_univ_two, Matrix.one_apply, vec_two]
  rw [← e]
  exact hall A hA i j

/-- Hypotheses of `C155_raman` for the stretching vibration of a diatomic molecule.  In double precision
the Raman tensor is accurate to `1e-10`; its exact value is `2`. -/
example (h : Accurate (1 / 2 ^ 53) rnd) : ∃ R, RamanR rnd (bondModel fun t => t • 1) [fun t => t • 1]
      (bondModel fun t => t • 1).ref.positions ![![0, 0, -(1 / 2)], ![0, 0, 1 / 2]] R ∧
    ∀ i j, |R i j - ((2 : ℝ) • (1 : Mat3 ℝ)) i j| ≤ 1 / 10 ^ 10 := by
  have hL : ∀ j, ∑ i, |(bondModel fun t => t • 1).ref.lattice i j| ≤ 1 := by
    intro j
    fin_cases j <;> simp [bondModel, Fin.sum_univ_three, Matrix.one_apply]
  have hb : ∀ b ∈ (bondModel fun t => t • 1).basis, ∑ a, ∑ j, |b a j| ≤ 2 := by
    intro b hb
    obtain rfl := List.mem_singleton.1 hb
    norm_num [Fin.sum_univ_three, Fin.sum_univ_two, vec_two]
  have hP : ∀ i j, |(bondModel fun t => t • 1).refPol i j| ≤ 1 := by
    intro i j
    by_cases hij : i = j <;> simp [bondModel, Matrix.one_apply, hij]
  have hone : ∀ (t : ℝ) (i j : Fin 3), |(t • (1 : Mat3 ℝ)) i j| ≤ |t| := by
    intro t i j
    by_cases hij : i = j <;> simp [Matrix.one_apply, hij]
  have hr : ∀ a i, |(bondModel fun t => t • 1).ref.positions a i| ≤ 1 := by
    intro a i
    fin_cases a <;> fin_cases i <;> simp [bondModel, vec_two] <;> norm_num [abs_le]
  have hd : ∀ a i, |(![![0, 0, -(1 / 2)], ![0, 0, 1 / 2]] : Pos 2 ℝ) a i| ≤ 1 / 2 := by
    intro a i
    fin_cases a <;> fin_cases i <;> simp [vec_two] <;> norm_num [abs_le]
  obtain ⟨R₀, h0, ⟨R, hR⟩, hall⟩ := C155_raman h (by norm_num) (bondModel fun t => t • 1)
    [fun t => t • 1] rfl rfl 1 2 1 2 1 0 2 (1 / 2) hL (by norm_num) hb (by norm_num) (by norm_num) le_rfl
    hP (by unfold amplitudeError cartesianError; norm_num)
    (by
      intro x hx _ s t _ _ i j
      obtain rfl := List.mem_singleton.1 hx
      dsimp only
      rw [← Matrix.sub_apply, ← sub_smul, one_mul]
      exact hone _ i j)
    (by
      intro x hx _ t ht i j
      obtain rfl := List.mem_singleton.1 hx
      exact (hone t i j).trans ht)
    (List.Forall₂.cons (fun t _ i j => by simp) List.Forall₂.nil) hr
    ![![0, 0, -(1 / 2)], ![0, 0, 1 / 2]] (by norm_num) hd (by unfold stepError; norm_num)
  refine ⟨R, hR, fun i j => ?_⟩
  have hev : ∀ t : ℝ, |t| < 1 → evalOne (bondModel fun t => t • 1).calcPolarizabilities
      (fun a i => (bondModel fun t => t • 1).ref.positions a i
        + t * (![![0, 0, -(1 / 2)], ![0, 0, 1 / 2]] : Pos 2 ℝ) a i) = .ok (1 + t • (1 : Mat3 ℝ)) := by
    intro t ht
    rw [evalOne_expansion (bondModel fun t => t • 1) rfl rfl _
      (fun a i => t * (![![0, 0, -(1 / 2)], ![0, 0, 1 / 2]] : Pos 2 ℝ) a i)
      (nearest_of_small _ _ t fun a i => ?_)]
    · simp only [expansion, bondModel, List.zip_cons_cons, List.zip_nil_left, List.map_cons,
        List.map_nil, List.sum_cons, List.sum_nil, add_zero, Bool.false_eq_true, if_false]
      congr 3
      simp [inner3, toCart, Fin.sum_univ_three, Fin.sum_univ_two, Matrix.one_apply, vec_two]
      ring
    · rw [abs_mul]
      have h1 := hd a i
      have h2 := mul_le_mul_of_nonneg_left h1 (abs_nonneg t)
      linarith
  have e : R₀ = (2 : ℝ) • (1 : Mat3 ℝ) := by
    have e1 := hev (1 / 1000) (by norm_num [abs_lt])
    have e2 := hev (-(1 / 1000)) (by norm_num [abs_lt])
    unfold ramanTensor centralDifference at h0
    dsimp only at h0
    simp only [mul_comm (1 / 1000 : ℝ)] at e1
    simp only [neg_mul, ← sub_eq_add_neg, mul_comm (1 / 1000 : ℝ)] at e2
    rw [e1, e2] at h0
    injection h0 with h0
    rw [← h0, ← add_sub_add_left_eq_sub]
    ext i j
    simp only [Matrix.smul_apply, Matrix.sub_apply, Matrix.add_apply, smul_eq_mul]
    ring
  have := hall R hR i j
  rw [e] at this
  refine this.trans ?_
  have h2 : |((2 : ℝ) • (1 : Mat3 ℝ)) i j| ≤ 2 := (hone 2 i j).trans (by norm_num)
  unfold ramanError
  have hq : 0 ≤ quotientError (1 / 2 ^ 53) := by unfold quotientError; norm_num
  have h3 := mul_le_mul_of_nonneg_left h2 hq
  refine (add_le_add h3 le_rfl).trans ?_
  unfold quotientError predictionError amplitudeError cartesianError stepError
  norm_num [bondModel]

end

end Verif
