import Verif.Props.GnnFormula

/-!
# C128: predictions of a network are bounded
-/

namespace Verif

variable {dn de n : ℕ}

/-- Bounded sets are mapped to bounded sets. -/
def BoundedMap {a b : ℕ} (f : (Fin a → ℝ) → Fin b → ℝ) : Prop :=
  ∀ r : ℝ, ∃ B : ℝ, ∀ x, (∀ j, |x j| ≤ r) → ∀ k, |f x k| ≤ B

theorem BoundedMap.comp {a b c : ℕ} {f : (Fin a → ℝ) → Fin b → ℝ} {g : (Fin b → ℝ) → Fin c → ℝ}
    (hg : BoundedMap g) (hf : BoundedMap f) : BoundedMap fun x => g (f x) := by
  intro r
  obtain ⟨B, hB⟩ := hf r
  obtain ⟨C, hC⟩ := hg B
  exact ⟨C, fun x hx => hC _ (hB x hx)⟩

theorem boundedMap_coords {a : ℕ} {g : Fin a → ℝ → ℝ}
    (h : ∀ j r, ∃ B : ℝ, ∀ t, |t| ≤ r → |g j t| ≤ B) : BoundedMap fun x j => g j (x j) := by
  intro r
  choose B hB using h
  refine ⟨∑ j, |B j r|, fun x hx k => (hB k r _ (hx k)).trans ((le_abs_self _).trans ?_)⟩
  exact Finset.single_le_sum (f := fun j => |B j r|) (fun j _ => abs_nonneg _) (Finset.mem_univ k)

theorem boundedMap_affine {a b : ℕ} (W : Matrix (Fin b) (Fin a) ℝ) (c : Fin b → ℝ) :
    BoundedMap (Spec.affine W c) := by
  intro r
  refine ⟨∑ k, (∑ j, |W k j| * r + |c k|), fun x hx k => ?_⟩
  have h0 : ∀ k, 0 ≤ ∑ j, |W k j| * r + |c k| := by
    intro k
    refine add_nonneg (Finset.sum_nonneg fun j _ => mul_nonneg (abs_nonneg _) ?_) (abs_nonneg _)
    exact (abs_nonneg _).trans (hx j)
  have hk : |Spec.affine W c x k| ≤ ∑ j, |W k j| * r + |c k| := by
    unfold Spec.affine
    rw [Pi.add_apply]
    refine (abs_add_le _ _).trans (add_le_add ?_ le_rfl)
    unfold Matrix.mulVec dotProduct
    refine (Finset.abs_sum_le_sum_abs _ _).trans (Finset.sum_le_sum fun j _ => ?_)
    rw [abs_mul]
    exact mul_le_mul_of_nonneg_left (hx j) (abs_nonneg _)
  exact hk.trans (Finset.single_le_sum (f := fun k => ∑ j, |W k j| * r + |c k|) (fun k _ => h0 k)
    (Finset.mem_univ k))

theorem softplus_bound (x : ℝ) : |Spec.softplus0 x| ≤ |x| := by
  unfold Spec.softplus0
  have he := Real.exp_pos x
  rcases le_total 0 x with h | h
  · have h1 : 1 ≤ Real.exp x := Real.one_le_exp h
    rw [abs_of_nonneg (Real.log_nonneg (by linarith)), abs_of_nonneg h]
    rw [← Real.log_exp x]
    exact Real.log_le_log (by positivity) (by rw [Real.log_exp]; linarith)
  · have h1 : Real.exp x ≤ 1 := Real.exp_le_one_iff.2 h
    rw [abs_of_nonpos (Real.log_nonpos (by positivity) (by linarith)), abs_of_nonpos h, neg_le_neg_iff]
    nth_rewrite 1 [← Real.log_exp x]
    exact Real.log_le_log he (by linarith)

theorem boundedMap_softplus {a : ℕ} : BoundedMap fun (x : Fin a → ℝ) j => Spec.softplus0 (x j) :=
  boundedMap_coords fun _ r => ⟨r, fun t ht => (softplus_bound t).trans ht⟩

theorem boundedMap_head (m : PotGNN dn de) : BoundedMap m.headOf := by
  have hn : BoundedMap fun (x : Fin de → ℝ) j => m.headNorm.weight j *
      ((x j - m.headNorm.runningMean j) / Real.sqrt (m.headNorm.runningVar j + 1 / 100000)) +
      m.headNorm.bias j := by
    apply boundedMap_coords (g := fun j t => m.headNorm.weight j *
      ((t - m.headNorm.runningMean j) / Real.sqrt (m.headNorm.runningVar j + 1 / 100000)) +
      m.headNorm.bias j)
    intro j r
    refine ⟨|m.headNorm.weight j| * ((r + |m.headNorm.runningMean j|) /
      Real.sqrt (m.headNorm.runningVar j + 1 / 100000)) + |m.headNorm.bias j|, fun t ht => ?_⟩
    refine (abs_add_le _ _).trans (add_le_add ?_ le_rfl)
    rw [abs_mul, abs_div, abs_of_nonneg (Real.sqrt_nonneg _)]
    refine mul_le_mul_of_nonneg_left (div_le_div_of_nonneg_right ?_ (Real.sqrt_nonneg _)) (abs_nonneg _)
    exact (abs_sub _ _).trans (add_le_add ht le_rfl)
  exact (boundedMap_affine _ _).comp (boundedMap_softplus.comp ((boundedMap_affine _ _).comp
    (boundedMap_softplus.comp (hn.comp (boundedMap_affine _ _)))))

/-- After at least one round all edge features lie between -1 and 1. -/
theorem embed_bounded {V E T : Type} [Fintype E] [Fintype T] [DecidableEq V] [DecidableEq E]
    (G : Spec.Wiring V E T) (bs : List (NodeBlock dn de × EdgeBlock dn de)) (hb : bs ≠ [])
    (x : V → Fin dn → ℝ) (y : E → Fin de → ℝ) (e : E) (k : Fin de) :
    |Spec.embed G (bs.map roundOf) x y e k| < 1 := by
  induction bs generalizing x y with
  | nil => exact absurd rfl hb
  | cons b bs ih =>
    rw [List.map_cons]
    unfold Spec.embed
    rcases eq_or_ne bs [] with rfl | h
    · exact abs_tanh_lt _
    · exact ih h _ _

theorem direction_le {d u : Fin 3 → ℝ} (h : Spec.IsDirection d u) (i : Fin 3) : |u i| ≤ 1 := by
  have h1 := h.1
  rw [← sq_le_one_iff_abs_le_one, ← h1]
  exact Finset.single_le_sum (f := fun i => u i ^ 2) (fun i _ => sq_nonneg _) (Finset.mem_univ i)

theorem axial_bound {p q B : ℝ} (hp : |p| ≤ B) (hq : |q| ≤ B) {u : Fin 3 → ℝ} (hu : ∀ i, |u i| ≤ 1)
    (i j : Fin 3) : |Spec.axial p q u i j| ≤ 3 * B := by
  unfold Spec.axial
  have hB : 0 ≤ B := (abs_nonneg p).trans hp
  have h1 : |(if i = j then q else 0)| ≤ B := by
    split_ifs
    · exact hq
    · simpa using hB
  have h2 : |(p - q) * u i * u j| ≤ 2 * B := by
    rw [mul_assoc, abs_mul, abs_mul]
    have ha : |p - q| ≤ 2 * B := (abs_sub _ _).trans (by linarith)
    have hb : |u i| * |u j| ≤ 1 := mul_le_one₀ (hu i) (abs_nonneg _) (hu j)
    calc |p - q| * (|u i| * |u j|) ≤ 2 * B * 1 :=
          mul_le_mul ha hb (mul_nonneg (abs_nonneg _) (abs_nonneg _)) (by linarith)
      _ = 2 * B := mul_one _
  exact (abs_add_le _ _).trans (by linarith)

/-- C128: after at least one round of message passing the edge features lie strictly between -1 and
1, whatever the structure. -/
theorem C128_features {m : PotGNN dn de} {ref : Triplets} (hm : m.Fits n ref) (hb : m.blocks ≠ [])
    (nodes : List (Row dn)) (hn : nodes.length = n) (distances : List ℝ)
    (hd : distances.length = m.refEdges.length) :
    ∃ emb, messagePassing ref m.blocks nodes (distances.map m.filter.apply) = .ok emb ∧
      emb.length = m.refEdges.length ∧ ∀ row ∈ emb, ∀ k, |row k| < 1 := by
  obtain ⟨G, hG⟩ := hm.triplets.describes
  have h1 : nodes = List.ofFn fun a : Fin n => nodes[a] := by
    apply List.ext_getElem
    · simp [hn]
    · intro k _ _
      simp
  have h2 : distances.map m.filter.apply =
      List.ofFn (m.edgeFeatures fun e : Fin m.refEdges.length => distances[e]) := by
    apply List.ext_getElem
    · simp [hd]
    · intro k _ _
      simp only [List.getElem_map, List.getElem_ofFn]
      rfl
  have := messagePassing_formula hG m.blocks (fun a : Fin n => nodes[a])
    (m.edgeFeatures fun e : Fin m.refEdges.length => distances[e])
  rw [← h1, ← h2] at this
  refine ⟨_, this, by simp, ?_⟩
  intro row hr k
  obtain ⟨e, rfl⟩ := List.mem_ofFn.1 hr
  exact embed_bounded G m.blocks hb _ _ e k

/-- C128: for every network with at least one round there is a bound on the components of all its
predictions, whatever the numbers of atoms, the structures and the batches. -/
theorem C128_predictions (m : PotGNN dn de) (hb : m.blocks ≠ []) :
    ∃ B : ℝ, ∀ {n : ℕ} {ref : Triplets}, m.Fits n ref → ∀ {st : GnnState},
      st.Eval ref n m.refEdges.length → ∀ (samples : List (GSample n)) preds,
        (m.forward st samples).1 = .ok preds → ∀ v, some v ∈ preds → ∀ k, |v k| ≤ B := by
  obtain ⟨B, hB⟩ := boundedMap_head m 1
  refine ⟨3 * B, ?_⟩
  intro n ref hm st hst samples preds hpreds v hv k
  by_cases hk : ∀ x ∈ samples, ∀ a, m.Knows (x.numbers a)
  swap
  · push Not at hk
    obtain ⟨x, hx, a, ha⟩ := hk
    rw [C84_unknown_element hm.edges st samples ⟨x, hx, a, ha⟩] at hpreds
    cases hpreds
  by_cases hd : ∃ x ∈ samples, Degenerate m x
  · rw [(C84_nan_spreads hm hst samples hk hd).1] at hpreds
    cases hpreds
    have := List.eq_of_mem_replicate hv
    cases this
  by_cases hne : m.refEdges = []
  · obtain ⟨preds', h1, h2, -⟩ := C84_partial hm hst samples hk fun x hx h => hd ⟨x, hx, h⟩
    rw [hpreds] at h1
    cases h1
    obtain ⟨x, hx, hp⟩ := forall₂_mem_right h2 _ hv
    have hp := hp st hst
    obtain ⟨P, hP, hl, -⟩ := samplePols_known hm (hk x hx)
    rw [forward_single hm hst hP] at hp
    have hP0 : P = [] := by rw [hne] at hl; exact List.length_eq_zero_iff.1 hl
    rw [hP0] at hp
    simp [average, sumRows] at hp
  have hdata : ∀ x, ∃ (f : Fin n → Fin dn → ℝ) (u : Fin m.refEdges.length → Fin 3 → ℝ)
      (r : Fin m.refEdges.length → ℝ), x ∈ samples →
        m.NodeFeatures x.numbers f ∧ m.EdgeGeometry x u r := by
    intro x
    by_cases hx : x ∈ samples
    · obtain ⟨f, hf⟩ := knows_features (hk x hx)
      obtain ⟨u, r, h⟩ := geometry_exists hm.edges fun h => hd ⟨x, hx, h⟩
      exact ⟨f, u, r, fun _ => ⟨hf, h⟩⟩
    · exact ⟨0, 0, 0, fun h => absurd h hx⟩
  choose f u r h using hdata
  obtain ⟨G, hG⟩ := hm.triplets.describes
  rw [C126_formula hm hst hG hne samples f (fun x hx => (h x hx).1) u r fun x hx => (h x hx).2]
    at hpreds
  cases hpreds
  obtain ⟨x, hx, hxv⟩ := List.mem_map.1 hv
  rw [Option.some.injEq] at hxv
  rw [← hxv]
  unfold Spec.predict
  have hE : 0 < m.refEdges.length := List.length_pos_of_ne_nil hne
  have hE' : (0 : ℝ) < m.refEdges.length := by exact_mod_cast hE
  rw [Fintype.card_fin, abs_div, abs_of_pos hE', div_le_iff₀ hE']
  refine (Finset.abs_sum_le_sum_abs _ _).trans ?_
  have hterm : ∀ e, |Spec.edgeTensor (m.headOf (Spec.embed G (m.blocks.map roundOf) (f x)
      (m.edgeFeatures (r x)) e)) (u x e) k| ≤ 3 * B := by
    intro e
    have hh := hB _ fun j => (embed_bounded G m.blocks hb (f x) (m.edgeFeatures (r x)) e j).le
    obtain ⟨a, b, -, d, -, hu, -⟩ := (h x hx).2 e
    have hu := direction_le hu
    fin_cases k <;> exact axial_bound (hh _) (hh _) hu _ _
  refine (Finset.sum_le_sum fun e _ => hterm e).trans ?_
  rw [Finset.sum_const, Finset.card_univ, Fintype.card_fin, nsmul_eq_mul, mul_comm]

/-- C128, concrete: the network for two atoms has one round, and its prediction obeys the bound. -/
example : ∃ B : ℝ, (∀ x v, (sampleGnn.forward sampleState [pairSample x]).1 = .ok [some v] →
      ∀ k, |v k| ≤ B) ∧ 12 ≤ B := by
  obtain ⟨B, hB⟩ := C128_predictions sampleGnn (by simp [sampleGnn])
  have h := hB sampleGnn_fits sampleState_eval
  refine ⟨B, fun x v hv => h _ _ hv v (by simp), ?_⟩
  have := h _ _ sampleGnn_predicts _ (List.mem_singleton.2 rfl) 2
  simpa using this

end Verif
