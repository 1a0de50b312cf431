import Verif.Props.Dimenet

/-!
# C127: the order of the set of the elements matters
-/

namespace Verif

/-- A bonded pair of hydrogen atoms and a fluorine atom out of reach. -/
noncomputable def fluorideSample : GSample 3 :=
  ⟨1, ![1, 1, 9], ![![0, 0, 0], ![1 / 4, 0, 0], ![1 / 2, 1 / 2, 0]]⟩

noncomputable def fluorideArgs : GnnArgs := ⟨3 / 10, 1, 2, 1, 0, 1, [3, 3], [3, 3]⟩

/-- Weights that hand the product of the node features on to the xx component.  The first row of the
embedding table is 1, the second one 0. -/
noncomputable def fluorideGnn : PotGNN 1 2 where
  atomTypeMap := []
  refEdges := []
  embedding := [fun _ => 1, fun _ => 0]
  nodeLinear1 := ⟨fun _ _ => 1, 0⟩
  nodeLinear2 := ⟨fun _ _ => 1, 0⟩
  filter := ⟨-1, ![0, 1]⟩
  blocks := [(⟨constLinear 1, ⟨1, 1⟩, ⟨0, 0⟩⟩,
    ⟨⟨![![0], ![0], ![1], ![0]], 0⟩, constLinear 1, ⟨1, 0⟩, ⟨1, 1⟩, ⟨1, 0⟩, ⟨0, 0⟩⟩)]
  headLinear1 := ⟨![![1, 0], ![0, 1]], 0⟩
  headNorm := ⟨1, 0, 0, 1⟩
  headLinear2 := ⟨![![1, 0], ![0, 1]], 0⟩
  headLinear3 := ⟨![0, 0, 0, 0, 0, 0, ![1, 0], ![1, 0], 0, 0, 0, 0], 0⟩
  headTrain := fun _ => .error .unmodelled
  mean := 1
  stddev := fun _ _ => 2

theorem softplus0_strictMono : StrictMono Spec.softplus0 := by
  intro x y h
  unfold Spec.softplus0
  apply Real.log_lt_log
  · have := Real.exp_pos x
    linarith
  · have := Real.exp_lt_exp.2 h
    linarith

theorem softplus0_zero : Spec.softplus0 0 = 0 := by
  unfold Spec.softplus0
  norm_num

theorem logistic_pos (x : ℝ) : 0 < Spec.logistic x := by
  unfold Spec.logistic
  have := Real.exp_pos x
  positivity

/-- The pair term of the edge features for node features with product `q`. -/
noncomputable def pairTerm (x x' : Fin 1 → ℝ) : Fin 2 → ℝ :=
  (roundOf (fluorideGnn.blocks.head (by simp [fluorideGnn]))).pair x x'

theorem standardised_zero {d : ℕ} : Spec.standardised (0 : Fin d → ℝ) = 0 := by
  funext k
  simp [Spec.standardised, Spec.meanOf]

theorem pairTerm_zero (x : Fin 1 → ℝ) : pairTerm 0 x = 0 := by
  unfold pairTerm roundOf
  have h1 : ∀ x : Fin 1 → ℝ, Spec.affine (Matrix.of ![![0], ![0], ![1], ![0]] : Matrix (Fin 4) (Fin 1) ℝ) 0
      ((0 : Fin 1 → ℝ) * x) = 0 := by
    intro x
    simp [Spec.affine]
  have h2 : ∀ d : ℕ, Spec.layerNorm 1 0 (0 : Fin d → ℝ) = 0 := by
    intro d
    funext k
    simp [Spec.layerNorm, standardised_zero]
  have h3 : Spec.gated (0 : Fin (2 + 2) → ℝ) = 0 := by
    funext k
    simp [Spec.gated]
  change Spec.layerNorm 1 0 (Spec.gated (d := 2) (Spec.layerNorm 1 0 (Spec.affine (Matrix.of ![![0], ![0], ![1], ![0]]) 0
    ((0 : Fin 1 → ℝ) * x)))) = 0
  rw [h1, h2, h3, h2]

theorem pairTerm_pos (x x' : Fin 1 → ℝ) (h : 0 < x 0 * x' 0) : 0 < pairTerm x x' 0 := by
  unfold pairTerm roundOf
  change 0 < Spec.layerNorm 1 0 (Spec.gated (d := 2) (Spec.layerNorm 1 0
    (Spec.affine (Matrix.of ![![0], ![0], ![1], ![0]]) 0 (x * x')))) 0
  set q := x 0 * x' 0 with hq
  have h1 : Spec.affine (Matrix.of ![![0], ![0], ![1], ![0]] : Matrix (Fin 4) (Fin 1) ℝ) 0 (x * x') =
      ![0, 0, q, 0] := by
    funext k
    fin_cases k <;> simp [Spec.affine, dotProduct, hq]
  rw [h1]
  obtain ⟨c, hc, h2⟩ : ∃ c : ℝ, 0 < c ∧ Spec.layerNorm 1 0 (![0, 0, q, 0] : Fin (2 + 2) → ℝ) =
      ![-c, -c, 3 * c, -c] := by
    have hv : Spec.varOf (![0, 0, q, 0] : Fin (2 + 2) → ℝ) = 3 / 16 * q ^ 2 := by
      unfold Spec.varOf Spec.meanOf
      rw [Fin.sum_univ_four, Fin.sum_univ_four]
      simp
      ring
    have hmn : Spec.meanOf (![0, 0, q, 0] : Fin (2 + 2) → ℝ) = q / 4 := by
      unfold Spec.meanOf
      rw [Fin.sum_univ_four]
      simp
      ring
    have hs : 0 < Real.sqrt (3 / 16 * q ^ 2 + 1 / 100000) := Real.sqrt_pos.2 (by positivity)
    refine ⟨q / 4 / Real.sqrt (3 / 16 * q ^ 2 + 1 / 100000), by positivity, ?_⟩
    funext k
    unfold Spec.layerNorm Spec.standardised
    rw [hv, hmn]
    fin_cases k <;> simp <;> ring
  rw [h2]
  have h3 : Spec.gated (![-c, -c, 3 * c, -c] : Fin (2 + 2) → ℝ) =
      ![Spec.logistic (-c) * Real.tanh (3 * c), Spec.logistic (-c) * Real.tanh (-c)] := by
    funext k
    fin_cases k <;> rfl
  rw [h3]
  have hpos := logistic_pos (-c)
  have ht1 : 0 < Real.tanh (3 * c) := (tanh_pos_iff _).2 (by linarith)
  have ht2 : Real.tanh (-c) < 0 := by
    rw [Real.tanh_neg]
    linarith [(tanh_pos_iff _).2 hc]
  have ha : 0 < Spec.logistic (-c) * Real.tanh (3 * c) := mul_pos hpos ht1
  have hb : Spec.logistic (-c) * Real.tanh (-c) < 0 := mul_neg_of_pos_of_neg hpos ht2
  generalize Spec.logistic (-c) * Real.tanh (3 * c) = p at *
  generalize Spec.logistic (-c) * Real.tanh (-c) = r at *
  unfold Spec.layerNorm Spec.standardised
  have hvar : Spec.varOf ![p, r] = ((p - r) / 2) ^ 2 := by
    unfold Spec.varOf Spec.meanOf
    simp
    ring
  have hmean : Spec.meanOf ![p, r] = (p + r) / 2 := by
    unfold Spec.meanOf
    simp
    ring
  rw [hvar, hmean]
  have : 0 < Real.sqrt (((p - r) / 2) ^ 2 + 1 / 100000) := Real.sqrt_pos.2 (by positivity)
  simp only [Pi.one_apply, Pi.zero_apply, one_mul, add_zero, Matrix.cons_val_zero]
  apply div_pos _ this
  linarith

/-- The xx component of an edge, as a function of its first feature. -/
theorem fluoride_head (y : Fin 2 → ℝ) (u : Fin 3 → ℝ) :
    Spec.edgeTensor (fluorideGnn.headOf y) u 0 =
      Spec.softplus0 (Spec.softplus0 (y 0 / Real.sqrt (1 + 1 / 100000))) := by
  unfold Spec.edgeTensor PotGNN.headOf Spec.axial Spec.affine
  simp [fluorideGnn, dotProduct]

theorem tanh_strictMono : StrictMono Real.tanh := by
  intro x y h
  rw [Real.tanh_eq_sinh_div_cosh, Real.tanh_eq_sinh_div_cosh,
    div_lt_div_iff₀ (Real.cosh_pos x) (Real.cosh_pos y)]
  have := Real.sinh_pos_iff.2 (sub_pos.2 h)
  rw [Real.sinh_sub] at this
  linarith

/-- The value of an edge. -/
noncomputable def edgeValue (t : ℝ) : ℝ :=
  Spec.softplus0 (Spec.softplus0 (Real.tanh t / Real.sqrt (1 + 1 / 100000)))

theorem edgeValue_strictMono : StrictMono edgeValue := by
  intro x y h
  apply softplus0_strictMono
  apply softplus0_strictMono
  apply div_lt_div_of_pos_right (tanh_strictMono h)
  exact Real.sqrt_pos.2 (by norm_num)

/-- Prediction if all bonds are between atoms with the node features `c`. -/
theorem fluoride_predicts {m : PotGNN 1 2} {s : GnnSetup} {table : List (Row 1)}
    (hm : m = fluorideGnn.withSetup s table) {ref : Triplets}
    {swap : Bool} (hp : ref.AllPaths swap 3 m.refEdges) {st : GnnState}
    (hst : st.Eval ref 3 m.refEdges.length) (hne : m.refEdges ≠ [])
    (hends : ∀ p ∈ m.refEdges, p.1 < 2 ∧ p.2 < 2) (x : GSample 3) (f : Fin 3 → Fin 1 → ℝ)
    (hf : m.NodeFeatures x.numbers f) (c : ℝ) (h0 : f 0 = fun _ => c) (h1 : f 1 = fun _ => c)
    (u : Fin m.refEdges.length → Fin 3 → ℝ) (r : Fin m.refEdges.length → ℝ)
    (h : m.EdgeGeometry x u r) :
    ∃ v, (m.forward st [x]).1 = .ok [some v] ∧
      v 0 = (∑ e, edgeValue (m.edgeFeatures r e 0 +
        pairTerm (fun _ => Real.tanh c) (fun _ => Real.tanh c) 0)) / m.refEdges.length := by
  obtain ⟨T, G, ends, he, hd, hall⟩ := id hp
  have := C126_formula ⟨hp.range, hp.valid⟩ hst hd hne [x] (fun _ => f) (by simpa using hf)
    (fun _ => u) (fun _ => r) (by simpa using h)
  refine ⟨_, this, ?_⟩
  have hnode : ∀ a : Fin 3, a.1 < 2 → f a = fun _ => c := by
    intro a ha
    match a, ha with
    | 0, _ => exact h0
    | 1, _ => exact h1
  have hhead : m.headOf = fluorideGnn.headOf := by subst hm; rfl
  have hb : m.blocks = fluorideGnn.blocks := by subst hm; rfl
  unfold Spec.predict
  rw [Fintype.card_fin, hhead, hb]
  congr 1
  apply Finset.sum_congr rfl
  intro e _
  rw [fluoride_head]
  unfold edgeValue
  have h2 := hends _ (List.getElem_mem e.2)
  have hee := he e
  change m.refEdges[e.1] = _ at hee
  rw [hee] at h2
  have hfst := hnode (G.fst e) (by rw [hall.fst e]; exact h2.2)
  have hsnd := hnode (G.snd e) (by rw [hall.snd e]; exact h2.1)
  have hnew : ∀ (v : Fin 3) (y : Fin m.refEdges.length → Fin 2 → ℝ), f v = (fun _ => c) →
      (roundOf (fluorideGnn.blocks.head (by simp [fluorideGnn]))).nodes G f y v =
        fun _ => Real.tanh c := by
    intro v y hv
    funext k
    unfold Spec.Round.nodes roundOf
    simp only [fluorideGnn, List.head_cons, Spec.layerNorm, hv, Pi.zero_apply, zero_mul, add_zero]
  have hemb : Spec.embed G (fluorideGnn.blocks.map roundOf) f (m.edgeFeatures r) e 0 =
      Real.tanh (m.edgeFeatures r e 0 +
        pairTerm (fun _ => Real.tanh c) (fun _ => Real.tanh c) 0) := by
    have e1 := hnew (G.fst e) (m.edgeFeatures r) hfst
    have e2 := hnew (G.snd e) (m.edgeFeatures r) hsnd
    have e3 : pairTerm (fun _ => Real.tanh c) (fun _ => Real.tanh c) = pairTerm
        ((roundOf (fluorideGnn.blocks.head (by simp [fluorideGnn]))).nodes G f (m.edgeFeatures r)
          (G.fst e))
        ((roundOf (fluorideGnn.blocks.head (by simp [fluorideGnn]))).nodes G f (m.edgeFeatures r)
          (G.snd e)) := by rw [e1, e2]
    rw [e3]
    change Real.tanh (_ + _ + Spec.layerNorm 0 0 _ 0) = _
    simp only [Spec.layerNorm, Pi.zero_apply, zero_mul, add_zero]
    rfl
  rw [hemb]

theorem fluoride_node (w : ℝ) :
    (Spec.affine (Matrix.of fluorideGnn.nodeLinear2.weight) fluorideGnn.nodeLinear2.bias fun k =>
      Spec.softplus0 (Spec.affine (Matrix.of fluorideGnn.nodeLinear1.weight)
        fluorideGnn.nodeLinear1.bias (fun _ => Spec.softplus0 w) k)) =
      fun _ => Spec.softplus0 (Spec.softplus0 w) := by
  funext k
  simp [Spec.affine, fluorideGnn, Matrix.mulVec, dotProduct]

theorem fluoride_types (t : List ℤ) :
    (atomTypeMapOf [1, 9] = .ok t → t[1]? = some ((0 : ℕ) : ℤ) ∧ t[9]? = some ((1 : ℕ) : ℤ)) ∧
    (atomTypeMapOf [9, 1] = .ok t → t[1]? = some ((1 : ℕ) : ℤ) ∧ t[9]? = some ((0 : ℕ) : ℤ)) := by
  constructor
  · intro h
    obtain rfl := Except.ok.inj h
    exact ⟨by decide, by decide⟩
  · intro h
    obtain rfl := Except.ok.inj h
    exact ⟨by decide, by decide⟩

theorem fluoride_reach : Spec.InReach 1 (3 / 10) (fluorideSample.positions 0)
    (fluorideSample.positions 1) := by
  refine ⟨![1 / 4, 0, 0], ⟨![1 / 4, 0, 0], ?_, ?_⟩, ?_⟩
  · intro i
    fin_cases i <;>
      exact ⟨⟨0, by simp [fluorideSample]⟩, by unfold Spec.InHalfBox; simp; try norm_num⟩
  · intro j
    fin_cases j <;> simp [Fin.sum_univ_three]
    exact Matrix.one_apply_eq _
  · rw [Fin.sum_univ_three, Real.sqrt_le_left (by norm_num)]
    simp
    norm_num

theorem fluoride_out_of_reach (x y : Fin 3) (hx : x = 2 ∧ y ≠ 2 ∨ x ≠ 2 ∧ y = 2) :
    ¬ Spec.InReach 1 (3 / 10) (fluorideSample.positions x) (fluorideSample.positions y) := by
  rintro ⟨d, ⟨f, hf, hd⟩, hn⟩
  have hd1 : d 1 = f 1 := by rw [hd 1]; simp [Fin.sum_univ_three]
  have hle : |d 1| ≤ 3 / 10 := by
    refine le_trans ?_ hn
    rw [← Real.sqrt_sq_eq_abs]
    apply Real.sqrt_le_sqrt
    rw [Fin.sum_univ_three]
    nlinarith [sq_nonneg (d 0), sq_nonneg (d 2)]
  obtain ⟨k, hk⟩ := (hf 1).1
  rw [hd1, abs_le] at hle
  have hy : fluorideSample.positions y 1 - fluorideSample.positions x 1 = 1 / 2 ∨
      fluorideSample.positions y 1 - fluorideSample.positions x 1 = -(1 / 2) := by
    fin_cases x <;> fin_cases y <;> simp [fluorideSample] at hx ⊢
  rcases hy with hy | hy
  all_goals
    rw [hy] at hk
    have l1 : (-1 : ℝ) < k := by linarith
    have l2 : (k : ℝ) < 1 := by linarith
    have l1' : -1 < k := by exact_mod_cast l1
    have l2' : k < 1 := by exact_mod_cast l2
    obtain rfl : k = 0 := by omega
    push_cast at hk
    linarith

/-- C127, the order of the set: if Python traverses the sets made from the lists `[1, 1, 9]` and
`[9, 1, 1]` in the orders 1, 9 and 9, 1, then networks for a reference structure of two hydrogen
atoms and one fluorine atom and for the same structure with the fluorine atom listed first give the
elements different types, and with the same weights they predict different polarizabilities for the
reference structure. -/
theorem C127_set_order_counterexample (setOrder : List ℕ → List ℕ) (hset : SetOrder setOrder)
    (h1 : setOrder [1, 1, 9] = [1, 9]) (h2 : setOrder [9, 1, 1] = [9, 1]) :
    ∃ (a : GnnArgs) (x : GSample 3) (σ : Fin 3 ≃ Fin 3) (s s' : GnnSetup) (m : PotGNN 1 2)
      (v v' : Fin 6 → ℝ),
      a.setup pygTriplets setOrder x.lattice x.numbers x.positions = .ok s ∧
      a.setup pygTriplets setOrder x.lattice (renumber σ x).numbers (renumber σ x).positions =
        .ok s' ∧
      s'.atomTypeMap ≠ s.atomTypeMap ∧
      ((m.withSetup s m.embedding).forward ⟨false, s.triplets⟩ [x]).1 = .ok [some v] ∧
      ((m.withSetup s' m.embedding).forward ⟨false, s'.triplets⟩ [renumber σ x]).1 =
        .ok [some v'] ∧ v ≠ v' := by
  obtain ⟨s, hs⟩ := (C98_accepts fluorideArgs pygTriplets setOrder hset fluorideSample.lattice
    fluorideSample.numbers fluorideSample.positions).2
    ⟨by constructor <;> norm_num [fluorideArgs],
      by intro i; fin_cases i <;> simp [fluorideSample]⟩
  have hs' := C127_types (m := fluorideGnn.withSetup s [fun _ => 0, fun _ => 1]) fluorideArgs
    pygTriplets (fun e he _ => C159_paths e he) setOrder hset _ _ _ (Equiv.swap 0 2) s hs rfl rfl
  obtain ⟨s', hs', -, -, hfw⟩ := hs'
  obtain ⟨hl, ht, -, hmp, -⟩ := setup_facts hs
  obtain ⟨-, -, -, hmp', -⟩ := setup_facts hs'
  have e1 : (List.finRange 3).map fluorideSample.numbers = [1, 1, 9] := rfl
  have e2 : (List.finRange 3).map (fun i => fluorideSample.numbers (Equiv.swap 0 2 i)) =
      [9, 1, 1] := rfl
  rw [e1, h1] at hmp
  rw [e2, h2] at hmp'
  obtain ⟨t1, t2⟩ := (fluoride_types _).1 hmp
  obtain ⟨t1', t2'⟩ := (fluoride_types _).2 hmp'
  have hfw := hfw [fun _ => 1, fun _ => 0] (by
    intro i
    fin_cases i
    · exact ⟨0, 1, _, t1, t1', rfl, rfl⟩
    · exact ⟨0, 1, _, t1, t1', rfl, rfl⟩
    · exact ⟨1, 0, _, t2, t2', rfl, rfl⟩) [fluorideSample]
  have hmem := setup_edges hs
  have hends : ∀ p ∈ s.refEdges, p.1 < 2 ∧ p.2 < 2 := by
    rintro ⟨i, j⟩ hij
    obtain ⟨x, y, hxy, rfl, rfl, hr⟩ := (hmem i j).1 hij
    by_contra hcon
    refine fluoride_out_of_reach x y ?_ hr
    clear hr hij
    revert hxy hcon
    revert x y
    decide
  have hne : s.refEdges ≠ [] := by
    intro h0
    have := (hmem 0 1).2 ⟨0, 1, by decide, rfl, rfl, fluoride_reach⟩
    rw [h0] at this
    simp at this
  have hr : EdgesInRange 3 s.refEdges := fun p hp => ⟨by have := hends p hp; omega,
    by have := hends p hp; omega⟩
  have hp := C159_paths s.refEdges hr
  have hst : (⟨false, s.triplets⟩ : GnnState).Eval (pygTriplets s.refEdges 3) 3
      s.refEdges.length := by
    rw [ht]
    exact ⟨rfl, BatchTriplets.new_ready pygTriplets 3 _ hp.valid⟩
  have hdeg : ¬ Degenerate (fluorideGnn.withSetup s [fun _ => 1, fun _ => 0]) fluorideSample := by
    rintro ⟨x, y, hxy, f, hf, hd⟩
    obtain ⟨x', y', hne', hx', hy', -⟩ := (hmem x.1 y.1).1 hxy
    obtain rfl := Fin.ext hx'
    obtain rfl := Fin.ext hy'
    have hlt := hends _ hxy
    have hf0 : f 0 = 0 := by
      have := hd 0
      simpa [Fin.sum_univ_three, fluorideSample] using this.symm
    obtain ⟨k, hk⟩ := (hf 0).1
    rw [hf0] at hk
    have h4 : 4 * k = 1 ∨ 4 * k = -1 := by
      have : (4 * k : ℝ) = 1 ∨ (4 * k : ℝ) = -1 := by
        have hcase : x = 0 ∧ y = 1 ∨ x = 1 ∧ y = 0 := by
          clear hk hf hd hx' hy' hxy
          revert hne' hlt
          revert x y
          decide
        rcases hcase with ⟨rfl, rfl⟩ | ⟨rfl, rfl⟩
        · right; simp [fluorideSample] at hk; linarith
        · left; simp [fluorideSample] at hk; linarith
      exact_mod_cast this
    omega
  obtain ⟨u, r, hgeo⟩ := geometry_exists (m := fluorideGnn.withSetup s [fun _ => 1, fun _ => 0]) hr
    hdeg
  obtain ⟨v, hv, hv0⟩ := fluoride_predicts (m := fluorideGnn.withSetup s [fun _ => 1, fun _ => 0])
    rfl hp hst hne hends fluorideSample
    ![_, _, _] (by
      intro a
      fin_cases a
      · exact ⟨0, fun _ => 1, t1, rfl, rfl⟩
      · exact ⟨0, fun _ => 1, t1, rfl, rfl⟩
      · exact ⟨1, fun _ => 0, t2, rfl, rfl⟩)
    (Spec.softplus0 (Spec.softplus0 1)) (fluoride_node 1) (fluoride_node 1) u r hgeo
  obtain ⟨v', hv', hv0'⟩ := fluoride_predicts (m := fluorideGnn.withSetup s [fun _ => 0, fun _ => 1])
    rfl hp hst hne hends fluorideSample
    ![_, _, _] (by
      intro a
      fin_cases a
      · exact ⟨0, fun _ => 0, t1, rfl, rfl⟩
      · exact ⟨0, fun _ => 0, t1, rfl, rfl⟩
      · exact ⟨1, fun _ => 1, t2, rfl, rfl⟩)
    (Spec.softplus0 (Spec.softplus0 0)) (fluoride_node 0) (fluoride_node 0) u r hgeo
  refine ⟨fluorideArgs, fluorideSample, Equiv.swap 0 2, s, s', fluorideGnn, v, v', hs, hs', ?_, hv,
    hfw.trans hv', ?_⟩
  · intro h
    rw [h, t1] at t1'
    simp at t1'
  · intro h
    have hlt : v' 0 < v 0 := by
      rw [hv0, hv0']
      have hlen : 0 < (fluorideGnn.withSetup s [fun _ => 1, fun _ => 0]).refEdges.length :=
        List.length_pos_of_ne_nil hne
      apply div_lt_div_of_pos_right _ (by exact_mod_cast hlen)
      apply Finset.sum_lt_sum_of_nonempty
      · exact ⟨⟨0, hlen⟩, Finset.mem_univ _⟩
      · intro e _
        apply edgeValue_strictMono
        have hz : (fun _ : Fin 1 => Real.tanh (Spec.softplus0 (Spec.softplus0 0))) = 0 := by
          funext k
          simp [softplus0_zero]
        rw [hz, pairTerm_zero]
        have hpos : 0 < Real.tanh (Spec.softplus0 (Spec.softplus0 1)) := by
          rw [tanh_pos_iff, ← softplus0_zero]
          apply softplus0_strictMono
          rw [← softplus0_zero]
          exact softplus0_strictMono one_pos
        have := pairTerm_pos (fun _ => Real.tanh (Spec.softplus0 (Spec.softplus0 1)))
          (fun _ => Real.tanh (Spec.softplus0 (Spec.softplus0 1))) (mul_pos hpos hpos)
        have he : ∀ t : List (Row 1), (fluorideGnn.withSetup s t).edgeFeatures r e 0 =
          fluorideGnn.edgeFeatures r e 0 := fun _ => rfl
        simp only [Pi.zero_apply, add_zero]
        exact lt_add_of_pos_right _ this
    rw [h] at hlt
    exact lt_irrefl _ hlt

/-- The orders asked for occur. -/
example : ∃ f, SetOrder f ∧ f [1, 1, 9] = [1, 9] ∧ f [9, 1, 1] = [9, 1] :=
  ⟨List.dedup, setOrder_dedup, by decide, by decide⟩

/-! The orders asked for are those of CPython: a set of up to four small integers is kept in a table
of eight slots, an integer goes to the slot given by its last three bits, or, if that is taken, to
the slots `5 * i + 1 + (z >> 5)`, ... of `set_add_entry` (Objects/setobject.c).  This is not code of
the repository and no theorem depends on it. -/

/-- Slot for `z`: free, or with `z` in it. -/
def slotFor (table : List (Option ℕ)) (z : ℕ) : ℕ → ℕ → ℕ → ℕ
  | 0, i, _ => i
  | fuel + 1, i, perturb =>
    if table[i]? = some none ∨ table[i]? = some (some z) then i
    else slotFor table z fuel ((i * 5 + 1 + perturb / 32) % 8) (perturb / 32)

/-- Traversal of a set made from a list with up to four different integers. -/
def smallSet (l : List ℕ) : List ℕ :=
  (l.foldl (fun table z => table.set (slotFor table z 40 (z % 8) z) (some z))
    (List.replicate 8 none)).filterMap id

/-- Hydrogen and fluorine, oxygen and sulfur, silicon and titanium. -/
example : smallSet [1, 1, 9] = [1, 9] ∧ smallSet [9, 1, 1] = [9, 1] ∧
    smallSet [8, 16] = [8, 16] ∧ smallSet [16, 8] = [16, 8] ∧
    smallSet [14, 22] = [14, 22] ∧ smallSet [22, 14] = [22, 14] ∧
    smallSet [11, 17] = [17, 11] ∧ smallSet [17, 11] = [17, 11] := by decide

end Verif
