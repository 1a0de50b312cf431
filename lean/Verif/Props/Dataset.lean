import Verif.Model.Dataset
import Verif.Spec.Dataset
import Verif.Proofs.EquivAtoms

/-!
# C74–C77: polarizability datasets
-/

namespace Verif

/-! ## C74 -/

/-- C74: components are stored in the order xx, yy, zz, xy, xz, yz in both directions. -/
theorem C74_components {α : Type} (v : Fin 6 → α) (A : Matrix (Fin 3) (Fin 3) α) (i j : Fin 3)
    (k : Fin 6) (h : Spec.VoigtIndex i j k) :
    vectorToTensor v i j = v k ∧ (i ≤ j → tensorToVector A k = A i j) := by
  cases h <;> exact ⟨rfl, by first | (intro _; rfl) | (intro h; exact absurd h (by decide))⟩

/-- C74: a vector survives conversion to a tensor and back. -/
theorem C74_vector_roundtrip {α : Type} (v : Fin 6 → α) :
    tensorToVector (vectorToTensor v) = v := by
  funext k; fin_cases k <;> rfl

/-- C74: a tensor survives conversion to a vector and back iff it is symmetric. -/
theorem C74_tensor_roundtrip {α : Type} (A : Matrix (Fin 3) (Fin 3) α) :
    vectorToTensor (tensorToVector A) = A ↔ ∀ i j, A i j = A j i := by
  constructor
  · intro h i j
    rw [← h]
    fin_cases i <;> fin_cases j <;> rfl
  · intro h
    funext i j
    fin_cases i <;> fin_cases j
    · rfl
    · rfl
    · rfl
    · exact h 0 1
    · rfl
    · rfl
    · exact h 0 2
    · exact h 1 2
    · rfl

/-- C74: tensors made from vectors are symmetric. -/
theorem C74_symmetric {α : Type} (v : Fin 6 → α) (i j : Fin 3) :
    vectorToTensor v i j = vectorToTensor v j i := by
  fin_cases i <;> fin_cases j <;> rfl

example : tensorToVector (!![1, 2, 3; 4, 5, 6; 7, 8, 9] : Matrix (Fin 3) (Fin 3) ℕ) =
    ![1, 5, 9, 2, 3, 6] := by decide

/-! ## C75 -/

theorem flattenPol_eq {α : Type} (A : Matrix (Fin 3) (Fin 3) α) : flattenPol A = tensorToVector A := by
  funext k; fin_cases k <;> rfl

theorem mapM_pure {α β : Type} {f : α → Py β} {g : α → β} (h : ∀ x, f x = .ok (g x)) (l : List α) :
    l.mapM f = .ok (l.map g) := by
  rw [mapM_except_ok, List.forall₂_map_right_iff, List.forall₂_same]
  exact fun x _ => h x

theorem scaleAndFlatten_ok {ps : List (Mat3 ℝ)} {mode : Word}
    {g : Mat3 ℝ → Matrix (Fin 3) (Fin 3) (Option ℝ)}
    (hm : mode = "standard".toList ∨ mode = "stddev".toList ∨ mode = "none".toList)
    (h : ∀ p, scaleBy mode (meanPol ps) (stdPol ps) p = .ok (g p)) :
    scaleAndFlatten ps mode = .ok (ps.map fun p => tensorToVector (g p)) := by
  unfold scaleAndFlatten
  rw [if_neg (by tauto), mapM_pure h]
  change Except.ok (List.map flattenPol (ps.map g)) = _
  rw [List.map_map]
  congr 1
  apply List.map_congr_left
  intro p _
  exact flattenPol_eq _

theorem scaleAndFlatten_standard (ps : List (Mat3 ℝ)) :
    scaleAndFlatten ps "standard".toList =
      .ok (ps.map fun p => tensorToVector (standardize (meanPol ps) (stdPol ps) p)) :=
  scaleAndFlatten_ok (Or.inl rfl) fun p => by unfold scaleBy; rw [if_pos rfl]

theorem makeDataset_ok {lattice : Mat3 ℝ} {numbers : List ℕ} {positions : List (List (Fin 3 → ℝ))}
    {ps : List (Mat3 ℝ)} {d : PolDataset} (h : makeDataset lattice numbers positions ps = .ok d) :
    (∀ p ∈ positions, p.length = numbers.length) ∧ ps.length = positions.length ∧
      d = ⟨lattice, numbers, positions, ps,
        ps.map fun p => tensorToVector (standardize (meanPol ps) (stdPol ps) p)⟩ := by
  unfold makeDataset at h
  split_ifs at h with h1 h2
  rw [scaleAndFlatten_standard] at h
  exact ⟨h1, not_not.1 h2, (Except.ok.inj h).symm⟩

theorem stdPol_sq (ps : List (Mat3 ℝ)) (i j : Fin 3) :
    stdPol ps i j ^ 2 = Spec.variance (ps.map fun p => p i j) := by
  unfold stdPol Spec.variance Spec.mean
  rw [Real.sq_sqrt]
  · simp [meanPol, Function.comp_def]
  · apply div_nonneg _ (Nat.cast_nonneg _)
    apply List.sum_nonneg
    intro x hx
    obtain ⟨p, -, rfl⟩ := List.mem_map.1 hx
    exact sq_nonneg _

theorem sum_sub_div (xs : List ℝ) (m s : ℝ) :
    (xs.map fun x => (x - m) / s).sum = (xs.sum - xs.length * m) / s := by
  induction xs with
  | nil => simp
  | cons x xs ih =>
    simp only [List.map_cons, List.sum_cons, ih, List.length_cons]
    push_cast
    ring

theorem sum_div_sq (xs : List ℝ) (m s : ℝ) :
    (xs.map fun x => ((x - m) / s) ^ 2).sum = (xs.map fun x => (x - m) ^ 2).sum / s ^ 2 := by
  induction xs with
  | nil => simp
  | cons x xs ih =>
    simp only [List.map_cons, List.sum_cons, ih]
    ring

/-- Standardised numbers have mean 0 and variance 1. -/
theorem standardized (xs : List ℝ) (s : ℝ) (hs : s ≠ 0) (hv : s ^ 2 = Spec.variance xs) :
    Spec.mean (xs.map fun x => (x - Spec.mean xs) / s) = 0 ∧
      Spec.variance (xs.map fun x => (x - Spec.mean xs) / s) = 1 := by
  have hl : (xs.length : ℝ) ≠ 0 := by
    intro h0
    have : xs = [] := by simpa using h0
    subst this
    simp [Spec.variance, Spec.mean] at hv
    exact hs hv
  have hm : Spec.mean (xs.map fun x => (x - Spec.mean xs) / s) = 0 := by
    rw [Spec.mean, sum_sub_div, Spec.mean]
    field_simp
    simp
  refine ⟨hm, ?_⟩
  unfold Spec.variance
  rw [hm, Spec.mean, List.map_map, List.length_map]
  have : ((fun x : ℝ => (x - 0) ^ 2) ∘ fun x => (x - Spec.mean xs) / s) =
      fun x => ((x - Spec.mean xs) / s) ^ 2 := by funext x; simp
  rw [this, sum_div_sq, div_right_comm]
  rw [Spec.variance, Spec.mean, List.length_map] at hv
  rw [← hv]
  exact div_self (pow_ne_zero 2 hs)

/-- C75: the scaled polarizabilities of a new dataset have mean 0 and population variance 1 in every
component that is not constant. -/
theorem C75_scaled (lattice : Mat3 ℝ) (numbers : List ℕ) (positions : List (List (Fin 3 → ℝ)))
    (ps : List (Mat3 ℝ)) (d : PolDataset) (h : makeDataset lattice numbers positions ps = .ok d)
    (i j : Fin 3) (k : Fin 6) (hk : Spec.VoigtIndex i j k) (hij : i ≤ j)
    (hv : Spec.variance (ps.map fun p => p i j) ≠ 0) :
    ∃ xs : List ℝ, d.scaled.map (fun v => v k) = xs.map some ∧ xs.length = ps.length ∧
      Spec.mean xs = 0 ∧ Spec.variance xs = 1 := by
  obtain ⟨-, -, rfl⟩ := makeDataset_ok h
  have hs : stdPol ps i j ≠ 0 := by
    intro h0
    apply hv
    rw [← stdPol_sq, h0]
    norm_num
  have hsq := stdPol_sq ps i j
  have hst := standardized _ _ hs hsq
  have hmean : meanPol ps i j = Spec.mean (ps.map fun q => q i j) := by
    simp [meanPol, Spec.mean]
  rw [← hmean] at hst
  refine ⟨(ps.map fun p => p i j).map fun x => (x - meanPol ps i j) / stdPol ps i j, ?_,
    by rw [List.length_map, List.length_map], hst.1, hst.2⟩
  rw [List.map_map, List.map_map, List.map_map]
  apply List.map_congr_left
  intro p _
  have hc := (C74_components (fun _ : Fin 6 => (none : Option ℝ))
    (standardize (meanPol ps) (stdPol ps) p) i j k hk).2 hij
  have hf : standardize (meanPol ps) (stdPol ps) p i j =
      some ((p i j - meanPol ps i j) / stdPol ps i j) := by
    unfold standardize fdiv
    rw [if_neg hs]
  exact hc.trans hf

/-- C75: components that are constant are not finite. -/
theorem C75_constant (lattice : Mat3 ℝ) (numbers : List ℕ) (positions : List (List (Fin 3 → ℝ)))
    (ps : List (Mat3 ℝ)) (d : PolDataset) (h : makeDataset lattice numbers positions ps = .ok d)
    (i j : Fin 3) (k : Fin 6) (hk : Spec.VoigtIndex i j k) (hij : i ≤ j)
    (hv : ∀ p ∈ ps, ∀ q ∈ ps, p i j = q i j) : ∀ v ∈ d.scaled, v k = none := by
  obtain ⟨-, -, rfl⟩ := makeDataset_ok h
  intro v hvm
  obtain ⟨p, hp, rfl⟩ := List.mem_map.1 hvm
  rw [(C74_components (fun _ : Fin 6 => (none : Option ℝ)) _ i j k hk).2 hij]
  unfold standardize fdiv
  rw [if_pos]
  have hconst : ps.map (fun q => q i j) = List.replicate ps.length (p i j) := by
    rw [List.eq_replicate_iff]
    refine ⟨by simp, fun x hx => ?_⟩
    obtain ⟨q, hq, rfl⟩ := List.mem_map.1 hx
    exact hv q hq p hp
  have hlen : (ps.length : ℝ) ≠ 0 := by
    have : ps ≠ [] := List.ne_nil_of_mem hp
    simpa using this
  have : stdPol ps i j ^ 2 = 0 := by
    rw [stdPol_sq, hconst, Spec.variance, Spec.mean, Spec.mean]
    simp [hlen]
  exact pow_eq_zero_iff (two_ne_zero) |>.1 this

/-- C75: the scale modes "stddev" and "none" keep the mean or everything; modes other than these
three are refused. -/
theorem C75_modes (ps : List (Mat3 ℝ)) :
    (∃ vs, scaleAndFlatten ps "none".toList = .ok vs ∧
      List.Forall₂ (fun p v => ∀ i j k, Spec.VoigtIndex i j k → i ≤ j → v k = some (p i j)) ps vs) ∧
    (∃ vs, scaleAndFlatten ps "stddev".toList = .ok vs ∧
      List.Forall₂ (fun p v => ∀ i j k, Spec.VoigtIndex i j k → i ≤ j →
        ∀ s, 0 < s → s ^ 2 = Spec.variance (ps.map fun q => q i j) →
          v k = some ((p i j - Spec.mean (ps.map fun q => q i j)) / s +
            Spec.mean (ps.map fun q => q i j))) ps vs) ∧
    ∀ mode : Word, mode ≠ "standard".toList → mode ≠ "stddev".toList → mode ≠ "none".toList →
      scaleAndFlatten ps mode = .error .valueError := by
  refine ⟨⟨_, scaleAndFlatten_ok (g := noScale) (Or.inr (Or.inr rfl)) fun p => ?_, ?_⟩,
    ⟨_, scaleAndFlatten_ok (g := stddevScale (meanPol ps) (stdPol ps)) (Or.inr (Or.inl rfl))
      fun p => ?_, ?_⟩, ?_⟩
  · unfold scaleBy
    rw [if_neg (by decide), if_neg (by decide), if_neg (by simp)]
  · rw [List.forall₂_map_right_iff, List.forall₂_same]
    intro p _ i j k hk hij
    rw [(C74_components (fun _ : Fin 6 => (none : Option ℝ)) _ i j k hk).2 hij]
    rfl
  · unfold scaleBy
    rw [if_neg (by decide), if_pos rfl]
  · rw [List.forall₂_map_right_iff, List.forall₂_same]
    intro p _ i j k hk hij s hs hsv
    rw [(C74_components (fun _ : Fin 6 => (none : Option ℝ)) _ i j k hk).2 hij]
    have hstd : stdPol ps i j = s := by
      have h2 : stdPol ps i j ^ 2 = s ^ 2 := by rw [stdPol_sq, hsv]
      have h0 : 0 ≤ stdPol ps i j := Real.sqrt_nonneg _
      exact (pow_left_inj₀ h0 hs.le two_ne_zero).1 h2
    have hmean : meanPol ps i j = Spec.mean (ps.map fun q => q i j) := by
      simp [meanPol, Spec.mean]
    unfold stddevScale standardize fdiv
    rw [hstd, if_neg hs.ne', hmean]
    rfl
  · intro mode h1 h2 h3
    unfold scaleAndFlatten
    rw [if_pos ⟨h1, h2, h3⟩]

/-- C75, concrete: two samples whose xx components are 1 and 3. -/
example : ∃ d, makeDataset 1 [8] [[![0, 0, 0]], [![0, 0, 1 / 2]]] [1, (3 : ℝ) • (1 : Mat3 ℝ)] = .ok d ∧
    Spec.variance ([(1 : Mat3 ℝ), (3 : ℝ) • (1 : Mat3 ℝ)].map fun p => p 0 0) ≠ 0 := by
  have h : ∃ d, makeDataset 1 [8] [[![0, 0, 0]], [![0, 0, 1 / 2]]] [1, (3 : ℝ) • (1 : Mat3 ℝ)] =
      .ok d := by
    unfold makeDataset
    rw [if_neg (by simp), if_neg (by simp), scaleAndFlatten_standard]
    exact ⟨_, rfl⟩
  obtain ⟨d, hd⟩ := h
  refine ⟨d, hd, ?_⟩
  · simp [Spec.variance, Spec.mean, Matrix.smul_apply]
    norm_num

end Verif
