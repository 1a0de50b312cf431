import Verif.Proofs.Interpolation

/-! Helper lemmas: anatomy of a successful `add_dof`. -/

namespace Verif
open Spec

variable {N : ℕ}

/-! ### Points -/

theorem finitePts_some (pts : List (Option ℝ × Mat3 ℝ)) (fin : List (ℝ × Mat3 ℝ)) :
    finitePts pts = some fin ↔ pts = fin.map fun x => (some x.1, x.2) := by
  induction pts generalizing fin with
  | nil =>
    simp only [finitePts, Option.some.injEq]
    constructor
    · rintro rfl; rfl
    · intro h; exact (List.map_eq_nil_iff.1 h.symm).symm
  | cons p pts ih =>
    obtain ⟨o, y⟩ := p
    cases o with
    | none =>
      simp only [finitePts]
      constructor
      · intro h; cases h
      · intro h
        cases fin with
        | nil => simp at h
        | cons a fin => simp at h
    | some x =>
      simp only [finitePts, Option.map_eq_some_iff]
      constructor
      · rintro ⟨l, hl, rfl⟩
        rw [(ih l).1 hl]; rfl
      · intro h
        cases fin with
        | nil => simp at h
        | cons a fin =>
          simp only [List.map_cons, List.cons.injEq, Prod.mk.injEq, Option.some.injEq] at h
          refine ⟨fin, (ih fin).2 h.2, ?_⟩
          rw [h.1.1, h.1.2]

theorem closeOpt_some (a b : ℝ) : closeOpt (some a) (some b) = true ↔ TooClose a b := by
  unfold closeOpt isclose TooClose; simp

theorem hasDuplicates_false (xs : List ℝ) :
    hasDuplicates (xs.map some) = false ↔ xs.Pairwise fun a b => ¬ TooClose a b := by
  induction xs with
  | nil => simp [hasDuplicates]
  | cons x xs ih =>
    rw [List.map_cons, hasDuplicates, Bool.or_eq_false_iff, ih, List.pairwise_cons]
    refine and_congr_left fun _ => ?_
    rw [List.any_eq_false]
    constructor
    · intro h b hb hc
      exact h (some b) (List.mem_map_of_mem hb) ((closeOpt_some x b).2 hc)
    · intro h o ho
      obtain ⟨b, hb, rfl⟩ := List.mem_map.1 ho
      rw [closeOpt_some]; exact h b hb

theorem splineReady_sort (k : ℕ) (fin : List (ℝ × Mat3 ℝ)) (h1 : 1 ≤ k) (h2 : k < fin.length)
    (h3 : hasDuplicates ((fin.map Prod.fst).map some) = false) :
    SplineReady k (fin.insertionSort fun a b => a.1 ≤ b.1) := by
  refine ⟨h1, by rw [List.length_insertionSort]; exact h2, ?_⟩
  have hs : (fin.insertionSort fun a b => a.1 ≤ b.1).Pairwise fun a b => a.1 ≤ b.1 := by
    haveI : Std.Total (fun a b : ℝ × Mat3 ℝ => a.1 ≤ b.1) := ⟨fun a b => le_total a.1 b.1⟩
    haveI : IsTrans (ℝ × Mat3 ℝ) (fun a b => a.1 ≤ b.1) := ⟨fun a b c => le_trans⟩
    exact List.pairwise_insertionSort _ _
  have hd : fin.Pairwise fun a b =>
      1 / 10 ^ 8 + 1 / 10 ^ 5 * min |a.1| |b.1| < |a.1 - b.1| := by
    rw [hasDuplicates_false, List.pairwise_map] at h3
    refine h3.imp fun {a b} h => ?_
    unfold TooClose at h
    push Not at h
    refine lt_of_le_of_lt ?_ h
    have := min_le_right |a.1| |b.1|
    linarith
  have hd' : (fin.insertionSort fun a b => a.1 ≤ b.1).Pairwise fun a b =>
      1 / 10 ^ 8 + 1 / 10 ^ 5 * min |a.1| |b.1| < |a.1 - b.1| := by
    refine (List.Perm.pairwise_iff ?_ (List.perm_insertionSort _ fin)).2 hd
    intro a b h
    rw [min_comm, abs_sub_comm]; exact h
  refine (hs.and hd').imp fun {a b} h => ?_
  obtain ⟨h4, h5⟩ := h
  rw [abs_sub_comm, abs_of_nonneg (sub_nonneg.2 h4)] at h5
  refine ⟨?_, h5⟩
  have : (0 : ℝ) < 1 / 10 ^ 8 + 1 / 10 ^ 5 * min |a.1| |b.1| := by positivity
  linarith

/-! ### Warnings -/

theorem listMax_le (x : ℝ) (xs : List ℝ) (c : ℝ) :
    listMax x xs ≤ c ↔ ∀ y ∈ x :: xs, y ≤ c := by
  induction xs generalizing x with
  | nil => simp [listMax]
  | cons a xs ih => rw [listMax, ih]; simp [max_le_iff, and_assoc]

theorem le_listMin (x : ℝ) (xs : List ℝ) (c : ℝ) :
    c ≤ listMin x xs ↔ ∀ y ∈ x :: xs, c ≤ y := by
  induction xs generalizing x with
  | nil => simp [listMin]
  | cons a xs ih => rw [listMin, ih]; simp [le_min_iff, and_assoc]

open Classical in
/-- The warnings for a list of amplitudes, in terms of the amplitudes. -/
noncomputable def warnSpec (xs : List ℝ) : List DofWarning :=
  (if ∀ x ∈ xs, x ≤ 1 / 10 ^ 3 then [.maxNonpositive] else []) ++
  (if ∀ x ∈ xs, -(1 / 10 ^ 3) ≤ x then [.minNonnegative] else [])

theorem dofWarnings_eq (xs : List ℝ) (h : xs ≠ []) : dofWarnings xs = warnSpec xs := by
  cases xs with
  | nil => exact absurd rfl h
  | cons x xs =>
    unfold dofWarnings warnSpec
    dsimp only
    congr 1
    · refine if_congr ?_ rfl rfl
      rw [← listMax_le]
      simp only [isclose, sub_zero, abs_zero, mul_zero, add_zero, Bool.or_eq_true,
        decide_eq_true_eq]
      constructor
      · rintro (h | h)
        · exact (abs_le.1 h).2
        · linarith
      · intro h
        rcases le_total (listMax x xs) 0 with h0 | h0
        · exact Or.inr h0
        · left; rw [abs_of_nonneg h0]; exact h
    · refine if_congr ?_ rfl rfl
      rw [← le_listMin]
      simp only [isclose, sub_zero, abs_zero, mul_zero, add_zero, Bool.or_eq_true,
        decide_eq_true_eq]
      constructor
      · rintro (h | h)
        · exact (abs_le.1 h).1
        · linarith
      · intro h
        rcases le_total 0 (listMin x xs) with h0 | h0
        · exact Or.inr h0
        · left; rw [abs_of_nonpos h0]; linarith

/-! ### Building -/

/-- Interpolation points of a group: all finite. -/
def FinPts (pts : List (Option ℝ × Mat3 ℝ)) (fin : List (ℝ × Mat3 ℝ)) : Prop :=
  pts = fin.map fun x => (some x.1, x.2)

theorem buildOne_ok (spline : SplineFn) (we : Bool) (k : ℕ) (hk : 1 ≤ k)
    (pts : List (Option ℝ × Mat3 ℝ)) (f : ℝ → Mat3 ℝ) (ws : List DofWarning)
    (h : buildOne spline we k pts = (.ok f, ws)) :
    ∃ fin, FinPts pts fin ∧ SplineReady k (fin.insertionSort fun a b => a.1 ≤ b.1) ∧
      spline k (fin.insertionSort fun a b => a.1 ≤ b.1) = .ok f ∧
      ws = warnSpec (fin.map Prod.fst) ∧ (we = true → ws = []) := by
  unfold buildOne at h
  split_ifs at h with h1 h2
  · cases h
  · cases h
  · cases h3 : finitePts pts with
    | none => rw [h3] at h; cases h
    | some fin =>
      rw [h3] at h
      dsimp only at h
      have h4 := (finitePts_some _ _).1 h3
      have hlen : pts.length = fin.length := by rw [h4, List.length_map]
      have h5 : hasDuplicates ((fin.map Prod.fst).map some) = false := by
        rw [Bool.not_eq_true, h4] at h1
        rw [← h1, List.map_map, List.map_map]; rfl
      have h6 := splineReady_sort k fin hk (by omega) h5
      have hne : fin.map Prod.fst ≠ [] := fun h => by
        rw [List.map_eq_nil_iff.1 h, List.length_nil] at hlen
        omega
      rw [dofWarnings_eq _ hne] at h
      split_ifs at h with h7
      · cases h
      · obtain ⟨h8, rfl⟩ := Prod.mk.inj h
        refine ⟨fin, h4, h6, h8, rfl, fun hw => ?_⟩
        subst hw
        simpa using h7

theorem buildAll_ok (spline : SplineFn) (we : Bool) (k : ℕ) (hk : 1 ≤ k)
    (gs : List (DofGroup N)) (fs : List (ℝ → Mat3 ℝ)) (ws : List DofWarning)
    (h : buildAll spline we k gs = (.ok fs, ws)) :
    ∃ fins : List (List (ℝ × Mat3 ℝ)),
      List.Forall₂ (fun g fin => FinPts g.pts fin) gs fins ∧
      List.Forall₂ (fun fin f => SplineReady k (fin.insertionSort fun a b => a.1 ≤ b.1) ∧
        spline k (fin.insertionSort fun a b => a.1 ≤ b.1) = .ok f) fins fs ∧
      ws = fins.flatMap (fun fin => warnSpec (fin.map Prod.fst)) ∧ (we = true → ws = []) := by
  induction gs generalizing fs ws with
  | nil =>
    cases h
    exact ⟨[], .nil, .nil, rfl, fun _ => rfl⟩
  | cons g gs ih =>
    unfold buildAll at h
    split at h
    · cases h
    · rename_i f ws1 h1
      split at h
      · cases h
      · rename_i fs' ws2 h2
        cases h
        obtain ⟨fin, a1, a2, a3, a4, a5⟩ := buildOne_ok spline we k hk _ _ _ h1
        obtain ⟨fins, b1, b2, b3, b4⟩ := ih _ _ h2
        refine ⟨fin :: fins, .cons a1 b1, .cons ⟨a2, a3⟩ b2, ?_, fun hw => ?_⟩
        · rw [a4, b3]; rfl
        · rw [a5 hw, b4 hw]; rfl

/-! ### Groups -/

theorem argmaxFrom_max {ι : Type} (f : ι → ℝ) (b : ι) (xs : List ι) :
    (∀ y ∈ b :: xs, f y ≤ f (argmaxFrom f b xs)) ∧ argmaxFrom f b xs ∈ b :: xs := by
  induction xs generalizing b with
  | nil => simp [argmaxFrom]
  | cons x xs ih =>
    unfold argmaxFrom
    split_ifs with h
    · obtain ⟨h1, h2⟩ := ih x
      refine ⟨fun y hy => ?_, List.mem_cons_of_mem _ h2⟩
      rcases List.mem_cons.1 hy with rfl | hy
      · exact h.le.trans (h1 x (by simp))
      · exact h1 y hy
    · obtain ⟨h1, h2⟩ := ih b
      refine ⟨fun y hy => ?_, ?_⟩
      · rcases List.mem_cons.1 hy with rfl | hy
        · exact h1 y (by simp)
        · rcases List.mem_cons.1 hy with rfl | hy
          · exact (not_lt.1 h).trans (h1 b (by simp))
          · exact h1 y (by simp [hy])
      · rcases List.mem_cons.1 h2 with h2 | h2
        · rw [h2]; simp
        · simp [h2]

theorem mem_posIndexes (x : Fin N × Fin 3) : x ∈ posIndexes N := by
  unfold posIndexes
  simp only [List.mem_flatMap, List.mem_map, List.mem_finRange, true_and]
  exact ⟨x.1, x.2, rfl⟩

/-- The component at which `multiplier` takes the ratio. -/
theorem multiplier_eq (child : Pos N ℝ) (hc : child ≠ 0) :
    ∃ i, flat child i ≠ 0 ∧ ∀ c, multiplier child c =
      if flat c i = 0 then none else some (flat child i / flat c i) := by
  unfold multiplier
  cases hp : posIndexes N with
  | nil =>
    exfalso
    apply hc
    funext a i
    have := mem_posIndexes (a, i)
    rw [hp] at this; simp at this
  | cons x xs =>
    refine ⟨argmaxFrom (fun i => |flat child i|) x xs, fun h0 => hc ?_, fun c => rfl⟩
    obtain ⟨h1, _⟩ := argmaxFrom_max (fun i => |flat child i|) x xs
    funext a i
    have h2 := h1 (a, i) (hp ▸ mem_posIndexes (a, i))
    rw [h0, abs_zero] at h2
    exact abs_eq_zero.1 (le_antisymm h2 (abs_nonneg _))

theorem multiplier_smul (child : Pos N ℝ) (hc : child ≠ 0) (k : ℝ) (hk : k ≠ 0) :
    multiplier child (fun a i => k * child a i) = some (1 / k) := by
  obtain ⟨i, h1, h2⟩ := multiplier_eq child hc
  rw [h2]
  have : flat (fun a i => k * child a i) i = k * flat child i := rfl
  rw [this, if_neg (mul_ne_zero hk h1)]
  congr 1
  field_simp

theorem multiplier_self (child : Pos N ℝ) (hc : child ≠ 0) : multiplier child child = some 1 := by
  have := multiplier_smul child hc 1 one_ne_zero
  simpa using this

/-- One interpolation point of the image of a degree of freedom. -/
noncomputable def imagePoint (refPol : Mat3 ℝ) (mu : Option ℝ) (op : SymOp) (x : ℝ × Mat3 ℝ) :
    Option ℝ × Mat3 ℝ :=
  (mu.map (· * x.1), op.rot⁻¹ * (x.2 - refPol) * op.rot)

theorem groupPoints_ok (refPol : Mat3 ℝ) (amps : List ℝ) (pols : List (Mat3 ℝ)) (mu : Option ℝ)
    (op : SymOp) (l : List (Option ℝ × Mat3 ℝ)) (h : groupPoints refPol amps pols mu op = .ok l) :
    l = (amps.zip pols).map (imagePoint refPol mu op) := by
  have := (mapM_except_ok _ _ _).1 h
  rw [← List.forall₂_eq_eq_eq, List.forall₂_map_right_iff]
  refine this.flip.imp fun b a hab => ?_
  unfold npInv at hab
  by_cases hd : op.rot.det = 0
  · rw [if_pos hd] at hab; cases hab
  · rw [if_neg hd] at hab; exact (Except.ok.inj hab).symm

theorem dofGroup_ok (m : IModel N) (amps : List ℝ) (pols : List (Mat3 ℝ)) (inc : Bool)
    (g : EqGroup N) (G : DofGroup N) (h : dofGroup m amps pols inc g = .ok G) :
    ∃ child rest, g.displacements = child :: rest ∧
      G.basis = normalizePos (m.ref.getCartDisplacement child) ∧
      G.pts = refPoint inc ++ (g.displacements.zip g.transformations).flatMap fun x =>
        (amps.zip pols).map (imagePoint m.refPol (multiplier child x.1) x.2) := by
  unfold dofGroup at h
  cases hg : g.displacements with
  | nil => rw [hg] at h; cases h
  | cons child rest =>
    rw [hg] at h
    dsimp only at h
    cases hm : ((child :: rest).zip g.transformations).mapM (fun x =>
        groupPoints m.refPol amps pols (multiplier child x.1) x.2) with
    | error e => rw [hm] at h; cases h
    | ok pts =>
      rw [hm] at h
      change Except.ok _ = Except.ok _ at h
      cases h
      refine ⟨child, rest, rfl, rfl, ?_⟩
      dsimp only
      congr 1
      have := (mapM_except_ok _ _ _).1 hm
      rw [List.flatMap_def]
      congr 1
      rw [← List.forall₂_eq_eq_eq, List.forall₂_map_right_iff]
      exact this.flip.imp fun b a hab => groupPoints_ok _ _ _ _ _ _ hab

theorem normalizePos_some (v b : Pos N ℝ) (h : normalizePos v = some b) :
    v ≠ 0 ∧ inner3 b b = 1 ∧ ∃ c > 0, ∀ a i, b a i = c * v a i := by
  unfold normalizePos at h
  split_ifs at h with h0
  cases h
  have hpos : 0 < norm2 (flat v) := lt_of_le_of_ne (norm2_nonneg _) (Ne.symm h0)
  refine ⟨fun hv => h0 ?_, ?_, 1 / norm2 (flat v), by positivity, fun a i => by ring⟩
  · rw [norm2_eq_zero, hv]; rfl
  · have h2 := norm2_sq (flat v)
    have h3 : inner3 v v = norm2 (flat v) ^ 2 := by
      rw [h2, dot, Fintype.sum_prod_type]; rfl
    unfold inner3 at h3 ⊢
    have : ∀ a j, v a j / norm2 (flat v) * (v a j / norm2 (flat v))
        = v a j * v a j / norm2 (flat v) ^ 2 := fun a j => by ring
    simp only [this, ← Finset.sum_div]
    rw [h3]
    exact div_self (by positivity)

end Verif
