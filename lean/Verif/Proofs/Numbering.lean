import Verif.Proofs.Frame
import Verif.Spec.Numbering

/-!
# The same crystal with its atoms numbered differently

`σ` lists the old numbers in the new order: new atom `a` is old atom `σ a`.
-/

namespace Verif

open Spec

noncomputable section

variable {N : ℕ}

/-! ## The changed descriptions -/

/-- An `(N,3)` array with rows in the new order. -/
def renum (σ : Equiv.Perm (Fin N)) (d : Pos N ℝ) : Pos N ℝ := fun a => d (σ a)

/-- The structure with atoms in the new order.  `eqs` is what spglib returns as equivalent atoms
for the new order. -/
def RefStructure.renumbered (σ : Equiv.Perm (Fin N)) (eqs : List ℕ) (s : RefStructure N) :
    RefStructure N :=
  { atomicNumbers := fun a => s.atomicNumbers (σ a), lattice := s.lattice,
    positions := renum σ s.positions, ops := s.ops,
    perms := s.perms.map fun P j i => P (σ j) (σ i), equivAtoms := eqs }

def IModel.renumbered (σ : Equiv.Perm (Fin N)) (eqs : List ℕ) (m : IModel N) : IModel N :=
  { m with ref := m.ref.renumbered σ eqs, basis := m.basis.map (renum σ) }

def EqGroup.renumbered (σ : Equiv.Perm (Fin N)) (g : EqGroup N) : EqGroup N :=
  { g with displacements := g.displacements.map (renum σ) }

def EqState.renumbered (σ : Equiv.Perm (Fin N)) (st : EqState N) : EqState N :=
  ⟨st.result.map (EqGroup.renumbered σ), st.orth.map (renum σ)⟩

def DofGroup.renumbered (σ : Equiv.Perm (Fin N)) (g : DofGroup N) : DofGroup N :=
  { g with basis := g.basis.map (renum σ) }

def Outcome.renumbered (σ : Equiv.Perm (Fin N)) (eqs : List ℕ) (o : Outcome N) : Outcome N :=
  { o with state := o.state.renumbered σ eqs }

/-- A file of the same calculation with atoms in the new order. -/
def DofFile.renumbered (σ : Equiv.Perm (Fin N)) (f : DofFile N) : DofFile N :=
  Except.map (fun x => (x.1.map (renum σ), x.2)) f

/-! ## Geometry -/

theorem dot_renum (σ : Equiv.Perm (Fin N)) (u v : Pos N ℝ) :
    dot (flat (renum σ u)) (flat (renum σ v)) = dot (flat u) (flat v) := by
  unfold dot flat renum
  rw [Fintype.sum_prod_type, Fintype.sum_prod_type]
  exact Equiv.sum_comp σ fun a => ∑ i, u a i * v a i

theorem norm_renum (σ : Equiv.Perm (Fin N)) (u : Pos N ℝ) :
    norm2 (flat (renum σ u)) = norm2 (flat u) := by
  unfold norm2; rw [dot_renum]

theorem normalizePos_renum (σ : Equiv.Perm (Fin N)) (d : Pos N ℝ) :
    normalizePos (renum σ d) = (normalizePos d).map (renum σ) := by
  unfold normalizePos
  rw [norm_renum]
  split_ifs
  · rfl
  · rfl

theorem normalizeTenth_renum (σ : Equiv.Perm (Fin N)) (d : Pos N ℝ) :
    normalizeTenth (renum σ d) = (normalizeTenth d).map (renum σ) := by
  unfold normalizeTenth
  dsimp only
  rw [show (flat fun a i => renum σ d a i * 10) = flat (renum σ fun a i => d a i * 10) from rfl,
    norm_renum]
  split_ifs
  · rfl
  · rfl

theorem scaleDisplacement_renum (σ : Equiv.Perm (Fin N)) (d : Pos N ℝ) :
    scaleDisplacement (renum σ d) = (scaleDisplacement d).map (renum σ) := by
  unfold scaleDisplacement
  dsimp only
  rw [show applyPbcDisplacement (renum σ d) = renum σ (applyPbcDisplacement d) from rfl, norm_renum]
  split_ifs
  · rfl
  · rfl

theorem dotNan_renum (σ : Equiv.Perm (Fin N)) (u v : Pos N ℝ) :
    dotNan (normalize (flat (renum σ u))) (normalize (flat (renum σ v))) =
      dotNan (normalize (flat u)) (normalize (flat v)) := by
  unfold normalize
  rw [norm_renum, norm_renum]
  by_cases hu : norm2 (flat u) = 0
  · simp [hu, dotNan]
  by_cases hv : norm2 (flat v) = 0
  · simp [hv, hu, dotNan]
  rw [if_neg hu, if_neg hv, if_neg hu, if_neg hv]
  change some _ = some _
  congr 1
  have h : ∀ w w' : Fin N × Fin 3 → ℝ, dot (fun i => w i / norm2 (flat u))
      (fun i => w' i / norm2 (flat v)) = dot w w' / (norm2 (flat u) * norm2 (flat v)) := by
    intro w w'
    unfold dot
    rw [Finset.sum_div]
    exact Finset.sum_congr rfl fun i _ => by field_simp
  rw [h, h, dot_renum]

theorem orthogonal_renum (σ : Equiv.Perm (Fin N)) (u : Pos N ℝ) (vs : List (Pos N ℝ)) :
    isOrthogonalToAll (flat (renum σ u)) ((vs.map (renum σ)).map flat) =
      isOrthogonalToAll (flat u) (vs.map flat) := by
  unfold isOrthogonalToAll
  dsimp only
  rw [List.map_map, firstIndex_map, firstIndex_map]
  congr 1
  funext v
  simp only [Function.comp, dotNan_renum]

theorem areCollinear_renum (σ : Equiv.Perm (Fin N)) (u v : Pos N ℝ) :
    areCollinear (flat (renum σ u)) (flat (renum σ v)) = areCollinear (flat u) (flat v) := by
  unfold areCollinear
  dsimp only
  rw [dotNan_renum]

theorem nonCollinear_renum (σ : Equiv.Perm (Fin N)) (u : Pos N ℝ) (vs : List (Pos N ℝ)) :
    isNonCollinearWithAll (flat (renum σ u)) ((vs.map (renum σ)).map flat) =
      isNonCollinearWithAll (flat u) (vs.map flat) := by
  unfold isNonCollinearWithAll
  rw [List.map_map, firstIndex_map, firstIndex_map]
  congr 1
  funext v
  exact areCollinear_renum σ u v

theorem collinear_renum (σ : Equiv.Perm (Fin N)) (u : Pos N ℝ) (vs : List (Pos N ℝ)) :
    isCollinearWithAll (flat (renum σ u)) ((vs.map (renum σ)).map flat) =
      isCollinearWithAll (flat u) (vs.map flat) := by
  unfold isCollinearWithAll
  rw [List.map_map, firstIndex_map, firstIndex_map]
  congr 1
  funext v
  simp only [Function.comp, areCollinear_renum]

theorem allClose5_renum (σ : Equiv.Perm (Fin N)) (c m : Pos N ℝ) :
    allClose5 (renum σ c) (renum σ m) = allClose5 c m := by
  unfold allClose5 renum
  rw [decide_eq_decide]
  constructor
  · intro h a i
    have := h (σ.symm a) i
    rwa [σ.apply_symm_apply] at this
  · intro h a i
    exact h (σ a) i

theorem verify_renum (σ : Equiv.Perm (Fin N)) (p : Pos N ℝ) :
    verifyPositions (renum σ p) = verifyPositions p := by
  unfold verifyPositions
  have h : ((∃ a i, 0 > renum σ p a i) ∨ (∃ a i, renum σ p a i > 1)) ↔
      ((∃ a i, 0 > p a i) ∨ (∃ a i, p a i > 1)) := by
    unfold renum
    refine or_congr ⟨?_, ?_⟩ ⟨?_, ?_⟩
    · rintro ⟨a, i, h⟩; exact ⟨σ a, i, h⟩
    · rintro ⟨a, i, h⟩; exact ⟨σ.symm a, i, by rwa [σ.apply_symm_apply]⟩
    · rintro ⟨a, i, h⟩; exact ⟨σ a, i, h⟩
    · rintro ⟨a, i, h⟩; exact ⟨σ.symm a, i, by rwa [σ.apply_symm_apply]⟩
  by_cases hp : (∃ a i, 0 > p a i) ∨ (∃ a i, p a i > 1)
  · rw [if_pos hp, if_pos (h.2 hp)]
  · rw [if_neg hp, if_neg (mt h.1 hp)]

theorem transform_renum (σ : Equiv.Perm (Fin N)) (p : Pos N ℝ) (R : Mat3 ℝ) (t : Vec3) :
    transformPositions (renum σ p) R t = (transformPositions p R t).map (renum σ) := by
  unfold transformPositions
  rw [verify_renum]
  cases verifyPositions p with
  | error e => rfl
  | ok u => rfl

theorem comShift_renum (σ : Equiv.Perm (Fin N)) (p : Pos N ℝ) : comShift (renum σ p) = comShift p := by
  funext i
  unfold comShift renum
  rw [Equiv.sum_comp σ fun a => p a i]

theorem permApply_renum (σ : Equiv.Perm (Fin N)) (P : PermMat N) (p : Pos N ℝ) :
    permApply (fun j i => P (σ j) (σ i)) (renum σ p) = renum σ (permApply P p) := by
  funext j c
  unfold permApply renum
  exact Equiv.sum_comp σ fun i => (if P (σ j) i then 1 else 0) * p i c

theorem permMatrixOf_renum (σ : Equiv.Perm (Fin N)) (t : Vec3) (p : Pos N ℝ) (op : SymOp) :
    permMatrixOf t (renum σ p) op =
      (permMatrixOf t p op).map fun P j i => P (σ j) (σ i) := by
  unfold permMatrixOf
  rw [transform_renum]
  cases transformPositions p op.rot fun i => op.trans i + t i with
  | error e => rfl
  | ok q => rfl

theorem perms_renum (σ : Equiv.Perm (Fin N)) (p : Pos N ℝ) (ops : List SymOp) :
    computePermutationMatrices ops (renum σ p) =
      (computePermutationMatrices ops p).map (List.map fun P j i => P (σ j) (σ i)) := by
  unfold computePermutationMatrices
  rw [comShift_renum, ← mapM_except_map]
  congr 1
  funext op
  exact permMatrixOf_renum σ _ p op

theorem candidate_renum (σ : Equiv.Perm (Fin N)) (p q : Pos N ℝ) (op : SymOp) (P : PermMat N) :
    candidate (renum σ p) (renum σ q) op (fun j i => P (σ j) (σ i)) =
      (candidate p q op P).map (renum σ) := by
  unfold candidate
  rw [transform_renum]
  cases transformPositions q op.rot op.trans with
  | error e => rfl
  | ok c =>
    change Except.ok (calcDisplacement (renum σ p)
      (permApply (fun j i => P (σ j) (σ i)) (renum σ c))) = Except.ok _
    rw [permApply_renum]
    rfl

theorem modAt_map {α : Type} (r : α → α) (f f' : α → α) (h : ∀ x, f' (r x) = r (f x)) :
    ∀ (k : ℕ) (l : List α), modAt f' k (l.map r) = (modAt f k l).map r
  | _, [] => by unfold modAt; rfl
  | 0, x :: l => by
    change f' (r x) :: l.map r = _
    rw [h]; rfl
  | k + 1, x :: l => by
    change r x :: modAt f' k (l.map r) = _
    rw [modAt_map r f f' h k l]; rfl

theorem eqInsert_renum (σ : Equiv.Perm (Fin N)) (st : EqState N) (op : SymOp) (c : Pos N ℝ) :
    eqInsert (st.renumbered σ) op (renum σ c) = (eqInsert st op c).renumbered σ := by
  unfold eqInsert
  rw [show (st.renumbered σ).orth = st.orth.map (renum σ) from rfl, orthogonal_renum,
    nonCollinear_renum]
  dsimp only
  by_cases h1 : isOrthogonalToAll (flat c) (st.orth.map flat) = -1
  · rw [if_pos h1, if_pos h1]
    unfold EqState.renumbered
    rw [List.map_append, List.map_append]
    rfl
  · rw [if_neg h1, if_neg h1]
    by_cases h2 : isNonCollinearWithAll (flat c) (st.orth.map flat) ≠ -1
    · rw [if_pos h2, if_pos h2]
      unfold EqState.renumbered
      congr 1
      refine modAt_map (EqGroup.renumbered σ) _ _ (fun g => ?_) _ _
      have h3 : ((EqGroup.renumbered σ g).displacements.any fun m => allClose5 (renum σ c) m) =
          g.displacements.any fun m => allClose5 c m := by
        unfold EqGroup.renumbered
        rw [List.any_map]
        congr 1
        funext m
        exact allClose5_renum σ c m
      rw [h3]
      split_ifs
      · rfl
      · unfold EqGroup.renumbered
        rw [List.map_append]
        rfl
    · rw [if_neg h2, if_neg h2]

theorem eqLoop_renum (σ : Equiv.Perm (Fin N)) (p q : Pos N ℝ) :
    ∀ (l : List (SymOp × PermMat N)) (st : EqState N),
    eqLoop (renum σ p) (renum σ q) (l.map fun x => (x.1, fun j i => x.2 (σ j) (σ i)))
      (st.renumbered σ) = (eqLoop p q l st).map (EqState.renumbered σ)
  | [], _ => rfl
  | (op, P) :: l, st => by
    rw [List.map_cons, eqLoop, eqLoop, candidate_renum]
    cases candidate p q op P with
    | error e => rfl
    | ok c =>
      change eqLoop (renum σ p) (renum σ q) _ (eqInsert (st.renumbered σ) op (renum σ c)) = _
      rw [eqInsert_renum, eqLoop_renum σ p q l]
      rfl

theorem zip_renum (σ : Equiv.Perm (Fin N)) (eqs : List ℕ) (s : RefStructure N) :
    (s.renumbered σ eqs).ops.zip (s.renumbered σ eqs).perms =
      (s.ops.zip s.perms).map fun x => (x.1, fun j i => x.2 (σ j) (σ i)) := by
  unfold RefStructure.renumbered
  dsimp only
  rw [List.zip_map_right]
  rfl

theorem equivalent_renum (σ : Equiv.Perm (Fin N)) (eqs : List ℕ) (s : RefStructure N)
    (d : Pos N ℝ) :
    (s.renumbered σ eqs).getEquivalentDisplacements (renum σ d) =
      (s.getEquivalentDisplacements d).map (Option.map (List.map (EqGroup.renumbered σ))) := by
  unfold RefStructure.getEquivalentDisplacements
  rw [scaleDisplacement_renum, zip_renum]
  cases scaleDisplacement d with
  | none =>
    dsimp only [Option.map]
    rw [List.isEmpty_map]
    split_ifs <;> rfl
  | some d =>
    dsimp only [Option.map]
    change (do
      let st ← eqLoop (renum σ s.positions) (renum σ (displacePositions s.positions d))
        ((s.ops.zip s.perms).map fun x : SymOp × PermMat N => (x.1, fun j i => x.2 (σ j) (σ i)))
        ((⟨[], []⟩ : EqState N).renumbered σ)
      return some st.result) = _
    rw [eqLoop_renum]
    cases eqLoop s.positions (displacePositions s.positions d) (s.ops.zip s.perms) ⟨[], []⟩ with
    | error e => rfl
    | ok st => rfl

theorem cart_renum (σ : Equiv.Perm (Fin N)) (eqs : List ℕ) (s : RefStructure N) (d : Pos N ℝ) :
    (s.renumbered σ eqs).getCartDisplacement (renum σ d) = renum σ (s.getCartDisplacement d) := rfl

theorem frac_renum (σ : Equiv.Perm (Fin N)) (eqs : List ℕ) (s : RefStructure N) (d : Pos N ℝ) :
    (s.renumbered σ eqs).getFracDisplacement (renum σ d) =
      (s.getFracDisplacement d).map (renum σ) := by
  unfold RefStructure.getFracDisplacement RefStructure.renumbered
  dsimp only
  cases npInv s.lattice with
  | error e => rfl
  | ok M => rfl

/-! ## The multiplier -/

theorem argmaxFrom_spec {ι : Type} (f : ι → ℝ) : ∀ (b : ι) (xs : List ι),
    ∃ pre post, b :: xs = pre ++ argmaxFrom f b xs :: post ∧
      (∀ y ∈ pre, f y < f (argmaxFrom f b xs)) ∧ ∀ y ∈ post, f y ≤ f (argmaxFrom f b xs)
  | b, [] => ⟨[], [], rfl, by simp, by simp⟩
  | b, x :: xs => by
    unfold argmaxFrom
    by_cases h : f x > f b
    · rw [if_pos h]
      obtain ⟨pre, post, h1, h2, h3⟩ := argmaxFrom_spec f x xs
      refine ⟨b :: pre, post, by rw [h1]; rfl, ?_, h3⟩
      intro y hy
      rcases List.mem_cons.1 hy with rfl | hy
      · refine lt_of_lt_of_le h ?_
        have hx : x ∈ pre ++ argmaxFrom f x xs :: post := by rw [← h1]; simp
        rcases List.mem_append.1 hx with hx | hx
        · exact (h2 x hx).le
        · rcases List.mem_cons.1 hx with hx | hx
          · exact le_of_eq (congrArg f hx)
          · exact h3 x hx
      · exact h2 y hy
    · rw [if_neg h]
      obtain ⟨pre, post, h1, h2, h3⟩ := argmaxFrom_spec f b xs
      cases pre with
      | nil =>
        simp only [List.nil_append, List.cons.injEq] at h1
        refine ⟨[], x :: post, by rw [List.nil_append, ← h1.1, h1.2], by simp, ?_⟩
        intro y hy
        rcases List.mem_cons.1 hy with rfl | hy
        · rw [← h1.1]; exact not_lt.1 h
        · exact h3 y hy
      | cons p pre =>
        simp only [List.cons_append, List.cons.injEq] at h1
        refine ⟨b :: x :: pre, post, congrArg (fun l => b :: x :: l) h1.2, ?_, h3⟩
        have hb : f b < f (argmaxFrom f b xs) := by rw [h1.1]; rw [h1.1] at h2; exact h2 p (by simp)
        intro y hy
        rcases List.mem_cons.1 hy with rfl | hy
        · exact hb
        rcases List.mem_cons.1 hy with rfl | hy
        · exact lt_of_le_of_lt (not_lt.1 h) hb
        · exact h2 y (by simp [hy])

theorem posIndexes_sorted (N : ℕ) :
    (posIndexes N).Pairwise fun x y => x.1 < y.1 ∨ x.1 = y.1 ∧ x.2 < y.2 := by
  unfold posIndexes
  rw [List.pairwise_flatMap]
  constructor
  · intro a _
    rw [List.pairwise_map]
    exact (List.pairwise_lt_finRange 3).imp fun h => Or.inr ⟨rfl, h⟩
  · refine (List.pairwise_lt_finRange N).imp fun {a b} h => ?_
    intro x hx y hy
    obtain ⟨i, _, rfl⟩ := List.mem_map.1 hx
    obtain ⟨j, _, rfl⟩ := List.mem_map.1 hy
    exact Or.inl h

/-- The component read by `multiplier`: a largest one, the first of its kind in its row. -/
theorem multiplier_at [NeZero N] (child : Pos N ℝ) : ∃ a i, (∀ b j, |child b j| ≤ |child a i|) ∧
    (∀ j < i, |child a j| < |child a i|) ∧
    ∀ c : Pos N ℝ, multiplier child c = if c a i = 0 then none else some (child a i / c a i) := by
  cases hl : posIndexes N with
  | nil =>
    have := mem_posIndexes ((0, 0) : Fin N × Fin 3)
    rw [hl] at this
    cases this
  | cons x xs =>
    obtain ⟨pre, post, h1, h2, h3⟩ := argmaxFrom_spec (fun i => |flat child i|) x xs
    generalize hm : argmaxFrom (fun i => |flat child i|) x xs = m at h1 h2 h3
    have hs := posIndexes_sorted N
    refine ⟨m.1, m.2, ?_, ?_, ?_⟩
    · intro b j
      have hb := mem_posIndexes (b, j)
      rw [hl, h1] at hb
      rcases List.mem_append.1 hb with hb | hb
      · exact (h2 _ hb).le
      · rcases List.mem_cons.1 hb with hb | hb
        · rw [← hb]
        · exact h3 _ hb
    · intro j hj
      have hb := mem_posIndexes (m.1, j)
      rw [hl, h1] at hb
      rw [hl, h1] at hs
      rcases List.mem_append.1 hb with hb | hb
      · exact h2 _ hb
      · rcases List.mem_cons.1 hb with hb | hb
        · have := congrArg Prod.snd hb
          exact absurd this hj.ne
        · have := List.rel_of_pairwise_cons (List.pairwise_append.1 hs).2.1 hb
          rcases this with h | h
          · exact absurd h (lt_irrefl _)
          · exact absurd h.2 (not_lt.2 hj.le)
    · intro c
      unfold multiplier
      rw [hl]
      dsimp only
      rw [hm]
      rfl

theorem multiplier_renum (σ : Equiv.Perm (Fin N)) {child c : Pos N ℝ} (hz : child = 0 → c = 0)
    (h : TiesAgree child c) : multiplier (renum σ child) (renum σ c) = multiplier child c := by
  by_cases h0 : child = 0
  · have hn : ∀ d : Pos N ℝ, multiplier d 0 = none := by
      intro d
      unfold multiplier
      cases posIndexes N with
      | nil => rfl
      | cons x xs => exact if_pos rfl
    rw [hz h0, hn, show renum σ (0 : Pos N ℝ) = 0 from rfl, hn]
  have hne : ∃ a : Fin N, ∃ i, child a i ≠ 0 := by
    by_contra hn
    push Not at hn
    exact h0 (funext fun a => funext fun i => hn a i)
  obtain ⟨a0, i0, h00⟩ := hne
  have : NeZero N := ⟨fun hN => by subst hN; exact a0.elim0⟩
  obtain ⟨a, i, h1, h2, h3⟩ := multiplier_at child
  obtain ⟨b, j, k1, k2, k3⟩ := multiplier_at (renum σ child)
  rw [h3, k3]
  unfold renum at k1 k2 ⊢
  have k1' : ∀ k l, |child k l| ≤ |child (σ b) j| := fun k l => by
    have := k1 (σ.symm k) l
    rwa [σ.apply_symm_apply] at this
  have hpos : ∀ {x l}, (∀ k l', |child k l'| ≤ |child x l|) → child x l ≠ 0 := by
    intro x l hx h
    have := hx a0 i0
    rw [h, abs_zero] at this
    exact h00 (abs_eq_zero.1 (le_antisymm this (abs_nonneg _)))
  by_cases hab : a = σ b
  · subst hab
    have hij : i = j := by
      rcases lt_trichotomy i j with hlt | heq | hgt
      · exact absurd (k2 i hlt) (not_lt.2 (h1 _ _))
      · exact heq
      · exact absurd (h2 j hgt) (not_lt.2 (k1' _ _))
    rw [hij]
  · have e := h a i (σ b) j hab h1 k1'
    have p1 := hpos h1
    have p2 := hpos k1'
    by_cases hc : c a i = 0
    · have : c (σ b) j = 0 := by
        rw [hc, mul_zero] at e
        exact (mul_eq_zero.1 e).resolve_left p1
      rw [if_pos hc, if_pos this]
    · have : c (σ b) j ≠ 0 := by
        intro hz
        rw [hz, mul_zero] at e
        exact mul_ne_zero p2 hc e.symm
      rw [if_neg hc, if_neg this]
      congr 1
      rw [div_eq_div_iff this hc]
      exact e.symm

/-! ## Degrees of freedom -/

/-- Within every group of equivalent displacements of `d`, tied largest components agree. -/
def StableUnder (s : RefStructure N) (d : Pos N ℝ) : Prop :=
  ∀ gs, s.getEquivalentDisplacements d = .ok (some gs) → ∀ g ∈ gs, ∀ child rest,
    g.displacements = child :: rest → ∀ c ∈ child :: rest, (child = 0 → c = 0) ∧ TiesAgree child c

theorem dofGroup_renum (σ : Equiv.Perm (Fin N)) (eqs : List ℕ) (m : IModel N) (amps : List ℝ)
    (pols : List (Mat3 ℝ)) (inc : Bool) (g : EqGroup N)
    (h : ∀ child rest, g.displacements = child :: rest →
      ∀ c ∈ child :: rest, (child = 0 → c = 0) ∧ TiesAgree child c) :
    dofGroup (m.renumbered σ eqs) amps pols inc (g.renumbered σ) =
      (dofGroup m amps pols inc g).map (DofGroup.renumbered σ) := by
  unfold dofGroup
  rw [show (g.renumbered σ).displacements = g.displacements.map (renum σ) from rfl]
  cases hg : g.displacements with
  | nil => rfl
  | cons child rest =>
    have h := h child rest hg
    rw [List.map_cons]
    dsimp only
    rw [← List.map_cons (f := renum σ),
      show (g.renumbered σ).transformations = g.transformations from rfl, List.zip_map_left,
      List.mapM_map]
    have e : (((child :: rest).zip g.transformations).mapM ((fun x : Pos N ℝ × SymOp =>
        groupPoints (m.renumbered σ eqs).refPol amps pols (multiplier (renum σ child) x.1) x.2) ∘
          Prod.map (renum σ) id)) =
        ((child :: rest).zip g.transformations).mapM fun x : Pos N ℝ × SymOp =>
          groupPoints m.refPol amps pols (multiplier child x.1) x.2 := by
      refine mapM_congr_mem fun x hx => ?_
      have hx1 := (List.of_mem_zip hx).1
      change groupPoints m.refPol amps pols (multiplier (renum σ child) (renum σ x.1)) x.2 = _
      rw [multiplier_renum σ (h _ hx1).1 (h _ hx1).2]
    rw [e]
    cases ((child :: rest).zip g.transformations).mapM fun x : Pos N ℝ × SymOp =>
        groupPoints m.refPol amps pols (multiplier child x.1) x.2 with
    | error e => rfl
    | ok pts =>
      change Except.ok (⟨normalizePos (renum σ (m.ref.getCartDisplacement child)), _⟩ : DofGroup N) =
        Except.ok _
      rw [normalizePos_renum]
      rfl

theorem orthCheck_renum (σ : Equiv.Perm (Fin N)) (eqs : List ℕ) (m : IModel N)
    (p : Option (Pos N ℝ)) :
    orthCheck (m.renumbered σ eqs) (p.map (renum σ)) = orthCheck m p := by
  unfold orthCheck
  cases p with
  | none =>
    change (if (m.basis.map (renum σ)).isEmpty then _ else _) = _
    rw [List.isEmpty_map]
  | some p =>
    change isOrthogonalToAll (flat (renum σ (m.ref.getCartDisplacement p)))
      ((m.basis.map (renum σ)).map flat) = _
    rw [orthogonal_renum]

theorem nanGroups_renum (σ : Equiv.Perm (Fin N)) (eqs : List ℕ) (m : IModel N) (amps : List ℝ)
    (pols : List (Mat3 ℝ)) (inc : Bool) :
    nanGroups (m.renumbered σ eqs) amps pols inc =
      (nanGroups m amps pols inc).map (List.map (DofGroup.renumbered σ)) := by
  unfold nanGroups
  rw [show (m.renumbered σ eqs).ref = m.ref.renumbered σ eqs from rfl, zip_renum]
  cases m.ref.ops.zip m.ref.perms with
  | nil => rfl
  | cons x l =>
    dsimp only [List.map_cons]
    change (do
      let pts ← groupPoints m.refPol amps pols none x.1
      return [(⟨none, refPoint inc ++ pts⟩ : DofGroup N)]) = _
    cases groupPoints m.refPol amps pols none x.1 with
    | error e => rfl
    | ok pts => rfl

theorem getDof_renum (σ : Equiv.Perm (Fin N)) (eqs : List ℕ) (m : IModel N)
    (p : Option (Pos N ℝ)) (amps : List ℝ) (pols : List (Mat3 ℝ)) (inc : Bool)
    (h : ∀ d, p = some d → StableUnder m.ref d) :
    getDof (m.renumbered σ eqs) (p.map (renum σ)) amps pols inc =
      (getDof m p amps pols inc).map (List.map (DofGroup.renumbered σ)) := by
  unfold getDof
  rw [orthCheck_renum]
  split_ifs with ho
  · rfl
  · cases p with
    | none => exact nanGroups_renum σ eqs m amps pols inc
    | some p =>
      dsimp only [Option.map]
      rw [show (m.renumbered σ eqs).ref = m.ref.renumbered σ eqs from rfl, equivalent_renum]
      have hp := h p rfl
      unfold StableUnder at hp
      cases hr : m.ref.getEquivalentDisplacements p with
      | error e => rfl
      | ok r =>
        cases r with
        | none => exact nanGroups_renum σ eqs m amps pols inc
        | some groups =>
          change (groups.map (EqGroup.renumbered σ)).mapM (dofGroup (m.renumbered σ eqs) amps pols inc) =
            (groups.mapM (dofGroup m amps pols inc)).map _
          rw [← mapM_except_map, List.mapM_map]
          exact mapM_congr_mem fun g hg =>
            dofGroup_renum σ eqs m amps pols inc g (hp groups hr g hg)

theorem buildAll_renum (σ : Equiv.Perm (Fin N)) (spline : SplineFn) (we : Bool) (order : ℕ) :
    ∀ gs : List (DofGroup N), buildAll spline we order (gs.map (DofGroup.renumbered σ)) =
      buildAll spline we order gs
  | [] => rfl
  | g :: gs => by
    rw [List.map_cons, buildAll, buildAll, buildAll_renum σ spline we order gs]
    rfl

theorem finiteBasis_renum (σ : Equiv.Perm (Fin N)) (gs : List (DofGroup N)) :
    finiteBasis (gs.map (DofGroup.renumbered σ)) = (finiteBasis gs).map (List.map (renum σ)) := by
  unfold finiteBasis
  rw [← mapM_except_map, List.mapM_map]
  congr 1
  funext g
  rcases g with ⟨b, pts⟩
  cases b with
  | none => rfl
  | some b => rfl

theorem constructAndAdd_renum (σ : Equiv.Perm (Fin N)) (eqs : List ℕ) (spline : SplineFn) (we : Bool)
    (m : IModel N) (gs : List (DofGroup N)) (order : ℤ) :
    constructAndAdd spline we (m.renumbered σ eqs) (gs.map (DofGroup.renumbered σ)) order =
      (constructAndAdd spline we m gs order).renumbered σ eqs := by
  unfold constructAndAdd
  rw [buildAll_renum, finiteBasis_renum]
  split_ifs with h
  · rfl
  · rcases buildAll spline we order.toNat gs with ⟨r, ws⟩
    cases r with
    | error e => rfl
    | ok fs =>
      dsimp only
      cases finiteBasis gs with
      | error e => rfl
      | ok bs =>
        change (⟨_, _, _⟩ : Outcome N) = _
        unfold Outcome.renumbered IModel.renumbered
        dsimp only
        by_cases hd : m.dummy = true
        · simp [hd]
        · simp [hd]

theorem parent_renum (σ : Equiv.Perm (Fin N)) (eqs : List ℕ) (m : IModel N)
    (cart : Option (Pos N ℝ)) :
    parentDisplacement (m.renumbered σ eqs) (cart.map (renum σ)) =
      (parentDisplacement m cart).map (Option.map (renum σ)) := by
  unfold parentDisplacement
  cases cart with
  | none =>
    change (do let _ ← npInv m.ref.lattice; return none) = _
    dsimp only
    cases npInv m.ref.lattice with
    | error e => rfl
    | ok M => rfl
  | some c =>
    change (do
      let d ← (m.ref.renumbered σ eqs).getFracDisplacement (renum σ c)
      return normalizeTenth d) = _
    rw [frac_renum]
    dsimp only
    cases m.ref.getFracDisplacement c with
    | error e => rfl
    | ok d =>
      change Except.ok (normalizeTenth (renum σ d)) = Except.ok _
      rw [normalizeTenth_renum]

/-- The stability condition for a Cartesian displacement given to `add_dof`. -/
def StableCart (m : IModel N) (cart : Option (Pos N ℝ)) : Prop :=
  ∀ d, parentDisplacement m cart = .ok (some d) → StableUnder m.ref d

theorem prepareDof_renum (σ : Equiv.Perm (Fin N)) (eqs : List ℕ) (m : IModel N)
    (cart : Option (Pos N ℝ)) (amps : List ℝ) (pols : List (Mat3 ℝ)) (inc : Bool)
    (h : StableCart m cart) :
    prepareDof (m.renumbered σ eqs) (cart.map (renum σ)) amps pols inc =
      (prepareDof m cart amps pols inc).map (List.map (DofGroup.renumbered σ)) := by
  unfold prepareDof
  rw [parent_renum]
  unfold StableCart at h
  cases hp : parentDisplacement m cart with
  | error e => rfl
  | ok p =>
    change (if (usedPols m amps pols).length ≠ amps.length then _ else
      getDof (m.renumbered σ eqs) (p.map (renum σ)) amps (usedPols m amps pols) inc) =
      Except.map _ (if (usedPols m amps pols).length ≠ amps.length then _ else
        getDof m p amps (usedPols m amps pols) inc)
    rw [getDof_renum σ eqs m p amps _ inc fun d hd => h d (by rw [hp, hd])]
    split_ifs <;> rfl

theorem addDofNan_renum (σ : Equiv.Perm (Fin N)) (eqs : List ℕ) (spline : SplineFn) (we : Bool)
    (m : IModel N) (cart : Option (Pos N ℝ)) (amps : List ℝ) (pols : List (Mat3 ℝ)) (order : ℤ)
    (inc : Bool) (h : StableCart m cart) :
    (m.renumbered σ eqs).addDofNan spline we (cart.map (renum σ)) amps pols order inc =
      (m.addDofNan spline we cart amps pols order inc).renumbered σ eqs := by
  unfold IModel.addDofNan
  rw [prepareDof_renum σ eqs m cart amps pols inc h]
  cases prepareDof m cart amps pols inc with
  | error e => rfl
  | ok gs => exact constructAndAdd_renum σ eqs spline we m gs order

/-! ## Files -/

theorem readDofFiles_renum (σ : Equiv.Perm (Fin N)) (eqs : List ℕ) (m : IModel N) :
    ∀ fs : List (DofFile N), readDofFiles (m.renumbered σ eqs) (fs.map (DofFile.renumbered σ)) =
      (readDofFiles m fs).map (List.map fun x => (renum σ x.1, x.2))
  | [] => rfl
  | f :: fs => by
    rw [List.map_cons, readDofFiles, readDofFiles, readDofFiles_renum σ eqs m fs]
    cases f with
    | error e => rfl
    | ok x =>
      obtain ⟨p, pol⟩ := x
      cases p with
      | none => rfl
      | some p =>
        change (do
          let rest ← (readDofFiles m fs).map (List.map fun x => (renum σ x.1, x.2))
          return (renum σ (calcDisplacement m.ref.positions p), if m.dummy then 0 else pol) :: rest) =
          Except.map _ (do
            let rest ← readDofFiles m fs
            return (calcDisplacement m.ref.positions p, if m.dummy then 0 else pol) :: rest)
        cases readDofFiles m fs with
        | error e => rfl
        | ok l => rfl

theorem readDof_renum (σ : Equiv.Perm (Fin N)) (eqs : List ℕ) (m : IModel N)
    (fs : List (DofFile N)) :
    readDof (m.renumbered σ eqs) (fs.map (DofFile.renumbered σ)) =
      (readDof m fs).map fun x => (x.1.map (renum σ), x.2) := by
  unfold readDof
  rw [readDofFiles_renum]
  cases readDofFiles m fs with
  | error e => rfl
  | ok data =>
    dsimp only [bind, Except.bind, Except.map]
    rw [show (data.map fun x => (renum σ x.1, x.2)).map Prod.fst = (data.map Prod.fst).map (renum σ) by
        rw [List.map_map, List.map_map]; rfl,
      show (data.map fun x => (renum σ x.1, x.2)).map Prod.snd = data.map Prod.snd by
        rw [List.map_map]; rfl]
    cases data.map Prod.fst with
    | nil => rfl
    | cons d0 ds =>
      rw [List.map_cons]
      dsimp only
      rw [← List.map_cons (f := renum σ), collinear_renum]
      by_cases hc : isCollinearWithAll (flat d0) ((d0 :: ds).map flat) ≠ -1
      · rw [if_pos hc, if_pos hc]
      · rw [if_neg hc, if_neg hc]
        change (match normalizePos (renum σ (m.ref.getCartDisplacement d0)) with
          | none => _
          | some b => Except.ok ((d0 :: ds).map (renum σ), ((d0 :: ds).map (renum σ)).map fun d =>
              getAmplitude b ((m.ref.renumbered σ eqs).getCartDisplacement d), data.map Prod.snd)) = _
        rw [normalizePos_renum]
        cases normalizePos (m.ref.getCartDisplacement d0) with
        | none => rfl
        | some b =>
          change Except.ok _ = Except.ok _
          rw [List.map_map]
          congr 3
          refine List.map_congr_left fun d _ => ?_
          change getAmplitude (renum σ b) (renum σ (m.ref.getCartDisplacement d)) = _
          unfold getAmplitude
          rw [dot_renum]

theorem addDofFromFiles_renum (σ : Equiv.Perm (Fin N)) (eqs : List ℕ) (spline : SplineFn)
    (we : Bool) (m : IModel N) (fs : List (DofFile N)) (order : ℤ)
    (h : ∀ d0 ds amps pols, readDof m fs = .ok (d0 :: ds, amps, pols) →
      StableCart m (some (m.ref.getCartDisplacement d0))) :
    (m.renumbered σ eqs).addDofFromFiles spline we (fs.map (DofFile.renumbered σ)) order =
      (m.addDofFromFiles spline we fs order).renumbered σ eqs := by
  unfold IModel.addDofFromFiles
  rw [readDof_renum]
  cases hr : readDof m fs with
  | error e => rfl
  | ok r =>
    obtain ⟨ds, amps, pols⟩ := r
    cases ds with
    | nil => rfl
    | cons d0 ds =>
      exact addDofNan_renum σ eqs spline we m (some (m.ref.getCartDisplacement d0)) amps pols order
        true (h d0 ds amps pols hr)

/-! ## Predictions -/

theorem accumulate_renum (σ : Equiv.Perm (Fin N)) (disps : List (Pos N ℝ)) :
    ∀ (bs : List (Pos N ℝ)) (fs : List (ℝ → Mat3 ℝ)) (ks : List Bool) (acc : List (Mat3 ℝ)),
    accumulate (disps.map (renum σ)) (bs.map (renum σ)) fs ks acc = accumulate disps bs fs ks acc
  | [], [], [], acc => rfl
  | b :: bs, f :: fs, k :: ks, acc => by
    rw [List.map_cons, accumulate, accumulate, accumulate_renum σ disps bs fs ks,
      List.zipWith_map_left]
    congr 2
    funext D a
    unfold getAmplitude
    rw [dot_renum]
  | [], [], _ :: _, _ => rfl
  | [], _ :: _, [], _ => rfl
  | [], _ :: _, _ :: _, _ => rfl
  | _ :: _, [], [], _ => rfl
  | _ :: _, [], _ :: _, _ => rfl
  | _ :: _, _ :: _, [], _ => rfl

theorem calc_renum (σ : Equiv.Perm (Fin N)) (eqs : List ℕ) (m : IModel N)
    (batch : List (Pos N ℝ)) :
    (m.renumbered σ eqs).calcPolarizabilities (batch.map (renum σ)) =
      m.calcPolarizabilities batch := by
  unfold IModel.calcPolarizabilities
  dsimp only
  have h : ((batch.map (renum σ)).map fun p => (m.renumbered σ eqs).ref.getCartDisplacement
      (calcDisplacement (m.renumbered σ eqs).ref.positions p)) =
      (batch.map fun p => m.ref.getCartDisplacement (calcDisplacement m.ref.positions p)).map
        (renum σ) := by
    rw [List.map_map, List.map_map]
    exact List.map_congr_left fun p _ => rfl
  rw [h, show (m.renumbered σ eqs).basis = m.basis.map (renum σ) from rfl,
    accumulate_renum, List.map_map]
  rfl

/-! ## Atoms displaced one at a time -/

theorem artDisplacement_renum (σ : Equiv.Perm (Fin N)) (k : Fin N) (v : Vec3) :
    artDisplacement (σ.symm k) v = (artDisplacement k v).map (renum σ) := by
  unfold artDisplacement
  dsimp only
  split_ifs
  · rfl
  · change some _ = some _
    congr 1
    funext a
    dsimp only [renum]
    by_cases h : a = σ.symm k
    · rw [if_pos h, if_pos (by rw [h, σ.apply_symm_apply])]
    · rw [if_neg h, if_neg (fun hk => h (by rw [← hk, σ.symm_apply_apply]))]

theorem prepareArt_renum (σ : Equiv.Perm (Fin N)) (eqs : List ℕ) (m : IModel N) (a a' : ℤ)
    (k : Fin N) (ha : pyIndex N a = some k) (ha' : pyIndex N a' = some (σ.symm k))
    (dir : Vec3) (amps : List ℝ) (pols : List (Mat3 ℝ)) :
    prepareArt (m.renumbered σ eqs) a' dir amps pols =
      (prepareArt m a dir amps pols).map (Option.map (renum σ)) := by
  unfold prepareArt
  rw [ha, ha', show (m.renumbered σ eqs).ref.getFracDirection dir = m.ref.getFracDirection dir from rfl]
  cases m.ref.getFracDirection dir with
  | error e => rfl
  | ok d =>
    dsimp only [bind, Except.bind]
    by_cases ha : amps.length = 1 ∨ amps.length = 2
    · rw [if_neg (not_not.2 ha), if_neg (not_not.2 ha)]
      change (if (usedPols m amps pols).length ≠ amps.length then _ else _) = Except.map _
        (if (usedPols m amps pols).length ≠ amps.length then _ else _)
      split_ifs
      · rfl
      · change Except.ok _ = Except.ok _
        congr 1
        rw [artDisplacement_renum]
        cases artDisplacement k d with
        | none => rfl
        | some w => rfl
    · rw [if_pos ha, if_pos ha]; rfl

theorem addArt_renum (σ : Equiv.Perm (Fin N)) (eqs : List ℕ) (spline : SplineFn) (we : Bool)
    (m : IModel N) (a a' : ℤ) (k : Fin N) (ha : pyIndex N a = some k)
    (ha' : pyIndex N a' = some (σ.symm k)) (dir : Vec3) (amps : List ℝ) (pols : List (Mat3 ℝ))
    (h : ∀ cart, prepareArt m a dir amps pols = .ok cart → StableCart m cart) :
    (m.renumbered σ eqs).addArt spline we a' dir amps pols =
      (m.addArt spline we a dir amps pols).renumbered σ eqs := by
  unfold IModel.addArt
  rw [prepareArt_renum σ eqs m a a' k ha ha']
  cases hp : prepareArt m a dir amps pols with
  | error e => rfl
  | ok cart => exact addDofNan_renum σ eqs spline we m cart amps pols 1 false (h cart hp)

end

end Verif
