import Verif.Model.Shape
import Mathlib.Data.List.Basic
import Mathlib.Algebra.BigOperators.Group.List.Lemmas

/-!
# C89, C92: shapes
-/

namespace Verif

/-- C89: `verify_ndarray_shape` succeeds iff the numbers of dimensions agree and every prescribed
entry equals the dimension. -/
theorem C89_accepts (shape : List ℕ) (pattern : List (Option ℕ)) :
    verifyShape shape pattern = .ok () ↔
      shape.length = pattern.length ∧
        ∀ (k d : ℕ), pattern[k]? = some (some d) → shape[k]? = some d := by
  unfold verifyShape
  by_cases h : pattern.length = shape.length
  · rw [if_neg (by simpa using h)]
    have key : compareDims shape pattern = .ok () ↔
        ∀ (k d : ℕ), pattern[k]? = some (some d) → shape[k]? = some d := by
      induction shape generalizing pattern with
      | nil =>
        cases pattern with
        | nil => simp [compareDims]
        | cons p ps => simp at h
      | cons d ds ih =>
        cases pattern with
        | nil => simp at h
        | cons p ps =>
          have hl : ps.length = ds.length := by simpa using h
          cases p with
          | none =>
            rw [compareDims, ih ps hl]
            constructor
            · intro hk k e he
              cases k with
              | zero => simp at he
              | succ k => simpa using hk k e (by simpa using he)
            · intro hk k e he
              simpa using hk (k + 1) e (by simpa using he)
          | some p =>
            rw [compareDims]
            by_cases hd : d = p
            · rw [if_neg (by simpa using hd), ih ps hl]
              constructor
              · intro hk k e he
                cases k with
                | zero => simp at he ⊢; omega
                | succ k => simpa using hk k e (by simpa using he)
              · intro hk k e he
                simpa using hk (k + 1) e (by simpa using he)
            · rw [if_pos hd]
              constructor
              · intro hc; cases hc
              · intro hk
                exact absurd (by simpa using hk 0 p (by simp)) hd
    rw [key]
    exact ⟨fun hk => ⟨h.symm, hk⟩, fun hk => hk.2⟩
  · rw [if_pos h]
    constructor
    · intro hc; cases hc
    · intro hk; exact absurd hk.1.symm h

/-- C89: otherwise it raises `ValueError`. -/
theorem C89_rejects (shape : List ℕ) (pattern : List (Option ℕ)) :
    verifyShape shape pattern = .ok () ∨ verifyShape shape pattern = .error .valueError := by
  unfold verifyShape
  split_ifs
  · exact Or.inr rfl
  · clear * -
    have key : ∀ (pattern : List (Option ℕ)), compareDims shape pattern = .ok () ∨
        compareDims shape pattern = .error .valueError := by
      induction shape with
      | nil => intro p; cases p <;> simp [compareDims]
      | cons d ds ih =>
        intro p
        rcases p with _ | ⟨_ | p, ps⟩
        · simp [compareDims]
        · rw [compareDims]; exact ih ps
        · rw [compareDims]
          split_ifs
          · exact Or.inr rfl
          · exact ih ps
    exact key pattern

example : verifyShape [7, 4, 3] [none, some 4, some 3] = .ok () ∧
    verifyShape [7, 4, 1] [none, some 4, some 3] = .error .valueError ∧
    verifyShape [4, 3] [none, some 4, some 3] = .error .valueError := by decide

theorem mapM_replicate_ok (k : ℕ) (x : Py Unit) :
    ((List.replicate k ()).mapM fun _ => x) =
      match k, x with
      | 0, _ => .ok []
      | _ + 1, .ok _ => .ok (List.replicate k ())
      | _ + 1, .error e => .error e := by
  induction k with
  | zero => rfl
  | succ k ih =>
    rw [List.replicate_succ, List.mapM_cons, ih]
    cases x <;> cases k <;> rfl

theorem calcPolShape_rank3 (N dofs S n c : ℕ) :
    calcPolShape N dofs [S, n, c] =
      if (c = 3 ∨ c = 1) ∧ (n = N ∨ n = 1 ∨ (N = 1 ∧ dofs = 0)) then .ok [S, 3, 3]
      else .error .valueError := by
  have hb : broadcast [S, n, c] [N, 3] =
      match broadcastDim c 3, broadcastDim n N with
      | some x, some y => some [S, y, x]
      | _, _ => none := by
    change (broadcastRev [c, n, S] [3, N]).map List.reverse = _
    rw [broadcastRev, broadcastRev, broadcastRev]
    · cases broadcastDim c 3 <;> cases broadcastDim n N <;> rfl
    · simp
  have hc : broadcastDim c 3 = if c = 3 ∨ c = 1 then some 3 else none := by
    unfold broadcastDim
    by_cases h : c = 3
    · simp [h]
    · by_cases h1 : c = 1 <;> simp [h, h1]
  have hd : displacementShape N [S, n, c] =
      if c = 3 ∨ c = 1 then
        match broadcastDim n N with
        | none => .error .valueError
        | some y => .ok [S, y * 3]
      else .error .valueError := by
    unfold displacementShape
    dsimp only
    rw [hb, hc]
    split_ifs with h
    · cases broadcastDim n N with
      | none => rfl
      | some y =>
        have : (matmulLattice [S, y, 3] >>= reshapeBatch) = Except.ok [S, y * 3] := by
          change reshapeBatch [S, y, 3] = _
          unfold reshapeBatch
          simp
        simp only [this]
    · rfl
  unfold calcPolShape
  rw [hd]
  by_cases h : c = 3 ∨ c = 1
  · rw [if_pos h]
    have key : ∀ y, broadcastDim n N = some y →
        (do
          let _ ← (List.replicate dofs ()).mapM fun _ => dofShape N S S (y * 3)
          return [S, 3, 3] : Py (List ℕ)) =
        if (c = 3 ∨ c = 1) ∧ (n = N ∨ n = 1 ∨ (N = 1 ∧ dofs = 0)) then .ok [S, 3, 3]
        else .error .valueError := by
      intro y hy
      rw [mapM_replicate_ok]
      cases dofs with
      | zero =>
        rw [if_pos]
        · rfl
        · refine ⟨h, ?_⟩
          unfold broadcastDim at hy
          split_ifs at hy with h1 h2 h3
          · exact Or.inl h1
          · exact Or.inr (Or.inl h2)
          · exact Or.inr (Or.inr ⟨h3, rfl⟩)
      | succ k =>
        have hy' : (n = N ∨ n = 1) ∧ y = N ∨ (n ≠ N ∧ n ≠ 1 ∧ N = 1 ∧ y = n) := by
          unfold broadcastDim at hy
          split_ifs at hy with h1 h2 h3
          · left; simp at hy; omega
          · left; simp at hy; omega
          · right; simp at hy; omega
        have hS : broadcastDim S S = some S := by simp [broadcastDim]
        rcases hy' with ⟨hn, rfl⟩ | ⟨h1, h2, h3, rfl⟩
        · have : dofShape y S S (y * 3) = .ok () := by
            unfold dofShape
            rw [if_pos]
            exact ⟨by simp [broadcastDim], hS⟩
          rw [this, if_pos ⟨h, by tauto⟩]
          rfl
        · have : dofShape N S S (y * 3) = .error .valueError := by
            unfold dofShape
            rw [if_neg]
            rintro ⟨hh, -⟩
            unfold broadcastDim at hh
            rw [if_neg (by omega), if_neg (by omega), if_neg (by omega)] at hh
            cases hh
          rw [this, if_neg (by simp; omega)]
          rfl
    cases hy : broadcastDim n N with
    | none =>
      rw [if_neg]
      · rfl
      · rintro ⟨-, hn⟩
        unfold broadcastDim at hy
        split_ifs at hy
        omega
    | some y => exact key y hy
  · rw [if_neg h, if_neg (fun hh => h hh.1)]
    rfl

/-- C92: a batch of shape `(S,n,c)` is accepted iff `c` is 3 or 1 and `n` is the number of atoms or
1; for a model of one atom without degrees of freedom any `n` is accepted. -/
theorem C92_rank3 (N dofs S n c : ℕ) :
    calcPolShape N dofs [S, n, c] = .ok [S, 3, 3] ↔
      (c = 3 ∨ c = 1) ∧ (n = N ∨ n = 1 ∨ (N = 1 ∧ dofs = 0)) := by
  rw [calcPolShape_rank3]
  split_ifs with h
  · simp [h]
  · simp [h]

/-- C92: otherwise `ValueError` is raised. -/
theorem C92_rank3_rejects (N dofs S n c : ℕ) :
    calcPolShape N dofs [S, n, c] = .ok [S, 3, 3] ∨
      calcPolShape N dofs [S, n, c] = .error .valueError := by
  rw [calcPolShape_rank3]
  split_ifs
  · exact Or.inl rfl
  · exact Or.inr rfl

theorem broadcastDim_ne_zero {a b d : ℕ} (h : broadcastDim a b = some d) (ha : a ≠ 0) (hb : b ≠ 0) :
    d ≠ 0 := by
  unfold broadcastDim at h
  split_ifs at h <;> simp at h <;> omega

theorem broadcastRev_ne_zero {as bs ds : List ℕ} (h : broadcastRev as bs = some ds)
    (ha : ∀ x ∈ as, x ≠ 0) (hb : ∀ x ∈ bs, x ≠ 0) : ∀ x ∈ ds, x ≠ 0 := by
  induction as generalizing bs ds with
  | nil =>
    rw [broadcastRev] at h
    exact Option.some.inj h ▸ hb
  | cons a as ih =>
    cases bs with
    | nil =>
      rw [broadcastRev] at h
      · exact Option.some.inj h ▸ ha
      · simp
    | cons b bs =>
      rw [broadcastRev] at h
      cases hd : broadcastDim a b with
      | none => rw [hd] at h; cases h
      | some d =>
        rw [hd] at h
        cases hds : broadcastRev as bs with
        | none => rw [hds] at h; cases h
        | some es =>
          rw [hds] at h
          obtain rfl := Option.some.inj h
          intro x hx
          rcases List.mem_cons.1 hx with rfl | hx
          · exact broadcastDim_ne_zero hd (ha a (by simp)) (hb b (by simp))
          · exact ih hds (fun y hy => ha y (by simp [hy])) (fun y hy => hb y (by simp [hy])) x hx

theorem broadcastRev_length {as bs ds : List ℕ} (h : broadcastRev as bs = some ds) :
    ds.length = max as.length bs.length := by
  induction as generalizing bs ds with
  | nil =>
    rw [broadcastRev] at h
    simp [← Option.some.inj h]
  | cons a as ih =>
    cases bs with
    | nil =>
      rw [broadcastRev] at h
      · simp [← Option.some.inj h]
      · simp
    | cons b bs =>
      rw [broadcastRev] at h
      cases hd : broadcastDim a b with
      | none => rw [hd] at h; cases h
      | some d =>
        rw [hd] at h
        cases hds : broadcastRev as bs with
        | none => rw [hds] at h; cases h
        | some es =>
          rw [hds] at h
          obtain rfl := Option.some.inj h
          simp [ih hds]

/-- C92: batches with another number of dimensions raise `ValueError`, unless the array is
empty. -/
theorem C92_other_ranks (N dofs : ℕ) (shape : List ℕ) (hr : shape.length ≠ 3)
    (hN : N ≠ 0) (hne : ∀ d ∈ shape, d ≠ 0) :
    calcPolShape N dofs shape = .error .valueError := by
  suffices h : displacementShape N shape = .error .valueError by
    unfold calcPolShape
    rw [h]
    rfl
  unfold displacementShape
  cases shape with
  | nil => rfl
  | cons a as =>
    dsimp only
    cases hb : broadcast (a :: as) [N, 3] with
    | none => rfl
    | some d =>
      dsimp only
      unfold broadcast at hb
      obtain ⟨ds, hds, rfl⟩ := Option.map_eq_some_iff.1 hb
      have hlen := broadcastRev_length hds
      have hz := broadcastRev_ne_zero hds (fun x hx => hne x (List.mem_reverse.1 hx)) (by simp; omega)
      have hz' : ∀ x ∈ ds.reverse, x ≠ 0 := by simpa using hz
      have hl : ds.reverse.length ≠ 3 := by
        simp at hlen hr ⊢
        omega
      generalize ds.reverse = e at hz' hl
      unfold matmulLattice
      split_ifs with h3
      · change (match reshapeBatch e with
          | .error .indexError => Except.error PyErr.valueError
          | r => r) = _
        rcases e with _ | ⟨x, _ | ⟨y, _ | ⟨z, _ | ⟨w, rest⟩⟩⟩⟩
        · rfl
        · rfl
        · rfl
        · simp at hl
        · unfold reshapeBatch
          have hw : (w :: rest).prod ≠ 1 := by
            have hmem : 3 ∈ w :: rest := by
              have : (w :: rest).getLast? = some 3 := by
                rw [List.getLast?_cons_cons, List.getLast?_cons_cons, List.getLast?_cons_cons] at h3
                exact h3
              exact List.mem_of_getLast? this
            have hdvd := List.dvd_prod hmem
            intro h1
            rw [h1] at hdvd
            omega
          have hx : x ≠ 0 := hz' x (by simp)
          have hy : y ≠ 0 := hz' y (by simp)
          have hzz : z ≠ 0 := hz' z (by simp)
          dsimp only
          rw [if_neg]
          intro hp
          simp only [List.prod_cons] at hp hw
          apply hw
          have hpos : 0 < x * (y * z) := by positivity
          have : x * (y * z) * (w * rest.prod) = x * (y * z) * 1 := by
            rw [mul_one]; exact Eq.trans (by ring) hp
          exact Nat.eq_of_mul_eq_mul_left hpos this
      · rfl

/-- C92: empty arrays of four dimensions can slip through. -/
example : calcPolShape 2 0 [5, 0, 2, 3] = .ok [5, 3, 3] := by decide

example : calcPolShape 4 2 [10, 4, 3] = .ok [10, 3, 3] ∧
    calcPolShape 4 2 [10, 1, 3] = .ok [10, 3, 3] ∧
    calcPolShape 4 2 [10, 4, 1] = .ok [10, 3, 3] ∧
    calcPolShape 4 2 [10, 1, 1] = .ok [10, 3, 3] ∧
    calcPolShape 4 2 [10, 3, 3] = .error .valueError ∧
    calcPolShape 4 2 [4, 3] = .error .valueError := by decide

end Verif
