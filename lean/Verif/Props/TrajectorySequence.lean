import Verif.Props.Dynamics

/-!
# Property C131: trajectories as sequences (`dynamics/_trajectory.py`)
-/

namespace Verif
open Spec

variable {N : ℕ}

theorem getItem_lt (t : Trajectory N) (i : ℕ) (h : i < t.positionsTs.length) :
    t.getItem i = .ok (t.positionsTs[i]) := by
  have := (C48_index t i).1 ⟨i, h⟩ (Or.inl (by simp))
  rw [this]; rfl

theorem iterFrom_eq (t : Trajectory N) : ∀ (n i : ℕ), t.positionsTs.length - i = n →
    t.iterFrom i = .ok (t.positionsTs.drop i) := by
  intro n
  induction n with
  | zero =>
    intro i hi
    rw [Trajectory.iterFrom]
    have : t.getItem i = .error .indexError := (C48_index t i).2 (Or.inr (by
      unfold Trajectory.len; omega))
    split
    · rw [List.drop_of_length_le (by omega)]
    · rename_i e hne h; rw [this] at h; cases h; exact absurd rfl hne
    · rename_i p h; rw [this] at h; cases h
  | succ n ih =>
    intro i hi
    have hlt : i < t.positionsTs.length := by omega
    rw [Trajectory.iterFrom]
    have hg := getItem_lt t i hlt
    split
    · rename_i h; rw [hg] at h; cases h
    · rename_i e hne h; rw [hg] at h; cases h
    · rename_i p h
      rw [hg] at h
      obtain rfl := Except.ok.inj h
      rw [ih (i + 1) (by omega)]
      change Except.ok _ = Except.ok _
      rw [← List.drop_eq_getElem_cons hlt]

/-- C131: iterating over a trajectory ends, never fails and yields every configuration exactly once,
in order; `reversed` yields them in the opposite order; both agree with `len`, with indexing and with
the slices `[:]` and `[::-1]`. -/
theorem C131_iteration (t : Trajectory N) : ∃ l, t.toList = .ok l ∧
    t.reversedList = .ok l.reverse ∧
    l.length = t.len ∧ (∀ k (h : k < l.length), t.getItem k = .ok l[k]) ∧
    t.getSlice ⟨none, none, none⟩ = .ok l ∧
    t.getSlice ⟨none, none, some (-1)⟩ = .ok l.reverse := by
  have hrev : t.reversedList = .ok t.positionsTs.reverse := by
    unfold Trajectory.reversedList
    rw [mapM_except_ok, List.forall₂_reverse_iff]
    rw [List.forall₂_iff_get]
    refine ⟨by simp [Trajectory.len], ?_⟩
    intro i h1 h2
    simp only [List.get_eq_getElem, List.getElem_range]
    exact getItem_lt t i _
  refine ⟨t.positionsTs, ?_, hrev, rfl, fun k h => getItem_lt t k h, ?_, ?_⟩
  · unfold Trajectory.toList
    rw [iterFrom_eq t _ 0 rfl]; rfl
  · unfold Trajectory.getSlice
    have hsel : (⟨none, none, none⟩ : PySlice).selected t.positionsTs.length
        = .ok ((List.range t.positionsTs.length).map fun k : ℕ => (0 : ℤ) + k * 1) := by
      unfold PySlice.selected PySlice.indices rangeLen
      simp
    rw [hsel]
    change List.mapM _ _ = _
    rw [mapM_except_ok, List.forall₂_map_left_iff, List.forall₂_iff_get]
    refine ⟨by simp, fun i h1 h2 => ?_⟩
    simp only [List.get_eq_getElem, List.getElem_range, zero_add, mul_one]
    exact getItem_lt t i _
  · unfold Trajectory.getSlice
    have hsel : (⟨none, none, some (-1)⟩ : PySlice).selected t.positionsTs.length
        = .ok ((List.range t.positionsTs.length).map
          fun k : ℕ => ((t.positionsTs.length : ℤ) - 1) + k * (-1)) := by
      unfold PySlice.selected PySlice.indices rangeLen
      simp
    rw [hsel]
    change List.mapM _ _ = _
    rw [mapM_except_ok, List.forall₂_map_left_iff, List.forall₂_iff_get]
    refine ⟨by simp, fun i h1 h2 => ?_⟩
    simp only [List.get_eq_getElem, List.getElem_range, List.getElem_reverse]
    have hi : i < t.positionsTs.length := by simpa using h2
    have := getItem_lt t (t.positionsTs.length - 1 - i) (by omega)
    rw [← this]
    unfold Trajectory.getItem
    rw [show (t.positionsTs.length : ℤ) - 1 + (i : ℤ) * -1
      = ((t.positionsTs.length - 1 - i : ℕ) : ℤ) by omega]

/-- C131: testing membership of a configuration is useless: the outcome is an exception for every
configuration and every non-empty trajectory, whether it contains the configuration or not. -/
theorem C131_membership (t : Trajectory N) (value : Pos N ℝ) (hN : 0 < N) :
    t.contains value = if t.len = 0 then .ok false else .error .valueError := by
  have hl : t.toList = .ok t.positionsTs := by
    unfold Trajectory.toList
    rw [iterFrom_eq t _ 0 rfl]; rfl
  unfold Trajectory.contains
  rw [hl]
  change Trajectory.contains.anyTrue value t.positionsTs = _
  unfold Trajectory.len
  cases h : t.positionsTs with
  | nil => rfl
  | cons v vs =>
    unfold Trajectory.contains.anyTrue
    have : arrayTruth (arrayEq v value) = .error .valueError := by
      obtain ⟨n, rfl⟩ := Nat.exists_eq_succ_of_ne_zero hN.ne'
      unfold arrayEq
      rw [List.finRange_succ (n := n)]
      rfl
    rw [this]; rfl

/-- A trajectory with two configurations of one atom. -/
noncomputable def twoFrames : Trajectory 1 := ⟨[fun _ _ => 0, fun _ _ => 1 / 2], 1⟩

/-- The configuration is in the trajectory, but `in` fails; for a single atom too. -/
example : (∃ k, twoFrames.getItem k = .ok fun _ _ => 0) ∧
    twoFrames.contains (fun _ _ => 0) = .error .valueError :=
  ⟨⟨0, rfl⟩, by rw [C131_membership _ _ one_pos]; rfl⟩

end Verif
