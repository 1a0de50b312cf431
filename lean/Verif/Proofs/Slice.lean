import Verif.Model.Dynamics
import Verif.Proofs.EquivAtoms
import Verif.Spec.Index

/-! Helper lemmas about Python slices. -/

namespace Verif
open Spec

theorem lt_rangeLen_pos {start stop step : ℤ} (h : 0 < step) (k : ℕ) :
    k < rangeLen start stop step ↔ start + k * step < stop := by
  unfold rangeLen
  rw [if_pos h, Int.lt_toNat, ← Int.add_one_le_iff, Int.le_ediv_iff_mul_le h]
  constructor <;> intro h' <;> linarith

theorem lt_rangeLen_neg {start stop step : ℤ} (h : step < 0) (k : ℕ) :
    k < rangeLen start stop step ↔ stop < start + k * step := by
  unfold rangeLen
  rw [if_neg (by omega), Int.lt_toNat, ← Int.add_one_le_iff, Int.le_ediv_iff_mul_le (by omega)]
  constructor <;> intro h' <;> linarith

theorem start_neg (n : ℕ) (start : Option ℤ) :
    let S := start.elim ((n : ℤ) - 1) (clipBound n (-1) (n - 1))
    let S0 := start.elim ((n : ℤ) - 1) fun b => min (n - 1) (sliceBound n b)
    S ≤ n - 1 ∧ (0 ≤ S → S = S0) ∧ (0 ≤ S0 → S = S0) := by
  cases start with
  | none => simp
  | some b =>
    dsimp only [Option.elim]
    unfold clipBound sliceBound
    split_ifs <;> omega

theorem stop_neg (n : ℕ) (stop : Option ℤ) :
    let T := stop.elim (-1 : ℤ) (clipBound n (-1) (n - 1))
    (-1 : ℤ) ≤ T ∧ ∀ i : ℤ, 0 ≤ i → i < n → ((T : ℤ) < i ↔ ∀ b ∈ stop, sliceBound n b < i) := by
  cases stop with
  | none => simp; omega
  | some b =>
    simp only [Option.mem_some_iff, forall_eq', Option.elim]
    unfold clipBound sliceBound
    refine ⟨by split_ifs <;> omega, fun i h0 hn => ?_⟩
    split_ifs <;> omega

theorem start_pos (n : ℕ) (start : Option ℤ) :
    let S := start.elim (0 : ℤ) (clipBound n 0 n)
    let S0 := start.elim (0 : ℤ) fun b => max 0 (sliceBound n b)
    0 ≤ S ∧ (S < n → S = S0) ∧ (S0 < n → S = S0) := by
  cases start with
  | none => simp
  | some b =>
    dsimp only [Option.elim]
    unfold clipBound sliceBound
    split_ifs <;> omega

theorem stop_pos (n : ℕ) (stop : Option ℤ) :
    let T := stop.elim (n : ℤ) (clipBound n 0 n)
    T ≤ n ∧ ∀ i : ℤ, 0 ≤ i → i < n → (i < T ↔ ∀ b ∈ stop, i < sliceBound n b) := by
  cases stop with
  | none => simp
  | some b =>
    simp only [Option.mem_some_iff, forall_eq', Option.elim]
    unfold clipBound sliceBound
    refine ⟨by split_ifs <;> omega, fun i h0 hn => ?_⟩
    split_ifs <;> omega

theorem selected_spec (s : PySlice) (n : ℕ) (hs : s.step.getD 1 ≠ 0) :
    ∃ l, s.selected n = .ok l ∧ (∀ i, i ∈ l ↔ Selects n s.start s.stop (s.step.getD 1) i) ∧
      (0 < s.step.getD 1 → l.Pairwise (· < ·)) ∧ (s.step.getD 1 < 0 → l.Pairwise (· > ·)) := by
  unfold PySlice.selected PySlice.indices
  dsimp only
  set step := s.step.getD 1 with hstep
  rw [if_neg hs]
  refine ⟨_, rfl, ?_, ?_, ?_⟩
  · intro i
    simp only [List.mem_map, List.mem_range]
    unfold Selects
    rcases lt_or_gt_of_ne hs with hneg | hpos
    · simp only [if_pos hneg, lt_rangeLen_neg hneg]
      have hmono : ∀ k : ℕ, (k : ℤ) * step ≤ 0 := fun k =>
        mul_nonpos_of_nonneg_of_nonpos (by positivity) hneg.le
      obtain ⟨hS1, hS2, hS3⟩ := start_neg n s.start
      obtain ⟨hT1, hT2⟩ := stop_neg n s.stop
      generalize s.start.elim ((n : ℤ) - 1) (clipBound n (-1) (n - 1)) = S at *
      generalize (s.start.elim ((n : ℤ) - 1) fun b => min (n - 1) (sliceBound n b)) = S0 at *
      generalize s.stop.elim (-1 : ℤ) (clipBound n (-1) (n - 1)) = T at *
      constructor
      · rintro ⟨k, hk, rfl⟩
        have := hmono k
        have h0 : 0 ≤ S + k * step := by omega
        have hn : S + k * step < n := by omega
        refine ⟨h0, hn, fun h => absurd h (by omega), fun _ => ⟨⟨k, ?_⟩, (hT2 _ h0 hn).1 hk⟩⟩
        rw [hS2 (by omega)]
      · rintro ⟨h0, hn, -, h⟩
        obtain ⟨⟨k, hk⟩, hstop⟩ := h hneg
        have := hmono k
        have hS : S = S0 := hS3 (by omega)
        exact ⟨k, by rw [hS, ← hk]; exact (hT2 i h0 hn).2 hstop, by rw [hS, ← hk]⟩
    · have hnn : ¬ step < 0 := by omega
      simp only [if_neg hnn, lt_rangeLen_pos hpos]
      have hmono : ∀ k : ℕ, 0 ≤ (k : ℤ) * step := fun k => by positivity
      obtain ⟨hS1, hS2, hS3⟩ := start_pos n s.start
      obtain ⟨hT1, hT2⟩ := stop_pos n s.stop
      generalize s.start.elim (0 : ℤ) (clipBound n 0 n) = S at *
      generalize (s.start.elim (0 : ℤ) fun b => max 0 (sliceBound n b)) = S0 at *
      generalize s.stop.elim (n : ℤ) (clipBound n 0 n) = T at *
      constructor
      · rintro ⟨k, hk, rfl⟩
        have := hmono k
        have h0 : 0 ≤ S + k * step := by omega
        have hn : S + k * step < n := by omega
        refine ⟨h0, hn, fun _ => ⟨⟨k, ?_⟩, (hT2 _ h0 hn).1 hk⟩, fun h => absurd h hnn⟩
        rw [hS2 (by omega)]
      · rintro ⟨h0, hn, h, -⟩
        obtain ⟨⟨k, hk⟩, hstop⟩ := h hpos
        have := hmono k
        have hS : S = S0 := hS3 (by omega)
        exact ⟨k, by rw [hS, ← hk]; exact (hT2 i h0 hn).2 hstop, by rw [hS, ← hk]⟩
  · intro hpos
    rw [List.pairwise_map]
    refine List.pairwise_lt_range.imp fun {a b} hab => ?_
    have : (a : ℤ) * step < b * step := by
      apply mul_lt_mul_of_pos_right _ hpos; exact_mod_cast hab
    dsimp only
    omega
  · intro hneg
    rw [List.pairwise_map]
    refine List.pairwise_lt_range.imp fun {a b} hab => ?_
    have : (b : ℤ) * step < a * step := by
      apply mul_lt_mul_of_neg_right _ hneg; exact_mod_cast hab
    dsimp only
    omega

end Verif
