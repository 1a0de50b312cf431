import Verif.Model.Art
import Verif.Proofs.Interpolation
import Verif.Proofs.InterpAdd

/-! Helper lemmas about `ARTModel`. -/

namespace Verif
open Spec

variable {N : ℕ}

/-- Rows of the displacement assembled by `add_art` other than the chosen atom's are zero. -/
theorem artDisplacement_zero {k : Fin N} {dir : Vec3} {w : Pos N ℝ}
    (h : artDisplacement k dir = some w) (a : Fin N) (ha : a ≠ k) : w a = fun _ => 0 := by
  unfold artDisplacement at h
  dsimp only at h
  split_ifs at h
  cases h
  simp [ha]

theorem addArt_ok (spline : SplineFn) (we : Bool) (m : IModel N) (i : ℤ) (d : Vec3)
    (amps : List ℝ) (pols : List (Mat3 ℝ)) (h : (m.addArt spline we i d amps pols).result = .ok ()) :
    ∃ k dir, pyIndex N i = some k ∧ m.ref.getFracDirection d = .ok dir ∧
      (amps.length = 1 ∨ amps.length = 2) ∧
      m.addArt spline we i d amps pols = m.addDofNan spline we
        ((artDisplacement k dir).map m.ref.getCartDisplacement) amps pols 1 false := by
  unfold IModel.addArt at h ⊢
  cases hp : prepareArt m i d amps pols with
  | error e => rw [hp] at h; cases h
  | ok cart =>
    dsimp only
    unfold prepareArt at hp
    cases hd : m.ref.getFracDirection d with
    | error e => rw [hd] at hp; cases hp
    | ok dir =>
      rw [hd] at hp
      change (if ¬ (amps.length = 1 ∨ amps.length = 2) then Except.error PyErr.valueError
        else _) = _ at hp
      by_cases hl : amps.length = 1 ∨ amps.length = 2
      · rw [if_neg (not_not.2 hl)] at hp
        by_cases hl2 : (if m.dummy then amps.map fun _ => (0 : Mat3 ℝ) else pols).length ≠ amps.length
        · rw [if_pos hl2] at hp; cases hp
        · rw [if_neg hl2] at hp
          cases hk : pyIndex N i with
          | none => rw [hk] at hp; cases hp
          | some k =>
            rw [hk] at hp
            change Except.ok _ = Except.ok _ at hp
            cases hp
            exact ⟨k, dir, rfl, rfl, hl, rfl⟩
      · rw [if_pos hl] at hp; cases hp

/-- A vector that vanishes on all atoms but `k` and is not zero. -/
theorem unique_of_zero {b : Pos N ℝ} (hb : b ≠ 0) (k : Fin N) (h : ∀ a, a ≠ k → b a = 0) :
    ∃! a, b a ≠ 0 := by
  refine ⟨k, fun h0 => hb ?_, fun a ha => ?_⟩
  · funext a
    by_cases hk : a = k
    · rw [hk, h0]; rfl
    · rw [h a hk]; rfl
  · by_contra hk; exact ha (h a hk)

/-! ### `get_dof_indexes` -/

theorem dofsOfAtom_ok (i : ℤ) (j : ℕ) (bs : List (Pos N ℝ)) (l : List ℕ)
    (h : dofsOfAtom i j bs = .ok l) :
    l.Nodup ∧ ∀ x, x ∈ l ↔ ∃ (k : ℕ) (hk : k < bs.length), x = j + k ∧
      ∃ a, Addresses N i a ∧ ∃ c, 1 / 10 ^ 5 < |bs[k] a c| := by
  induction bs generalizing j l with
  | nil => cases h; simp
  | cons b bs ih =>
    unfold dofsOfAtom at h
    cases hp : pyIndex N i with
    | none => rw [hp] at h; cases h
    | some a =>
      rw [hp] at h
      dsimp only at h
      cases hr : dofsOfAtom i (j + 1) bs with
      | error e => rw [hr] at h; cases h
      | ok rest =>
        rw [hr] at h
        change Except.ok _ = Except.ok _ at h
        obtain ⟨ih1, ih2⟩ := ih (j + 1) rest hr
        have ha := (pyIndex_some_iff _ _ _).1 hp
        have huniq : ∀ a', Addresses N i a' → a' = a := fun a' h' => by
          have := (pyIndex_some_iff _ _ _).2 h'
          rw [hp] at this; exact (Option.some.inj this).symm
        have hrest : ∀ x, x ∈ rest ↔ ∃ (k : ℕ) (hk : k + 1 < (b :: bs).length), x = j + (k + 1) ∧
            ∃ a, Addresses N i a ∧ ∃ c, 1 / 10 ^ 5 < |(b :: bs)[k + 1] a c| := by
          intro x
          rw [ih2]
          constructor
          · rintro ⟨k, hk, rfl, h⟩
            exact ⟨k, by simpa using hk, by omega, by simpa using h⟩
          · rintro ⟨k, hk, rfl, h⟩
            exact ⟨k, by simpa using hk, by omega, by simpa using h⟩
        have hj : j ∉ rest := fun hm => by
          obtain ⟨k, _, h, _⟩ := (hrest j).1 hm; omega
        by_cases hz : ∀ c, |b a c| ≤ 1 / 10 ^ 5
        · rw [decide_eq_true hz, if_pos rfl] at h
          cases h
          refine ⟨ih1, fun x => ?_⟩
          rw [hrest]
          constructor
          · rintro ⟨k, hk, h⟩; exact ⟨k + 1, hk, h⟩
          · rintro ⟨k, hk, hx, a', ha', c, hc⟩
            cases k with
            | zero =>
              rw [huniq a' ha'] at hc
              exact absurd (hz c) (not_le.2 hc)
            | succ k => exact ⟨k, hk, hx, a', ha', c, hc⟩
        · rw [decide_eq_false hz, if_neg (by simp)] at h
          cases h
          refine ⟨List.nodup_cons.2 ⟨hj, ih1⟩, fun x => ?_⟩
          rw [List.mem_cons, hrest]
          push Not at hz
          constructor
          · rintro (rfl | ⟨k, hk, h⟩)
            · exact ⟨0, by simp, rfl, a, ha, hz⟩
            · exact ⟨k + 1, hk, h⟩
          · rintro ⟨k, hk, hx, h⟩
            cases k with
            | zero => left; exact hx
            | succ k => right; exact ⟨k, hk, hx, h⟩

theorem dofsOfAtom_total (i : ℤ) (hi : -(N : ℤ) ≤ i ∧ i < N) (j : ℕ) (bs : List (Pos N ℝ)) :
    ∃ l, dofsOfAtom i j bs = .ok l := by
  induction bs generalizing j with
  | nil => exact ⟨[], rfl⟩
  | cons b bs ih =>
    unfold dofsOfAtom
    cases hp : pyIndex N i with
    | none => have := (pyIndex_none_iff _ _).1 hp; omega
    | some a =>
      obtain ⟨l, hl⟩ := ih (j + 1)
      dsimp only
      rw [hl]
      exact ⟨_, rfl⟩

theorem dofsOfAtom_err (i : ℤ) (hi : i < -(N : ℤ) ∨ (N : ℤ) ≤ i) (j : ℕ) (b : Pos N ℝ)
    (bs : List (Pos N ℝ)) : dofsOfAtom i j (b :: bs) = .error .indexError := by
  unfold dofsOfAtom
  rw [(pyIndex_none_iff _ _).2 hi]

/-- Atoms are found if no atomic number is unknown; the index list is then as specified. -/
theorem requestedAtoms_symbol (s : RefStructure N) (w : Word) (l : List (Fin N))
    (h : s.getAtomIndexes (.one w) = .ok l) (a : Fin N) :
    a ∈ l ↔ dictGet atomSymbols (s.atomicNumbers a) = some w := by
  unfold RefStructure.getAtomIndexes at h
  cases hm : ((List.finRange N).mapM fun a => symbolOf (s.atomicNumbers a)) with
  | error e => rw [hm] at h; cases h
  | ok syms =>
    rw [hm] at h
    change Except.ok _ = Except.ok _ at h
    cases h
    have hf := (mapM_except_ok _ _ _).1 hm
    have hlen := hf.length_eq
    rw [List.length_finRange] at hlen
    have hget : ∀ (b : Fin N), symbolOf (s.atomicNumbers b) = .ok (syms[b.1]'(by omega)) := by
      intro b
      have := (List.forall₂_iff_get.1 hf).2 b.1 (by simp) (by omega)
      simpa using this
    have hsym : ∀ b : Fin N, dictGet atomSymbols (s.atomicNumbers b) = some (syms[b.1]'(by omega)) := by
      intro b
      have := hget b
      unfold symbolOf at this
      cases hd : dictGet atomSymbols (s.atomicNumbers b) with
      | none => rw [hd] at this; cases this
      | some x => rw [hd] at this; cases this; rfl
    rw [hsym a]
    simp only [List.mem_map, List.mem_filter, List.mem_singleton, decide_eq_true_eq,
      Option.some.injEq]
    constructor
    · rintro ⟨x, ⟨hx, rfl⟩, rfl⟩
      obtain ⟨n, hn, rfl⟩ := List.mem_iff_getElem.1 hx
      simp
    · intro h
      refine ⟨(a, w), ⟨?_, rfl⟩, rfl⟩
      rw [List.mem_iff_getElem]
      exact ⟨a.1, by simp [← hlen], by simp [h]⟩

end Verif
