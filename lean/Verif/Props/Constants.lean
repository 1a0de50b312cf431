import Verif.Model.Constants
import Verif.Spec.PeriodicTable
import Mathlib.Data.List.Nodup
import Mathlib.Tactic.NormNum
import Mathlib.Tactic.Positivity
import Mathlib.Tactic.Linarith
import Mathlib.Algebra.Order.Ring.Rat

/-!
# Property C90: element tables
-/

namespace Verif

/-- Generic fact: with distinct keys, `dictGet` finds exactly the listed pairs. -/
theorem dictGet_eq_some_iff {α β : Type} [DecidableEq α] (d : List (α × β))
    (h : (d.map Prod.fst).Nodup) (k : α) (v : β) : dictGet d k = some v ↔ (k, v) ∈ d := by
  induction d with
  | nil => simp [dictGet]
  | cons x d ih =>
    obtain ⟨k', v'⟩ := x
    simp only [List.map_cons, List.nodup_cons] at h
    unfold dictGet
    split_ifs with hk
    · subst hk
      constructor
      · intro h'; cases h'; simp
      · intro h'
        rcases List.mem_cons.1 h' with h' | h'
        · cases h'; rfl
        · exact absurd (List.mem_map_of_mem (f := Prod.fst) h') h.1
    · rw [ih h.2]
      constructor
      · intro h'; exact List.mem_cons_of_mem _ h'
      · intro h'
        rcases List.mem_cons.1 h' with h' | h'
        · cases h'; exact absurd rfl hk
        · exact h'

set_option maxRecDepth 20000 in
theorem symbols_nodup : (atomicNumbers.map Prod.fst).Nodup := by decide
set_option maxRecDepth 20000 in
theorem numbers_eq : atomicNumbers.map Prod.snd = List.range' 1 118 := by decide
set_option maxRecDepth 20000 in
theorem weights_keys : atomicWeights.map Prod.fst = atomicNumbers.map Prod.fst := by
  have : atomicWeightDecimals.map Prod.fst = atomicNumbers.map Prod.fst := by decide
  rw [← this]
  simp [atomicWeights]

/-- C90: the two dictionaries are inverse to each other. -/
theorem C90_tables_inverse (s : Word) (n : ℕ) :
    dictGet atomicNumbers s = some n ↔ dictGet atomSymbols n = some s := by
  have h2 : (atomSymbols.map Prod.fst).Nodup := by
    have : atomSymbols.map Prod.fst = atomicNumbers.map Prod.snd := by
      simp [atomSymbols, Function.comp_def]
    rw [this, numbers_eq]
    exact List.nodup_range'
  rw [dictGet_eq_some_iff _ symbols_nodup, dictGet_eq_some_iff _ h2]
  simp [atomSymbols]

/-- C90: a number has a symbol iff it is one of `1..118`. -/
theorem C90_atomic_numbers_range (n : ℕ) :
    (∃ s, dictGet atomSymbols n = some s) ↔ 1 ≤ n ∧ n ≤ 118 := by
  have key : (∃ s, dictGet atomSymbols n = some s) ↔ n ∈ atomicNumbers.map Prod.snd := by
    constructor
    · rintro ⟨s, h⟩
      rw [← C90_tables_inverse, dictGet_eq_some_iff _ symbols_nodup] at h
      exact List.mem_map.2 ⟨_, h, rfl⟩
    · intro h
      obtain ⟨⟨s, m⟩, h', rfl⟩ := List.mem_map.1 h
      exact ⟨s, (C90_tables_inverse s m).1 ((dictGet_eq_some_iff _ symbols_nodup _ _).2 h')⟩
  rw [key, numbers_eq, List.mem_range'_1]
  omega

set_option maxRecDepth 20000 in
/-- C90: exactly the elements with an atomic number have an atomic weight, and it is
positive (so the mass weighting `1/sqrt(weight)` of the phonon readers is defined). -/
theorem C90_weights (s : Word) :
    ((∃ w, dictGet atomicWeights s = some w) ↔ ∃ n, dictGet atomicNumbers s = some n) ∧
    ∀ w, dictGet atomicWeights s = some w → 0 < w := by
  have hw : (atomicWeights.map Prod.fst).Nodup := weights_keys ▸ symbols_nodup
  have pos0 : ∀ x ∈ atomicWeightDecimals, 0 < x.2.1 := by decide
  have pos : ∀ x ∈ atomicWeights, 0 < x.2 := by
    intro x hx
    obtain ⟨y, hy, rfl⟩ := List.mem_map.1 hx
    have : (0 : ℚ) < y.2.1 := by exact_mod_cast pos0 y hy
    positivity
  constructor
  · constructor
    · rintro ⟨w, h⟩
      rw [dictGet_eq_some_iff _ hw] at h
      have : s ∈ atomicNumbers.map Prod.fst := weights_keys ▸ List.mem_map.2 ⟨_, h, rfl⟩
      obtain ⟨⟨s', n⟩, h', rfl⟩ := List.mem_map.1 this
      exact ⟨n, (dictGet_eq_some_iff _ symbols_nodup _ _).2 h'⟩
    · rintro ⟨n, h⟩
      rw [dictGet_eq_some_iff _ symbols_nodup] at h
      have : s ∈ atomicWeights.map Prod.fst := by
        rw [weights_keys]; exact List.mem_map.2 ⟨_, h, rfl⟩
      obtain ⟨⟨s', w⟩, h', rfl⟩ := List.mem_map.1 this
      exact ⟨w, (dictGet_eq_some_iff _ hw _ _).2 h'⟩
  · intro w h
    exact pos _ ((dictGet_eq_some_iff _ hw _ _).1 h)

set_option maxRecDepth 20000 in
theorem numbers_table : atomicNumbers.map Prod.fst = Spec.elements.map fun x => x.1.toList := by decide

set_option maxRecDepth 20000 in
theorem weights_near : (atomicWeightDecimals.zip Spec.elements).all (fun x =>
    decide (2 * x.1.2.1 ≤ (2 * x.2.2 + 1) * 10 ^ x.1.2.2 ∧
      2 * x.2.2 * 10 ^ x.1.2.2 ≤ 2 * x.1.2.1 + 10 ^ x.1.2.2)) = true := by decide

theorem atomicNumbers_at (i : ℕ) :
    atomicNumbers[i]? = (Spec.elements[i]?).map fun x => (x.1.toList, i + 1) := by
  have h1 := congrArg (fun l => l[i]?) numbers_table
  have h2 := congrArg (fun l => l[i]?) numbers_eq
  simp only [List.getElem?_map] at h1 h2
  cases ha : atomicNumbers[i]? with
  | none =>
    rw [ha] at h1
    cases he : Spec.elements[i]? with
    | none => rfl
    | some x => rw [he] at h1; cases h1
  | some y =>
    rw [ha] at h1 h2
    cases he : Spec.elements[i]? with
    | none => rw [he] at h1; cases h1
    | some x =>
      rw [he] at h1
      have hi : i < 118 := by
        by_contra hi
        rw [List.getElem?_eq_none (by simpa using hi)] at h2
        cases h2
      rw [List.getElem?_range' hi] at h2
      simp only [Option.map_some, Option.some.injEq] at h1 h2 ⊢
      exact Prod.ext h1 (by rw [h2]; omega)

/-- C90: the atomic number of a symbol is its place in the periodic table. -/
theorem C90_periodic_table (s : Word) (n : ℕ) :
    dictGet atomicNumbers s = some n ↔
      1 ≤ n ∧ ∃ x, Spec.elements[n - 1]? = some x ∧ s = x.1.toList := by
  rw [dictGet_eq_some_iff _ symbols_nodup, List.mem_iff_getElem?]
  constructor
  · rintro ⟨i, h⟩
    rw [atomicNumbers_at] at h
    cases hx : Spec.elements[i]? with
    | none => rw [hx] at h; cases h
    | some x =>
      rw [hx] at h
      cases h
      exact ⟨by omega, x, by simpa using hx, rfl⟩
  · rintro ⟨hn, x, hx, rfl⟩
    exact ⟨n - 1, by rw [atomicNumbers_at, hx]; simp; omega⟩

/-- C90: the weight of an element is its mass in atomic mass units, up to half a unit. -/
theorem C90_masses (i : ℕ) (x : String × ℕ) (h : Spec.elements[i]? = some x) :
    ∃ w, dictGet atomicWeights x.1.toList = some w ∧ |w - x.2| ≤ 1 / 2 := by
  have hw : (atomicWeights.map Prod.fst).Nodup := weights_keys ▸ symbols_nodup
  have hk := congrArg (fun l => l[i]?) (weights_keys.trans numbers_table)
  simp only [List.getElem?_map, h, atomicWeights] at hk
  cases hy : atomicWeightDecimals[i]? with
  | none => rw [hy] at hk; cases hk
  | some y =>
    rw [hy] at hk
    simp only [Option.map_some, Option.some.injEq] at hk
    have hz : (y, x) ∈ atomicWeightDecimals.zip Spec.elements :=
      List.mem_iff_getElem?.2 ⟨i, by rw [List.getElem?_zip_eq_some]; exact ⟨hy, h⟩⟩
    have hb := of_decide_eq_true (List.all_eq_true.1 weights_near _ hz)
    dsimp only at hb
    refine ⟨(y.2.1 : ℚ) / 10 ^ y.2.2, (dictGet_eq_some_iff _ hw _ _).2 ?_, ?_⟩
    · rw [← hk]
      exact List.mem_map.2 ⟨y, List.mem_iff_getElem?.2 ⟨i, hy⟩, rfl⟩
    · have hp : (0 : ℚ) < 10 ^ y.2.2 := by positivity
      have h1 : (2 * y.2.1 : ℚ) ≤ (2 * x.2 + 1) * 10 ^ y.2.2 := by exact_mod_cast hb.1
      have h2 : (2 * x.2 : ℚ) * 10 ^ y.2.2 ≤ 2 * y.2.1 + 10 ^ y.2.2 := by exact_mod_cast hb.2
      rw [abs_le, sub_le_iff_le_add, le_sub_iff_add_le, div_le_iff₀ hp, le_div_iff₀ hp]
      constructor <;> linarith

set_option maxRecDepth 20000 in
/-- C90: the table has the usual shape. -/
example : Spec.periods.map List.length = Spec.periodLengths ∧ Spec.elements.length = 118 := by decide

set_option maxRecDepth 20000 in
/-- C90, concrete: titanium is 22 and vice versa; 119 has no symbol. -/
example : dictGet atomicNumbers ['T', 'i'] = some 22 ∧ dictGet atomSymbols 22 = some ['T', 'i'] ∧
    dictGet atomSymbols 119 = none := by decide

end Verif
