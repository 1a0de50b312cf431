import Verif.Model.Reference
import Mathlib.Data.List.Nodup
import Mathlib.Data.List.Range

/-! Helper lemmas for `get_equivalent_atom_dict` and `get_atom_indexes`. -/

namespace Verif

theorem dictAppend_none {d : List (ℕ × List ℕ)} {key x : ℕ} (h : key ∉ d.map Prod.fst) :
    dictAppend d key x = none := by
  induction d with
  | nil => rfl
  | cons a d ih =>
    obtain ⟨k, l⟩ := a
    simp only [List.map_cons, List.mem_cons, not_or] at h
    unfold dictAppend
    rw [if_neg (fun h' => h.1 h'.symm), ih h.2]; rfl

theorem dictAppend_some {d : List (ℕ × List ℕ)} {key x : ℕ} (hn : (d.map Prod.fst).Nodup)
    (h : key ∈ d.map Prod.fst) :
    dictAppend d key x = some (d.map fun p => (p.1, if p.1 = key then p.2 ++ [x] else p.2)) := by
  induction d with
  | nil => simp at h
  | cons a d ih =>
    obtain ⟨k, l⟩ := a
    simp only [List.map_cons, List.nodup_cons] at hn
    unfold dictAppend
    by_cases hk : k = key
    · subst hk
      rw [if_pos rfl]
      have : d.map (fun p => (p.1, if p.1 = k then p.2 ++ [x] else p.2)) = d := by
        conv_rhs => rw [← List.map_id d]
        refine List.map_congr_left fun p hp => ?_
        have : p.1 ≠ k := fun h' => hn.1 (h' ▸ List.mem_map_of_mem (f := Prod.fst) hp)
        simp [this]
      simp [this]
    · rw [if_neg hk]
      simp only [List.map_cons, List.mem_cons] at h
      rcases h with h | h
      · exact absurd h.symm hk
      · rw [ih hn.2 h]; simp [hk]

theorem dictSetEmpty_new {d : List (ℕ × List ℕ)} {key : ℕ} (h : key ∉ d.map Prod.fst) :
    dictSetEmpty d key = d ++ [(key, [])] := by
  induction d with
  | nil => rfl
  | cons a d ih =>
    obtain ⟨k, l⟩ := a
    simp only [List.map_cons, List.mem_cons, not_or] at h
    unfold dictSetEmpty
    rw [if_neg (fun h' => h.1 h'.symm), ih h.2]; rfl

/-- The dictionary expected after the first `m` atoms. -/
def equivDict (e : List ℕ) (m : ℕ) : List (ℕ × List ℕ) :=
  ((List.range m).filter fun i => e[i]? = some i).map fun k =>
    (k, (List.range m).filter fun i => i ≠ k ∧ e[i]? = some k)

theorem equivDict_keys (e : List ℕ) (m : ℕ) :
    (equivDict e m).map Prod.fst = (List.range m).filter fun i => e[i]? = some i := by
  simp [equivDict, Function.comp_def]

theorem equivDict_nodup (e : List ℕ) (m : ℕ) : ((equivDict e m).map Prod.fst).Nodup := by
  rw [equivDict_keys]; exact List.nodup_range.filter _

theorem mem_equivDict_keys (e : List ℕ) (m k : ℕ) :
    k ∈ (equivDict e m).map Prod.fst ↔ k < m ∧ e[k]? = some k := by
  rw [equivDict_keys]; simp

/-- Every atom below `m` is represented by itself or by an earlier self-represented atom. -/
def ValidEquiv (e : List ℕ) (m : ℕ) : Prop :=
  ∀ i < m, ∀ k, e[i]? = some k → k = i ∨ (k < i ∧ e[k]? = some k)

theorem equivAtomLoop_spec (e : List ℕ) (m : ℕ) (hm : m ≤ e.length) (hv : ValidEquiv e m) :
    (ValidEquiv e e.length → equivAtomLoop m (e.drop m) (equivDict e m) = .ok (equivDict e e.length)) ∧
    (¬ ValidEquiv e e.length → equivAtomLoop m (e.drop m) (equivDict e m) = .error .keyError) := by
  induction hn : e.length - m generalizing m with
  | zero =>
    have : m = e.length := by omega
    subst this
    rw [List.drop_length]
    exact ⟨fun _ => rfl, fun h => absurd hv h⟩
  | succ n ih =>
    have hlt : m < e.length := by omega
    rw [List.drop_eq_getElem_cons hlt]
    unfold equivAtomLoop
    have hget : e[m]? = some e[m] := List.getElem?_eq_getElem hlt
    by_cases h1 : m = e[m]
    · rw [if_pos h1]
      have hself : e[m]? = some m := by rw [hget, ← h1]
      have hv' : ValidEquiv e (m + 1) := by
        intro i hi k hk
        rcases Nat.lt_succ_iff_lt_or_eq.1 hi with hi | rfl
        · exact hv i hi k hk
        · rw [hself] at hk; cases hk; exact Or.inl rfl
      have hd : dictSetEmpty (equivDict e m) m = equivDict e (m + 1) := by
        rw [dictSetEmpty_new (by rw [mem_equivDict_keys]; omega)]
        unfold equivDict
        rw [List.range_succ, List.filter_append, List.map_append]
        congr 1
        · refine List.map_congr_left fun k hk => ?_
          have hkm : k < m := by simpa using (List.mem_filter.1 hk).1
          rw [List.filter_append]
          have : ([m].filter fun i => decide (i ≠ k ∧ e[i]? = some k)) = [] := by
            rw [List.filter_eq_nil_iff]
            intro i hi
            rw [List.mem_singleton] at hi; subst hi
            rw [hself]; simp
          rw [this, List.append_nil]
        · have : ([m].filter fun i => decide (e[i]? = some i)) = [m] := by
            simp [hself]
          rw [this]
          simp only [List.map_cons, List.map_nil, List.cons.injEq, Prod.mk.injEq, true_and, and_true]
          symm
          rw [List.filter_eq_nil_iff]
          intro i hi
          simp only [decide_eq_true_eq]
          rintro ⟨hne, hik⟩
          rcases List.mem_append.1 hi with hi | hi
          · have him : i < m := by simpa using hi
            rcases hv i him m hik with h | h <;> omega
          · rw [List.mem_singleton] at hi; exact hne hi
      rw [hd]
      exact ih (m + 1) (by omega) hv' (by omega)
    · rw [if_neg h1]
      by_cases h2 : e[m] < m ∧ e[e[m]]? = some e[m]
      · have hv' : ValidEquiv e (m + 1) := by
          intro i hi k hk
          rcases Nat.lt_succ_iff_lt_or_eq.1 hi with hi | rfl
          · exact hv i hi k hk
          · rw [hget] at hk; cases hk; exact Or.inr h2
        rw [dictAppend_some (equivDict_nodup e m) ((mem_equivDict_keys e m _).2 h2)]
        have hd : (equivDict e m).map (fun p => (p.1, if p.1 = e[m] then p.2 ++ [m] else p.2))
            = equivDict e (m + 1) := by
          unfold equivDict
          rw [List.range_succ, List.filter_append]
          have : ([m].filter fun i => decide (e[i]? = some i)) = [] := by
            rw [List.filter_eq_nil_iff]
            intro i hi
            rw [List.mem_singleton] at hi; subst hi
            rw [hget]; simp; omega
          rw [this, List.append_nil, List.map_map]
          refine List.map_congr_left fun k hk => ?_
          have hkm : k < m := by simpa using (List.mem_filter.1 hk).1
          simp only [Function.comp, List.filter_append, Prod.mk.injEq, true_and]
          by_cases hke : k = e[m]
          · rw [if_pos hke]
            congr 1
            have : ([m].filter fun i => decide (i ≠ k ∧ e[i]? = some k)) = [m] := by
              rw [List.filter_eq_self]
              intro i hi
              rw [List.mem_singleton] at hi; subst hi
              rw [hget]; simp [hke]; omega
            rw [this]
          · rw [if_neg hke]
            have : ([m].filter fun i => decide (i ≠ k ∧ e[i]? = some k)) = [] := by
              rw [List.filter_eq_nil_iff]
              intro i hi
              rw [List.mem_singleton] at hi; subst hi
              rw [hget]; simp; intro _ h; exact hke h.symm
            rw [this, List.append_nil]
        simp only [hd]
        exact ih (m + 1) (by omega) hv' (by omega)
      · rw [dictAppend_none (by rw [mem_equivDict_keys]; exact h2)]
        constructor
        · intro hvl
          rcases hvl m hlt e[m] hget with h | h
          · exact absurd h.symm h1
          · exact absurd h h2
        · intro _; rfl

theorem mapM_except_ok {α β : Type} (f : α → Py β) (l : List α) (r : List β) :
    l.mapM f = .ok r ↔ List.Forall₂ (fun a b => f a = .ok b) l r := by
  induction l generalizing r with
  | nil =>
    simp only [List.mapM_nil]
    constructor
    · intro h; cases h; exact List.Forall₂.nil
    · intro h; cases h; rfl
  | cons a l ih =>
    rw [List.mapM_cons]
    constructor
    · intro h
      cases hfa : f a with
      | error e => rw [hfa] at h; cases h
      | ok b =>
        rw [hfa] at h
        cases hl : l.mapM f with
        | error e => rw [hl] at h; cases h
        | ok bs => rw [hl] at h; cases h; exact List.Forall₂.cons hfa ((ih bs).1 hl)
    · intro h
      cases h with
      | cons hab hrest => rw [hab, (ih _).2 hrest]; rfl

end Verif
