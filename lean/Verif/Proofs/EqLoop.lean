import Verif.Proofs.Reference
import Mathlib.Data.List.Perm.Subperm

/-! Loop invariant of `get_equivalent_displacements`. -/

namespace Verif
open Spec

variable {N : ℕ}

/-! ### `modAt` -/

theorem mem_modAt {α : Type} {f : α → α} {k : ℕ} {l : List α} {x : α} (h : x ∈ modAt f k l) :
    x ∈ l ∨ ∃ y, l[k]? = some y ∧ x = f y := by
  induction l generalizing k with
  | nil => simp [modAt] at h
  | cons a l ih =>
    cases k with
    | zero =>
      simp only [modAt, List.mem_cons] at h
      rcases h with h | h
      · right; exact ⟨a, by simp, h⟩
      · left; simp [h]
    | succ k =>
      simp only [modAt, List.mem_cons] at h
      rcases h with h | h
      · left; simp [h]
      · rcases ih h with h | ⟨y, hy, h⟩
        · left; simp [h]
        · right; exact ⟨y, by simpa using hy, h⟩

theorem mem_modAt_of_mem {α : Type} {f : α → α} {k : ℕ} {l : List α} {x : α} (h : x ∈ l) :
    x ∈ modAt f k l ∨ (f x ∈ modAt f k l ∧ l[k]? = some x) := by
  induction l generalizing k with
  | nil => simp at h
  | cons a l ih =>
    cases k with
    | zero =>
      rcases List.mem_cons.1 h with rfl | h
      · right; simp [modAt]
      · left; simp [modAt, h]
    | succ k =>
      rcases List.mem_cons.1 h with rfl | h
      · left; simp [modAt]
      · rcases ih (k := k) h with h | h
        · left; simp [modAt, h]
        · right; simpa [modAt] using ⟨Or.inr h.1, h.2⟩

theorem getElem_modAt {α : Type} {f : α → α} {k : ℕ} {l : List α} {y : α} (h : l[k]? = some y) :
    f y ∈ modAt f k l := by
  induction l generalizing k with
  | nil => simp at h
  | cons a l ih =>
    cases k with
    | zero => simp at h; simp [modAt, h]
    | succ k => simp only [modAt, List.mem_cons]; right; exact ih (by simpa using h)

theorem map_modAt {α β : Type} {f : α → α} {g : α → β} (k : ℕ) (l : List α)
    (h : ∀ y ∈ l, g (f y) = g y) : (modAt f k l).map g = l.map g := by
  induction l generalizing k with
  | nil => simp [modAt]
  | cons a l ih =>
    cases k with
    | zero => simp [modAt, h a (by simp)]
    | succ k => simp [modAt, ih k fun y hy => h y (by simp [hy])]

theorem flatMap_modAt_perm {α β : Type} {f : α → α} {g : α → List β} {k : ℕ} {l : List α}
    {y : α} {z : β} (hk : l[k]? = some y) (hf : g (f y) = g y ++ [z]) :
    ((modAt f k l).flatMap g).Perm (z :: l.flatMap g) := by
  induction l generalizing k with
  | nil => simp at hk
  | cons a l ih =>
    cases k with
    | zero =>
      simp only [List.length_cons, Nat.zero_lt_succ, getElem?_pos, List.getElem_cons_zero,
        Option.some.injEq] at hk
      subst hk
      simp only [modAt, List.flatMap_cons, hf, List.append_assoc, List.singleton_append]
      exact List.perm_middle
    | succ k =>
      simp only [modAt, List.flatMap_cons]
      have := ih (k := k) (by simpa using hk)
      exact (List.Perm.append_left _ this).trans List.perm_middle

theorem flatMap_modAt_id {α β : Type} {f : α → α} {g : α → List β} (k : ℕ) (l : List α)
    (h : ∀ y, l[k]? = some y → f y = y) : modAt f k l = l := by
  induction l generalizing k with
  | nil => simp [modAt]
  | cons a l ih =>
    cases k with
    | zero => simp [modAt, h a (by simp)]
    | succ k => simp [modAt, ih k fun y hy => h y (by simpa using hy)]

/-! ### The invariant -/

/-- Pairs (operation, displacement) recorded by a group. -/
def EqGroup.pairs (g : EqGroup N) : List (SymOp × Pos N ℝ) := g.transformations.zip g.displacements

/-- What has become of a processed operation and its candidate. -/
def Covered (result : List (EqGroup N)) (orth : List (Pos N ℝ)) (x : SymOp × Pos N ℝ) : Prop :=
  (∃ g ∈ result, x ∈ g.pairs) ∨
  (∃ g ∈ result, (∃ h, g.displacements.head? = some h ∧ Collinear (flat x.2) (flat h)) ∧
    ∃ m ∈ g.displacements, Coincide x.2 m) ∨
  (∃ hs, hs <+: orth ∧ (∃ h ∈ hs, ¬ Orthogonal (flat x.2) (flat h)) ∧
    ∀ h ∈ hs, ¬ Collinear (flat x.2) (flat h))

structure EqInv (done : List (SymOp × Pos N ℝ)) (st : EqState N) : Prop where
  heads : st.result.map (fun g => g.displacements.head?) = st.orth.map some
  len : ∀ g ∈ st.result, g.displacements.length = g.transformations.length
  orth : st.orth.Pairwise (fun a b => Orthogonal (flat a) (flat b))
  coll : ∀ g ∈ st.result, ∀ h, g.displacements.head? = some h →
    ∀ m ∈ g.displacements.tail, Collinear (flat m) (flat h)
  nodup : ∀ g ∈ st.result, g.displacements.Pairwise (fun m c => ¬ Coincide c m)
  prov : (st.result.flatMap EqGroup.pairs).Subperm done
  cover : ∀ x ∈ done, Covered st.result st.orth x

theorem allClose5_iff (c m : Pos N ℝ) : allClose5 c m = true ↔ Coincide c m := by
  unfold allClose5 Coincide; simp

theorem Covered.mono {r r' : List (EqGroup N)} {o o' : List (Pos N ℝ)} {x : SymOp × Pos N ℝ}
    (hr : ∀ g ∈ r, ∃ g' ∈ r', g.displacements <+: g'.displacements ∧
      g.transformations <+: g'.transformations ∧ g'.pairs = g.pairs ++ g'.pairs.drop g.pairs.length)
    (ho : o <+: o') (h : Covered r o x) : Covered r' o' x := by
  rcases h with ⟨g, hg, hx⟩ | ⟨g, hg, ⟨h, hh, hc⟩, m, hm, hcm⟩ | ⟨hs, h1, h2, h3⟩
  · obtain ⟨g', hg', _, _, hp⟩ := hr g hg
    left; exact ⟨g', hg', by rw [hp]; exact List.mem_append_left _ hx⟩
  · obtain ⟨g', hg', hd, _, _⟩ := hr g hg
    right; left
    refine ⟨g', hg', ⟨h, ?_, hc⟩, m, hd.subset hm, hcm⟩
    obtain ⟨t, ht⟩ := hd
    rw [← ht, List.head?_append, hh]; rfl
  · right; right
    exact ⟨hs, h1.trans ho, h2, h3⟩

theorem eqInsert_inv {done : List (SymOp × Pos N ℝ)} {st : EqState N} (hI : EqInv done st)
    (op : SymOp) (c : Pos N ℝ) : EqInv (done ++ [(op, c)]) (eqInsert st op c) := by
  have hof : IsFirstIndex (fun w => ¬ Orthogonal (flat c) w) (st.orth.map flat)
      (isOrthogonalToAll (flat c) (st.orth.map flat)) := by
    refine firstIndex_isFirst _ _ (fun w => ?_) _
    rw [← orthTest_iff]; simp
  have hcf : IsFirstIndex (fun w => Collinear (flat c) w) (st.orth.map flat)
      (isNonCollinearWithAll (flat c) (st.orth.map flat)) :=
    firstIndex_isFirst _ _ (fun w => areCollinear_iff _ w) _
  unfold eqInsert
  by_cases h1 : isOrthogonalToAll (flat c) (st.orth.map flat) = -1
  · rw [if_pos h1]
    have hall := hof.neg_one_iff.1 h1
    refine ⟨?_, ?_, ?_, ?_, ?_, ?_, ?_⟩
    · simp [hI.heads]
    · intro g hg
      rcases List.mem_append.1 hg with hg | hg
      · exact hI.len g hg
      · rw [List.mem_singleton] at hg; subst hg; rfl
    · refine List.pairwise_append.2 ⟨hI.orth, by simp, fun a ha b hb => ?_⟩
      rw [List.mem_singleton] at hb; subst hb
      exact (not_not.1 (hall _ (List.mem_map_of_mem ha))).symm
    · intro g hg
      rcases List.mem_append.1 hg with hg | hg
      · exact hI.coll g hg
      · rw [List.mem_singleton] at hg; subst hg; intro h _ m hm; simp at hm
    · intro g hg
      rcases List.mem_append.1 hg with hg | hg
      · exact hI.nodup g hg
      · rw [List.mem_singleton] at hg; subst hg; simp
    · simp only [List.flatMap_append, List.flatMap_cons, List.flatMap_nil, List.append_nil]
      exact (hI.prov).append (by simp [EqGroup.pairs, List.Subperm.refl])
    · intro x hx
      rcases List.mem_append.1 hx with hx | hx
      · refine (hI.cover x hx).mono (fun g hg => ⟨g, by simp [hg], ?_⟩) (List.prefix_append _ _)
        exact ⟨List.prefix_rfl, List.prefix_rfl, by simp⟩
      · rw [List.mem_singleton] at hx; subst hx
        left; exact ⟨⟨[c], [op]⟩, by simp, by simp [EqGroup.pairs]⟩
  · rw [if_neg h1]
    obtain ⟨h, hh, hno⟩ : ∃ h ∈ st.orth, ¬ Orthogonal (flat c) (flat h) := by
      have := mt hof.neg_one_iff.2 h1
      push Not at this
      obtain ⟨x, hx, hx'⟩ := this
      obtain ⟨h, hh, rfl⟩ := List.mem_map.1 hx
      exact ⟨h, hh, hx'⟩
    dsimp only
    by_cases h2 : isNonCollinearWithAll (flat c) (st.orth.map flat) = -1
    · rw [if_neg (not_not.2 h2)]
      have hnc := hcf.neg_one_iff.1 h2
      refine ⟨hI.heads, hI.len, hI.orth, hI.coll, hI.nodup, ?_, ?_⟩
      · exact hI.prov.trans (List.sublist_append_left _ _).subperm
      · intro x hx
        rcases List.mem_append.1 hx with hx | hx
        · exact hI.cover x hx
        · rw [List.mem_singleton] at hx; subst hx
          right; right
          exact ⟨st.orth, List.prefix_rfl, ⟨h, hh, hno⟩,
            fun h' hh' => hnc _ (List.mem_map_of_mem hh')⟩
    · rw [if_pos h2]
      rcases hcf with ⟨h3, _⟩ | ⟨k, hk, hr, hcol, _⟩
      · exact absurd h3 h2
      rw [hr, Int.toNat_natCast]
      have hk' : k < st.orth.length := by simpa using hk
      have hcol' : Collinear (flat c) (flat st.orth[k]) := by simpa using hcol
      -- the group with that head
      have hlen : st.result.length = st.orth.length := by
        have := congrArg List.length hI.heads; simpa using this
      have hkr : k < st.result.length := hlen ▸ hk'
      have hgk : st.result[k]? = some st.result[k] := List.getElem?_eq_getElem hkr
      have hhead : st.result[k].displacements.head? = some st.orth[k] := by
        have := congrArg (fun l => l[k]?) hI.heads
        simpa [hkr, hk'] using this
      have hmem : st.result[k] ∈ st.result := List.getElem_mem hkr
      set g0 := st.result[k] with hg0
      by_cases hdup : (g0.displacements.any fun m => allClose5 c m) = true
      · -- duplicate: nothing changes
        have hid : modAt (fun g : EqGroup N =>
            if g.displacements.any (fun m => allClose5 c m) then g
            else ⟨g.displacements ++ [c], g.transformations ++ [op]⟩) k st.result = st.result := by
          refine flatMap_modAt_id (β := Unit) (g := fun _ => []) k _ fun y hy => ?_
          rw [hgk] at hy; cases hy
          rw [if_pos hdup]
        rw [hid]
        refine ⟨hI.heads, hI.len, hI.orth, hI.coll, hI.nodup, ?_, ?_⟩
        · exact hI.prov.trans (List.sublist_append_left _ _).subperm
        · intro x hx
          rcases List.mem_append.1 hx with hx | hx
          · exact hI.cover x hx
          · rw [List.mem_singleton] at hx; subst hx
            right; left
            obtain ⟨m, hm, hcm⟩ := List.any_eq_true.1 hdup
            exact ⟨g0, hmem, ⟨_, hhead, hcol'⟩, m, hm, (allClose5_iff _ _).1 hcm⟩
      · -- new collinear displacement
        have hf0 : (fun g : EqGroup N =>
            if g.displacements.any (fun m => allClose5 c m) then g
            else ⟨g.displacements ++ [c], g.transformations ++ [op]⟩) g0
            = ⟨g0.displacements ++ [c], g0.transformations ++ [op]⟩ := by
          dsimp only; rw [if_neg hdup]
        have hpairs : EqGroup.pairs ⟨g0.displacements ++ [c], g0.transformations ++ [op]⟩
            = g0.pairs ++ [(op, c)] := by
          unfold EqGroup.pairs
          rw [List.zip_append (hI.len g0 hmem).symm]; rfl
        set f := (fun g : EqGroup N =>
            if g.displacements.any (fun m => allClose5 c m) then g
            else ⟨g.displacements ++ [c], g.transformations ++ [op]⟩) with hf
        have hmod : ∀ g ∈ modAt f k st.result, g ∈ st.result ∨
            g = ⟨g0.displacements ++ [c], g0.transformations ++ [op]⟩ := by
          intro g hg
          rcases mem_modAt hg with hg | ⟨y, hy, rfl⟩
          · exact Or.inl hg
          · rw [hgk] at hy; cases hy; exact Or.inr hf0
        refine ⟨?_, ?_, hI.orth, ?_, ?_, ?_, ?_⟩
        · rw [map_modAt, hI.heads]
          intro y hy
          have hne : y.displacements.head? ≠ none := by
            intro hn
            have : (none : Option (Pos N ℝ)) ∈ st.result.map fun g => g.displacements.head? :=
              List.mem_map.2 ⟨y, hy, hn⟩
            rw [hI.heads] at this; simp at this
          simp only [hf]
          split_ifs
          · rfl
          · obtain ⟨h', hh'⟩ := Option.ne_none_iff_exists'.1 hne
            rw [hh']; simp [List.head?_append, hh']
        · intro g hg
          rcases hmod g hg with hg | rfl
          · exact hI.len g hg
          · simp [hI.len g0 hmem]
        · intro g hg
          rcases hmod g hg with hg | rfl
          · exact hI.coll g hg
          · intro h' hh' m hm
            have e1 : (g0.displacements ++ [c]).head? = some st.orth[k] := by
              simp [List.head?_append, hhead]
            rw [e1] at hh'; cases hh'
            have hne : g0.displacements ≠ [] := by
              intro hn; rw [hn] at hhead; simp at hhead
            rw [List.tail_append_of_ne_nil hne] at hm
            rcases List.mem_append.1 hm with hm | hm
            · exact hI.coll g0 hmem _ hhead m hm
            · rw [List.mem_singleton] at hm; subst hm; exact hcol'
        · intro g hg
          rcases hmod g hg with hg | rfl
          · exact hI.nodup g hg
          · refine List.pairwise_append.2 ⟨hI.nodup g0 hmem, by simp, fun a ha b hb => ?_⟩
            rw [List.mem_singleton] at hb; subst hb
            intro hcc
            exact hdup (List.any_eq_true.2 ⟨a, ha, (allClose5_iff _ _).2 hcc⟩)
        · have hperm := flatMap_modAt_perm (f := f) (g := EqGroup.pairs) (z := (op, c)) hgk
            (by rw [hf0, hpairs])
          refine hperm.subperm.trans ?_
          refine ((List.subperm_cons (op, c)).2 hI.prov).trans ?_
          exact (List.perm_append_singleton (op, c) done).symm.subperm
        · intro x hx
          rcases List.mem_append.1 hx with hx | hx
          · refine (hI.cover x hx).mono (fun g hg => ?_) List.prefix_rfl
            rcases mem_modAt_of_mem (f := f) (k := k) hg with hg' | ⟨hg', hgk'⟩
            · exact ⟨g, hg', List.prefix_rfl, List.prefix_rfl, by simp⟩
            · rw [hgk] at hgk'; cases hgk'
              refine ⟨_, hg', ?_⟩
              rw [hf0]
              exact ⟨List.prefix_append _ _, List.prefix_append _ _, by rw [hpairs]; simp⟩
          · rw [List.mem_singleton] at hx; subst hx
            left
            refine ⟨_, getElem_modAt (f := f) hgk, ?_⟩
            rw [hf0, hpairs]; simp

theorem eqLoop_inv (p d : Pos N ℝ) (l : List (SymOp × PermMat N))
    (done : List (SymOp × Pos N ℝ)) (st : EqState N) (hI : EqInv done st) :
    ∃ (new : List (SymOp × Pos N ℝ)) (st' : EqState N),
      eqLoop p (displacePositions p d) l st = .ok st' ∧
      EqInv (done ++ new) st' ∧
      List.Forall₂ (fun x y => x.1 = y.1 ∧
        candidate p (displacePositions p d) x.1 x.2 = .ok y.2) l new := by
  induction l generalizing done st with
  | nil => exact ⟨[], st, rfl, by simpa using hI, List.Forall₂.nil⟩
  | cons x l ih =>
    obtain ⟨op, P⟩ := x
    obtain ⟨c, hc⟩ := candidate_ok p d op P
    obtain ⟨new, st', h1, h2, h3⟩ := ih (done ++ [(op, c)]) _ (eqInsert_inv hI op c)
    refine ⟨(op, c) :: new, st', ?_, by simpa using h2, List.Forall₂.cons ⟨rfl, hc⟩ h3⟩
    unfold eqLoop
    rw [hc]
    exact h1

theorem eqInv_empty : EqInv (N := N) [] ⟨[], []⟩ := by
  refine ⟨by simp, by simp, by simp, by simp, by simp, by simp, by simp⟩

end Verif
