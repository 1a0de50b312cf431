import Verif.Props.DatasetFiles

/-!
# C77: which error reading a dataset raises
-/

namespace Verif

/-- Successive files agree, and all hold the same number of positions. -/
def FilesFit (ss : List FileSample) : Prop :=
  ss.IsChain FilesAgree ∧ ∀ x ∈ ss, ∀ y ∈ ss, x.positions.length = y.positions.length

theorem filesFit_cons (s : FileSample) (ss : List FileSample) : FilesFit (s :: ss) ↔
    (s :: ss).IsChain FilesAgree ∧ ∀ x ∈ ss, s.positions.length = x.positions.length := by
  constructor
  · rintro ⟨h1, h2⟩
    exact ⟨h1, fun x hx => h2 s (by simp) x (by simp [hx])⟩
  · rintro ⟨h1, h2⟩
    have h3 : ∀ x ∈ s :: ss, s.positions.length = x.positions.length := by
      intro x hx
      rcases List.mem_cons.1 hx with rfl | hx
      · rfl
      · exact h2 x hx
    exact ⟨h1, fun x hx y hy => (h3 x hx).symm.trans (h3 y hy)⟩

theorem datasetLoop_error_iff (read : Path → Py FileSample) (paths : List Path) (k : ℕ) (hk : k ≠ 0)
    (prev : FileSample) (p : List (Fin 3 → ℝ)) (rest : List (List (Fin 3 → ℝ)))
    (ps : List (Mat3 ℝ)) (e : PyErr) :
    datasetLoop read k ⟨prev.lattice, prev.atomicNumbers, p :: rest, ps⟩ paths = .error e ↔
    ∃ pre path post ss, paths = pre ++ path :: post ∧
      List.Forall₂ (fun q x => read q = .ok x) pre ss ∧
      ((prev :: ss).IsChain FilesAgree ∧ ∀ x ∈ ss, p.length = x.positions.length) ∧
      (read path = .error e ∨ ∃ s, read path = .ok s ∧ e = .incompatible ∧
        ¬ ((prev :: (ss ++ [s])).IsChain FilesAgree ∧
          ∀ x ∈ ss ++ [s], p.length = x.positions.length)) := by
  induction paths generalizing k prev rest ps with
  | nil =>
    constructor
    · intro h; cases h
    · rintro ⟨pre, path, post, ss, h, -⟩
      simp at h
  | cons path paths ih =>
    rw [datasetLoop]
    cases hr : read path with
    | error e' =>
      change Except.error e' = Except.error e ↔ _
      constructor
      · intro h
        cases h
        exact ⟨[], path, paths, [], rfl, .nil, ⟨List.isChain_singleton _, by simp⟩, Or.inl hr⟩
      · rintro ⟨pre, q, post, ss, h, h1, -, h3⟩
        cases pre with
        | nil =>
          obtain ⟨rfl, rfl⟩ := List.cons.inj h
          rcases h3 with h3 | ⟨s, h3, -⟩
          · rw [hr] at h3; rw [Except.error.inj h3]
          · rw [hr] at h3; cases h3
        | cons a pre =>
          obtain ⟨rfl, rfl⟩ := List.cons.inj h
          cases h1 with
          | cons h _ => rw [hr] at h; cases h
    | ok s =>
      change (checkSample k _ s >>= _) = _ ↔ _
      rcases checkSample_iff k hk prev s p rest ps with ⟨hc, hag, hlen⟩ | ⟨hc, hno⟩
      · rw [hc]
        change datasetLoop read (k + 1) ⟨s.lattice, s.atomicNumbers, p :: (rest ++ [s.positions]),
          ps ++ [s.polarizability]⟩ paths = _ ↔ _
        rw [ih (k + 1) (by omega) s (rest ++ [s.positions]) (ps ++ [s.polarizability])]
        have hcons : ∀ ss : List FileSample, ((prev :: s :: ss).IsChain FilesAgree ∧
            ∀ x ∈ s :: ss, p.length = x.positions.length) ↔
            ((s :: ss).IsChain FilesAgree ∧ ∀ x ∈ ss, p.length = x.positions.length) := by
          intro ss
          rw [List.isChain_cons_cons, List.forall_mem_cons]
          exact ⟨fun h => ⟨h.1.2, h.2.2⟩, fun h => ⟨⟨hag, h.1⟩, hlen, h.2⟩⟩
        constructor
        · rintro ⟨pre, q, post, ss, rfl, h1, h2, h3⟩
          refine ⟨path :: pre, q, post, s :: ss, rfl, .cons hr h1, (hcons ss).2 h2, ?_⟩
          rcases h3 with h3 | ⟨t, h3, h4, h5⟩
          · exact Or.inl h3
          · exact Or.inr ⟨t, h3, h4, fun h => h5 ((hcons _).1 h)⟩
        · rintro ⟨pre, q, post, ss, h, h1, h2, h3⟩
          cases pre with
          | nil =>
            obtain ⟨rfl, rfl⟩ := List.cons.inj h
            cases h1
            rcases h3 with h3 | ⟨t, h3, -, h5⟩
            · rw [hr] at h3; cases h3
            · rw [hr] at h3
              obtain rfl := Except.ok.inj h3
              exact absurd ((hcons []).2 ⟨List.isChain_singleton _, by simp⟩) h5
          | cons a pre =>
            obtain ⟨rfl, rfl⟩ := List.cons.inj h
            cases h1 with
            | cons h h1 =>
              rename_i s' ss
              obtain rfl : s = s' := by rw [hr] at h; exact Except.ok.inj h
              refine ⟨pre, q, post, ss, rfl, h1, (hcons ss).1 h2, ?_⟩
              rcases h3 with h3 | ⟨t, h3, h4, h5⟩
              · exact Or.inl h3
              · exact Or.inr ⟨t, h3, h4, fun h => h5 ((hcons _).2 h)⟩
      · rw [hc]
        change Except.error PyErr.incompatible = Except.error e ↔ _
        constructor
        · intro h
          cases h
          refine ⟨[], path, paths, [], rfl, .nil, ⟨List.isChain_singleton _, by simp⟩,
            Or.inr ⟨s, hr, rfl, ?_⟩⟩
          rintro ⟨h1, h2⟩
          exact hno ⟨(List.isChain_cons_cons.1 h1).1, h2 s (by simp)⟩
        · rintro ⟨pre, q, post, ss, h, h1, h2, h3⟩
          cases pre with
          | nil =>
            obtain ⟨rfl, rfl⟩ := List.cons.inj h
            rcases h3 with h3 | ⟨t, -, rfl, -⟩
            · rw [hr] at h3; cases h3
            · rfl
          | cons a pre =>
            obtain ⟨rfl, rfl⟩ := List.cons.inj h
            cases h1 with
            | cons h h1 =>
              rename_i s' ss
              obtain rfl : s = s' := by rw [hr] at h; exact Except.ok.inj h
              exact absurd ⟨(List.isChain_cons_cons.1 h2.1).1, h2.2 s (by simp)⟩ hno

/-- C77: reading a dataset fails exactly in these cases: there are no files; after files which fit
together comes one that cannot be read, whose error is passed on, or one that does not fit, which is an
`IncompatibleStructureException`; or all files fit together but do not have one position per atom, which
is a `ValueError`.  Files after the first offending one play no role. -/
theorem C77_failures (read : Path → Py FileSample) (arg : PathsArg) (e : PyErr) :
    readDataset true read arg = .error e ↔
      (arg = .many [] ∧ e = .valueError) ∨
      ∃ paths, PathsOf arg paths ∧
        ((∃ pre path post ss, paths = pre ++ path :: post ∧
          List.Forall₂ (fun q x => read q = .ok x) pre ss ∧ FilesFit ss ∧
          (read path = .error e ∨
            ∃ s, read path = .ok s ∧ e = .incompatible ∧ ¬ FilesFit (ss ++ [s]))) ∨
        ∃ ss, List.Forall₂ (fun q x => read q = .ok x) paths ss ∧ FilesFit ss ∧
          e = .valueError ∧ ∃ x ∈ ss, x.positions.length ≠ x.atomicNumbers.length) := by
  have hchain : ∀ (s : FileSample) (ss : List FileSample), (s :: ss).IsChain FilesAgree →
      ∀ x ∈ s :: ss, x.atomicNumbers = s.atomicNumbers := by
    intro s ss
    induction ss generalizing s with
    | nil => intro _ x hx; simp at hx; rw [hx]
    | cons y ys ih =>
      intro h x hx
      rw [List.isChain_cons_cons] at h
      rcases List.mem_cons.1 hx with rfl | hx
      · rfl
      · rw [ih y h.2 x hx, h.1.2]
  have hone : ∀ s : FileSample, FilesFit [s] := fun s =>
    (filesFit_cons s []).2 ⟨List.isChain_singleton _, by simp⟩
  have hnil : FilesFit [] := ⟨List.isChain_nil, by simp⟩
  have hsub : ∀ paths paths', PathsOf arg paths → PathsOf arg paths' → paths' = paths := by
    intro a b ha hb
    cases ha <;> cases hb <;> rfl
  cases hp : pathifyAsList arg with
  | error e' =>
    have harg : arg = .many [] ∧ e' = .valueError := by
      rcases arg with p | _ | ⟨p, ps⟩
      · cases hp
      · cases hp; exact ⟨rfl, rfl⟩
      · cases hp
    obtain ⟨rfl, rfl⟩ := harg
    change Except.error PyErr.valueError = _ ↔ _
    constructor
    · intro h; cases h; exact Or.inl ⟨rfl, rfl⟩
    · rintro (⟨-, rfl⟩ | ⟨paths, h, -⟩)
      · rfl
      · cases h
  | ok paths =>
    rw [pathifyAsList_iff] at hp
    have hnot : ¬ arg = .many [] := by rintro rfl; cases hp
    have hred : ∀ P : List Path → Prop, ((arg = .many [] ∧ e = .valueError) ∨
        ∃ paths, PathsOf arg paths ∧ P paths) ↔ P paths := by
      intro P
      constructor
      · rintro (⟨h, -⟩ | ⟨paths', h, h'⟩)
        · exact absurd h hnot
        · rw [hsub _ _ hp h] at h'; exact h'
      · intro h; exact Or.inr ⟨paths, hp, h⟩
    rw [hred]
    obtain ⟨path, more, rfl⟩ : ∃ path more, paths = path :: more := by cases hp <;> exact ⟨_, _, rfl⟩
    cases hs : read path with
    | error e' =>
      have : readDataset true read arg = .error e' := by
        unfold readDataset
        rw [if_neg (by simp), (pathifyAsList_iff arg _).2 hp]
        change (datasetLoop read 0 _ (path :: more) >>= _) = _
        rw [datasetLoop, hs]
        rfl
      rw [this]
      constructor
      · intro h
        cases h
        exact Or.inl ⟨[], path, more, [], rfl, .nil, hnil, Or.inl hs⟩
      · rintro (⟨pre, q, post, ss, h, h1, -, h3⟩ | ⟨ss, h, -⟩)
        · cases pre with
          | nil =>
            obtain ⟨rfl, rfl⟩ := List.cons.inj h
            rcases h3 with h3 | ⟨s, h3, -⟩
            · rw [hs] at h3; rw [Except.error.inj h3]
            · rw [hs] at h3; cases h3
          | cons a pre =>
            obtain ⟨rfl, rfl⟩ := List.cons.inj h
            cases h1 with
            | cons h _ => rw [hs] at h; cases h
        · cases h with
          | cons h _ => rw [hs] at h; cases h
    | ok s =>
      rw [readDataset_loop read arg path more hp s hs]
      cases hl : datasetLoop read 1 ⟨s.lattice, s.atomicNumbers, [s.positions],
          [s.polarizability]⟩ more with
      | error e' =>
        have hl0 := hl
        rw [datasetLoop_error_iff read more 1 (by omega)] at hl
        change Except.error e' = _ ↔ _
        constructor
        · intro h
          cases h
          obtain ⟨pre, q, post, ss, rfl, h1, h2, h3⟩ := hl
          refine Or.inl ⟨path :: pre, q, post, s :: ss, rfl, .cons hs h1, (filesFit_cons _ _).2 h2, ?_⟩
          rcases h3 with h3 | ⟨t, h3, h4, h5⟩
          · exact Or.inl h3
          · exact Or.inr ⟨t, h3, h4, fun h => h5 ((filesFit_cons _ _).1 h)⟩
        · rintro (⟨pre, q, post, ss, h, h1, h2, h3⟩ | ⟨ss, h1, h2, -⟩)
          · cases pre with
            | nil =>
              obtain ⟨rfl, rfl⟩ := List.cons.inj h
              cases h1
              rcases h3 with h3 | ⟨t, h3, -, h5⟩
              · rw [hs] at h3; cases h3
              · exact absurd (hone t) h5
            | cons a pre =>
              obtain ⟨rfl, rfl⟩ := List.cons.inj h
              cases h1 with
              | cons h h1 =>
                rename_i s' ss
                obtain rfl : s = s' := by rw [hs] at h; exact Except.ok.inj h
                have := (datasetLoop_error_iff read (pre ++ q :: post) 1 (by omega) s s.positions []
                  [s.polarizability] e).2 ⟨pre, q, post, ss, rfl, h1, (filesFit_cons _ _).1 h2, ?_⟩
                · rw [Except.error.inj (hl0.symm.trans this)]
                · rcases h3 with h3 | ⟨t, h3, h4, h5⟩
                  · exact Or.inl h3
                  · exact Or.inr ⟨t, h3, h4, fun h => h5 ((filesFit_cons _ _).2 h)⟩
          · cases h1 with
            | cons h h1 =>
              rename_i s' ss
              obtain rfl : s = s' := by rw [hs] at h; exact Except.ok.inj h
              have h2' := (filesFit_cons _ _).1 h2
              rw [(datasetLoop_iff read more 1 (by omega) s s.positions [] [s.polarizability]
                _).2 ⟨ss, h1, h2'.1, h2'.2, rfl⟩] at hl0
              cases hl0
      | ok st =>
        have hl0 := hl
        rw [datasetLoop_iff read more 1 (by omega) s] at hl
        obtain ⟨ss, h1, h2, h3, rfl⟩ := hl
        have hfit : FilesFit (s :: ss) := (filesFit_cons _ _).2 ⟨h2, h3⟩
        have hnum : (lastSample s ss).atomicNumbers = s.atomicNumbers :=
          hchain s ss h2 _ (List.getLast_mem _)
        change makeDataset (lastSample s ss).lattice (lastSample s ss).atomicNumbers
          (s.positions :: ([] ++ ss.map (·.positions))) ([s.polarizability] ++ ss.map (·.polarizability))
          = _ ↔ _
        rw [hnum]
        have hiff : (∀ q ∈ s.positions :: ([] ++ ss.map (·.positions)),
            q.length = s.atomicNumbers.length) ↔
            ∀ x ∈ s :: ss, x.positions.length = x.atomicNumbers.length := by
          have hm : s.positions :: ([] ++ ss.map (·.positions)) = (s :: ss).map (·.positions) := rfl
          rw [hm]
          constructor
          · intro h x hx
            rw [hchain s ss h2 x hx]
            exact h _ (List.mem_map_of_mem (f := (·.positions)) hx)
          · intro h q hq
            obtain ⟨x, hx, rfl⟩ := List.mem_map.1 hq
            rw [← hchain s ss h2 x hx]
            exact h x hx
        have hright : (e = .valueError ∧ ∃ x ∈ s :: ss, x.positions.length ≠ x.atomicNumbers.length) ↔
            ((∃ pre q post ss, path :: more = pre ++ q :: post ∧
              List.Forall₂ (fun q x => read q = .ok x) pre ss ∧ FilesFit ss ∧
              (read q = .error e ∨
                ∃ s, read q = .ok s ∧ e = .incompatible ∧ ¬ FilesFit (ss ++ [s]))) ∨
            ∃ ss, List.Forall₂ (fun q x => read q = .ok x) (path :: more) ss ∧ FilesFit ss ∧
              e = .valueError ∧ ∃ x ∈ ss, x.positions.length ≠ x.atomicNumbers.length) := by
          constructor
          · rintro ⟨h, h'⟩
            exact Or.inr ⟨s :: ss, .cons hs h1, hfit, h, h'⟩
          · rintro (⟨pre, q, post, ss', h, g1, g2, g3⟩ | ⟨ss', g1, g2, g3⟩)
            · exfalso
              cases pre with
              | nil =>
                obtain ⟨rfl, rfl⟩ := List.cons.inj h
                cases g1
                rcases g3 with h3 | ⟨t, h3, -, h5⟩
                · rw [hs] at h3; cases h3
                · exact absurd (hone t) h5
              | cons a pre =>
                obtain ⟨rfl, rfl⟩ := List.cons.inj h
                cases g1 with
                | cons h g1 =>
                  rename_i s' ss'
                  obtain rfl : s = s' := by rw [hs] at h; exact Except.ok.inj h
                  have := (datasetLoop_error_iff read (pre ++ q :: post) 1 (by omega) s s.positions []
                    [s.polarizability] e).2 ⟨pre, q, post, ss', rfl, g1, (filesFit_cons _ _).1 g2, ?_⟩
                  · have hc := hl0.symm.trans this; cases hc
                  · rcases g3 with h3 | ⟨t, h3, h4, h5⟩
                    · exact Or.inl h3
                    · exact Or.inr ⟨t, h3, h4, fun h => h5 ((filesFit_cons _ _).2 h)⟩
            · have : ss' = s :: ss := by
                have hfun : ∀ {l : List Path} {a b : List FileSample},
                    List.Forall₂ (fun q x => read q = .ok x) l a →
                    List.Forall₂ (fun q x => read q = .ok x) l b → a = b := by
                  intro l a b ha
                  induction ha generalizing b with
                  | nil => intro hb; cases hb; rfl
                  | cons h _ ih =>
                    intro hb
                    cases hb with
                    | cons h' hb =>
                      rw [h] at h'
                      rw [Except.ok.inj h', ih hb]
                exact hfun g1 (.cons hs h1)
              rw [this] at g3
              exact g3
        rw [← hright]
        unfold makeDataset
        by_cases hall : ∀ x ∈ s :: ss, x.positions.length = x.atomicNumbers.length
        · rw [if_neg (not_not.2 (hiff.2 hall)), if_neg (by simp), scaleAndFlatten_standard]
          constructor
          · intro h; cases h
          · rintro ⟨-, x, hx, hne⟩
            exact absurd (hall x hx) hne
        · rw [if_pos (fun h => hall (hiff.1 h))]
          push Not at hall
          constructor
          · intro h; cases h; exact ⟨rfl, hall⟩
          · rintro ⟨rfl, -⟩; rfl

/-- C77, concrete: a second file with another element is incompatible even if the third is missing;
a missing second file is reported as such. -/
example : readDataset true (fun p => if p = ['a'] then .ok (driftSample 0)
      else if p = ['b'] then .ok { driftSample 0 with atomicNumbers := [1] }
      else .error .fileNotFoundError) (.many [['a'], ['b'], ['c']]) = .error .incompatible ∧
    readDataset true (fun p => if p = ['a'] then .ok (driftSample 0)
      else if p = ['b'] then .ok { driftSample 0 with atomicNumbers := [1] }
      else .error .fileNotFoundError) (.many [['a'], ['c'], ['b']]) = .error .fileNotFoundError := by
  have h1 : FilesFit [driftSample 0] := (filesFit_cons _ _).2 ⟨List.isChain_singleton _, by simp⟩
  constructor
  · refine (C77_failures _ _ _).2 (Or.inr ⟨_, .many _ _, Or.inl ⟨[['a']], ['b'], [['c']], [driftSample 0],
      rfl, .cons (by simp) .nil, h1, Or.inr ⟨{ driftSample 0 with atomicNumbers := [1] }, by simp, rfl,
        ?_⟩⟩⟩)
    rintro ⟨h, -⟩
    have := ((List.isChain_cons_cons.1 h).1).2
    simp [driftSample] at this
  · exact (C77_failures _ _ _).2 (Or.inr ⟨_, .many _ _, Or.inl ⟨[['a']], ['c'], [['b']], [driftSample 0],
      rfl, .cons (by simp) .nil, h1, Or.inl (by simp)⟩⟩)

end Verif
