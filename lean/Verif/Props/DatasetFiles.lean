import Verif.Props.Dataset

/-!
# C76, C77: rescaling and reading datasets
-/

namespace Verif

/-- C76: scaling a new dataset with its own mean and standard deviation changes nothing. -/
theorem C76_own_scale (lattice : Mat3 ℝ) (numbers : List ℕ) (positions : List (List (Fin 3 → ℝ)))
    (ps : List (Mat3 ℝ)) (d : PolDataset) (h : makeDataset lattice numbers positions ps = .ok d)
    (mean stddev : Mat3 ℝ) (hm : ∀ i j, mean i j = Spec.mean (ps.map fun p => p i j))
    (hs : ∀ i j, 0 ≤ stddev i j ∧ stddev i j ^ 2 = Spec.variance (ps.map fun p => p i j)) :
    d.scalePolarizabilities mean stddev = d := by
  obtain ⟨-, -, rfl⟩ := makeDataset_ok h
  have h1 : mean = meanPol ps := by
    funext i j
    rw [hm]
    simp [meanPol, Spec.mean]
  have h2 : stddev = stdPol ps := by
    funext i j
    have h0 : 0 ≤ stdPol ps i j := Real.sqrt_nonneg _
    have hsq := stdPol_sq ps i j
    exact (pow_left_inj₀ (hs i j).1 h0 two_ne_zero).1 ((hs i j).2.trans hsq.symm)
  rw [h1, h2]
  rfl

/-! ## C77 -/

/-- What successive files must satisfy. -/
def FilesAgree (a b : FileSample) : Prop :=
  Spec.NearLattice a.lattice b.lattice ∧ a.atomicNumbers = b.atomicNumbers

theorem latticeClose_iff (a b : Mat3 ℝ) : latticeClose a b ↔ Spec.NearLattice a b := by
  unfold latticeClose Spec.NearLattice
  have : ∀ x : ℝ, 1 / 10 ^ 5 + 1 / 10 ^ 5 * x = (1 + x) / 100000 := fun x => by norm_num; ring
  simp only [this]

/-- Last sample of `s :: ss`. -/
def lastSample (s : FileSample) (ss : List FileSample) : FileSample := (s :: ss).getLast (by simp)

theorem checkSample_iff (k : ℕ) (hk : k ≠ 0) (prev s : FileSample) (p : List (Fin 3 → ℝ))
    (rest : List (List (Fin 3 → ℝ))) (ps : List (Mat3 ℝ)) :
    (checkSample k ⟨prev.lattice, prev.atomicNumbers, p :: rest, ps⟩ s = .ok () ∧
      FilesAgree prev s ∧ p.length = s.positions.length) ∨
    (checkSample k ⟨prev.lattice, prev.atomicNumbers, p :: rest, ps⟩ s = .error .incompatible ∧
      ¬ (FilesAgree prev s ∧ p.length = s.positions.length)) := by
  unfold checkSample
  rw [if_pos hk]
  dsimp only
  unfold FilesAgree
  rw [← latticeClose_iff]
  by_cases h1 : latticeClose prev.lattice s.lattice
  · rw [if_neg (not_not.2 h1)]
    by_cases h2 : prev.atomicNumbers = s.atomicNumbers
    · rw [if_neg (not_not.2 h2)]
      by_cases h3 : p.length = s.positions.length
      · rw [if_neg (not_not.2 h3)]
        exact Or.inl ⟨rfl, ⟨h1, h2⟩, h3⟩
      · rw [if_pos h3]
        exact Or.inr ⟨rfl, fun h => h3 h.2⟩
    · rw [if_pos h2]
      exact Or.inr ⟨rfl, fun h => h2 h.1.2⟩
  · rw [if_pos h1]
    exact Or.inr ⟨rfl, fun h => h1 h.1.1⟩

theorem datasetLoop_iff (read : Path → Py FileSample) (paths : List Path) (k : ℕ) (hk : k ≠ 0)
    (prev : FileSample) (p : List (Fin 3 → ℝ)) (rest : List (List (Fin 3 → ℝ)))
    (ps : List (Mat3 ℝ)) (st' : DatasetState) :
    datasetLoop read k ⟨prev.lattice, prev.atomicNumbers, p :: rest, ps⟩ paths = .ok st' ↔
      ∃ ss, List.Forall₂ (fun path s => read path = .ok s) paths ss ∧
        (prev :: ss).IsChain FilesAgree ∧ (∀ s ∈ ss, p.length = s.positions.length) ∧
        st' = ⟨(lastSample prev ss).lattice, (lastSample prev ss).atomicNumbers,
          p :: rest ++ ss.map (·.positions), ps ++ ss.map (·.polarizability)⟩ := by
  induction paths generalizing k prev rest ps with
  | nil =>
    rw [datasetLoop]
    constructor
    · intro h
      refine ⟨[], List.Forall₂.nil, List.isChain_singleton _, by simp, ?_⟩
      simpa [lastSample] using (Except.ok.inj h).symm
    · rintro ⟨ss, h, -, -, rfl⟩
      cases h
      simp [lastSample]
  | cons path paths ih =>
    rw [datasetLoop]
    cases hr : read path with
    | error e =>
      constructor
      · intro h; cases h
      · rintro ⟨ss, h, -⟩
        cases h with
        | cons h _ => rw [hr] at h; cases h
    | ok s =>
      change (checkSample k _ s >>= _) = _ ↔ _
      rcases checkSample_iff k hk prev s p rest ps with ⟨hc, hag, hlen⟩ | ⟨hc, hno⟩
      · rw [hc]
        change datasetLoop read (k + 1) ⟨s.lattice, s.atomicNumbers, p :: (rest ++ [s.positions]),
          ps ++ [s.polarizability]⟩ paths = _ ↔ _
        rw [ih (k + 1) (by omega) s (rest ++ [s.positions]) (ps ++ [s.polarizability])]
        constructor
        · rintro ⟨ss, h1, h2, h3, rfl⟩
          refine ⟨s :: ss, List.Forall₂.cons hr h1, List.isChain_cons_cons.2 ⟨hag, h2⟩, ?_, ?_⟩
          · intro x hx
            rcases List.mem_cons.1 hx with rfl | hx
            · exact hlen
            · exact h3 x hx
          · simp [lastSample]
        · rintro ⟨ss, h1, h2, h3, rfl⟩
          cases h1 with
          | cons h1 h1' =>
            rename_i s' ss
            obtain rfl : s = s' := by rw [hr] at h1; exact Except.ok.inj h1
            refine ⟨ss, h1', (List.isChain_cons_cons.1 h2).2, fun x hx => h3 x (by simp [hx]), ?_⟩
            simp [lastSample]
      · rw [hc]
        constructor
        · intro h; cases h
        · rintro ⟨ss, h1, h2, h3, -⟩
          cases h1 with
          | cons h1 h1' =>
            rename_i s' ss
            obtain rfl : s = s' := by rw [hr] at h1; exact Except.ok.inj h1
            exact absurd ⟨(List.isChain_cons_cons.1 h2).1, h3 s (by simp)⟩ hno

/-- The files meant by a `filepaths` argument. -/
inductive PathsOf : PathsArg → List Path → Prop
  | one (p : Path) : PathsOf (.one p) [p]
  | many (p : Path) (ps : List Path) : PathsOf (.many (p :: ps)) (p :: ps)

theorem pathifyAsList_iff (arg : PathsArg) (paths : List Path) :
    pathifyAsList arg = .ok paths ↔ PathsOf arg paths := by
  constructor
  · intro h
    rcases arg with p | _ | ⟨p, ps⟩
    · cases h; exact .one p
    · cases h
    · cases h; exact .many p ps
  · intro h
    cases h <;> rfl

theorem readDataset_loop (read : Path → Py FileSample) (arg : PathsArg) (path : Path)
    (paths : List Path) (h : PathsOf arg (path :: paths)) (s : FileSample)
    (hs : read path = .ok s) :
    readDataset true read arg =
      (datasetLoop read 1 ⟨s.lattice, s.atomicNumbers, [s.positions], [s.polarizability]⟩ paths >>=
        fun st => makeDataset st.lattice st.atomicNumbers st.positionsList st.polarizabilities) := by
  unfold readDataset
  rw [if_neg (by simp), (pathifyAsList_iff arg _).2 h]
  change (datasetLoop read 0 _ (path :: paths) >>= _) = _
  rw [datasetLoop, hs]
  rfl

/-- C77: files are accepted iff all can be read, each one agrees with the one before it (lattice
up to `1e-5`, atomic numbers exactly), and each has as many positions as atoms.  The dataset holds
the samples in the order of the files; its lattice is that of the last file. -/
theorem C77_accepts (read : Path → Py FileSample) (arg : PathsArg) (d : PolDataset) :
    readDataset true read arg = .ok d ↔
      ∃ paths s ss, PathsOf arg paths ∧
        List.Forall₂ (fun path x => read path = .ok x) paths (s :: ss) ∧
        (s :: ss).IsChain FilesAgree ∧
        (∀ x ∈ s :: ss, x.positions.length = x.atomicNumbers.length) ∧
        makeDataset ((s :: ss).getLast (by simp)).lattice s.atomicNumbers
          ((s :: ss).map (·.positions)) ((s :: ss).map (·.polarizability)) = .ok d := by
  have hchain : ∀ (s : FileSample) (ss : List FileSample), (s :: ss).IsChain FilesAgree →
      ∀ x ∈ s :: ss, x.atomicNumbers = s.atomicNumbers := by
    intro s ss
    induction ss generalizing s with
    | nil => intro _ x hx; simp at hx; rw [hx]
    | cons y ys ih =>
      intro h x hx
      rw [List.isChain_cons_cons] at h
      rcases List.mem_cons.1 hx with rfl | hx
      · rfl
      · rw [ih y h.2 x hx, h.1.2]
  constructor
  · intro h
    cases hp : pathifyAsList arg with
    | error e =>
      unfold readDataset at h
      rw [if_neg (by simp), hp] at h
      cases h
    | ok paths =>
      rw [pathifyAsList_iff] at hp
      obtain ⟨path, more, rfl⟩ : ∃ path more, paths = path :: more := by cases hp <;> exact ⟨_, _, rfl⟩
      cases hs : read path with
      | error e =>
        unfold readDataset at h
        rw [if_neg (by simp), (pathifyAsList_iff arg _).2 hp] at h
        change (datasetLoop read 0 _ (path :: more) >>= _) = _ at h
        rw [datasetLoop, hs] at h
        cases h
      | ok s =>
        rw [readDataset_loop read arg path more hp s hs] at h
        cases hl : datasetLoop read 1 ⟨s.lattice, s.atomicNumbers, [s.positions],
            [s.polarizability]⟩ more with
        | error e => rw [hl] at h; cases h
        | ok st =>
          rw [hl] at h
          change makeDataset _ _ _ _ = _ at h
          rw [datasetLoop_iff read more 1 (by omega) s] at hl
          obtain ⟨ss, h1, h2, h3, rfl⟩ := hl
          have hnum : (lastSample s ss).atomicNumbers = s.atomicNumbers :=
            hchain s ss h2 _ (List.getLast_mem _)
          dsimp only at h
          rw [hnum] at h
          refine ⟨_, s, ss, hp, List.Forall₂.cons hs h1, h2, ?_, h⟩
          intro x hx
          rw [hchain s ss h2 x hx]
          exact (makeDataset_ok h).1 _ (List.mem_map_of_mem (f := (·.positions)) hx)
  · rintro ⟨paths, s, ss, hp, h1, h2, h3, h⟩
    cases h1 with
    | cons hs h1 =>
      rename_i path more
      rw [readDataset_loop read arg path more hp s hs]
      have hl := (datasetLoop_iff read more 1 (by omega) s s.positions [] [s.polarizability]
        _).2 ⟨ss, h1, h2, ?_, rfl⟩
      · rw [hl]
        change makeDataset _ _ _ _ = _
        have hnum : (lastSample s ss).atomicNumbers = s.atomicNumbers :=
          hchain s ss h2 _ (List.getLast_mem _)
        dsimp only
        rw [hnum]
        exact h
      · intro x hx
        rw [h3 x (by simp [hx]), h3 s (by simp), hchain s ss h2 x (by simp [hx])]

/-- C77: without PyTorch the call is refused whatever the files are; an empty list of files is a
`ValueError`. -/
theorem C77_preconditions (read : Path → Py FileSample) (arg : PathsArg) :
    readDataset false read arg = .error .userError ∧
      readDataset true read (.many []) = .error .valueError := ⟨rfl, rfl⟩

theorem datasetLoop_error (read : Path → Py FileSample) (paths : List Path) (k : ℕ) (hk : k ≠ 0)
    (prev : FileSample) (p : List (Fin 3 → ℝ)) (rest : List (List (Fin 3 → ℝ)))
    (ps : List (Mat3 ℝ)) (e : PyErr)
    (h : datasetLoop read k ⟨prev.lattice, prev.atomicNumbers, p :: rest, ps⟩ paths = .error e) :
    (∃ path ∈ paths, read path = .error e) ∨ e = .incompatible := by
  induction paths generalizing k prev rest ps with
  | nil => cases h
  | cons path paths ih =>
    rw [datasetLoop] at h
    cases hr : read path with
    | error e' =>
      rw [hr] at h
      cases h
      exact Or.inl ⟨path, by simp, hr⟩
    | ok s =>
      rw [hr] at h
      change (checkSample k _ s >>= _) = _ at h
      rcases checkSample_iff k hk prev s p rest ps with ⟨hc, -⟩ | ⟨hc, -⟩
      · rw [hc] at h
        rcases ih (k + 1) (by omega) s (rest ++ [s.positions]) (ps ++ [s.polarizability]) h with
          ⟨q, hq, hr⟩ | h
        · exact Or.inl ⟨q, by simp [hq], hr⟩
        · exact Or.inr h
      · rw [hc] at h
        cases h
        exact Or.inr rfl

/-- C77: errors are those of the reader, `IncompatibleStructureException`, or a `ValueError`. -/
theorem C77_errors (read : Path → Py FileSample) (arg : PathsArg) (e : PyErr)
    (h : readDataset true read arg = .error e) :
    (∃ path, read path = .error e) ∨ e = .incompatible ∨ e = .valueError := by
  cases hp : pathifyAsList arg with
  | error e' =>
    unfold readDataset at h
    rw [if_neg (by simp), hp] at h
    cases h
    rcases arg with p | _ | ⟨p, ps⟩
    · cases hp
    · cases hp; exact Or.inr (Or.inr rfl)
    · cases hp
  | ok paths =>
    rw [pathifyAsList_iff] at hp
    obtain ⟨path, more, rfl⟩ : ∃ path more, paths = path :: more := by cases hp <;> exact ⟨_, _, rfl⟩
    cases hs : read path with
    | error e' =>
      unfold readDataset at h
      rw [if_neg (by simp), (pathifyAsList_iff arg _).2 hp] at h
      change (datasetLoop read 0 _ (path :: more) >>= _) = _ at h
      rw [datasetLoop, hs] at h
      cases h
      exact Or.inl ⟨path, hs⟩
    | ok s =>
      rw [readDataset_loop read arg path more hp s hs] at h
      cases hl : datasetLoop read 1 ⟨s.lattice, s.atomicNumbers, [s.positions],
          [s.polarizability]⟩ more with
      | error e' =>
        rw [hl] at h
        cases h
        rcases datasetLoop_error read more 1 (by omega) s _ _ _ _ hl with ⟨q, -, hq⟩ | h
        · exact Or.inl ⟨q, hq⟩
        · exact Or.inr (Or.inl h)
      | ok st =>
        rw [hl] at h
        change makeDataset _ _ _ _ = _ at h
        unfold makeDataset at h
        split_ifs at h
        · cases h; exact Or.inr (Or.inr rfl)
        · rw [scaleAndFlatten_standard] at h
          cases h
        · cases h; exact Or.inr (Or.inr rfl)

/-- A file whose lattice is the unit matrix stretched by `k` times `1e-5` along x. -/
noncomputable def driftSample (k : ℕ) : FileSample :=
  ⟨fun i j => if i = 0 ∧ j = 0 then 1 + k / 100000 else if i = j then 1 else 0, [8],
    [![0, 0, 0]], (k : ℝ) • (1 : Mat3 ℝ)⟩

/-- C77: since files are compared with their predecessors only, the lattice of the first and the
last accepted file can differ by any amount. -/
theorem C77_drift (D : ℝ) : ∃ (read : Path → Py FileSample) (paths : List Path) (d : PolDataset)
    (first : FileSample), readDataset true read (.many paths) = .ok d ∧
      (∃ p, paths.head? = some p ∧ read p = .ok first) ∧
      D ≤ d.lattice 0 0 - first.lattice 0 0 := by
  obtain ⟨n, hn⟩ := exists_nat_ge (D * 100000)
  let paths : List Path := (List.range (n + 1)).map fun k : ℕ => List.replicate k 'a'
  let read : Path → Py FileSample := fun p => .ok (driftSample p.length)
  let samples : List FileSample := (List.range (n + 1)).map driftSample
  have hsamples : samples = driftSample 0 :: ((List.range n).map fun k : ℕ => driftSample (k + 1)) := by
    simp [samples, List.range_succ_eq_map, Function.comp_def]
  have hpaths : paths = [] :: ((List.range n).map fun k : ℕ => List.replicate (k + 1) 'a') := by
    simp [paths, List.range_succ_eq_map, Function.comp_def]
  have hlast : ∀ h, samples.getLast h = driftSample n := by
    intro h
    simp [samples, List.range_succ]
  have hd : ∃ d, makeDataset (driftSample n).lattice [8] (samples.map (·.positions))
      (samples.map (·.polarizability)) = .ok d := by
    unfold makeDataset
    rw [if_neg, if_neg, scaleAndFlatten_standard]
    · exact ⟨_, rfl⟩
    · simp
    · push Not
      intro p hp
      obtain ⟨x, hx, rfl⟩ := List.mem_map.1 hp
      obtain ⟨k, -, rfl⟩ := List.mem_map.1 hx
      rfl
  obtain ⟨d, hd⟩ := hd
  refine ⟨read, paths, d, driftSample 0, ?_, ⟨[], by rw [hpaths]; rfl, rfl⟩, ?_⟩
  · rw [C77_accepts]
    refine ⟨paths, driftSample 0, (List.range n).map fun k : ℕ => driftSample (k + 1),
      by rw [hpaths]; exact .many _ _, ?_, ?_, ?_, ?_⟩
    · rw [← hsamples]
      simp only [samples, paths]
      rw [List.forall₂_map_left_iff, List.forall₂_map_right_iff, List.forall₂_same]
      intro k _
      simp [read]
    · rw [← hsamples, List.isChain_iff_getElem]
      intro k hk
      simp only [samples, List.getElem_map, List.getElem_range]
      refine ⟨fun i j => ?_, rfl⟩
      have h0 : (0 : ℝ) ≤ k := Nat.cast_nonneg k
      simp only [driftSample]
      split_ifs
      · push_cast
        have : (1 + (k : ℝ) / 100000 - (1 + (k + 1) / 100000)) = -(1 / 100000) := by ring
        rw [this, abs_neg, abs_of_pos (by norm_num)]
        have := abs_nonneg (1 + ((k : ℝ) + 1) / 100000)
        rw [div_le_div_iff_of_pos_right (by norm_num)]
        linarith
      · norm_num
      · norm_num
    · rw [← hsamples]
      intro x hx
      obtain ⟨k, -, rfl⟩ := List.mem_map.1 hx
      rfl
    · have h1 : ∀ (l : List FileSample) (hl : l = samples) (hne : l ≠ []),
          l.getLast hne = driftSample n := by
        intro l hl hne
        subst hl
        exact hlast hne
      rw [h1 _ hsamples.symm, ← hsamples]
      exact hd
  · obtain ⟨-, -, rfl⟩ := makeDataset_ok hd
    simp only [driftSample]
    norm_num
    rw [le_div_iff₀ (by norm_num)]
    exact hn

end Verif
