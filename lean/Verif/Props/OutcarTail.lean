import Verif.Props.CutOutcarReaders

/-!
# C182: what follows the data in an OUTCAR file does not matter
-/

namespace Verif

open Spec

theorem cut_append {g f : List (List Char)} (h : Cut False g f) : ∃ e, f = g ++ e := by
  induction h with
  | stop f => exact ⟨f, rfl⟩
  | part _ _ _ hi => exact hi.elim
  | line l g f _ ih =>
    obtain ⟨e, rfl⟩ := ih
    exact ⟨e, rfl⟩

theorem fileLines_tail {a b : List Char} (h : a ++ ['\n'] <+: b) :
    ∃ e, fileLines b = fileLines (a ++ ['\n']) ++ e :=
  cut_append (fileLines_cut_line h ⟨a, rfl⟩)

theorem skip_tail {c : List Char} {g : List (List Char)} {x : List Char × List (List Char)}
    (h : orInvalid (skipUntil c g) = .ok x) (e : List (List Char)) :
    orInvalid (skipUntil c (g ++ e)) = .ok (x.1, x.2 ++ e) := by
  rw [orInvalid_ok] at h ⊢
  induction g with
  | nil => cases h
  | cons l g ih =>
    rw [List.cons_append]
    unfold skipUntil at h ⊢
    by_cases hc : contains c l = true
    · rw [if_pos hc] at h ⊢
      cases h
      rfl
    · rw [if_neg hc] at h ⊢
      exact ih h

theorem potcarLoop_tail {g : List (List Char)} (e : List (List Char)) :
    ∀ {x : List Word × List (List Char)}, potcarLoop g = .ok x → x.2 ≠ [] →
      potcarLoop (g ++ e) = .ok (x.1, x.2 ++ e) := by
  induction g with
  | nil => intro x h hne; cases h; exact absurd rfl hne
  | cons l g ih =>
    intro x h hne
    rw [List.cons_append]
    unfold potcarLoop at h ⊢
    by_cases hc : ¬ contains "POTCAR".toList l = true
    · rw [if_pos hc] at h ⊢
      cases h
      rfl
    · rw [if_neg hc] at h ⊢
      cases hs : potcarSymbol l with
      | none => rw [hs] at h; cases h
      | some s =>
        rw [hs] at h
        dsimp only at h ⊢
        obtain ⟨x1, h1, h⟩ := (bind_ok_iff _ _ _).1 h
        cases h
        rw [ih h1 hne]
        rfl

theorem readPotcar_tail {g : List (List Char)} (e : List (List Char)) {x : List Word × List (List Char)}
    (h : readPotcar g = .ok x) (hne : x.2 ≠ []) : readPotcar (g ++ e) = .ok (x.1, x.2 ++ e) := by
  unfold readPotcar at h ⊢
  obtain ⟨x1, h1, h⟩ := (bind_ok_iff _ _ _).1 h
  rw [skip_tail h1 e]
  obtain ⟨l, g1⟩ := x1
  dsimp only [bind, Except.bind] at h ⊢
  cases hs : potcarSymbol l with
  | none => rw [hs] at h; cases h
  | some s =>
    rw [hs] at h
    dsimp only at h ⊢
    cases h2 : potcarLoop g1 with
    | error er => rw [h2] at h; cases h
    | ok x2 =>
      rw [h2] at h
      obtain ⟨ss, g2⟩ := x2
      dsimp only [pure, Except.pure] at h
      cases h
      cases g2 with
      | nil => exact absurd rfl hne
      | cons l g2 =>
        rw [potcarLoop_tail e h2 (List.cons_ne_nil _ _)]
        rfl

theorem symbols_tail {g : List (List Char)} (e : List (List Char)) {x : List Word × List (List Char)}
    (h : outcarSymbols g = .ok x) : outcarSymbols (g ++ e) = .ok (x.1, x.2 ++ e) := by
  unfold outcarSymbols at h ⊢
  obtain ⟨x1, h1, h⟩ := (bind_ok_iff _ _ _).1 h
  obtain ⟨x2, h2, h⟩ := (bind_ok_iff _ _ _).1 h
  cases h
  unfold readIonCounts at h2
  obtain ⟨x3, h3, h2⟩ := (bind_ok_iff _ _ _).1 h2
  have hne : x1.2 ≠ [] := fun h0 => by
    rw [h0] at h3
    exact skip_nil h3
  rw [readPotcar_tail e h1 hne]
  dsimp only [bind, Except.bind]
  unfold readIonCounts
  rw [skip_tail h3 e]
  dsimp only [bind, Except.bind]
  dsimp only at h2
  cases hc : ((splitWs x3.1).drop 4).mapM parseInt with
  | none => rw [hc] at h2; cases h2
  | some c =>
    rw [hc] at h2
    cases h2
    rfl

theorem rows_tail (e : List (List Char)) {n : ℕ} : ∀ {g : List (List Char)}
    {x : List (List Num) × List (List Char)}, readRows n g = .ok x →
    (x.2 ≠ [] ∨ ∀ r ∈ x.1, r ≠ []) → readRows n (g ++ e) = .ok (x.1, x.2 ++ e) := by
  induction n with
  | zero => intro g x h _; cases h; rfl
  | succ n ih =>
    intro g x h hne
    cases g with
    | nil =>
      rw [readRows_nil] at h
      cases h
      rcases hne with hne | hne
      · exact absurd rfl hne
      · exact absurd rfl (hne [] (by simp [List.replicate_succ]))
    | cons l g =>
      rw [List.cons_append]
      unfold readRows at h ⊢
      dsimp only [nextLine] at h ⊢
      cases hr : readRow l with
      | none => rw [hr] at h; cases h
      | some r =>
        rw [hr] at h
        dsimp only at h ⊢
        obtain ⟨x1, h1, h⟩ := (bind_ok_iff _ _ _).1 h
        cases h
        rw [ih h1 (hne.imp id fun h q hq => h q (List.mem_cons_of_mem _ hq))]
        rfl

theorem array_tail (e : List (List Char)) {n : ℕ} {g : List (List Char)}
    {x : List (List Num) × List (List Char)} (h : readArray n g = .ok x)
    (hne : x.2 ≠ [] ∨ ∀ r ∈ x.1, r ≠ []) : readArray n (g ++ e) = .ok (x.1, x.2 ++ e) := by
  have hr := rows_tail e (readArray_ok h) hne
  have h0 := readArray_ok h
  unfold readArray at h ⊢
  rw [h0] at h
  rw [hr]
  dsimp only [bind, Except.bind] at h ⊢
  cases ha : npArray x.1 with
  | error er => rw [ha] at h; cases h
  | ok a =>
    rw [ha] at h
    dsimp only [pure, Except.pure] at h ⊢
    obtain ⟨x1, x2⟩ := x
    cases h
    rfl

theorem lattice_tail (e : List (List Char)) {g : List (List Char)}
    {x : List (List Num) × List (List Char)} (h : outcarReadLattice g = .ok x) (hne : x.2 ≠ []) :
    outcarReadLattice (g ++ e) = .ok (x.1, x.2 ++ e) := by
  unfold outcarReadLattice at h ⊢
  obtain ⟨x1, h1, h⟩ := (bind_ok_iff _ _ _).1 h
  obtain ⟨x2, h2, h⟩ := (bind_ok_iff _ _ _).1 h
  rw [skip_tail h1 e]
  dsimp only [bind, Except.bind]
  rw [skip_tail h2 e]
  exact array_tail e h (Or.inl hne)

theorem positions_tail (e : List (List Char)) {n : ℕ} {g : List (List Char)}
    {x : List (List Num) × List (List Char)} (h : outcarReadPositions g n = .ok x)
    (hne : x.2 ≠ [] ∨ ∀ r ∈ x.1, r ≠ []) : outcarReadPositions (g ++ e) n = .ok (x.1, x.2 ++ e) := by
  unfold outcarReadPositions at h ⊢
  obtain ⟨x1, h1, h⟩ := (bind_ok_iff _ _ _).1 h
  rw [skip_tail h1 e]
  exact array_tail e h hne

theorem polarizability_tail (e : List (List Char)) {g : List (List Char)}
    {x : List (List Num) × List (List Char)} (h : outcarReadPolarizability g = .ok x)
    (hne : ∀ r ∈ x.1, r ≠ []) : outcarReadPolarizability (g ++ e) = .ok (x.1, x.2 ++ e) := by
  unfold outcarReadPolarizability at h ⊢
  obtain ⟨x1, h1, h⟩ := (bind_ok_iff _ _ _).1 h
  rw [skip_tail h1 e]
  dsimp only [bind, Except.bind] at h ⊢
  obtain ⟨l, g1⟩ := x1
  dsimp only at h ⊢
  cases g1 with
  | nil =>
    have h0 := readArray_ok h
    dsimp only [nextLine] at h0
    rw [readRows_nil] at h0
    cases h0
    exact absurd rfl (hne [] (by simp))
  | cons l' g1 => exact array_tail e h (Or.inr hne)

theorem eigenvector_tail {lin : Bool} {ext : NumMat → Py NumMat} {lattice : List (List Num)}
    (e : List (List Char)) : ∀ {g : List (List Char)} {n : ℕ} {x : List NumVec × List (List Char)},
      readEigenvector lin ext lattice n g = .ok x → x.1.length = n →
      ∃ f, readEigenvector lin ext lattice n (g ++ e) = .ok (x.1, f) ∧ (f = x.2 ++ e ∨ x.2 = []) := by
  intro g
  induction g with
  | nil =>
    intro n x h hl
    rw [readEigenvector_nil] at h
    cases h
    cases hl
    cases e with
    | nil => exact ⟨[], readEigenvector_nil, Or.inr rfl⟩
    | cons l e => exact ⟨e, by rw [List.nil_append]; unfold readEigenvector; rfl, Or.inr rfl⟩
  | cons l g ih =>
    intro n x h hl
    rw [List.cons_append]
    unfold readEigenvector at h ⊢
    cases n with
    | zero =>
      cases h
      exact ⟨_, rfl, Or.inl rfl⟩
    | succ n =>
      dsimp only at h ⊢
      by_cases hX : contains ['X'] l = true
      · rw [if_pos hX] at h ⊢
        exact ih h hl
      · rw [if_neg hX] at h ⊢
        obtain ⟨v, hv, h⟩ := (bind_ok_iff _ _ _).1 h
        obtain ⟨x1, h1, h⟩ := (bind_ok_iff _ _ _).1 h
        cases h
        obtain ⟨f, h2, h3⟩ := ih h1 (by simpa using hl)
        refine ⟨f, ?_, h3⟩
        rw [hv]
        dsimp only [bind, Except.bind]
        rw [h2]
        rfl

theorem modes_tail {lin : Bool} {ext : NumMat → Py NumMat} {lattice : List (List Num)} {n : ℕ}
    (e : List (List Char)) (k : ℕ) : ∀ {g : List (List Char)} {ms : List (Num × List NumVec)},
      readModes lin ext lattice n k g = .ok ms → (∀ m ∈ ms, m.2.length = n) →
      readModes lin ext lattice n k (g ++ e) = .ok ms := by
  induction k with
  | zero => intro g ms h _; cases h; rfl
  | succ k ih =>
    intro g ms h hl
    unfold readModes at h ⊢
    obtain ⟨x1, h1, h⟩ := (bind_ok_iff _ _ _).1 h
    obtain ⟨w, h2, h⟩ := (bind_ok_iff _ _ _).1 h
    obtain ⟨x3, h3, h⟩ := (bind_ok_iff _ _ _).1 h
    obtain ⟨ms', h4, h⟩ := (bind_ok_iff _ _ _).1 h
    cases h
    obtain ⟨f, h5, h6⟩ := eigenvector_tail e h3 (hl _ List.mem_cons_self)
    rw [skip_tail h1 e]
    dsimp only [bind, Except.bind]
    rw [h2]
    dsimp only
    rw [h5]
    dsimp only
    have h7 : readModes lin ext lattice n k f = .ok ms' := by
      rcases h6 with rfl | h6
      · exact ih h4 fun m hm => hl m (List.mem_cons_of_mem _ hm)
      · rw [h6] at h4
        cases k with
        | zero => exact h4
        | succ k =>
          unfold readModes at h4
          obtain ⟨z, hz, -⟩ := (bind_ok_iff _ _ _).1 h4
          exact absurd hz skip_nil
    rw [h7]
    rfl

/-! ## C182 -/

/-- C182: nothing that follows the last line needed changes the phonons. -/
theorem C182_phonons (lin : Bool) (ext : NumMat → Py NumMat) (a b : List Char) (h : a ++ ['\n'] <+: b)
    (s : OutcarPhonons) (hs : outcarReadPhonons lin ext (a ++ ['\n']) = .ok s) :
    outcarReadPhonons lin ext b = .ok s := by
  obtain ⟨e, he⟩ := fileLines_tail h
  unfold outcarReadPhonons at hs ⊢
  rw [he]
  obtain ⟨x1, h1, hs⟩ := (bind_ok_iff _ _ _).1 hs
  obtain ⟨ws, hws, hs⟩ := (bind_ok_iff _ _ _).1 hs
  obtain ⟨x2, h2, hs⟩ := (bind_ok_iff _ _ _).1 hs
  obtain ⟨x3, h3, hs⟩ := (bind_ok_iff _ _ _).1 hs
  obtain ⟨x4, h4, hs⟩ := (bind_ok_iff _ _ _).1 hs
  obtain ⟨ms, h5, hs⟩ := (bind_ok_iff _ _ _).1 hs
  have n2 : x2.2 ≠ [] := fun h0 => by
    rw [h0] at h3
    exact positions_nil h3
  have n3 : x3.2 ≠ [] := fun h0 => by
    rw [h0] at h4
    exact skip_nil h4
  have hl : ∀ m ∈ ms, m.2.length = x1.1.length := by
    obtain ⟨ps, hp1, -, hp3, -⟩ := makePhonons_ok hs
    intro m hm
    rw [hp3 m hm, ← ((mapM_option_iff _ _ _).1 hp1).length_eq]
    unfold outcarReadPositions at h3
    obtain ⟨z, -, hz⟩ := (bind_ok_iff _ _ _).1 h3
    exact readRows_length (readArray_ok hz)
  rw [symbols_tail e h1]
  dsimp only [bind, Except.bind]
  rw [hws]
  dsimp only
  rw [lattice_tail e h2 n2]
  dsimp only
  rw [positions_tail e h3 (Or.inl n3)]
  dsimp only
  rw [skip_tail h4 e]
  dsimp only
  rw [modes_tail e _ h5 hl]
  exact hs

/-- C182: nothing that follows the tensor changes the positions or the tensor, if it has columns. -/
theorem C182_polarizability (a b : List Char) (h : a ++ ['\n'] <+: b) (s : List (List Num) × List (List Num))
    (hs : outcarPositionsAndPolarizability (a ++ ['\n']) = .ok s) (hr : ∀ r ∈ s.2, r ≠ []) :
    outcarPositionsAndPolarizability b = .ok s := by
  obtain ⟨e, he⟩ := fileLines_tail h
  unfold outcarPositionsAndPolarizability at hs ⊢
  rw [he]
  obtain ⟨x1, h1, hs⟩ := (bind_ok_iff _ _ _).1 hs
  obtain ⟨x2, h2, hs⟩ := (bind_ok_iff _ _ _).1 hs
  obtain ⟨x3, h3, hs⟩ := (bind_ok_iff _ _ _).1 hs
  cases hs
  have n2 : x2.2 ≠ [] := fun h0 => by
    rw [h0] at h3
    exact polarizability_nil h3
  rw [symbols_tail e h1]
  dsimp only [bind, Except.bind]
  rw [positions_tail e h2 (Or.inl n2)]
  dsimp only
  rw [polarizability_tail e h3 hr]
  rfl

/-- C182: the same with the structure. -/
theorem C182_structure (a b : List Char) (h : a ++ ['\n'] <+: b) (s : OutcarStructure)
    (hs : outcarStructureAndPolarizability (a ++ ['\n']) = .ok s) (hr : ∀ r ∈ s.polarizability, r ≠ []) :
    outcarStructureAndPolarizability b = .ok s := by
  obtain ⟨e, he⟩ := fileLines_tail h
  unfold outcarStructureAndPolarizability at hs ⊢
  rw [he]
  obtain ⟨x1, h1, hs⟩ := (bind_ok_iff _ _ _).1 hs
  obtain ⟨n, hn, hs⟩ := (bind_ok_iff _ _ _).1 hs
  obtain ⟨x0, h0, hs⟩ := (bind_ok_iff _ _ _).1 hs
  obtain ⟨x2, h2, hs⟩ := (bind_ok_iff _ _ _).1 hs
  obtain ⟨x3, h3, hs⟩ := (bind_ok_iff _ _ _).1 hs
  cases hs
  have n0 : x0.2 ≠ [] := fun hz => by
    rw [hz] at h2
    exact positions_nil h2
  have n2 : x2.2 ≠ [] := fun hz => by
    rw [hz] at h3
    exact polarizability_nil h3
  rw [symbols_tail e h1]
  dsimp only [bind, Except.bind]
  rw [hn]
  dsimp only
  rw [lattice_tail e h0 n0]
  dsimp only
  rw [positions_tail e h2 (Or.inl n2)]
  dsimp only
  rw [polarizability_tail e h3 hr]
  rfl

/-- C182: nothing that follows the positions changes them, if they have columns. -/
theorem C182_positions (a b : List Char) (h : a ++ ['\n'] <+: b) (s : List (List Num))
    (hs : outcarPositions (a ++ ['\n']) = .ok s) (hr : ∀ r ∈ s, r ≠ []) : outcarPositions b = .ok s := by
  obtain ⟨e, he⟩ := fileLines_tail h
  unfold outcarPositions at hs ⊢
  rw [he]
  obtain ⟨x1, h1, hs⟩ := (bind_ok_iff _ _ _).1 hs
  obtain ⟨x2, h2, hs⟩ := (bind_ok_iff _ _ _).1 hs
  cases hs
  rw [symbols_tail e h1]
  dsimp only [bind, Except.bind]
  rw [positions_tail e h2 (Or.inr hr)]
  rfl

/-- C182: the same for the reference structure. -/
theorem C182_reference (a b : List Char) (h : a ++ ['\n'] <+: b)
    (s : List ℕ × List (List Num) × List (List Num)) (hs : outcarRefArgs (a ++ ['\n']) = .ok s)
    (hr : ∀ r ∈ s.2.2, r ≠ []) : outcarRefArgs b = .ok s := by
  obtain ⟨e, he⟩ := fileLines_tail h
  unfold outcarRefArgs at hs ⊢
  rw [he]
  obtain ⟨x1, h1, hs⟩ := (bind_ok_iff _ _ _).1 hs
  obtain ⟨n, hn, hs⟩ := (bind_ok_iff _ _ _).1 hs
  obtain ⟨x0, h0, hs⟩ := (bind_ok_iff _ _ _).1 hs
  obtain ⟨x2, h2, hs⟩ := (bind_ok_iff _ _ _).1 hs
  cases hs
  have n0 : x0.2 ≠ [] := fun hz => by
    rw [hz] at h2
    exact positions_nil h2
  rw [symbols_tail e h1]
  dsimp only [bind, Except.bind]
  rw [hn]
  dsimp only
  rw [lattice_tail e h0 n0]
  dsimp only
  rw [positions_tail e h2 (Or.inr hr)]
  rfl

/-! ## Concrete files -/

/-- Rock salt without the last end of a line. -/
def saltBegin : List Char := saltOutcar.dropLast

/-- A second set of data as it follows in a file with several steps. -/
def saltAgain : List Char :=
  chars! " position of ions in fractional coordinates (direct lattice)\n 0.1 0.0 0.0\n 0.4 0.5 0.5\n" ++
  chars! " MACROSCOPIC STATIC DIELECTRIC TENSOR (including local field effects in DFT)\n ----\n 9 9 9\n"

theorem saltBegin_eq : saltBegin ++ ['\n'] = saltOutcar := by decide +kernel

theorem saltBegin_prefix : saltBegin ++ ['\n'] <+: saltOutcar ++ saltAgain := by
  rw [saltBegin_eq]
  exact List.prefix_append _ _

/-- C182, concrete: the first tensor is returned although the second one is incomplete. -/
example : ∃ s, outcarPositionsAndPolarizability (saltOutcar ++ saltAgain) = .ok s ∧
    s.2 = [[some (5 / 2), some 0, some 0], [some 0, some (5 / 2), some 0],
      [some 0, some 0, some (5 / 2)]] := by
  obtain ⟨s, hs, es⟩ := saltWhole_tensor
  rw [← saltBegin_eq] at hs
  exact ⟨s, C182_polarizability _ _ saltBegin_prefix s hs (by rw [es]; simp), es⟩

/-- C182, concrete: the structure. -/
example : ∃ s, outcarStructureAndPolarizability (saltOutcar ++ saltAgain) = .ok s ∧
    s.polarizability = [[some (5 / 2), some 0, some 0], [some 0, some (5 / 2), some 0],
      [some 0, some 0, some (5 / 2)]] := by
  obtain ⟨s, hs, es⟩ := salt_tensor
  rw [← saltBegin_eq] at hs
  exact ⟨s, C182_structure _ _ saltBegin_prefix s hs (by rw [es]; simp), es⟩

/-- C182, concrete: the positions and the reference structure. -/
example : outcarPositions (saltOutcar ++ saltAgain) =
      .ok [[some 0, some 0, some 0], [some (1 / 2), some (1 / 2), some (1 / 2)]] ∧
    ∃ s, outcarRefArgs (saltOutcar ++ saltAgain) = .ok s ∧ s.1 = [11, 17] := by
  constructor
  · obtain ⟨s, hs, rfl⟩ : ∃ t, outcarPositions saltOutcar = .ok t ∧
        t = [[some 0, some 0, some 0], [some (1 / 2), some (1 / 2), some (1 / 2)]] := by
      refine projOr_ok id [] _ ?_ (by simp)
      decide +kernel
    rw [← saltBegin_eq] at hs
    exact C182_positions _ _ saltBegin_prefix _ hs (by simp)
  · obtain ⟨s, hs, es⟩ : ∃ t, outcarRefArgs saltOutcar = .ok t ∧ (t.1, t.2.2) =
        ([11, 17], [[some 0, some 0, some 0], [some (1 / 2), some (1 / 2), some (1 / 2)]]) := by
      refine projOr_ok (fun t : List ℕ × List (List Num) × List (List Num) => (t.1, t.2.2)) ([], []) _ ?_
        (by simp)
      decide +kernel
    obtain ⟨e1, e2⟩ := Prod.mk.inj es
    rw [← saltBegin_eq] at hs
    exact ⟨s, C182_reference _ _ saltBegin_prefix s hs (by rw [e2]; simp), e1⟩

/-- C182, concrete: phonons followed by more modes. -/
example : ∃ s, outcarReadPhonons false (fun _ => .error .unmodelled)
      (phononCut ++ ['\n'] ++ chars! " 4 f = 1.5 THz 9.4 2PiTHz 60 cm-1 6.2 meV\n") = .ok s ∧
    s.wavenumbers = [some (201 / 4), some 50, some (-7)] := by
  obtain ⟨s, hs, hw, -⟩ := phonons_of_data (content := phononCut ++ ['\n']) (1 / 2) (by decide +kernel)
  exact ⟨s, C182_phonons _ _ _ _ (List.prefix_append _ _) s hs, hw⟩

/-- C182: "what follows the tensor does not matter" needs the condition on the columns: a file that ends above
the tensor gives one without columns, and what follows is the tensor. -/
theorem C182_columns_needed : ∃ (a b : List Char) (s : List (List Num) × List (List Num)),
    a ++ ['\n'] <+: b ∧ outcarPositionsAndPolarizability (a ++ ['\n']) = .ok s ∧
    outcarPositionsAndPolarizability b ≠ .ok s := by
  obtain ⟨s, hs, es⟩ := saltHeader_tensor
  obtain ⟨t, ht, et⟩ := saltWhole_tensor
  have he : saltHeader.dropLast ++ ['\n'] = saltHeader := by decide +kernel
  refine ⟨saltHeader.dropLast, saltOutcar, s, ?_, by rw [he]; exact hs, fun h => ?_⟩
  · rw [he]
    exact List.take_prefix _ _
  · cases ht.symm.trans h
    rw [es] at et
    simp at et

end Verif
