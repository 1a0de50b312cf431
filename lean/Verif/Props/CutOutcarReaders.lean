import Verif.Props.CutOutcar

/-!
# C181: the other readers of OUTCAR files that were cut off
-/

namespace Verif

open Spec

variable {inside : Prop}

theorem readRows_length {n : ℕ} : ∀ {f : List (List Char)} {x : List (List Num) × List (List Char)},
    readRows n f = .ok x → x.1.length = n := by
  induction n with
  | zero => intro f x h; cases h; rfl
  | succ n ih =>
    intro f x h
    unfold readRows at h
    cases hr : readRow (nextLine f).1 with
    | none => rw [hr] at h; cases h
    | some r =>
      rw [hr] at h
      dsimp only at h
      obtain ⟨x1, h1, h⟩ := (bind_ok_iff _ _ _).1 h
      cases h
      rw [List.length_cons, ih h1]

theorem readArray_even {n : ℕ} {f : List (List Char)} {x : List (List Num) × List (List Char)}
    (h : readArray n f = .ok x) {r s : List Num} (hr : r ∈ x.1) (hs : s ∈ x.1) : r.length = s.length := by
  unfold readArray at h
  obtain ⟨x1, h1, h⟩ := (bind_ok_iff _ _ _).1 h
  obtain ⟨a, h2, h⟩ := (bind_ok_iff _ _ _).1 h
  cases h
  obtain ⟨rows, f'⟩ := x1
  unfold npArray at h2
  dsimp only at h2 hr hs
  cases rows with
  | nil => cases h2; cases hr
  | cons q rs =>
    dsimp only at h2
    by_cases hl : ∀ x ∈ rs, x.length = q.length
    · rw [if_pos hl] at h2
      cases h2
      have hq : ∀ x ∈ q :: rs, x.length = q.length := fun x hx => by
        rcases List.mem_cons.1 hx with rfl | hx
        · rfl
        · exact hl x hx
      rw [hq r hr, hq s hs]
    · rw [if_neg hl] at h2; cases h2

theorem Cut.array {n : ℕ} {g f : List (List Char)} (h : Cut inside g f)
    {x y : List (List Num) × List (List Char)} (hx : readArray n g = .ok x) (hy : readArray n f = .ok y) :
    (x.1 = y.1 ∧ Cut inside x.2 y.2) ∨ x.2 = [] ∧ LastRowCut inside x.1 y.1 := by
  have hxr := readArray_ok hx
  have hyr := readArray_ok hy
  rcases h.rows hxr hyr with h1 | ⟨h1, h2⟩
  · exact Or.inl h1
  refine Or.inr ⟨h1, ?_⟩
  by_cases h3 : ∀ r ∈ x.1, r ≠ []
  · exact Or.inr (Or.inl (h2 h3))
  · push Not at h3
    obtain ⟨r, hr, rfl⟩ := h3
    refine Or.inr (Or.inr ?_)
    rw [readRows_length hyr, ← readRows_length hxr]
    refine List.eq_replicate_iff.2 ⟨rfl, fun s hs => ?_⟩
    exact List.length_eq_zero_iff.1 (readArray_even hx hs hr)

theorem Cut.array' {n : ℕ} {g f : List (List Char)} (h : Cut inside g f)
    {x y : List (List Num) × List (List Char)} (hx : readArray n g = .ok x) (hy : readArray n f = .ok y) :
    LastRowCut inside x.1 y.1 := by
  rcases h.array hx hy with h1 | h1
  · exact Or.inl h1.1
  · exact h1.2

theorem Cut.positions {n : ℕ} {g f : List (List Char)} (h : Cut inside g f)
    {x y : List (List Num) × List (List Char)} (hx : outcarReadPositions g n = .ok x)
    (hy : outcarReadPositions f n = .ok y) :
    (x.1 = y.1 ∧ Cut inside x.2 y.2) ∨ x.2 = [] ∧ LastRowCut inside x.1 y.1 := by
  unfold outcarReadPositions at hx hy
  obtain ⟨x1, hx1, hx⟩ := (bind_ok_iff _ _ _).1 hx
  obtain ⟨y1, hy1, hy⟩ := (bind_ok_iff _ _ _).1 hy
  exact (h.skipInvalid hx1 hy1).1.array hx hy

theorem Cut.positions' {n : ℕ} {g f : List (List Char)} (h : Cut inside g f)
    {x y : List (List Num) × List (List Char)} (hx : outcarReadPositions g n = .ok x)
    (hy : outcarReadPositions f n = .ok y) : LastRowCut inside x.1 y.1 := by
  rcases h.positions hx hy with h1 | h1
  · exact Or.inl h1.1
  · exact h1.2

theorem positions_nil {n : ℕ} {x : List (List Num) × List (List Char)} :
    outcarReadPositions [] n ≠ .ok x := fun h => by
  unfold outcarReadPositions at h
  obtain ⟨x1, hx1, -⟩ := (bind_ok_iff _ _ _).1 h
  exact skip_nil hx1

theorem lattice_nil {x : List (List Num) × List (List Char)} : outcarReadLattice [] ≠ .ok x := fun h => by
  unfold outcarReadLattice at h
  obtain ⟨x1, hx1, -⟩ := (bind_ok_iff _ _ _).1 h
  exact skip_nil hx1

theorem polarizability_nil {x : List (List Num) × List (List Char)} :
    outcarReadPolarizability [] ≠ .ok x := fun h => by
  unfold outcarReadPolarizability at h
  obtain ⟨x1, hx1, -⟩ := (bind_ok_iff _ _ _).1 h
  exact skip_nil hx1

theorem Cut.polarizability {g f : List (List Char)} (h : Cut inside g f)
    {x y : List (List Num) × List (List Char)} (hx : outcarReadPolarizability g = .ok x)
    (hy : outcarReadPolarizability f = .ok y) : LastRowCut inside x.1 y.1 := by
  unfold outcarReadPolarizability at hx hy
  obtain ⟨x1, hx1, hx⟩ := (bind_ok_iff _ _ _).1 hx
  obtain ⟨y1, hy1, hy⟩ := (bind_ok_iff _ _ _).1 hy
  exact (h.skipInvalid hx1 hy1).1.next.1.array' hx hy

/-! ## Modes -/

theorem readEigenvector_nil {lin : Bool} {ext : NumMat → Py NumMat} {lattice : List (List Num)} {n : ℕ} :
    readEigenvector lin ext lattice n [] = .ok ([], []) := by
  unfold readEigenvector
  rfl

theorem Cut.eigenvector {lin : Bool} {ext : NumMat → Py NumMat} {lattice : List (List Num)}
    {g f : List (List Char)} (h : Cut inside g f) : ∀ {n : ℕ} {x y : List NumVec × List (List Char)},
      readEigenvector lin ext lattice n g = .ok x → readEigenvector lin ext lattice n f = .ok y →
      (x.1 = y.1 ∧ Cut inside x.2 y.2) ∨ x.2 = [] ∧ (x.1.length = n → y.1.length = n →
        inside ∧ x.1.dropLast = y.1.dropLast) := by
  induction h with
  | stop f =>
    intro n x y hx hy
    rw [readEigenvector_nil] at hx
    cases hx
    cases n with
    | zero =>
      refine Or.inl ⟨?_, .stop _⟩
      cases f with
      | nil => rw [readEigenvector_nil] at hy; cases hy; rfl
      | cons l f => unfold readEigenvector at hy; cases hy; rfl
    | succ n => exact Or.inr ⟨rfl, fun h => by cases h⟩
  | part l' l f hi hp =>
    intro n x y hx hy
    unfold readEigenvector at hx
    cases n with
    | zero =>
      unfold readEigenvector at hy
      cases hx
      cases hy
      exact Or.inl ⟨rfl, .stop _⟩
    | succ n =>
      dsimp only at hx
      by_cases hX : contains ['X'] l' = true
      · rw [if_pos hX, readEigenvector_nil] at hx
        cases hx
        exact Or.inr ⟨rfl, fun h => by cases h⟩
      · rw [if_neg hX] at hx
        obtain ⟨v, -, hx⟩ := (bind_ok_iff _ _ _).1 hx
        obtain ⟨x1, hx1, hx⟩ := (bind_ok_iff _ _ _).1 hx
        rw [readEigenvector_nil] at hx1
        cases hx1
        cases hx
        refine Or.inr ⟨rfl, fun h1 h2 => ⟨hi, ?_⟩⟩
        cases n with
        | succ n => cases h1
        | zero =>
          obtain ⟨ys, yf⟩ := y
          dsimp only at h2 ⊢
          obtain ⟨w, rfl⟩ := List.length_eq_one_iff.1 h2
          rfl
  | line l g f h ih =>
    intro n x y hx hy
    unfold readEigenvector at hx hy
    cases n with
    | zero =>
      cases hx
      cases hy
      exact Or.inl ⟨rfl, h⟩
    | succ n =>
      dsimp only at hx hy
      by_cases hX : contains ['X'] l = true
      · rw [if_pos hX] at hx hy
        exact ih hx hy
      · rw [if_neg hX] at hx hy
        obtain ⟨v, hv, hx⟩ := (bind_ok_iff _ _ _).1 hx
        obtain ⟨w, hw, hy⟩ := (bind_ok_iff _ _ _).1 hy
        cases hv.symm.trans hw
        obtain ⟨x1, hx1, hx⟩ := (bind_ok_iff _ _ _).1 hx
        obtain ⟨y1, hy1, hy⟩ := (bind_ok_iff _ _ _).1 hy
        cases hx
        cases hy
        rcases ih hx1 hy1 with ⟨h1, h2⟩ | ⟨h1, h2⟩
        · exact Or.inl ⟨by rw [h1], h2⟩
        · refine Or.inr ⟨h1, fun h3 h4 => ?_⟩
          have h3' : x1.1.length = n := by simpa using h3
          have h4' : y1.1.length = n := by simpa using h4
          obtain ⟨h5, h6⟩ := h2 h3' h4'
          refine ⟨h5, ?_⟩
          obtain ⟨xs, xf⟩ := x1
          obtain ⟨ys, yf⟩ := y1
          dsimp only at h3' h4' h6 ⊢
          cases xs with
          | nil =>
            cases ys with
            | nil => rfl
            | cons b ys => rw [← h3'] at h4'; cases h4'
          | cons a xs =>
            cases ys with
            | nil => rw [← h4'] at h3'; cases h3'
            | cons b ys => rw [List.dropLast_cons_cons, List.dropLast_cons_cons, h6]

theorem Cut.modes {lin : Bool} {ext : NumMat → Py NumMat} {lattice : List (List Num)} {n : ℕ} (hn : 0 < n)
    (k : ℕ) : ∀ {g f : List (List Char)}, Cut inside g f → ∀ {ms ns : List (Num × List NumVec)},
      readModes lin ext lattice n k g = .ok ms → readModes lin ext lattice n k f = .ok ns →
      (∀ m ∈ ms, m.2.length = n) → (∀ m ∈ ns, m.2.length = n) →
      ms.map Prod.fst = ns.map Prod.fst ∧ FirstFrames inside (ms.map Prod.snd) (ns.map Prod.snd) := by
  induction k with
  | zero =>
    intro g f _ ms ns hm hn' _ _
    cases hm
    cases hn'
    exact ⟨rfl, .stop _⟩
  | succ k ih =>
    intro g f h ms ns hm hn' hms hns
    unfold readModes at hm hn'
    obtain ⟨x1, hx1, hm⟩ := (bind_ok_iff _ _ _).1 hm
    obtain ⟨y1, hy1, hn'⟩ := (bind_ok_iff _ _ _).1 hn'
    obtain ⟨w, hw, hm⟩ := (bind_ok_iff _ _ _).1 hm
    obtain ⟨w', hw', hn'⟩ := (bind_ok_iff _ _ _).1 hn'
    obtain ⟨e, he, hm⟩ := (bind_ok_iff _ _ _).1 hm
    obtain ⟨e', he', hn'⟩ := (bind_ok_iff _ _ _).1 hn'
    obtain ⟨ms', hms', hm⟩ := (bind_ok_iff _ _ _).1 hm
    obtain ⟨ns', hns', hn'⟩ := (bind_ok_iff _ _ _).1 hn'
    cases hm
    cases hn'
    have hlen : e.1.length = n := hms _ List.mem_cons_self
    have hlen' : e'.1.length = n := hns _ List.mem_cons_self
    obtain ⟨h1, h2⟩ := h.skipInvalid hx1 hy1
    have hl : x1.1 = y1.1 := by
      rcases h2 with h2 | h2
      · exact h2
      · rw [h2, readEigenvector_nil] at he
        cases he
        rw [← hlen] at hn
        cases hn
    rw [hl] at hw
    cases hw.symm.trans hw'
    rcases h1.eigenvector he he' with ⟨h3, h4⟩ | ⟨h3, h4⟩
    · obtain ⟨h5, h6⟩ := ih h4 hms' hns' (fun m hm => hms m (List.mem_cons_of_mem _ hm))
        fun m hm => hns m (List.mem_cons_of_mem _ hm)
      refine ⟨by rw [List.map_cons, List.map_cons, h5], ?_⟩
      rw [List.map_cons, List.map_cons, h3]
      exact .frame _ _ _ h6
    · obtain ⟨hi, h5⟩ := h4 hlen hlen'
      rw [h3] at hms'
      cases k with
      | zero =>
        cases hms'
        cases hns'
        exact ⟨rfl, .last _ _ _ hi (hlen.trans hlen'.symm) h5⟩
      | succ k =>
        unfold readModes at hms'
        obtain ⟨z, hz, -⟩ := (bind_ok_iff _ _ _).1 hms'
        exact absurd hz skip_nil

theorem massScale_rows {weights : List ℚ} {p q : List NumVec} (hl : p.length = q.length)
    (hd : p.dropLast = q.dropLast) : (massScale weights p).length = (massScale weights q).length ∧
      (massScale weights p).dropLast = (massScale weights q).dropLast := by
  unfold massScale
  refine ⟨by simp [hl], ?_⟩
  rw [← List.map_dropLast, ← List.map_dropLast]
  congr 1
  rw [List.dropLast_eq_take, List.dropLast_eq_take, List.length_zip, List.length_zip, hl]
  unfold List.zip
  rw [List.take_zipWith, List.take_zipWith]
  have ht : ∀ m, m ≤ q.length - 1 → p.take m = q.take m := fun m hm => by
    rw [List.dropLast_eq_take, List.dropLast_eq_take, hl] at hd
    have := congrArg (List.take m) hd
    rwa [List.take_take, List.take_take, min_eq_left hm] at this
  rw [ht _ (by omega)]

theorem firstFrames_scale {weights : List ℚ} {ps qs : List (List NumVec)} (h : FirstFrames inside ps qs) :
    FirstFrames inside (ps.map (massScale weights)) (qs.map (massScale weights)) := by
  induction h with
  | stop qs => exact .stop _
  | last p q qs hi hl hd =>
    obtain ⟨h1, h2⟩ := massScale_rows (weights := weights) hl hd
    exact .last _ _ _ hi h1 h2
  | frame p ps qs _ ih => exact .frame _ _ _ ih

theorem makePhonons_ok {weights : List ℚ} {positions : List (List Num)} {modes : List (Num × List NumVec)}
    {s : OutcarPhonons} (h : makePhonons weights positions modes = .ok s) :
    ∃ ps, positions.mapM toVec = some ps ∧ ps ≠ [] ∧ (∀ m ∈ modes, m.2.length = ps.length) ∧
      s = ⟨ps, modes.map (·.1), modes.map fun m => massScale weights m.2⟩ := by
  unfold makePhonons at h
  cases hp : positions.mapM toVec with
  | none => rw [hp] at h; cases h
  | some ps =>
    rw [hp] at h
    dsimp only at h
    by_cases hc : ps = [] ∨ modes.any (fun m => m.2.length ≠ ps.length) = true
    · rw [if_pos hc] at h; cases h
    · rw [if_neg hc] at h
      cases h
      push Not at hc
      refine ⟨ps, rfl, hc.1, fun m hm => ?_, rfl⟩
      by_contra hne
      exact hc.2 (List.any_eq_true.2 ⟨m, hm, by simpa using hne⟩)

theorem cut_phonons {lin : Bool} {ext : NumMat → Py NumMat} {a b : List Char}
    (h : Cut inside (fileLines a) (fileLines b)) {s t : OutcarPhonons}
    (hs : outcarReadPhonons lin ext a = .ok s) (ht : outcarReadPhonons lin ext b = .ok t) :
    s.refPositions = t.refPositions ∧ s.wavenumbers = t.wavenumbers ∧
      s.displacements.length = t.displacements.length ∧
      FirstFrames inside s.displacements t.displacements := by
  unfold outcarReadPhonons at hs ht
  obtain ⟨x1, hx1, hs⟩ := (bind_ok_iff _ _ _).1 hs
  obtain ⟨y1, hy1, ht⟩ := (bind_ok_iff _ _ _).1 ht
  obtain ⟨ws, hws, hs⟩ := (bind_ok_iff _ _ _).1 hs
  obtain ⟨wt, hwt, ht⟩ := (bind_ok_iff _ _ _).1 ht
  obtain ⟨x2, hx2, hs⟩ := (bind_ok_iff _ _ _).1 hs
  obtain ⟨y2, hy2, ht⟩ := (bind_ok_iff _ _ _).1 ht
  obtain ⟨x3, hx3, hs⟩ := (bind_ok_iff _ _ _).1 hs
  obtain ⟨y3, hy3, ht⟩ := (bind_ok_iff _ _ _).1 ht
  obtain ⟨x4, hx4, hs⟩ := (bind_ok_iff _ _ _).1 hs
  obtain ⟨y4, hy4, ht⟩ := (bind_ok_iff _ _ _).1 ht
  obtain ⟨ms, hms, hs⟩ := (bind_ok_iff _ _ _).1 hs
  obtain ⟨ns, hns, ht⟩ := (bind_ok_iff _ _ _).1 ht
  rcases h.outcarSymbols hx1 hy1 with ⟨e1, h1⟩ | e1
  swap
  · rw [e1] at hx2
    exact absurd hx2 lattice_nil
  rcases h1.lattice hx2 hy2 with ⟨e2, h2⟩ | e2
  swap
  · rw [e2] at hx3
    exact absurd hx3 positions_nil
  rw [e1] at hws hx3 hms
  cases hws.symm.trans hwt
  have hplen : y3.1.length = y1.1.length := by
    unfold outcarReadPositions at hy3
    obtain ⟨z, -, hz⟩ := (bind_ok_iff _ _ _).1 hy3
    exact readRows_length (readArray_ok hz)
  rcases h2.positions hx3 hy3 with ⟨e3, h3⟩ | ⟨e3, -⟩
  swap
  · rw [e3] at hx4
    exact absurd hx4 skip_nil
  rw [e3] at hs
  obtain ⟨ps, hp1, hp2, hp3, rfl⟩ := makePhonons_ok hs
  obtain ⟨qs, hq1, hq2, hq3, rfl⟩ := makePhonons_ok ht
  cases hp1.symm.trans hq1
  have hlen : ps.length = y1.1.length := by
    rw [← hplen, ((mapM_option_iff _ _ _).1 hp1).length_eq]
  have hpos : 0 < y1.1.length := by
    rw [← hlen]
    exact List.length_pos_iff.2 hp2
  rw [e2] at hms
  obtain ⟨h5, h6⟩ := (h3.skipInvalid hx4 hy4).1.modes hpos _ hms hns (fun m hm => (hp3 m hm).trans hlen)
    fun m hm => (hq3 m hm).trans hlen
  refine ⟨rfl, h5, ?_, ?_⟩
  · have := congrArg List.length h5
    simpa using this
  · have := firstFrames_scale (weights := ws) h6
    rwa [List.map_map, List.map_map] at this

/-! ## C181 -/

/-- C181: phonons of a file that was cut off have the atoms, the wavenumbers and the displacements of the
complete file; only the displacement of the last atom in the last mode may differ. -/
theorem C181_phonons (lin : Bool) (ext : NumMat → Py NumMat) (a b : List Char) (h : a <+: b)
    (s t : OutcarPhonons) (hs : outcarReadPhonons lin ext a = .ok s)
    (ht : outcarReadPhonons lin ext b = .ok t) :
    s.refPositions = t.refPositions ∧ s.wavenumbers = t.wavenumbers ∧
      s.displacements.length = t.displacements.length ∧
      FirstFrames True s.displacements t.displacements :=
  cut_phonons (fileLines_cut h) hs ht

/-- C181: if the file ends at the end of a line, the phonons are those of the complete file. -/
theorem C181_phonons_lines (lin : Bool) (ext : NumMat → Py NumMat) (a b : List Char) (h : a ++ ['\n'] <+: b)
    (s t : OutcarPhonons) (hs : outcarReadPhonons lin ext (a ++ ['\n']) = .ok s)
    (ht : outcarReadPhonons lin ext b = .ok t) : s = t := by
  obtain ⟨h1, h2, h3, h4⟩ := cut_phonons (fileLines_cut_line h ⟨a, rfl⟩) hs ht
  have h5 : s.displacements = t.displacements := by
    generalize s.displacements = ps at h3 h4
    generalize t.displacements = qs at h3 h4
    induction h4 with
    | stop qs => exact (List.length_eq_zero_iff.1 h3.symm).symm
    | last _ _ _ hi => exact hi.elim
    | frame p ps qs _ ih => rw [ih (by simpa using h3)]
  cases s
  cases t
  dsimp only at h1 h2 h5
  rw [h1, h2, h5]

theorem cut_polarizability {a b : List Char} (h : Cut inside (fileLines a) (fileLines b))
    {s t : List (List Num) × List (List Num)} (hs : outcarPositionsAndPolarizability a = .ok s)
    (ht : outcarPositionsAndPolarizability b = .ok t) : s.1 = t.1 ∧ LastRowCut inside s.2 t.2 := by
  unfold outcarPositionsAndPolarizability at hs ht
  obtain ⟨x1, hx1, hs⟩ := (bind_ok_iff _ _ _).1 hs
  obtain ⟨y1, hy1, ht⟩ := (bind_ok_iff _ _ _).1 ht
  obtain ⟨x2, hx2, hs⟩ := (bind_ok_iff _ _ _).1 hs
  obtain ⟨y2, hy2, ht⟩ := (bind_ok_iff _ _ _).1 ht
  obtain ⟨x3, hx3, hs⟩ := (bind_ok_iff _ _ _).1 hs
  obtain ⟨y3, hy3, ht⟩ := (bind_ok_iff _ _ _).1 ht
  cases hs
  cases ht
  rcases h.outcarSymbols hx1 hy1 with ⟨e1, h1⟩ | e1
  swap
  · rw [e1] at hx2
    exact absurd hx2 positions_nil
  rw [e1] at hx2
  rcases h1.positions hx2 hy2 with ⟨e2, h2⟩ | ⟨e2, -⟩
  swap
  · rw [e2] at hx3
    exact absurd hx3 polarizability_nil
  exact ⟨e2, h2.polarizability hx3 hy3⟩

/-- C181: positions and polarizability of a file that was cut off: the positions are right, and so are all
rows of the polarizability but the last, or the polarizability has no columns. -/
theorem C181_polarizability (a b : List Char) (h : a <+: b) (s t : List (List Num) × List (List Num))
    (hs : outcarPositionsAndPolarizability a = .ok s) (ht : outcarPositionsAndPolarizability b = .ok t) :
    s.1 = t.1 ∧ LastRowCut True s.2 t.2 :=
  cut_polarizability (fileLines_cut h) hs ht

/-- C181: the same with the structure. -/
theorem C181_structure (a b : List Char) (h : a <+: b) (s t : OutcarStructure)
    (hs : outcarStructureAndPolarizability a = .ok s) (ht : outcarStructureAndPolarizability b = .ok t) :
    s.lattice = t.lattice ∧ s.atomicNumbers = t.atomicNumbers ∧ s.positions = t.positions ∧
      LastRowCut True s.polarizability t.polarizability := by
  unfold outcarStructureAndPolarizability at hs ht
  obtain ⟨x1, hx1, hs⟩ := (bind_ok_iff _ _ _).1 hs
  obtain ⟨y1, hy1, ht⟩ := (bind_ok_iff _ _ _).1 ht
  obtain ⟨n, hn, hs⟩ := (bind_ok_iff _ _ _).1 hs
  obtain ⟨n', hn', ht⟩ := (bind_ok_iff _ _ _).1 ht
  obtain ⟨x0, hx0, hs⟩ := (bind_ok_iff _ _ _).1 hs
  obtain ⟨y0, hy0, ht⟩ := (bind_ok_iff _ _ _).1 ht
  obtain ⟨x2, hx2, hs⟩ := (bind_ok_iff _ _ _).1 hs
  obtain ⟨y2, hy2, ht⟩ := (bind_ok_iff _ _ _).1 ht
  obtain ⟨x3, hx3, hs⟩ := (bind_ok_iff _ _ _).1 hs
  obtain ⟨y3, hy3, ht⟩ := (bind_ok_iff _ _ _).1 ht
  cases hs
  cases ht
  rcases (fileLines_cut h).outcarSymbols hx1 hy1 with ⟨e1, h1⟩ | e1
  swap
  · rw [e1] at hx0
    exact absurd hx0 lattice_nil
  rcases h1.lattice hx0 hy0 with ⟨e0, h0⟩ | e0
  swap
  · rw [e0] at hx2
    exact absurd hx2 positions_nil
  rw [e1] at hn
  cases hn.symm.trans hn'
  rcases h0.positions hx2 hy2 with ⟨e2, h2⟩ | ⟨e2, -⟩
  swap
  · rw [e2] at hx3
    exact absurd hx3 polarizability_nil
  exact ⟨e0, rfl, e2, h2.polarizability hx3 hy3⟩

/-- C181: the positions of a file that was cut off. -/
theorem C181_positions (a b : List Char) (h : a <+: b) (s t : List (List Num))
    (hs : outcarPositions a = .ok s) (ht : outcarPositions b = .ok t) : LastRowCut True s t := by
  unfold outcarPositions at hs ht
  obtain ⟨x1, hx1, hs⟩ := (bind_ok_iff _ _ _).1 hs
  obtain ⟨y1, hy1, ht⟩ := (bind_ok_iff _ _ _).1 ht
  obtain ⟨x2, hx2, hs⟩ := (bind_ok_iff _ _ _).1 hs
  obtain ⟨y2, hy2, ht⟩ := (bind_ok_iff _ _ _).1 ht
  cases hs
  cases ht
  rcases (fileLines_cut h).outcarSymbols hx1 hy1 with ⟨e1, h1⟩ | e1
  swap
  · rw [e1] at hx2
    exact absurd hx2 positions_nil
  rw [e1] at hx2
  exact h1.positions' hx2 hy2

/-- C181: the arguments of the reference structure. -/
theorem C181_reference (a b : List Char) (h : a <+: b) (s t : List ℕ × List (List Num) × List (List Num))
    (hs : outcarRefArgs a = .ok s) (ht : outcarRefArgs b = .ok t) :
    s.1 = t.1 ∧ s.2.1 = t.2.1 ∧ LastRowCut True s.2.2 t.2.2 := by
  unfold outcarRefArgs at hs ht
  obtain ⟨x1, hx1, hs⟩ := (bind_ok_iff _ _ _).1 hs
  obtain ⟨y1, hy1, ht⟩ := (bind_ok_iff _ _ _).1 ht
  obtain ⟨n, hn, hs⟩ := (bind_ok_iff _ _ _).1 hs
  obtain ⟨n', hn', ht⟩ := (bind_ok_iff _ _ _).1 ht
  obtain ⟨x0, hx0, hs⟩ := (bind_ok_iff _ _ _).1 hs
  obtain ⟨y0, hy0, ht⟩ := (bind_ok_iff _ _ _).1 ht
  obtain ⟨x2, hx2, hs⟩ := (bind_ok_iff _ _ _).1 hs
  obtain ⟨y2, hy2, ht⟩ := (bind_ok_iff _ _ _).1 ht
  cases hs
  cases ht
  rcases (fileLines_cut h).outcarSymbols hx1 hy1 with ⟨e1, h1⟩ | e1
  swap
  · rw [e1] at hx0
    exact absurd hx0 lattice_nil
  rcases h1.lattice hx0 hy0 with ⟨e0, h0⟩ | e0
  swap
  · rw [e0] at hx2
    exact absurd hx2 positions_nil
  rw [e1] at hn hx2
  cases hn.symm.trans hn'
  exact ⟨rfl, e0, h0.positions' hx2 hy2⟩

/-! ## Concrete files -/

/-- The file of rock salt up to the last digit. -/
def saltCut : List Char := saltOutcar.take 510

/-- The file of rock salt up to the line above the tensor. -/
def saltHeader : List Char := saltOutcar.take 485

theorem saltCut_tensor : ∃ s, outcarPositionsAndPolarizability saltCut = .ok s ∧
    s.2 = [[some (5 / 2), some 0, some 0], [some 0, some (5 / 2), some 0], [some 0, some 0, some 2]] := by
  refine projOr_ok Prod.snd [] _ ?_ (by simp)
  decide +kernel

theorem saltHeader_tensor : ∃ s, outcarPositionsAndPolarizability saltHeader = .ok s ∧
    s.2 = [[], [], []] := by
  refine projOr_ok Prod.snd [[]] _ ?_ (by simp)
  decide +kernel

theorem saltWhole_tensor : ∃ s, outcarPositionsAndPolarizability saltOutcar = .ok s ∧
    s.2 = [[some (5 / 2), some 0, some 0], [some 0, some (5 / 2), some 0],
      [some 0, some 0, some (5 / 2)]] := by
  refine projOr_ok Prod.snd [] _ ?_ (by simp)
  decide +kernel

/-- C181, concrete: the positions of rock salt agree, and the tensor up to its last row. -/
example : ∃ s t, outcarPositionsAndPolarizability saltCut = .ok s ∧
    outcarPositionsAndPolarizability saltOutcar = .ok t ∧ s.1 = t.1 ∧ LastRowCut True s.2 t.2 := by
  obtain ⟨s, hs, -⟩ := saltCut_tensor
  obtain ⟨t, ht, -⟩ := saltWhole_tensor
  exact ⟨s, t, hs, ht, C181_polarizability _ _ (List.take_prefix _ _) s t hs ht⟩

/-- C181: "a file that was cut off is refused or gives the tensor of the complete file" is false: both other
cases happen, a wrong number and a tensor without columns. -/
theorem C181_wrong_tensor :
    (∃ (a b : List Char) (s t : List (List Num) × List (List Num)), a <+: b ∧
      outcarPositionsAndPolarizability a = .ok s ∧ outcarPositionsAndPolarizability b = .ok t ∧
      s.2 ≠ t.2 ∧ ∀ r ∈ s.2, r.length = 3) ∧
    ∃ (a b : List Char) (s t : List (List Num) × List (List Num)), a <+: b ∧
      outcarPositionsAndPolarizability a = .ok s ∧ outcarPositionsAndPolarizability b = .ok t ∧
      s.2 = [[], [], []] ∧ ∀ r ∈ t.2, r.length = 3 := by
  obtain ⟨t, ht, et⟩ := saltWhole_tensor
  constructor
  · obtain ⟨s, hs, es⟩ := saltCut_tensor
    refine ⟨_, _, s, t, List.take_prefix _ _, hs, ht, fun h => ?_, ?_⟩
    · rw [es, et] at h
      norm_num at h
    · rw [es]; simp
  · obtain ⟨s, hs, es⟩ := saltHeader_tensor
    refine ⟨_, _, s, t, List.take_prefix _ _, hs, ht, es, ?_⟩
    rw [et]; simp

/-- C181, concrete: the structure of rock salt. -/
example : ∃ s t, outcarStructureAndPolarizability saltCut = .ok s ∧
    outcarStructureAndPolarizability saltOutcar = .ok t ∧ s.lattice = t.lattice ∧
    s.atomicNumbers = t.atomicNumbers ∧ s.positions = t.positions ∧
    LastRowCut True s.polarizability t.polarizability := by
  obtain ⟨s, hs, -⟩ : ∃ s, outcarStructureAndPolarizability saltCut = .ok s ∧
      s.atomicNumbers = [11, 17] := by
    refine projOr_ok OutcarStructure.atomicNumbers [] _ ?_ (by simp)
    decide +kernel
  obtain ⟨t, ht, -⟩ := salt_numbers
  exact ⟨s, t, hs, ht, C181_structure _ _ (List.take_prefix _ _) s t hs ht⟩

/-- C181, concrete: the positions of rock salt in a file that ends inside the last of them. -/
example : ∃ s t, outcarPositions (saltOutcar.take 400) = .ok s ∧ outcarPositions saltOutcar = .ok t ∧
    LastRowCut True s t ∧ s ≠ t ∧ s.length = 2 := by
  obtain ⟨s, hs, es⟩ : ∃ s, outcarPositions (saltOutcar.take 400) = .ok s ∧
      s = [[some 0, some 0, some 0], [some (1 / 2), some (1 / 2), some 0]] := by
    refine projOr_ok id [] _ ?_ (by simp)
    decide +kernel
  obtain ⟨t, ht, et⟩ : ∃ t, outcarPositions saltOutcar = .ok t ∧
      t = [[some 0, some 0, some 0], [some (1 / 2), some (1 / 2), some (1 / 2)]] := by
    refine projOr_ok id [] _ ?_ (by simp)
    decide +kernel
  refine ⟨s, t, hs, ht, C181_positions _ _ (List.take_prefix _ _) s t hs ht, ?_, ?_⟩
  · rw [es, et]; norm_num
  · rw [es]; rfl

/-- C181, concrete: the reference structure of rock salt in this file. -/
example : ∃ s t, outcarRefArgs (saltOutcar.take 400) = .ok s ∧ outcarRefArgs saltOutcar = .ok t ∧
    s.1 = t.1 ∧ s.2.1 = t.2.1 ∧ LastRowCut True s.2.2 t.2.2 := by
  obtain ⟨s, hs, -⟩ : ∃ s, outcarRefArgs (saltOutcar.take 400) = .ok s ∧ s.1 = [11, 17] := by
    refine projOr_ok Prod.fst [] _ ?_ (by simp)
    decide +kernel
  obtain ⟨t, ht, -⟩ : ∃ t, outcarRefArgs saltOutcar = .ok t ∧ t.1 = [11, 17] := by
    refine projOr_ok Prod.fst [] _ ?_ (by simp)
    decide +kernel
  exact ⟨s, t, hs, ht, C181_reference _ _ (List.take_prefix _ _) s t hs ht⟩

/-- Everything that `read_phonons` reads before it makes the phonons. -/
def phononData (content : List Char) : Py (List ℚ × List (List Num) × List (Num × List NumVec)) := do
  let (symbols, f) ← outcarSymbols (fileLines content)
  let weights ← symbols.mapM weightOf
  let (lattice, f) ← outcarReadLattice f
  let (positions, f) ← outcarReadPositions f symbols.length
  let (_, f) ← orInvalid
    (skipUntil "Eigenvectors and eigenvalues of the dynamical matrix".toList f)
  let modes ← readModes false (fun _ => .error .unmodelled) lattice symbols.length (symbols.length * 3) f
  return (weights, positions, modes)

theorem phononData_make {content : List Char} {x : List ℚ × List (List Num) × List (Num × List NumVec)}
    (h : phononData content = .ok x) : outcarReadPhonons false (fun _ => .error .unmodelled) content =
      makePhonons x.1 x.2.1 x.2.2 := by
  unfold phononData at h
  obtain ⟨x1, h1, h⟩ := (bind_ok_iff _ _ _).1 h
  obtain ⟨x2, h2, h⟩ := (bind_ok_iff _ _ _).1 h
  obtain ⟨x3, h3, h⟩ := (bind_ok_iff _ _ _).1 h
  obtain ⟨x4, h4, h⟩ := (bind_ok_iff _ _ _).1 h
  obtain ⟨x5, h5, h⟩ := (bind_ok_iff _ _ _).1 h
  obtain ⟨x6, h6, h⟩ := (bind_ok_iff _ _ _).1 h
  cases h
  unfold outcarReadPhonons
  rw [h1]
  dsimp only [bind, Except.bind]
  rw [h2]
  dsimp only
  rw [h3]
  dsimp only
  rw [h4]
  dsimp only
  rw [h5]
  dsimp only
  rw [h6]

/-- What a run on hydrogen has of its three modes; the last component of the last one varies. -/
theorem phonons_of_data {content : List Char} (z : ℚ)
    (h : projOr (fun x => (x.1, x.2.1, x.2.2.map fun m => (m.1, m.2.map fun v => [v 0, v 1, v 2])))
        ([], [], []) (phononData content) =
      ([126 / 125], [[some 0, some (1 / 2), some 0]], [(some (201 / 4), [[some (1 / 2), some 0, some 0]]),
        (some 50, [[some 0, some (1 / 2), some 0]]), (some (-7), [[some 0, some 0, some z]])])) :
    ∃ s, outcarReadPhonons false (fun _ => .error .unmodelled) content = .ok s ∧
      s.wavenumbers = [some (201 / 4), some 50, some (-7)] ∧
      s.displacements.map (fun e => e.map fun v => v 2) =
        [[some 0], [some 0], [some ((z : ℝ) / Real.sqrt ((126 / 125 : ℚ) : ℝ))]] := by
  obtain ⟨x, hx, ex⟩ := projOr_ok _ _ _ h (by simp)
  obtain ⟨ws, ps, ms⟩ := x
  simp only [Prod.mk.injEq] at ex
  obtain ⟨rfl, rfl, hm⟩ := ex
  obtain ⟨m1, ms, rfl, hm1, hm⟩ := List.map_eq_cons_iff.1 hm
  obtain ⟨m2, ms, rfl, hm2, hm⟩ := List.map_eq_cons_iff.1 hm
  obtain ⟨m3, ms, rfl, hm3, hm⟩ := List.map_eq_cons_iff.1 hm
  cases List.map_eq_nil_iff.1 hm
  obtain ⟨w1, e1⟩ := m1
  obtain ⟨w2, e2⟩ := m2
  obtain ⟨w3, e3⟩ := m3
  simp only [Prod.mk.injEq, List.map_eq_singleton_iff] at hm1 hm2 hm3
  obtain ⟨rfl, v1, rfl, hv1⟩ := hm1
  obtain ⟨rfl, v2, rfl, hv2⟩ := hm2
  obtain ⟨rfl, v3, rfl, hv3⟩ := hm3
  simp only [List.cons.injEq, and_true] at hv1 hv2 hv3
  rw [phononData_make hx]
  refine ⟨_, rfl, rfl, ?_⟩
  simp [massScale, hv1.2.2, hv2.2.2, hv3.2.2]

/-- The phonons of hydrogen without the last end of a line. -/
def phononCut : List Char := phononOutcar.dropLast

theorem phononCut_read : ∃ s, outcarReadPhonons false (fun _ => .error .unmodelled) phononCut = .ok s ∧
    s.wavenumbers = [some (201 / 4), some 50, some (-7)] ∧
    s.displacements.map (fun e => e.map fun v => v 2) =
      [[some 0], [some 0], [some (((1 / 2 : ℚ) : ℝ) / Real.sqrt ((126 / 125 : ℚ) : ℝ))]] :=
  phonons_of_data (1 / 2) (by decide +kernel)

theorem phononWhole_read : ∃ s,
    outcarReadPhonons false (fun _ => .error .unmodelled) (phononCut ++ chars! ".5\n") = .ok s ∧
    s.wavenumbers = [some (201 / 4), some 50, some (-7)] ∧
    s.displacements.map (fun e => e.map fun v => v 2) =
      [[some 0], [some 0], [some (((3 / 4 : ℚ) : ℝ) / Real.sqrt ((126 / 125 : ℚ) : ℝ))]] :=
  phonons_of_data (3 / 4) (by decide +kernel)

/-- C181: "phonons of a file that was cut off are those of the complete file" is false: the last displacement
can be another, without an exception. -/
theorem C181_wrong_phonon : ∃ (a b : List Char) (s t : OutcarPhonons), a <+: b ∧
    outcarReadPhonons false (fun _ => .error .unmodelled) a = .ok s ∧
    outcarReadPhonons false (fun _ => .error .unmodelled) b = .ok t ∧ s.displacements ≠ t.displacements := by
  obtain ⟨s, hs, -, es⟩ := phononCut_read
  obtain ⟨t, ht, -, et⟩ := phononWhole_read
  refine ⟨_, _, s, t, List.prefix_append _ _, hs, ht, fun h => ?_⟩
  rw [h, et] at es
  have h0 : Real.sqrt ((126 / 125 : ℚ) : ℝ) ≠ 0 := (Real.sqrt_pos.2 (by norm_num)).ne'
  simp only [List.cons.injEq, Option.some.injEq, and_true, true_and] at es
  rw [div_left_inj' h0] at es
  norm_num at es

/-- C181, concrete: all but this displacement agrees. -/
example : ∃ s t, outcarReadPhonons false (fun _ => .error .unmodelled) phononCut = .ok s ∧
    outcarReadPhonons false (fun _ => .error .unmodelled) (phononCut ++ chars! ".5\n") = .ok t ∧
    s.refPositions = t.refPositions ∧ s.wavenumbers = t.wavenumbers ∧
    s.displacements.length = t.displacements.length ∧
    FirstFrames True s.displacements t.displacements := by
  obtain ⟨s, hs, -⟩ := phononCut_read
  obtain ⟨t, ht, -⟩ := phononWhole_read
  exact ⟨s, t, hs, ht, C181_phonons _ _ _ _ (List.prefix_append _ _) s t hs ht⟩

/-- C181, concrete: a file that ends at the end of the line, although more was written. -/
example : ∃ s t, outcarReadPhonons false (fun _ => .error .unmodelled) (phononCut ++ ['\n']) = .ok s ∧
    outcarReadPhonons false (fun _ => .error .unmodelled) (phononCut ++ ['\n'] ++ chars! " end\n") = .ok t ∧
    s = t := by
  obtain ⟨s, hs, -⟩ := phonons_of_data (content := phononCut ++ ['\n']) (1 / 2) (by decide +kernel)
  obtain ⟨t, ht, -⟩ := phonons_of_data (content := phononCut ++ ['\n'] ++ chars! " end\n") (1 / 2)
    (by decide +kernel)
  exact ⟨s, t, hs, ht, C181_phonons_lines _ _ _ _ (List.prefix_append _ _) s t hs ht⟩

end Verif
