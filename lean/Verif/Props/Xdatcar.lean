import Verif.Props.Poscar
import Verif.Props.PoscarErrors

/-!
# Properties C63, C64, C93, C94: XDATCAR files, Cartesian coordinates, termination
-/

namespace Verif

section
variable {K : Type} [Field K] [LinearOrder K] [IsStrictOrderedRing K] [FloorRing K]

theorem readTsLoop_written (ext : NumMat → Py NumMat) (lattice : NumMat) (n : ℕ)
    (w : List (List (Fin 3 → Option K))) (hw : ∀ ps ∈ w, ps.length = n) (i fuel : ℕ)
    (hf : (configsStr i w).length < fuel) :
    readTsLoop ext lattice n fuel (configsStr i w) =
      .ok (w.map fun ps => ps.map fun p i => readBack (p i)) := by
  induction w generalizing i fuel with
  | nil =>
    obtain ⟨fuel, rfl⟩ : ∃ k, fuel = k + 1 := ⟨fuel - 1, by omega⟩
    exact readTsLoop_nil ext lattice n fuel
  | cons ps w ih =>
    obtain ⟨fuel, rfl⟩ : ∃ k, fuel = k + 1 := ⟨fuel - 1, by omega⟩
    obtain ⟨l, hl, -, hc⟩ := configsStr_cons i ps w
    rw [hc] at hf ⊢
    have hr := readPositions_direct ext lattice l hl ps (configsStr (i + 1) w)
    have he : ('D' :: l ++ ['\n']) ++ (getPositionsStr ps ++ configsStr (i + 1) w) =
        'D' :: l ++ '\n' :: (getPositionsStr ps ++ configsStr (i + 1) w) := by simp
    rw [he, readTsLoop, ← hw ps (by simp), hr]
    change (readTsLoop ext lattice ps.length fuel (configsStr (i + 1) w) >>= _) = _
    have hlen : (configsStr (i + 1) w).length < fuel := by
      simp only [List.length_append, List.length_cons] at hf
      omega
    rw [hw ps (by simp), ih (fun x hx => hw x (by simp [hx])) (i + 1) fuel hlen]
    rfl

theorem cr_configs (w : List (List (Fin 3 → Option K))) (i : ℕ) : '\r' ∉ configsStr i w := by
  induction w generalizing i with
  | nil => rw [configsStr_nil]; simp
  | cons ps w ih =>
    obtain ⟨l, -, hl, hc⟩ := configsStr_cons i ps w
    rw [hc]
    simp only [List.mem_append, not_or]
    exact ⟨⟨by simp [hl], by decide⟩, cr_positions ps, ih (i + 1)⟩

theorem xdatcarContent_ok {printable : Char → Bool} {lattice : Fin 3 → Fin 3 → Option K}
    {numbers : List ℕ} {n : ℕ} {positionsTs : List (Fin n → Fin 3 → Option K)}
    {label content : List Char}
    (h : xdatcarContent printable lattice numbers n positionsTs label = .ok content) :
    n = numbers.length ∧ ∃ str, getSymbolsStr numbers = .ok str ∧
      content = headerStr printable label ++ (getLatticeStr lattice ++ (str ++
        configsStr 0 (positionsTs.map List.ofFn))) := by
  unfold xdatcarContent at h
  cases hv : verifyTrajectory numbers n positionsTs with
  | error e => rw [hv] at h; cases h
  | ok u =>
    rw [hv] at h
    have hn : n = numbers.length := by
      unfold verifyTrajectory at hv
      split_ifs at hv with h1 h2 h3
      exact not_not.1 h2
    cases hs : getSymbolsStr numbers with
    | error e =>
      change (getSymbolsStr numbers >>= _) = _ at h
      rw [hs] at h; cases h
    | ok str =>
      change (getSymbolsStr numbers >>= _) = _ at h
      rw [hs] at h
      refine ⟨hn, str, rfl, ?_⟩
      rw [← Except.ok.inj h]
      simp only [List.append_assoc]

theorem xdatcar_nocr {printable : Char → Bool} {lattice : Fin 3 → Fin 3 → Option K}
    {numbers : List ℕ} {str label : List Char} (w : List (List (Fin 3 → Option K)))
    (hs : getSymbolsStr numbers = .ok str) :
    '\r' ∉ headerStr printable label ++ (getLatticeStr lattice ++ (str ++ configsStr 0 w)) := by
  simp only [List.mem_append, not_or]
  exact ⟨cr_header printable label, cr_lattice lattice, cr_symbols hs, cr_configs w 0⟩

/-- C63: reading a written XDATCAR gives all configurations back in order, rounded to 16
decimals. -/
theorem C63_roundtrip (printable : Char → Bool) (ext : NumMat → Py NumMat)
    (lattice : Fin 3 → Fin 3 → Option K) (numbers : List ℕ) (n : ℕ)
    (positionsTs : List (Fin n → Fin 3 → Option K)) (label content : List Char)
    (h : xdatcarContent printable lattice numbers n positionsTs label = .ok content) :
    ∃ r, readPositionsTs ext content = .ok r ∧
      List.Forall₂ (List.Forall₂ Spec.RoundedVec) (positionsTs.map List.ofFn) r := by
  obtain ⟨hn, str, hs, rfl⟩ := xdatcarContent_ok h
  obtain ⟨symbols, hread, hsym⟩ := C62_decode numbers str
    (configsStr 0 (positionsTs.map List.ofFn)) hs
  refine ⟨(positionsTs.map List.ofFn).map fun ps => ps.map fun p i => readBack (p i), ?_, ?_⟩
  · unfold readPositionsTs
    rw [universalNewlines_id (xdatcar_nocr _ hs)]
    dsimp only
    rw [readLattice_written]
    change (readAtomicSymbols _ >>= _) = _
    rw [hread]
    change readTsLoop _ _ _ _ _ = _
    rw [readTsLoop_written]
    · intro ps hps
      obtain ⟨p, -, rfl⟩ := List.mem_map.1 hps
      rw [List.length_ofFn, hsym.length_eq, hn]
    · exact Nat.lt_succ_self _
  · rw [List.forall₂_map_right_iff, List.forall₂_same]
    intro ps _
    rw [List.forall₂_map_right_iff, List.forall₂_same]
    exact fun x _ i => rounded_readBack (x i)

/-- C63: exactly the trajectories with valid, grouped atoms (at least one), matching row counts and
coordinates in the cell can be written. -/
theorem C63_writable (printable : Char → Bool) (lattice : Fin 3 → Fin 3 → Option K)
    (numbers : List ℕ) (n : ℕ) (positionsTs : List (Fin n → Fin 3 → Option K))
    (label : List Char) :
    (∃ content, xdatcarContent printable lattice numbers n positionsTs label = .ok content) ↔
      (∀ k ∈ numbers, 1 ≤ k ∧ k ≤ 118) ∧ n = numbers.length ∧ numbers ≠ [] ∧
      Spec.Grouped numbers ∧
      ∀ p ∈ positionsTs, ∀ a i x, p a i = some x → 0 ≤ x ∧ x ≤ 1 := by
  have hall : (numbers.all (fun n => (dictGet atomSymbols n).isSome) = true) ↔
      ∀ n ∈ numbers, 1 ≤ n ∧ n ≤ 118 := by
    rw [List.all_eq_true]
    constructor
    · intro h n hn
      exact (C90_atomic_numbers_range n).1 (Option.isSome_iff_exists.1 (h n hn))
    · intro h n hn
      exact Option.isSome_iff_exists.2 ((C90_atomic_numbers_range n).2 (h n hn))
  have hco : (∀ p ∈ positionsTs, coordsOk (List.ofFn p)) ↔
      ∀ p ∈ positionsTs, ∀ a i x, p a i = some x → 0 ≤ x ∧ x ≤ 1 := by
    unfold coordsOk
    simp only [gt_iff_lt, not_lt, List.mem_ofFn, forall_exists_index, forall_apply_eq_imp_iff]
  have hver : verifyTrajectory numbers n positionsTs = .ok () ↔
      (∀ k ∈ numbers, 1 ≤ k ∧ k ≤ 118) ∧ n = numbers.length ∧
      ∀ p ∈ positionsTs, ∀ a i x, p a i = some x → 0 ≤ x ∧ x ≤ 1 := by
    rw [← hall, ← hco]
    unfold verifyTrajectory
    by_cases h1 : numbers.all (fun n => (dictGet atomSymbols n).isSome) = true
    · rw [if_neg (not_not.2 h1)]
      by_cases h2 : n = numbers.length
      · rw [if_neg (not_not.2 h2)]
        by_cases h3 : ∀ p ∈ positionsTs, coordsOk (List.ofFn p)
        · rw [if_neg (not_not.2 h3)]
          exact ⟨fun _ => ⟨h1, h2, h3⟩, fun _ => rfl⟩
        · rw [if_pos h3]
          exact ⟨(fun h => by cases h), fun h => absurd h.2.2 h3⟩
      · rw [if_pos h2]
        exact ⟨(fun h => by cases h), fun h => absurd h.2.1 h2⟩
    · rw [if_pos h1]
      exact ⟨(fun h => by cases h), fun h => absurd h.1 h1⟩
  constructor
  · rintro ⟨content, h⟩
    obtain ⟨hn, str, hs, -⟩ := xdatcarContent_ok h
    have hv : verifyTrajectory numbers n positionsTs = .ok () := by
      unfold xdatcarContent at h
      cases hv : verifyTrajectory numbers n positionsTs with
      | error e => rw [hv] at h; cases h
      | ok u => rfl
    have hv' := hver.1 hv
    have hne : numbers ≠ [] := by
      rintro rfl
      cases hs
    exact ⟨hv'.1, hv'.2.1, hne, (C62_grouping numbers hne hv'.1).1.1 ⟨str, hs⟩, hv'.2.2⟩
  · rintro ⟨h1, h2, hne, hg, h3⟩
    obtain ⟨str, hs⟩ := (C62_grouping numbers hne h1).1.2 hg
    unfold xdatcarContent
    rw [hver.2 ⟨h1, h2, h3⟩]
    change ∃ content, (getSymbolsStr numbers >>= _) = .ok content
    rw [hs]
    exact ⟨_, rfl⟩

/-- C64: a written XDATCAR cut at any character is rejected with `InvalidFileException` or read
as the first configurations written, where at most the last coordinate of the last one is
wrong. -/
theorem C64_truncated (printable : Char → Bool) (ext : NumMat → Py NumMat)
    (lattice : Fin 3 → Fin 3 → Option K) (numbers : List ℕ) (n : ℕ)
    (positionsTs : List (Fin n → Fin 3 → Option K)) (label content : List Char)
    (h : xdatcarContent printable lattice numbers n positionsTs label = .ok content) (k : ℕ) :
    readPositionsTs ext (content.take k) = .error .invalidFile ∨
    ∃ r, readPositionsTs ext (content.take k) = .ok r ∧
      Spec.TruncatedTo (positionsTs.map List.ofFn) r := by
  obtain ⟨hn, str, hs, hc⟩ := xdatcarContent_ok h
  have hp : content.take k <+: headerStr printable label ++ (getLatticeStr lattice ++ (str ++
        configsStr 0 (positionsTs.map List.ofFn))) := by
    rw [← hc]; exact List.take_prefix _ _
  have hnocr : '\r' ∉ content.take k := by
    intro hm
    exact xdatcar_nocr (lattice := lattice) (printable := printable) (label := label) _ hs
      (hp.subset hm)
  generalize content.take k = p at hp hnocr
  unfold readPositionsTs
  rw [universalNewlines_id hnocr]
  dsimp only
  rcases readLattice_cut printable label lattice hp with h | ⟨m, q, hq, h⟩
  · rw [h]; exact Or.inl rfl
  · rw [h]
    change (readAtomicSymbols q >>= _) = _ ∨ ∃ r, (readAtomicSymbols q >>= _) = _ ∧ _
    obtain ⟨us, syms, hne, hf, hnum, -, hstr⟩ := getSymbolsStr_ok hs
    have hq' : q <+: (symBody syms ++ ['\n']) ++ ((cntBody (us.map fun n => numbers.count n) ++
        ['\n']) ++ configsStr 0 (positionsTs.map List.ofFn)) := by
      rw [hstr, List.append_assoc] at hq
      exact hq
    rcases readAtomicSymbols_cut (us.map fun n => numbers.count n) hf hne (by simp) hq' with
      h | ⟨l, h⟩ | ⟨q', hq'', h⟩
    · rw [h]; exact Or.inl rfl
    · rw [h]
      right
      refine ⟨[], ?_, Or.inl ⟨0, by simp⟩⟩
      exact readTsLoop_nil ext m l.length 0
    · rw [h]
      change readTsLoop _ _ _ _ _ = _ ∨ ∃ r, readTsLoop _ _ _ _ _ = _ ∧ _
      have hex := expand_numbers (fun n => numbers.count n) hf
      rw [← hnum, mapM_except_ok] at hex
      have hlen := hex.length_eq
      rw [hlen]
      have hpos : 0 < numbers.length := by
        rw [List.length_pos_iff]
        rintro rfl
        cases hs
      refine readTsLoop_cut ext m numbers.length hpos _ ?_ 0 hq'' _ (Nat.lt_succ_self _)
      intro ps hps
      obtain ⟨p, -, rfl⟩ := List.mem_map.1 hps
      rw [List.length_ofFn, hn]

/-- C64: the exception in the claim is real: a cut inside the last number changes it. -/
example : ∃ content r : List Char, r <+: content ∧
    errorOf (readPositionsTs (fun _ => .error .linAlgError) r) = none ∧
    content = "l\n1.0\n1 0 0\n0 1 0\n0 0 1\nC\n1\nDirect\n0.5 0.5 0.25\n".toList ∧
    r = "l\n1.0\n1 0 0\n0 1 0\n0 0 1\nC\n1\nDirect\n0.5 0.5 0.2".toList := by
  refine ⟨_, _, ?_, ?_, rfl, rfl⟩
  · decide
  · decide +kernel

/-- C63/C64, concrete: two configurations of one carbon atom can be written. -/
example : ∃ content, xdatcarContent (K := ℚ) (fun _ => true)
    (fun i j => if i = j then some 4 else some 0) [6] 1
    [fun _ _ => some (1 / 3), fun _ _ => some (1 / 2)] "C".toList = .ok content := by
  refine (C63_writable _ _ _ _ _ _).2 ⟨by simp, rfl, by simp, ?_, ?_⟩
  · intro x y h
    have := h.length_le
    simp at this
  · intro p hp a i x hx
    simp only [List.mem_cons, List.not_mem_nil, or_false] at hp
    rcases hp with rfl | rfl <;> cases hx <;> constructor <;> norm_num

end

/-! ## C93: Cartesian coordinates -/

theorem numInv_finite (ext : NumMat → Py NumMat) (a : Matrix (Fin 3) (Fin 3) ℚ) :
    (a.det = 0 ∧ numInv ext (fun i j => some (a i j)) = .error .linAlgError) ∨
    (a.det ≠ 0 ∧ ∃ b : Matrix (Fin 3) (Fin 3) ℚ, numInv ext (fun i j => some (a i j)) =
      .ok (fun i j => some (b i j)) ∧ b * a = 1) := by
  unfold numInv
  rw [dif_pos (by simp)]
  dsimp only [Option.get_some]
  have hdet : a 0 0 * (a 1 1 * a 2 2 - a 1 2 * a 2 1) - a 0 1 * (a 1 0 * a 2 2 - a 1 2 * a 2 0)
      + a 0 2 * (a 1 0 * a 2 1 - a 1 1 * a 2 0) = a.det := by
    rw [Matrix.det_fin_three]; ring
  rw [hdet]
  by_cases h : a.det = 0
  · rw [if_pos h]; exact Or.inl ⟨h, rfl⟩
  · rw [if_neg h]
    right
    refine ⟨h, Matrix.of fun i j => (![
      ![a 1 1 * a 2 2 - a 1 2 * a 2 1, a 0 2 * a 2 1 - a 0 1 * a 2 2,
        a 0 1 * a 1 2 - a 0 2 * a 1 1],
      ![a 1 2 * a 2 0 - a 1 0 * a 2 2, a 0 0 * a 2 2 - a 0 2 * a 2 0,
        a 0 2 * a 1 0 - a 0 0 * a 1 2],
      ![a 1 0 * a 2 1 - a 1 1 * a 2 0, a 0 1 * a 2 0 - a 0 0 * a 2 1,
        a 0 0 * a 1 1 - a 0 1 * a 1 0]] : Fin 3 → Fin 3 → ℚ) i j / a.det, rfl, ?_⟩
    ext i j
    rw [Matrix.mul_apply, Fin.sum_univ_three]
    simp only [Matrix.of_apply]
    generalize a.det = d at hdet h ⊢
    fin_cases i <;> fin_cases j <;>
      simp [Matrix.one_apply] <;> field_simp <;>
      first | ring1 | (rw [← hdet]; ring1)

theorem numVecMul_finite (v : Fin 3 → ℚ) (b : Matrix (Fin 3) (Fin 3) ℚ) :
    numVecMul (fun i => some (v i)) (fun i j => some (b i j)) =
      fun j => some (∑ i, v i * b i j) := by
  funext j
  simp [numVecMul, numMul, numAdd, Fin.sum_univ_three]

/-- C93: in Cartesian mode, with a finite lattice, each position returned times the lattice is the
row in the file. -/
theorem C93_cartesian (ext : NumMat → Py NumMat) (f g : List Char) (a : Matrix (Fin 3) (Fin 3) ℚ) (n : ℕ)
    (ps : List NumVec)
    (h : readCoordinates ext true f (fun i j => some (a i j)) n = .ok (ps, g)) :
    ∃ rows, readCoordinates ext false f (fun i j => some (a i j)) n = .ok (rows, g) ∧
      List.Forall₂ (fun row p => ∀ x : Fin 3 → ℚ, (row = fun i => some (x i)) →
        ∃ y : Fin 3 → ℚ, (p = fun i => some (y i)) ∧ ∀ k, ∑ i, y i * a i k = x k) rows ps := by
  unfold readCoordinates at h ⊢
  cases hv : readVectors n f with
  | error r => rw [hv] at h; cases h
  | ok x =>
    obtain ⟨rows, g'⟩ := x
    rw [hv] at h
    change toFractional ext _ rows g' = .ok (ps, g) at h
    unfold toFractional at h
    rcases numInv_finite ext a with ⟨-, hi⟩ | ⟨-, b, hi, hba⟩
    · rw [hi] at h; cases h
    · rw [hi] at h
      dsimp only at h
      split_ifs at h with hr
      obtain ⟨rfl, rfl⟩ := Prod.mk.inj (Except.ok.inj h)
      refine ⟨rows, rfl, ?_⟩
      rw [List.forall₂_map_right_iff, List.forall₂_same]
      rintro row - x rfl
      refine ⟨fun j => ∑ i, x i * b i j, numVecMul_finite x b, fun k => ?_⟩
      have hv : Matrix.vecMul (Matrix.vecMul x b) a = x := by
        rw [Matrix.vecMul_vecMul, hba, Matrix.vecMul_one]
      have := congrFun hv k
      simpa [Matrix.vecMul, dotProduct] using this

/-- C93, concrete. -/
example : positionsOf (readStructure (fun _ => .error .linAlgError)
    "l\n2.0\n1 0 0\n0 1 0\n1 0 1\nC\n1\nCart\n1 1 1\n".toList) = [[some 0, some (1 / 2), some (1 / 2)]] := by
  decide +kernel

/-! ## C94: the XDATCAR reader terminates -/

/-- C94: the unbounded reading loop always ends, and only with the errors of the POSCAR reader;
every configuration returned has one position per atom. -/
theorem C94_terminates (ext : NumMat → Py NumMat) (hext : InvRaisesLinAlg ext)
    (content : List Char) :
    (∃ n r, readPositionsTs ext content = .ok r ∧ ∀ ps ∈ r, ps.length = n) ∨
    ∃ e, readPositionsTs ext content = .error e ∧
      (e = .invalidFile ∨ e = .indexError ∨ e = .linAlgError ∨ e = .valueError) := by
  have loop : ∀ (m : NumMat) (n fuel : ℕ) (f : List Char), f.length < fuel →
      (∃ r, readTsLoop ext m n fuel f = .ok r ∧ ∀ ps ∈ r, ps.length = n) ∨
      ∃ e, readTsLoop ext m n fuel f = .error e ∧
        (e = .invalidFile ∨ e = .indexError ∨ e = .linAlgError ∨ e = .valueError) := by
    intro m n fuel
    induction fuel with
    | zero => intro f hf; omega
    | succ fuel ih =>
      intro f hf
      rw [readTsLoop]
      rcases readPositions_cases hext f m n with ⟨r, hr, he⟩ | ⟨vs, g, hr, hl, hg⟩
      · rw [hr]
        dsimp only
        split
        · exact Or.inl ⟨[], rfl, by simp⟩
        · right
          refine ⟨r.err, rfl, ?_⟩
          rcases he with he | ⟨he, -⟩ | ⟨-, he | ⟨he, -⟩⟩
          · exact Or.inl he
          · exact Or.inr (Or.inl he)
          · exact Or.inr (Or.inr (Or.inl he))
          · exact Or.inr (Or.inr (Or.inr he))
      · rw [hr]
        dsimp only
        rcases ih g (by omega) with ⟨r, h, hall⟩ | ⟨e, h, he⟩
        · rw [h]
          refine Or.inl ⟨vs :: r, rfl, ?_⟩
          intro ps hps
          rcases List.mem_cons.1 hps with rfl | hps
          · exact hl
          · exact hall ps hps
        · rw [h]
          exact Or.inr ⟨e, rfl, he⟩
  unfold readPositionsTs
  dsimp only
  rcases readLattice_cases (universalNewlines content) with h | ⟨m, f1, h, -⟩
  · rw [h]; exact Or.inr ⟨_, rfl, Or.inl rfl⟩
  · rw [h]
    change (∃ n r, (readAtomicSymbols f1 >>= _) = _ ∧ _) ∨ ∃ e, (readAtomicSymbols f1 >>= _) = _ ∧ _
    rcases readAtomicSymbols_cases f1 with h' | ⟨syms, f2, h', -, -⟩
    · rw [h']; exact Or.inr ⟨_, rfl, Or.inl rfl⟩
    · rw [h']
      rcases loop m syms.length (f2.length + 1) f2 (by omega) with h | h
      · exact Or.inl ⟨syms.length, h⟩
      · exact Or.inr h

/-- C94: a line holding the text the reader looks for in messages ends the reading silently, so
corrupted files can be read as shorter trajectories. -/
theorem C94_silent_stop : ∃ content : List Char, contains missingMsg content = true ∧
    (match readPositionsTs (fun _ => .error .linAlgError) content with
      | .ok r => r.length
      | .error _ => 7) = 1 := by
  refine ⟨("l\n1.0\n1 0 0\n0 1 0\n0 0 1\nC\n1\nDirect\n0 0 0\n" ++
    "x missing first character in coordinate format:\n0 0 0\nDirect\n0 0 0\n").toList, ?_, ?_⟩
  · decide +kernel
  · decide +kernel

end Verif
