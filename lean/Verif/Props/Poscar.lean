import Verif.Proofs.Truncate
import Verif.Model.Write

/-!
# Properties C59-C62, C65: numbers, labels, element lines, POSCAR round trip, reader errors
-/

namespace Verif

section
variable {K : Type} [Field K] [LinearOrder K] [IsStrictOrderedRing K] [FloorRing K]

/-! ## C59: numbers -/

/-- C59: the text of a number is read as that number rounded to 16 decimals. -/
theorem C59_parse_format (x : K) :
    ∃ q, parseFloat (fixed16 x) = some (some q) ∧ Spec.RoundedTo x q :=
  ⟨round16 x, parseFloat_fixed16 x, rounded_readBack (some x)⟩

/-- C59: the error is at most half a unit of the sixteenth decimal. -/
theorem C59_error (x : K) :
    ∃ q : ℚ, parseFloat (fixed16 x) = some (some q) ∧ |x - (q : K)| ≤ 1 / 2 / 10 ^ 16 := by
  refine ⟨round16 x, parseFloat_fixed16 x, ?_⟩
  have h := units_close x
  unfold round16
  push_cast
  have h10 : (0 : K) < 10 ^ 16 := by positivity
  rw [le_div_iff₀ h10]
  calc |x - (units x : K) / 10 ^ 16| * 10 ^ 16 = |(x - (units x : K) / 10 ^ 16) * 10 ^ 16| := by
        rw [abs_mul, abs_of_pos h10]
    _ = |x * 10 ^ 16 - units x| := by congr 1; field_simp
    _ ≤ 1 / 2 := h

/-- C59: numbers with at most 16 decimals survive exactly. -/
theorem C59_exact (m : ℤ) :
    parseFloat (fixed16 ((m : ℚ) / 10 ^ 16)) = some (some ((m : ℚ) / 10 ^ 16)) := by
  rw [parseFloat_fixed16]
  congr 2
  unfold round16
  congr 1
  have h := units_close ((m : ℚ) / 10 ^ 16)
  rw [div_mul_cancel₀ _ (by norm_num : (10 : ℚ) ^ 16 ≠ 0)] at h
  have h' : |((m - units ((m : ℚ) / 10 ^ 16) : ℤ) : ℚ)| ≤ 1 / 2 := by push_cast; exact h
  have h2 : |m - units ((m : ℚ) / 10 ^ 16)| < 1 := by
    have h3 : ((|m - units ((m : ℚ) / 10 ^ 16)| : ℤ) : ℚ) < 1 := by
      rw [Int.cast_abs]
      linarith
    exact_mod_cast h3
  have h4 : m - units ((m : ℚ) / 10 ^ 16) = 0 := Int.abs_lt_one_iff.1 h2
  have h5 : units ((m : ℚ) / 10 ^ 16) = m := by omega
  rw [h5]

/-- C59, concrete: 0.25. -/
example : fixed16 (1 / 4 : ℚ) = "0.2500000000000000".toList := by
  have hf : ⌊(2500000000000000 : ℚ)⌋ = 2500000000000000 := by
    exact_mod_cast Int.floor_intCast (R := ℚ) 2500000000000000
  have : roundEven (|(1 / 4 : ℚ)| * 10 ^ 16) = 2500000000000000 := by
    have h : |(1 / 4 : ℚ)| * 10 ^ 16 = ((2500000000000000 : ℤ) : ℚ) := by
      rw [abs_of_pos (by norm_num)]; norm_num
    rw [h, roundEven_int]
  unfold fixed16
  rw [this]
  dsimp only
  rw [if_neg (by norm_num)]
  decide

/-! ## C61: labels -/

/-- C61: the label fills exactly the first line of a POSCAR, and nothing after that line depends
on it. -/
theorem C61_poscar (printable : Char → Bool) (lattice : Fin 3 → Fin 3 → Option K)
    (numbers : List ℕ) (positions : List (Fin 3 → Option K)) :
    (∃ e, ∀ label, poscarContent printable lattice numbers positions label = .error e) ∨
    ∃ body, ∀ label, ∃ line, '\n' ∉ line ∧ '\r' ∉ line ∧
      poscarContent printable lattice numbers positions label = .ok (line ++ '\n' :: body) := by
  unfold poscarContent
  cases verifyStructure numbers positions with
  | error e => exact Or.inl ⟨e, fun _ => rfl⟩
  | ok _ =>
    cases getSymbolsStr numbers with
    | error e => exact Or.inl ⟨e, fun _ => rfl⟩
    | ok str =>
      right
      refine ⟨"   1.00000000000000".toList ++ ['\n'] ++ getLatticeStr lattice ++ str ++
        "Direct\n".toList ++ getPositionsStr positions, fun label =>
        ⟨innerSlice (pyRepr printable label), (label_newline printable label).1,
          (label_newline printable label).2, ?_⟩⟩
      change Except.ok _ = Except.ok _
      unfold headerStr
      simp only [List.append_assoc, List.cons_append, List.nil_append]

/-- C61: the same for XDATCAR. -/
theorem C61_xdatcar (printable : Char → Bool) (lattice : Fin 3 → Fin 3 → Option K)
    (numbers : List ℕ) (n : ℕ) (positionsTs : List (Fin n → Fin 3 → Option K)) :
    (∃ e, ∀ label, xdatcarContent printable lattice numbers n positionsTs label = .error e) ∨
    ∃ body, ∀ label, ∃ line, '\n' ∉ line ∧ '\r' ∉ line ∧
      xdatcarContent printable lattice numbers n positionsTs label =
        .ok (line ++ '\n' :: body) := by
  unfold xdatcarContent
  cases verifyTrajectory numbers n positionsTs with
  | error e => exact Or.inl ⟨e, fun _ => rfl⟩
  | ok _ =>
    cases getSymbolsStr numbers with
    | error e => exact Or.inl ⟨e, fun _ => rfl⟩
    | ok str =>
      right
      refine ⟨"   1.00000000000000".toList ++ ['\n'] ++ getLatticeStr lattice ++ str ++
        configsStr 0 (positionsTs.map List.ofFn), fun label =>
        ⟨innerSlice (pyRepr printable label), (label_newline printable label).1,
          (label_newline printable label).2, ?_⟩⟩
      change Except.ok _ = Except.ok _
      unfold headerStr
      simp only [List.append_assoc, List.cons_append, List.nil_append]

/-- C61: a label of printable ASCII characters without quotes and backslashes is written as it
is. -/
theorem C61_plain (printable : Char → Bool) (label : List Char)
    (h : ∀ c ∈ label, 32 ≤ c.toNat ∧ c.toNat < 127 ∧ c ≠ '\'' ∧ c ≠ '"' ∧ c ≠ '\\') :
    innerSlice (pyRepr printable label) = label := by
  obtain ⟨q, -, hq⟩ := innerSlice_repr printable label
  have hq' : innerSlice (pyRepr printable label) = label.flatMap (reprChar printable '\'') := by
    unfold pyRepr innerSlice
    dsimp only
    rw [if_neg (fun hh => (h _ hh.1).2.2.1 rfl)]
    simp
  rw [hq']
  clear hq' hq
  induction label with
  | nil => rfl
  | cons c cs ih =>
    rw [List.flatMap_cons, ih fun x hx => h x (by simp [hx])]
    have hc := h c (by simp)
    have ht : c ≠ '\t' := by rintro rfl; exact absurd hc.1 (by decide)
    have hn : c ≠ '\n' := by rintro rfl; exact absurd hc.1 (by decide)
    have hr : c ≠ '\r' := by rintro rfl; exact absurd hc.1 (by decide)
    unfold reprChar
    rw [if_neg (by rintro (h | h); exacts [hc.2.2.1 h, hc.2.2.2.2 h]), if_neg ht, if_neg hn,
      if_neg hr, if_neg (by omega), if_pos hc.2.1]
    rfl

/-- C61, concrete: a label with a newline, a quote and a tab stays on one line. -/
example : innerSlice (pyRepr (fun _ => true) "a\n'\t".toList) = "a\\n'\\t".toList := by decide

/-! ## C62: element lines -/

/-- C62: on lists of valid atomic numbers, `ValueError` is raised exactly if equal numbers are
not next to each other. -/
theorem C62_grouping (numbers : List ℕ) (hne : numbers ≠ [])
    (hv : ∀ n ∈ numbers, 1 ≤ n ∧ n ≤ 118) :
    ((∃ str, getSymbolsStr numbers = .ok str) ↔ Spec.Grouped numbers) ∧
    (getSymbolsStr numbers = .error .valueError ↔ ¬ Spec.Grouped numbers) := by
  have hv' : ∀ n ∈ numbers, (dictGet atomSymbols n).isSome := by
    intro n hn
    exact Option.isSome_iff_exists.2 ((C90_atomic_numbers_range n).2 (hv n hn))
  by_cases hg : Spec.Grouped numbers
  · obtain ⟨str, hs⟩ := getSymbolsStr_grouped hne hv' hg
    refine ⟨⟨fun _ => hg, fun _ => ⟨str, hs⟩⟩, ⟨fun h => ?_, fun h => absurd hg h⟩⟩
    rw [hs] at h
    cases h
  · have := getSymbolsStr_not_grouped hg
    refine ⟨⟨?_, fun h => absurd h hg⟩, ⟨fun _ => hg, fun _ => this⟩⟩
    rintro ⟨str, hs⟩
    rw [this] at hs
    cases hs

/-- C62: the element lines decode to the numbers they were written for. -/
theorem C62_decode (numbers : List ℕ) (str rest : List Char)
    (h : getSymbolsStr numbers = .ok str) :
    ∃ symbols, readAtomicSymbols (str ++ rest) = .ok (symbols, rest) ∧
      List.Forall₂ (fun s n => dictGet atomicNumbers s = some n) symbols numbers := by
  obtain ⟨us, syms, hne, hf, hn, -, rfl⟩ := getSymbolsStr_ok h
  refine ⟨expandSymbols syms ((us.map fun n => numbers.count n).map fun c => (c : ℤ)), ?_, ?_⟩
  · rw [List.append_assoc]
    exact readAtomicSymbols_written (us.map fun n => numbers.count n) hf hne (by simp) rest
  · have := expand_numbers (fun n => numbers.count n) hf
    rw [← hn, mapM_except_ok] at this
    exact this.imp fun a b hab => numberOf_eq_ok.1 hab

/-- C62: an empty list of atoms is an `IndexError`. -/
theorem C62_empty : getSymbolsStr [] = .error .indexError := rfl

/-- C62, concrete: TiO2 written as Ti O O; O Ti O is rejected. -/
example : getSymbolsStr [22, 8, 8] = .ok "   Ti  O\n   1   2\n".toList ∧
    getSymbolsStr [8, 22, 8] = .error .valueError := by
  constructor
  · have h : getSymbolsStr [22, 8, 8] = .ok "   Ti  O\n   1   2\n".toList := by
      set_option maxRecDepth 20000 in decide +kernel
    exact h
  · rfl

/-! ## C60: round trip -/

theorem verifyStructure_ok_iff (numbers : List ℕ) (positions : List (Fin 3 → Option K)) :
    verifyStructure numbers positions = .ok () ↔ Spec.ValidStructure numbers positions := by
  have hall : (numbers.all (fun n => (dictGet atomSymbols n).isSome) = true) ↔
      ∀ n ∈ numbers, 1 ≤ n ∧ n ≤ 118 := by
    rw [List.all_eq_true]
    constructor
    · intro h n hn
      exact (C90_atomic_numbers_range n).1 (Option.isSome_iff_exists.1 (h n hn))
    · intro h n hn
      exact Option.isSome_iff_exists.2 ((C90_atomic_numbers_range n).2 (h n hn))
  have hco : coordsOk positions ↔ ∀ p ∈ positions, ∀ i x, p i = some x → 0 ≤ x ∧ x ≤ 1 := by
    unfold coordsOk
    simp only [gt_iff_lt, not_lt]
  unfold verifyStructure Spec.ValidStructure
  rw [← hall, ← hco]
  by_cases h1 : numbers.all (fun n => (dictGet atomSymbols n).isSome) = true
  · rw [if_neg (not_not.2 h1)]
    by_cases h2 : positions.length = numbers.length
    · rw [if_neg (not_not.2 h2)]
      by_cases h3 : coordsOk positions
      · rw [if_neg (not_not.2 h3)]
        exact ⟨fun _ => ⟨h1, h2, h3⟩, fun _ => rfl⟩
      · rw [if_pos h3]
        exact ⟨(fun h => by cases h), fun h => absurd h.2.2 h3⟩
    · rw [if_pos h2]
      exact ⟨(fun h => by cases h), fun h => absurd h.2.1 h2⟩
  · rw [if_pos h1]
    exact ⟨(fun h => by cases h), fun h => absurd h.1 h1⟩

theorem verifyStructure_error {numbers : List ℕ} {positions : List (Fin 3 → Option K)} {e : PyErr}
    (h : verifyStructure numbers positions = .error e) : e = .valueError := by
  unfold verifyStructure at h
  split_ifs at h <;> exact (Except.error.inj h).symm

/-- C60: exactly the valid structures with grouped atoms (at least one) can be written. -/
theorem C60_writable (printable : Char → Bool) (lattice : Fin 3 → Fin 3 → Option K)
    (numbers : List ℕ) (positions : List (Fin 3 → Option K)) (label : List Char) :
    (∃ content, poscarContent printable lattice numbers positions label = .ok content) ↔
      Spec.ValidStructure numbers positions ∧ Spec.Grouped numbers ∧ numbers ≠ [] := by
  constructor
  · rintro ⟨content, h⟩
    unfold poscarContent at h
    cases hv : verifyStructure numbers positions with
    | error e => rw [hv] at h; cases h
    | ok u =>
      rw [hv] at h
      have hvalid := (verifyStructure_ok_iff numbers positions).1 hv
      cases hs : getSymbolsStr numbers with
      | error e =>
        change (getSymbolsStr numbers >>= _) = _ at h
        rw [hs] at h; cases h
      | ok str =>
        have hne : numbers ≠ [] := by
          rintro rfl
          cases hs
        exact ⟨hvalid, ((C62_grouping numbers hne hvalid.1).1).1 ⟨str, hs⟩, hne⟩
  · rintro ⟨hv, hg, hne⟩
    obtain ⟨str, hs⟩ := ((C62_grouping numbers hne hv.1).1).2 hg
    unfold poscarContent
    rw [(verifyStructure_ok_iff numbers positions).2 hv]
    change ∃ content, (getSymbolsStr numbers >>= _) = .ok content
    rw [hs]
    exact ⟨_, rfl⟩

theorem cr_positions (ps : List (Fin 3 → Option K)) : '\r' ∉ getPositionsStr ps := by
  unfold getPositionsStr
  rw [blanks2]
  intro h
  obtain ⟨p, -, hp⟩ := List.mem_flatMap.1 h
  rw [vectorLine_eq, List.mem_append] at hp
  rcases hp with hp | hp
  · exact cr_vectorBody 2 p hp
  · revert hp; decide

theorem cr_header (printable : Char → Bool) (label : List Char) :
    '\r' ∉ headerStr printable label := by
  unfold headerStr
  rw [List.mem_append, List.mem_append]
  rintro ((h | h) | h)
  · exact (label_newline printable label).2 h
  · revert h; decide
  · revert h; decide

theorem cr_lattice (lattice : Fin 3 → Fin 3 → Option K) : '\r' ∉ getLatticeStr lattice := by
  unfold getLatticeStr
  rw [blanks5]
  simp only [vectorLine_eq, List.mem_append]
  rintro (((h | h) | (h | h)) | (h | h))
  · exact cr_vectorBody 5 _ h
  · revert h; decide
  · exact cr_vectorBody 5 _ h
  · revert h; decide
  · exact cr_vectorBody 5 _ h
  · revert h; decide

theorem cr_symbols {numbers : List ℕ} {str : List Char} (h : getSymbolsStr numbers = .ok str) :
    '\r' ∉ str := by
  obtain ⟨us, syms, -, hf, -, -, rfl⟩ := getSymbolsStr_ok h
  have hcr : ∀ w : List Char, NoSpace w → '\r' ∉ w := fun w hw hm =>
    absurd (hw _ hm) (by decide)
  have h1 : '\r' ∉ joinWords "  ".toList syms :=
    cr_join (by decide) syms fun w hw => hcr w (syms_words hf w hw).1
  have h2 : '\r' ∉ joinWords "   ".toList ((us.map fun n => numbers.count n).map natStr) :=
    cr_join (by decide) _ fun w hw => hcr w (counts_words _ w hw).1
  simp only [List.mem_append, not_or]
  refine ⟨⟨⟨by decide, h1⟩, by decide⟩, ⟨by decide, h2⟩, by decide⟩

/-- C60: reading a written POSCAR gives the structure back, rounded to 16 decimals. -/
theorem C60_roundtrip (printable : Char → Bool) (ext : NumMat → Py NumMat)
    (lattice : Fin 3 → Fin 3 → Option K) (numbers : List ℕ)
    (positions : List (Fin 3 → Option K)) (label content : List Char)
    (h : poscarContent printable lattice numbers positions label = .ok content) :
    ∃ s, readStructure ext content = .ok s ∧ s.atomicNumbers = numbers ∧
      (∀ i, Spec.RoundedVec (lattice i) (s.lattice i)) ∧
      List.Forall₂ Spec.RoundedVec positions s.positions := by
  unfold poscarContent at h
  cases hv : verifyStructure numbers positions with
  | error e => rw [hv] at h; cases h
  | ok u =>
    rw [hv] at h
    have hvalid := (verifyStructure_ok_iff numbers positions).1 hv
    cases hs : getSymbolsStr numbers with
    | error e =>
      change (getSymbolsStr numbers >>= _) = _ at h
      rw [hs] at h; cases h
    | ok str =>
      change (getSymbolsStr numbers >>= _) = _ at h
      rw [hs] at h
      have hc := (Except.ok.inj h).symm
      obtain ⟨symbols, hread, hsym⟩ := C62_decode numbers str
        ("Direct\n".toList ++ getPositionsStr positions) hs
      have hnum : symbols.mapM numberOf = .ok numbers := by
        rw [mapM_except_ok]
        exact hsym.imp fun a b hab => numberOf_eq_ok.2 hab
      have hlen : symbols.length = positions.length := by
        rw [hsym.length_eq, hvalid.2.1]
      refine ⟨⟨fun i j => readBack (lattice i j), numbers,
        positions.map fun p i => readBack (p i)⟩, ?_, rfl, fun i j => rounded_readBack _, ?_⟩
      · unfold readStructure
        have hnocr : '\r' ∉ content := by
          rw [hc]
          simp only [List.mem_append, not_or]
          exact ⟨⟨⟨⟨cr_header printable label, cr_lattice lattice⟩, cr_symbols hs⟩, by decide⟩,
            cr_positions positions⟩
        rw [universalNewlines_id hnocr, hc]
        simp only [List.append_assoc]
        rw [readLattice_written]
        change (readAtomicSymbols _ >>= _) = _
        rw [hread]
        change (symbols.mapM numberOf >>= _) = _
        rw [hnum]
        have hpos := readPositions_direct ext (fun i j => readBack (lattice i j))
          "irect".toList (by decide) positions []
        have hd : "Direct\n".toList ++ getPositionsStr positions =
            'D' :: "irect".toList ++ '\n' :: (getPositionsStr positions ++ []) := by
          rw [List.append_nil]
          have : "Direct\n".toList = 'D' :: "irect".toList ++ ['\n'] := by decide
          rw [this]
          simp only [List.append_assoc, List.cons_append, List.nil_append]
        change (dropMsg (readPositions _ _ _ _) >>= _) = _
        rw [hd, hlen, hpos]
        rfl
      · rw [List.forall₂_map_right_iff, List.forall₂_same]
        exact fun x _ i => rounded_readBack (x i)

/-- C60: rounding is a function, so the round trip determines the structure read. -/
theorem C60_rounded_unique (x : K) (q q' : ℚ) (h : Spec.RoundedTo x q) (h' : Spec.RoundedTo x q') :
    q = q' := by
  obtain ⟨m, rfl, h1, h2⟩ := h
  obtain ⟨m', rfl, h1', h2'⟩ := h'
  suffices m = m' by rw [this]
  generalize x * 10 ^ 16 = y at h1 h2 h1' h2'
  have hd : |((m - m' : ℤ) : K)| ≤ 1 := by
    have : ((m - m' : ℤ) : K) = (y - m') - (y - m) := by push_cast; ring
    rw [this]
    have := abs_sub (y - (m' : K)) (y - m)
    linarith
  have hd' : |m - m'| ≤ 1 := by
    rw [← Int.cast_abs] at hd
    exact_mod_cast hd
  by_contra hne
  have h1m : |m - m'| = 1 := by
    have : 0 < |m - m'| := abs_pos.2 (sub_ne_zero.2 hne)
    omega
  have hsum : (1 : K) ≤ |y - m'| + |y - m| := by
    have e : ((m - m' : ℤ) : K) = (y - m') - (y - m) := by push_cast; ring
    have := abs_sub (y - (m' : K)) (y - m)
    rw [← e, ← Int.cast_abs, h1m] at this
    simpa using this
  have e1 : 2 * |y - (m : K)| = 1 := by linarith
  have e2 : 2 * |y - (m' : K)| = 1 := by linarith
  have ev1 := Int.even_iff.1 (h2 e1)
  have ev2 := Int.even_iff.1 (h2' e2)
  rcases (abs_eq (by norm_num : (0 : ℤ) ≤ 1)).1 h1m with h | h <;> omega

/-- C60, concrete: one carbon atom in a cubic cell can be written. -/
example : ∃ content, poscarContent (K := ℚ) (fun _ => true)
    (fun i j => if i = j then some 4 else some 0) [6] [fun _ => some (1 / 3)] "C".toList =
      .ok content := by
  refine (C60_writable _ _ _ _ _).2 ⟨⟨by simp, rfl, ?_⟩, ?_, by simp⟩
  · intro p hp i x hx
    rw [List.mem_singleton] at hp
    subst hp
    cases hx
    constructor <;> norm_num
  · intro x y h
    have := h.length_le
    simp at this

end

end Verif
