import Verif.Proofs.Crash
import Verif.Props.PoscarErrors
import Verif.Props.Write

/-!
# Property C157: writing a POSCAR interrupted by a crash
-/

namespace Verif

section
variable {K : Type} [Field K] [LinearOrder K] [IsStrictOrderedRing K] [FloorRing K]

/-- What a successful write consists of. -/
theorem poscarContent_ok {printable : Char → Bool} {lattice : Fin 3 → Fin 3 → Option K}
    {numbers : List ℕ} {positions : List (Fin 3 → Option K)} {label content : List Char}
    (h : poscarContent printable lattice numbers positions label = .ok content) :
    Spec.ValidStructure numbers positions ∧ ∃ str, getSymbolsStr numbers = .ok str ∧
      content = (headerStr printable label ++ getLatticeStr lattice) ++
        (str ++ (('D' :: "irect".toList ++ ['\n']) ++ getPositionsStr positions)) := by
  unfold poscarContent at h
  cases hv : verifyStructure numbers positions with
  | error e => rw [hv] at h; cases h
  | ok u =>
    rw [hv] at h
    refine ⟨(verifyStructure_ok_iff numbers positions).1 hv, ?_⟩
    cases hs : getSymbolsStr numbers with
    | error e =>
      change (getSymbolsStr numbers >>= _) = _ at h
      rw [hs] at h; cases h
    | ok str =>
      change (getSymbolsStr numbers >>= _) = _ at h
      rw [hs] at h
      refine ⟨str, rfl, (Except.ok.inj h).symm.trans ?_⟩
      have hd : "Direct\n".toList = 'D' :: "irect".toList ++ ['\n'] := by decide
      rw [hd]
      simp only [List.append_assoc]

theorem poscar_nocr {printable : Char → Bool} {lattice : Fin 3 → Fin 3 → Option K}
    {numbers : List ℕ} {positions : List (Fin 3 → Option K)} {label content : List Char}
    (h : poscarContent printable lattice numbers positions label = .ok content) :
    '\r' ∉ content := by
  obtain ⟨-, str, hs, rfl⟩ := poscarContent_ok h
  simp only [List.mem_append, not_or]
  refine ⟨⟨cr_header printable label, cr_lattice lattice⟩, cr_symbols hs, ?_,
    cr_positions positions⟩
  decide

theorem numbers_ne_nil {numbers : List ℕ} {str : List Char} (h : getSymbolsStr numbers = .ok str) :
    numbers ≠ [] := by
  rintro rfl
  cases h

/-- `read_structure` once lattice and elements have been read. -/
theorem readStructure_of {ext : NumMat → Py NumMat} {part q q' : List Char} {L : NumMat}
    {S : List Word} {ns : List ℕ} (hcr : '\r' ∉ part) (h1 : readLattice part = .ok (L, q))
    (h2 : readAtomicSymbols q = .ok (S, q')) (h3 : S.mapM numberOf = .ok ns) :
    readStructure ext part = (dropMsg (readPositions ext q' L S.length) >>= fun x =>
      .ok ⟨L, ns, x.1⟩) := by
  unfold readStructure
  rw [universalNewlines_id hcr]
  dsimp only
  rw [h1]
  change (readAtomicSymbols q >>= _) = _
  rw [h2]
  change (S.mapM numberOf >>= _) = _
  rw [h3]
  rfl

/-- C157: a POSCAR of which only a part has been written is rejected with
`InvalidFileException`, or it is read as the structure that was being written except that the very
last coordinate may be shortened; in the second case at most 18 characters are missing. -/
theorem C157_prefix (printable : Char → Bool) (ext : NumMat → Py NumMat)
    (lattice : Fin 3 → Fin 3 → Option K) (numbers : List ℕ)
    (positions : List (Fin 3 → Option K)) (label content : List Char)
    (h : poscarContent printable lattice numbers positions label = .ok content)
    (part : List Char) (hpart : part <+: content) :
    readStructure ext part = .error .invalidFile ∨
    ∃ s, readStructure ext part = .ok s ∧ s.atomicNumbers = numbers ∧
      (∀ i, Spec.RoundedVec (lattice i) (s.lattice i)) ∧
      Spec.LastShortened positions s.positions ∧ content.length ≤ part.length + 18 := by
  have hcr : '\r' ∉ part := fun hm => poscar_nocr h (hpart.subset hm)
  obtain ⟨hvalid, str, hs, rfl⟩ := poscarContent_ok h
  have hL : ∀ q, readLattice ((headerStr printable label ++ getLatticeStr lattice) ++ q) =
      .ok (fun i j => readBack (lattice i j), q) := by
    intro q
    rw [List.append_assoc, readLattice_written]
  rcases prefix_append hpart with hp | ⟨q, rfl, hq⟩
  · left
    unfold readStructure
    rw [universalNewlines_id hcr]
    dsimp only
    have hp' : part <+: headerStr printable label ++ (getLatticeStr lattice ++ []) := by
      rw [List.append_nil]; exact hp
    rcases readLattice_cut printable label lattice hp' with h1 | ⟨m, q, hq, h1⟩
    · rw [h1]; rfl
    · rw [h1]
      change (readAtomicSymbols q >>= _) = _
      rw [List.prefix_nil.1 hq, readAtomicSymbols_nil]
      rfl
  have hpos : positions ≠ [] := by
    intro hn
    have := hvalid.2.1
    rw [hn] at this
    exact numbers_ne_nil hs (List.length_eq_zero_iff.1 this.symm)
  rcases prefix_append hq with hq | ⟨u, rfl, hu⟩
  · left
    obtain ⟨us, syms, hne, hf, -, -, hstr⟩ := getSymbolsStr_ok hs
    have hq' : q <+: (symBody syms ++ ['\n']) ++ ((cntBody (us.map fun n => numbers.count n) ++
        ['\n']) ++ []) := by
      rw [List.append_nil]
      rw [hstr] at hq
      exact hq
    have hend : readAtomicSymbols q = .error .invalidFile ∨
        ∃ l, readAtomicSymbols q = .ok (l, []) := by
      rcases readAtomicSymbols_cut (us.map fun n => numbers.count n) hf hne (by simp) hq' with
        h1 | h1 | ⟨q', hq'', h1⟩
      · exact Or.inl h1
      · exact Or.inr h1
      · rw [List.prefix_nil.1 hq''] at h1
        exact Or.inr ⟨_, h1⟩
    have hcases := readAtomicSymbols_cases q
    rcases hend with h1 | ⟨l, h1⟩
    · unfold readStructure
      rw [universalNewlines_id hcr]
      dsimp only
      rw [hL q]
      change (readAtomicSymbols q >>= _) = _
      rw [h1]; rfl
    · rw [h1] at hcases
      rcases hcases with hc | ⟨l', r, hc, -, hk⟩
      · cases hc
      · cases hc
        obtain ⟨ns, hns, -⟩ := mapM_numberOf hk
        rw [readStructure_of hcr (hL q) h1 hns]
        obtain ⟨r, hr1, hr2, -⟩ := readPositions_nil ext (fun i j => readBack (lattice i j))
          l.length
        rw [hr1]
        change Except.error _ = _
        rw [hr2]
  obtain ⟨S, hS1, hS2⟩ := C62_decode numbers str u hs
  have hS3 : S.mapM numberOf = .ok numbers := by
    rw [mapM_except_ok]
    exact hS2.imp fun a b hab => numberOf_eq_ok.2 hab
  have hlen : S.length = positions.length := by rw [hS2.length_eq, hvalid.2.1]
  rw [readStructure_of hcr (hL _) hS1 hS3, hlen]
  rcases prefix_append hu with hu | ⟨t, rfl, ht⟩
  · left
    have hcut : u <+: ('D' :: "irect".toList ++ ['\n']) ++
        (getPositionsStr ([] : List (Fin 3 → Option K)) ++ []) := by
      exact hu.trans (List.prefix_append _ _)
    rcases readPositions_cut ext (fun i j => readBack (lattice i j)) (by decide) [] hcut
      with ⟨t, ht, hread⟩ | rfl
    · rw [(hread _).1, List.prefix_nil.1 ht]
      obtain ⟨k, hk⟩ := Nat.exists_eq_succ_of_ne_zero (List.length_pos_iff.2 hpos).ne'
      obtain ⟨r, hr1, hr2⟩ := readVectors_nil k
      rw [hk, Nat.succ_eq_add_one, hr2]
      change Except.error _ = _
      rw [hr1]
    · obtain ⟨r, hr1, hr2, -⟩ := readPositions_nil ext (fun i j => readBack (lattice i j))
        positions.length
      rw [hr1]
      change Except.error _ = _
      rw [hr2]
  · rw [readPositions_line _ _ (by decide)]
    rcases readVectors_shortened positions hvalid.2.2 ht hpos with
      ⟨r, hr1, hr2⟩ | ⟨r, q, hr, hshort, hl⟩
    · left
      rw [hr2]
      change Except.error _ = _
      rw [hr1]
    · right
      rw [hr]
      refine ⟨_, rfl, rfl, fun i j => rounded_readBack _, hshort, ?_⟩
      simp only [List.length_append] at hl ⊢
      omega

/-- C157: whenever the process stops while `poscar.write_structure` runs, and after it has ended,
the target file is as before the call, or reading it fails with `InvalidFileException`, or reading
it gives the new structure with at most the very last coordinate shortened. -/
theorem C157_crash (printable : Char → Bool) (ext : NumMat → Py NumMat)
    (deny : Path → Option PyErr) (fs : FS) (lattice : Fin 3 → Fin 3 → Option K) (numbers : List ℕ)
    (positions : List (Fin 3 → Option K)) (path : Path) (overwrite : Bool) (label : List Char)
    (run : WriteRun)
    (hrun : run = poscarWriteStructure printable deny fs lattice numbers positions path overwrite
      label) :
    ∀ st ∈ run.after :: run.during, st path = fs path ∨
      ∃ text, readFile st path = .ok text ∧ (readStructure ext text = .error .invalidFile ∨
        ∃ s, readStructure ext text = .ok s ∧ s.atomicNumbers = numbers ∧
          (∀ i, Spec.RoundedVec (lattice i) (s.lattice i)) ∧
          Spec.LastShortened positions s.positions) := by
  intro st hst
  refine ((C66_poscar printable deny fs lattice numbers positions path overwrite label run
    hrun).1 st hst).2.imp_right ?_
  rintro ⟨content, text, hc, ht, hfile⟩
  refine ⟨text, by unfold readFile; rw [hfile], ?_⟩
  refine (C157_prefix printable ext lattice numbers positions label content hc text ht).imp_right ?_
  rintro ⟨s, h1, h2, h3, h4, -⟩
  exact ⟨s, h1, h2, h3, h4⟩

/-- C157: the same for `generic.write_structure`. -/
theorem C157_crash_generic (printable : Char → Bool) (ext : NumMat → Py NumMat)
    (deny : Path → Option PyErr) (fs : FS) (lattice : Fin 3 → Fin 3 → Option K) (numbers : List ℕ)
    (positions : List (Fin 3 → Option K)) (path : Path) (fmt : Word) (overwrite : Bool)
    (run : WriteRun)
    (hrun : run = genericWriteStructure printable deny fs lattice numbers positions path fmt
      overwrite) :
    ∀ st ∈ run.after :: run.during, st path = fs path ∨
      ∃ text, readFile st path = .ok text ∧ (readStructure ext text = .error .invalidFile ∨
        ∃ s, readStructure ext text = .ok s ∧ s.atomicNumbers = numbers ∧
          (∀ i, Spec.RoundedVec (lattice i) (s.lattice i)) ∧
          Spec.LastShortened positions s.positions) := by
  subst hrun
  unfold genericWriteStructure
  have hcatch : ∀ r : WriteRun, r.catchKeyError.after = r.after ∧
      r.catchKeyError.during = r.during := by
    intro r
    unfold WriteRun.catchKeyError
    split <;> exact ⟨rfl, rfl⟩
  rw [(hcatch _).1, (hcatch _).2]
  split_ifs with hfmt
  · exact C157_crash printable ext deny fs lattice numbers positions path overwrite _ _ rfl
  · intro st hst
    rw [show st = fs by simpa [WriteRun.fail] using hst]
    exact Or.inl rfl

/-- C157: the exception is real, for every structure whose last coordinate is defined: without its
last 18 characters the file is read without complaint, and the last coordinate is replaced by its
integer part. -/
theorem C157_silent (printable : Char → Bool) (ext : NumMat → Py NumMat)
    (lattice : Fin 3 → Fin 3 → Option K) (numbers : List ℕ)
    (w : List (Fin 3 → Option K)) (p : Fin 3 → Option K) (x : K) (hx : p 2 = some x)
    (label content : List Char)
    (h : poscarContent printable lattice numbers (w ++ [p]) label = .ok content) :
    ∃ s r q z, readStructure ext (content.take (content.length - 18)) = .ok s ∧
      s.positions = r ++ [q] ∧ List.Forall₂ Spec.RoundedVec w r ∧ Spec.RoundedTo x z ∧
      q 2 = some ((⌊z⌋ : ℤ) : ℚ) := by
  have hcr : '\r' ∉ content.take (content.length - 18) :=
    fun hm => poscar_nocr h ((List.take_prefix _ _).subset hm)
  obtain ⟨hvalid, str, hs, hc⟩ := poscarContent_ok h
  obtain ⟨h0, h1⟩ := hvalid.2.2 p (by simp) 2 x hx
  obtain ⟨c, t, hct, hlen, hparse⟩ := fixed16_head h0 h1
  obtain ⟨k, hk⟩ := fmt916_eq (p 2)
  have hword : fmtWord (p 2) = c :: t := by rw [hx]; exact hct
  have hbody : getPositionsStr (w ++ [p]) = getPositionsStr w ++
      ((((List.replicate 2 ' ' ++ fmt916 (p 0) ++ "   ".toList) ++ fmt916 (p 1) ++ "   ".toList) ++
        (List.replicate k ' ' ++ [c])) ++ (t ++ ['\n'])) := by
    unfold getPositionsStr
    rw [List.flatMap_append, List.flatMap_singleton, blanks2, vectorLine_eq]
    unfold vectorBody
    rw [hk, hword]
    simp only [List.append_assoc, List.cons_append, List.nil_append]
  generalize hline : ((List.replicate 2 ' ' ++ fmt916 (p 0) ++ "   ".toList) ++ fmt916 (p 1) ++
    "   ".toList) ++ (List.replicate k ' ' ++ [c]) = line at hbody
  have htake : content.take (content.length - 18) =
      (headerStr printable label ++ getLatticeStr lattice) ++ (str ++
        (('D' :: "irect".toList ++ ['\n']) ++ (getPositionsStr w ++ line))) := by
    have hsplit : content = ((headerStr printable label ++ getLatticeStr lattice) ++ (str ++
        (('D' :: "irect".toList ++ ['\n']) ++ (getPositionsStr w ++ line)))) ++ (t ++ ['\n']) := by
      rw [hc, hbody]
      simp only [List.append_assoc]
    generalize ((headerStr printable label ++ getLatticeStr lattice) ++ (str ++
        (('D' :: "irect".toList ++ ['\n']) ++ (getPositionsStr w ++ line)))) = a at hsplit
    have h18 : (t ++ ['\n']).length = 18 := by simp [hlen]
    rw [hsplit, List.length_append, h18, Nat.add_sub_cancel, List.take_left]
  rw [htake] at hcr ⊢
  have hL := readLattice_written printable label lattice (str ++
        (('D' :: "irect".toList ++ ['\n']) ++ (getPositionsStr w ++ line)))
  rw [← List.append_assoc] at hL
  obtain ⟨S, hS1, hS2⟩ := C62_decode numbers str
    (('D' :: "irect".toList ++ ['\n']) ++ (getPositionsStr w ++ line)) hs
  have hS3 : S.mapM numberOf = .ok numbers := by
    rw [mapM_except_ok]
    exact hS2.imp fun a b hab => numberOf_eq_ok.2 hab
  have hSl : S.length = w.length + 1 := by
    rw [hS2.length_eq, ← hvalid.2.1]
    simp
  have hvec : readVec line = some ![readBack (p 0), readBack (p 1), some ((⌊round16 x⌋ : ℤ) : ℚ)] := by
    rw [← hline, readVec_third 2 p (by rw [hword]; exact ⟨t, rfl⟩) k, hparse]
    rfl
  have hnl : '\n' ∉ line := by
    intro hm
    have hpre : line <+: vectorBody (List.replicate 2 ' ') p := by
      refine ⟨t, ?_⟩
      rw [← hline]
      unfold vectorBody
      rw [hk, hword]
      simp only [List.append_assoc, List.cons_append, List.nil_append]
    exact newline_vectorBody 2 p (hpre.subset hm)
  rw [readStructure_of hcr hL hS1 hS3, hSl, readPositions_line _ _ (by decide),
    readVectors_then w hnl hvec]
  refine ⟨_, _, _, round16 x, rfl, rfl, ?_, rounded_readBack (some x), rfl⟩
  rw [List.forall₂_map_right_iff]
  exact List.forall₂_same.2 fun v _ i => rounded_readBack _

/-- C157, concrete: one carbon atom, last coordinate 3/4.  The file can be written; without its last
18 characters it is read with last coordinate 0. -/
example : ∃ content s r q, poscarContent (K := ℚ) (fun _ => true) (fun i j => some (if i = j then 1 else 0))
      [6] [fun _ => some (3 / 4)] [] = .ok content ∧
    readStructure (fun _ => .error .linAlgError) (content.take (content.length - 18)) = .ok s ∧
    s.positions = r ++ [q] ∧ q 2 = some 0 := by
  obtain ⟨content, hc⟩ := (C60_writable (K := ℚ) (fun _ => true)
    (fun i j => some (if i = j then 1 else 0)) [6] [fun _ => some (3 / 4)] []).2 ⟨⟨by simp, rfl, by
      intro p hp i x hx
      rw [List.mem_singleton] at hp
      subst hp
      rw [← Option.some.inj hx]
      norm_num⟩, by
      intro x y h
      have := h.length_le
      simp at this, by simp⟩
  obtain ⟨s, r, q, z, h1, h2, -, ⟨m, rfl, hm, -⟩, h4⟩ := C157_silent (fun _ => true)
    (fun _ => .error .linAlgError) _ [6] [] (fun _ => some (3 / 4)) (3 / 4) rfl [] content hc
  refine ⟨content, s, r, q, hc, h1, h2, h4.trans ?_⟩
  have hm' : |(3 / 4 : ℚ) * 10 ^ 16 - m| ≤ 1 / 2 := by linarith
  have h5 := abs_le.1 hm'
  have h6 : ⌊(m : ℚ) / 10 ^ 16⌋ = 0 := by
    rw [Int.floor_eq_zero_iff]
    constructor
    · apply div_nonneg _ (by positivity)
      linarith [h5.2]
    · rw [div_lt_one (by positivity)]
      linarith [h5.1]
  rw [h6]
  rfl

/-- C157, concrete: an empty file (the process stopped right after opening it) is rejected. -/
example (ext : NumMat → Py NumMat) : readStructure ext [] = .error .invalidFile := rfl

end

end Verif
