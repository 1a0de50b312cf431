import Verif.Model.Poscar
import Verif.Proofs.Text
import Verif.Props.Constants
import Verif.Proofs.EquivAtoms
import Mathlib.Data.List.TakeWhile

/-!
# Helper lemmas about the POSCAR/XDATCAR model
-/

namespace Verif

section
variable {K : Type} [Field K] [LinearOrder K] [IsStrictOrderedRing K] [FloorRing K]

/-! ## Lines with three numbers -/

theorem splitAux_fmt (x : Option K) {c : Char} (hc : isSpace c = true) (rest : List Char) :
    splitAux [] (fmt916 x ++ c :: rest) = fmtWord x :: splitAux [] rest := by
  obtain ⟨n, hn⟩ := fmt916_eq x
  rw [hn, List.append_assoc, splitAux_blanks, splitAux_word (noSpace_fmtWord x),
    List.nil_append, splitAux_space hc (fmtWord_ne_nil x)]

theorem newline_fmt (x : Option K) : '\n' ∉ fmt916 x := by
  obtain ⟨n, hn⟩ := fmt916_eq x
  rw [hn, List.mem_append]
  rintro (h | h)
  · exact absurd (List.eq_of_mem_replicate h) (by decide)
  · exact noSpace_newline (noSpace_fmtWord x) h

theorem cr_fmt (x : Option K) : '\r' ∉ fmt916 x := by
  obtain ⟨n, hn⟩ := fmt916_eq x
  rw [hn, List.mem_append]
  rintro (h | h)
  · exact absurd (List.eq_of_mem_replicate h) (by decide)
  · exact absurd (noSpace_fmtWord x _ h) (by decide)

/-- A vector line without its newline. -/
def vectorBody (indent : List Char) (v : Fin 3 → Option K) : List Char :=
  indent ++ fmt916 (v 0) ++ "   ".toList ++ fmt916 (v 1) ++ "   ".toList ++ fmt916 (v 2)

theorem vectorLine_eq (indent : List Char) (v : Fin 3 → Option K) :
    vectorLine indent v = vectorBody indent v ++ ['\n'] := rfl

theorem newline_vectorBody (n : ℕ) (v : Fin 3 → Option K) :
    '\n' ∉ vectorBody (List.replicate n ' ') v := by
  unfold vectorBody
  simp [newline_fmt, List.mem_replicate]

theorem cr_vectorBody (n : ℕ) (v : Fin 3 → Option K) :
    '\r' ∉ vectorBody (List.replicate n ' ') v := by
  unfold vectorBody
  simp [cr_fmt, List.mem_replicate]

theorem readline_vectorLine (n : ℕ) (v : Fin 3 → Option K) (rest : List Char) :
    readline (vectorLine (List.replicate n ' ') v ++ rest) =
      (vectorLine (List.replicate n ' ') v, rest) := by
  rw [vectorLine_eq, List.append_assoc, List.singleton_append,
    readline_line (newline_vectorBody n v)]

theorem splitWs_vectorLine (n : ℕ) (v : Fin 3 → Option K) :
    splitWs (vectorLine (List.replicate n ' ') v) =
      [fmtWord (v 0), fmtWord (v 1), fmtWord (v 2)] := by
  have h3 : "   ".toList = [' ', ' ', ' '] := by decide
  unfold splitWs vectorLine
  rw [h3]
  simp only [List.append_assoc]
  rw [splitAux_blanks, List.cons_append, splitAux_fmt _ (by decide)]
  simp only [List.cons_append, List.nil_append]
  rw [splitAux_skip (by decide), splitAux_skip (by decide), splitAux_fmt _ (by decide),
    splitAux_skip (by decide), splitAux_skip (by decide), splitAux_fmt _ (by decide)]
  rfl

theorem readVec_vectorLine (n : ℕ) (v : Fin 3 → Option K) :
    readVec (vectorLine (List.replicate n ' ') v) = some fun i => readBack (v i) := by
  unfold readVec readRow
  rw [splitWs_vectorLine]
  simp only [List.take_succ_cons, List.take_zero, parseFloats, List.mapM_cons, List.mapM_nil,
    parseFloat_fmtWord]
  change toVec [_, _, _] = _
  rw [toVec]
  congr 1
  funext i
  fin_cases i <;> rfl

/-! ## Label -/

omit [IsStrictOrderedRing K] in
theorem hexDigit_newline {d : ℕ} (h : d < 16) : hexDigit d ≠ '\n' ∧ hexDigit d ≠ '\r' := by
  interval_cases d <;> decide

theorem hexDigits_newline (k n : ℕ) : '\n' ∉ hexDigits k n ∧ '\r' ∉ hexDigits k n := by
  induction k generalizing n with
  | zero => simp [hexDigits]
  | succ k ih =>
    have h := hexDigit_newline (Nat.mod_lt n (by norm_num : 0 < 16))
    have := ih (n / 16)
    simp [hexDigits, this.1, this.2, Ne.symm h.1, Ne.symm h.2]

theorem reprChar_newline (printable : Char → Bool) (quote c : Char)
    (hq : quote ≠ '\n' ∧ quote ≠ '\r') :
    '\n' ∉ reprChar printable quote c ∧ '\r' ∉ reprChar printable quote c := by
  have h2 := hexDigits_newline 2 c.toNat
  have h4 := hexDigits_newline 4 c.toNat
  have h8 := hexDigits_newline 8 c.toNat
  unfold reprChar
  split_ifs with a b d e f g h i j
  · rcases a with rfl | rfl
    · simp [Ne.symm hq.1, Ne.symm hq.2]
    · decide
  · decide
  · decide
  · decide
  · simp [h2.1, h2.2]
  · simp [Ne.symm d, Ne.symm e]
  · simp [Ne.symm d, Ne.symm e]
  · simp [h2.1, h2.2]
  · simp [h4.1, h4.2]
  · simp [h8.1, h8.2]

theorem innerSlice_repr (printable : Char → Bool) (s : List Char) :
    ∃ quote : Char, (quote ≠ '\n' ∧ quote ≠ '\r') ∧
      innerSlice (pyRepr printable s) = s.flatMap (reprChar printable quote) := by
  unfold pyRepr innerSlice
  dsimp only
  refine ⟨if '\'' ∈ s ∧ ¬ '"' ∈ s then '"' else '\'', ?_, ?_⟩
  · split_ifs <;> decide
  · simp

theorem label_newline (printable : Char → Bool) (s : List Char) :
    '\n' ∉ innerSlice (pyRepr printable s) ∧ '\r' ∉ innerSlice (pyRepr printable s) := by
  obtain ⟨q, hq, h⟩ := innerSlice_repr printable s
  rw [h]
  constructor
  · intro hm
    obtain ⟨c, -, hc⟩ := List.mem_flatMap.1 hm
    exact (reprChar_newline printable q c hq).1 hc
  · intro hm
    obtain ⟨c, -, hc⟩ := List.mem_flatMap.1 hm
    exact (reprChar_newline printable q c hq).2 hc

/-! ## Header and lattice -/

theorem parse_scale : parseFloat ("   1.00000000000000".toList ++ ['\n']) = some (some 1) := by
  have hs : strip ("   1.00000000000000".toList ++ ['\n']) =
      [1].map digitChar ++ '.' :: (List.replicate 14 0).map digitChar := by decide
  unfold parseFloat
  rw [hs]
  have hu := unsignedFloat_fixed [1] (List.replicate 14 0) (by simp) (by simp) (by simp) (by simp)
  have h1 : signPart ([1].map digitChar ++ '.' :: (List.replicate 14 0).map digitChar) =
      (false, [1].map digitChar ++ '.' :: (List.replicate 14 0).map digitChar) := rfl
  rw [h1]
  dsimp only
  have h2 : nonFinite ([1].map digitChar ++ '.' :: (List.replicate 14 0).map digitChar) = false := by
    decide
  rw [h2, hu]
  norm_num [digitsVal, List.replicate]

theorem readline_header (printable : Char → Bool) (label rest : List Char) :
    readline (headerStr printable label ++ rest) =
      (innerSlice (pyRepr printable label) ++ ['\n'],
        ("   1.00000000000000".toList ++ ['\n']) ++ rest) := by
  unfold headerStr
  rw [List.append_assoc, List.append_assoc, List.singleton_append,
    readline_line (label_newline printable label).1]

theorem blanks5 : "     ".toList = List.replicate 5 ' ' := by decide

theorem blanks2 : "  ".toList = List.replicate 2 ' ' := by decide

theorem latticeRow_line (n : ℕ) (v : Fin 3 → Option K) (rest : List Char) :
    latticeRow (vectorLine (List.replicate n ' ') v ++ rest) =
      .ok (fun i => readBack (v i), rest) := by
  unfold latticeRow
  rw [readline_vectorLine]
  dsimp only
  rw [readVec_vectorLine]

theorem numMul_one (x : Num) : numMul x (some 1) = x := by
  cases x <;> simp [numMul]

theorem readLattice_written (printable : Char → Bool) (label : List Char)
    (lattice : Fin 3 → Fin 3 → Option K) (rest : List Char) :
    readLattice (headerStr printable label ++ (getLatticeStr lattice ++ rest)) =
      .ok (fun i j => readBack (lattice i j), rest) := by
  unfold readLattice getLatticeStr
  rw [readline_header]
  have hl : readline (("   1.00000000000000".toList ++ ['\n']) ++
      ((vectorLine "     ".toList (lattice 0) ++ vectorLine "     ".toList (lattice 1) ++
    vectorLine "     ".toList (lattice 2)) ++ rest)) = (("   1.00000000000000".toList ++ ['\n']),
      ((vectorLine "     ".toList (lattice 0) ++ vectorLine "     ".toList (lattice 1) ++
    vectorLine "     ".toList (lattice 2)) ++ rest)) := by
    rw [List.append_assoc, List.singleton_append, readline_line (by decide)]
  dsimp only
  rw [hl]
  dsimp only
  rw [parse_scale, blanks5]
  dsimp only
  rw [List.append_assoc, List.append_assoc, latticeRow_line]
  change (latticeRow _ >>= _) = _
  rw [latticeRow_line]
  change (latticeRow _ >>= _) = _
  rw [latticeRow_line]
  change Except.ok _ = Except.ok _
  congr 2
  funext i j
  rw [numMul_one]
  fin_cases i <;> rfl

/-! ## Position rows -/

theorem readVectors_written (ps : List (Fin 3 → Option K)) (rest : List Char) :
    readVectors ps.length (getPositionsStr ps ++ rest) =
      .ok (ps.map fun p i => readBack (p i), rest) := by
  unfold getPositionsStr
  rw [blanks2]
  induction ps with
  | nil => rfl
  | cons p ps ih =>
    rw [List.flatMap_cons, List.append_assoc, List.length_cons, readVectors, readline_vectorLine]
    dsimp only
    rw [readVec_vectorLine]
    dsimp only
    rw [ih]
    rfl

theorem readPositions_direct (ext : NumMat → Py NumMat) (lattice : NumMat) (l : List Char)
    (hl : '\n' ∉ l) (ps : List (Fin 3 → Option K)) (rest : List Char) :
    readPositions ext ('D' :: l ++ '\n' :: (getPositionsStr ps ++ rest)) lattice ps.length =
      .ok (ps.map fun p i => readBack (p i), rest) := by
  unfold readPositions
  rw [readline_line (by simp [hl])]
  dsimp only [List.cons_append, List.head?_cons]
  have hstrip : strip ('D' :: (l ++ ['\n'])) ≠ [] := by
    unfold strip
    rw [List.dropWhile_cons, if_neg (by decide)]
    intro h
    rw [List.reverse_eq_nil_iff, List.dropWhile_eq_nil_iff] at h
    have := h 'D' (by simp)
    revert this; decide
  rw [if_neg (by rintro (h | h); exacts [hstrip h, absurd h (by decide)]), if_neg (by decide)]
  unfold readFormat
  dsimp only [List.cons_append, List.head?_cons]
  rw [if_neg (by decide), if_neg (by decide)]
  unfold readCoordinates
  rw [readVectors_written]
  rfl

end

/-! ## Element lines -/

theorem splitAux_join (k : ℕ) (ws : List Word) (h : ∀ w ∈ ws, NoSpace w ∧ w ≠ []) :
    splitAux [] (joinWords (List.replicate (k + 1) ' ') ws ++ ['\n']) = ws := by
  induction ws with
  | nil => rfl
  | cons w ws ih =>
    have hw := h w (by simp)
    cases ws with
    | nil =>
      rw [joinWords, splitAux_word hw.1, List.nil_append, splitAux_space (by decide) hw.2]
      rfl
    | cons w' ws =>
      rw [joinWords, List.append_assoc, List.append_assoc, splitAux_word hw.1, List.nil_append,
        List.replicate_succ, List.cons_append, splitAux_space (by decide) hw.2, splitAux_blanks,
        ← List.replicate_succ, ih fun x hx => h x (by simp [hx])]

theorem newline_join {sep : List Char} (hs : '\n' ∉ sep) (ws : List Word)
    (h : ∀ w ∈ ws, '\n' ∉ w) : '\n' ∉ joinWords sep ws := by
  induction ws with
  | nil => simp [joinWords]
  | cons w ws ih =>
    cases ws with
    | nil => simpa [joinWords] using h w (by simp)
    | cons w' ws =>
      rw [joinWords]
      have := ih fun x hx => h x (by simp [hx])
      have hw := h w (by simp)
      simp [hw, hs, this]

theorem cr_join {sep : List Char} (hs : '\r' ∉ sep) (ws : List Word)
    (h : ∀ w ∈ ws, '\r' ∉ w) : '\r' ∉ joinWords sep ws := by
  induction ws with
  | nil => simp [joinWords]
  | cons w ws ih =>
    cases ws with
    | nil => simpa [joinWords] using h w (by simp)
    | cons w' ws =>
      rw [joinWords]
      have := ih fun x hx => h x (by simp [hx])
      have hw := h w (by simp)
      simp [hw, hs, this]

set_option maxRecDepth 20000 in
theorem symbols_words : ∀ x ∈ atomicNumbers, (x.1.all fun c => !isSpace c) = true ∧ x.1 ≠ [] := by
  decide

theorem symbol_noSpace {n : ℕ} {s : Word} (h : dictGet atomSymbols n = some s) :
    NoSpace s ∧ s ≠ [] := by
  rw [← C90_tables_inverse, dictGet_eq_some_iff _ symbols_nodup] at h
  have := symbols_words _ h
  refine ⟨fun c hc => ?_, this.2⟩
  simpa using List.all_eq_true.1 this.1 c hc

/-- Loop of `_get_symbols_str`: what success means. -/
theorem symbolsLoop_ok {unique : List ℕ} {current : ℕ} {l us : List ℕ}
    (h : symbolsLoop unique current l = .ok us) (hc : current ∉ unique) :
    ∃ vs, us = unique ++ current :: vs ∧ (∀ u ∈ unique, u ∉ current :: l) ∧
      (current :: vs).Nodup ∧ (∀ u ∈ vs, u ∈ l) ∧
      current :: l = (current :: vs).flatMap
        (fun u => List.replicate ((current :: l).count u) u) ∧
      ∀ x y, List.Sublist [x, y, x] (current :: l) → y = x := by
  induction l generalizing unique current with
  | nil =>
    refine ⟨[], ?_, ?_, by simp, by simp, by simp, ?_⟩
    · rw [symbolsLoop] at h
      exact (Except.ok.inj h).symm
    · intro u hu hm
      rw [List.mem_singleton] at hm
      exact hc (hm ▸ hu)
    · intro x y hs
      have := hs.length_le
      simp at this
  | cons n l ih =>
    rw [symbolsLoop] at h
    by_cases hn : n = current
    · subst hn
      rw [if_neg (by simp), if_neg (by simp)] at h
      obtain ⟨vs, h1, h2, h3, h6, h4, h5⟩ := ih h hc
      refine ⟨vs, h1, ?_, h3, fun u hu => List.mem_cons_of_mem _ (h6 u hu), ?_, ?_⟩
      · intro u hu hm
        rcases List.mem_cons.1 hm with rfl | hm
        · exact hc hu
        · exact h2 u hu hm
      · rw [List.nodup_cons] at h3
        rw [List.flatMap_cons, List.count_cons_self, List.replicate_succ, List.cons_append]
        congr 1
        have : vs.flatMap (fun u => List.replicate ((n :: n :: l).count u) u) =
            vs.flatMap (fun u => List.replicate ((n :: l).count u) u) := by
          apply List.flatMap_congr
          intro u hu
          rw [List.count_cons_of_ne (a := u) (b := n) (by rintro rfl; exact h3.1 hu)]
        rw [this]
        rw [List.flatMap_cons] at h4
        exact h4
      · intro x y hs
        by_cases hx : x = n
        · subst hx
          rw [List.cons_sublist_cons] at hs
          by_cases hy : y = x
          · exact hy
          · have := hs.of_cons_of_ne hy
            exact h5 x y (List.Sublist.cons₂ x this)
        · exact h5 x y (hs.of_cons_of_ne hx)
    · by_cases hu : n ∈ unique
      · rw [if_pos ⟨hn, hu⟩] at h
        cases h
      · rw [if_neg (fun hh => hu hh.2), if_pos hn] at h
        have hnu : n ∉ unique ++ [current] := by
          simp [hu, hn]
        obtain ⟨vs, h1, h2, h3, h6, h4, h5⟩ := ih h hnu
        have hcur : current ∉ n :: l := h2 current (by simp)
        have hmem : ∀ u ∈ n :: vs, u ∈ n :: l := by
          intro u hu'
          rcases List.mem_cons.1 hu' with rfl | hu'
          · simp
          · exact List.mem_cons_of_mem _ (h6 u hu')
        refine ⟨n :: vs, by rw [h1]; simp, ?_, ?_, hmem, ?_, ?_⟩
        · intro u hu' hm
          rcases List.mem_cons.1 hm with rfl | hm
          · exact hc hu'
          · exact h2 u (by simp [hu']) hm
        · rw [List.nodup_cons]
          exact ⟨fun hm => hcur (hmem _ hm), h3⟩
        · rw [List.flatMap_cons, List.count_cons_self, List.count_eq_zero_of_not_mem hcur]
          simp only [Nat.zero_add, List.replicate_one, List.singleton_append]
          congr 1
          have : (n :: vs).flatMap (fun u => List.replicate ((current :: n :: l).count u) u) =
            (n :: vs).flatMap (fun u => List.replicate ((n :: l).count u) u) := by
            apply List.flatMap_congr
            intro u hu'
            rw [List.count_cons_of_ne]
            rintro rfl
            exact hcur (hmem _ hu')
          rw [this]
          exact h4
        · intro x y hs
          by_cases hx : x = current
          · subst hx
            exfalso
            rw [List.cons_sublist_cons] at hs
            exact hcur (hs.subset (by simp))
          · exact h5 x y (hs.of_cons_of_ne hx)

/-- Loop of `_get_symbols_str`: what failure means. -/
theorem symbolsLoop_error {unique : List ℕ} {current : ℕ} {l : List ℕ} {e : PyErr}
    (h : symbolsLoop unique current l = .error e) :
    e = .valueError ∧ ∃ x y, y ≠ x ∧ List.Sublist [x, y, x] (unique ++ current :: l) := by
  induction l generalizing unique current with
  | nil => rw [symbolsLoop] at h; cases h
  | cons n l ih =>
    rw [symbolsLoop] at h
    by_cases hn : n = current
    · subst hn
      rw [if_neg (by simp), if_neg (by simp)] at h
      obtain ⟨he, x, y, hxy, hs⟩ := ih h
      refine ⟨he, x, y, hxy, hs.trans ?_⟩
      exact List.Sublist.append (List.Sublist.refl _)
        (List.Sublist.cons _ (List.Sublist.refl _))
    · by_cases hu : n ∈ unique
      · rw [if_pos ⟨hn, hu⟩] at h
        refine ⟨(Except.error.inj h).symm, n, current, fun hh => hn hh.symm, ?_⟩
        have h1 : List.Sublist [n] unique := List.singleton_sublist.2 hu
        have h2 : List.Sublist [current, n] (current :: n :: l) := by simp
        exact List.Sublist.append h1 h2
      · rw [if_neg (fun hh => hu hh.2), if_pos hn] at h
        obtain ⟨he, x, y, hxy, hs⟩ := ih h
        exact ⟨he, x, y, hxy, by simpa using hs⟩

theorem mapM_atomSymbol {us : List ℕ} (h : ∀ u ∈ us, (dictGet atomSymbols u).isSome) :
    ∃ syms, us.mapM atomSymbol = .ok syms := by
  induction us with
  | nil => exact ⟨[], rfl⟩
  | cons u us ih =>
    obtain ⟨syms, hs⟩ := ih fun x hx => h x (by simp [hx])
    obtain ⟨s, hs'⟩ := Option.isSome_iff_exists.1 (h u (by simp))
    refine ⟨s :: syms, ?_⟩
    rw [List.mapM_cons]
    unfold atomSymbol
    rw [hs']
    change (us.mapM atomSymbol >>= _) = _
    rw [hs]
    rfl

theorem atomSymbol_eq_ok {n : ℕ} {s : Word} : atomSymbol n = .ok s ↔ dictGet atomSymbols n = some s := by
  unfold atomSymbol
  cases dictGet atomSymbols n <;> simp

theorem numberOf_eq_ok {n : ℕ} {s : Word} : numberOf s = .ok n ↔ dictGet atomicNumbers s = some n := by
  unfold numberOf
  cases dictGet atomicNumbers s <;> simp

/-- Everything `_get_symbols_str` returns on success. -/
theorem getSymbolsStr_ok {nums : List ℕ} {str : List Char} (h : getSymbolsStr nums = .ok str) :
    ∃ us syms, us ≠ [] ∧ List.Forall₂ (fun u s => dictGet atomSymbols u = some s) us syms ∧
      nums = us.flatMap (fun u => List.replicate (nums.count u) u) ∧
      (∀ x y, List.Sublist [x, y, x] nums → y = x) ∧
      str = ("   ".toList ++ joinWords "  ".toList syms ++ ['\n']) ++
      ("   ".toList ++ joinWords "   ".toList ((us.map fun n => nums.count n).map natStr) ++
        ['\n']) := by
  cases nums with
  | nil => cases h
  | cons first rest =>
    unfold getSymbolsStr at h
    dsimp only at h
    rw [symbolsLoop, if_neg (by simp), if_neg (by simp)] at h
    cases hl : symbolsLoop [] first rest with
    | error e => rw [hl] at h; cases h
    | ok us =>
      rw [hl] at h
      obtain ⟨vs, h1, -, -, -, h4, h5⟩ := symbolsLoop_ok hl (by simp)
      rw [List.nil_append] at h1
      change (us.mapM atomSymbol >>= _) = _ at h
      cases hm : us.mapM atomSymbol with
      | error e => rw [hm] at h; cases h
      | ok syms =>
        rw [hm] at h
        refine ⟨us, syms, by rw [h1]; simp, ?_, by rw [h1]; exact h4, h5, ?_⟩
        · exact ((mapM_except_ok _ _ _).1 hm).imp fun a b hab => atomSymbol_eq_ok.1 hab
        · exact (Except.ok.inj h).symm

/-- Success of `_get_symbols_str`. -/
theorem getSymbolsStr_grouped {nums : List ℕ} (hne : nums ≠ [])
    (hv : ∀ n ∈ nums, (dictGet atomSymbols n).isSome)
    (hg : ∀ x y, List.Sublist [x, y, x] nums → y = x) : ∃ str, getSymbolsStr nums = .ok str := by
  cases nums with
  | nil => exact absurd rfl hne
  | cons first rest =>
    unfold getSymbolsStr
    dsimp only
    rw [symbolsLoop, if_neg (by simp), if_neg (by simp)]
    cases hl : symbolsLoop [] first rest with
    | error e =>
      obtain ⟨-, x, y, hxy, hs⟩ := symbolsLoop_error hl
      exact absurd (hg x y hs) hxy
    | ok us =>
      obtain ⟨vs, h1, -, -, h6, -, -⟩ := symbolsLoop_ok hl (by simp)
      have hus : ∀ u ∈ us, (dictGet atomSymbols u).isSome := by
        intro u hu
        apply hv
        rw [h1, List.nil_append] at hu
        rcases List.mem_cons.1 hu with rfl | hu
        · simp
        · exact List.mem_cons_of_mem _ (h6 u hu)
      obtain ⟨syms, hs⟩ := mapM_atomSymbol hus
      change ∃ str, (us.mapM atomSymbol >>= _) = .ok str
      rw [hs]
      exact ⟨_, rfl⟩

/-- Failure of `_get_symbols_str`. -/
theorem getSymbolsStr_not_grouped {nums : List ℕ}
    (hg : ¬ ∀ x y, List.Sublist [x, y, x] nums → y = x) :
    getSymbolsStr nums = .error .valueError := by
  cases nums with
  | nil =>
    exfalso
    apply hg
    intro x y h
    simp at h
  | cons first rest =>
    unfold getSymbolsStr
    dsimp only
    rw [symbolsLoop, if_neg (by simp), if_neg (by simp)]
    cases hl : symbolsLoop [] first rest with
    | error e =>
      rw [(symbolsLoop_error hl).1]
      rfl
    | ok us =>
      obtain ⟨vs, -, -, -, -, -, h5⟩ := symbolsLoop_ok hl (by simp)
      exact absurd h5 hg

theorem blanks3 : "   ".toList = List.replicate 3 ' ' := by decide

theorem splitWs_line (n k : ℕ) (ws : List Word) (h : ∀ w ∈ ws, NoSpace w ∧ w ≠ []) :
    splitWs (List.replicate n ' ' ++ joinWords (List.replicate (k + 1) ' ') ws ++ ['\n']) =
      ws := by
  unfold splitWs
  rw [List.append_assoc, splitAux_blanks, splitAux_join k ws h]

theorem newline_blanks (n : ℕ) : '\n' ∉ List.replicate n ' ' := by
  simp [List.mem_replicate]

theorem forall₂_mem_right {α β : Type} {R : α → β → Prop} {l : List α} {r : List β}
    (h : List.Forall₂ R l r) : ∀ b ∈ r, ∃ a ∈ l, R a b := by
  induction h with
  | nil => simp
  | cons hab _ ih =>
    intro b hb
    rcases List.mem_cons.1 hb with rfl | hb
    · exact ⟨_, by simp, hab⟩
    · obtain ⟨a, ha, hr⟩ := ih b hb
      exact ⟨a, by simp [ha], hr⟩

theorem mapM_parseInt (cs : List ℕ) :
    (cs.map natStr).mapM parseInt = some (cs.map fun c => (c : ℤ)) := by
  induction cs with
  | nil => rfl
  | cons c cs ih =>
    rw [List.map_cons, List.mapM_cons, parseInt_natStr, ih]
    rfl

theorem syms_words {us : List ℕ} {syms : List Word}
    (h : List.Forall₂ (fun u s => dictGet atomSymbols u = some s) us syms) :
    ∀ w ∈ syms, NoSpace w ∧ w ≠ [] := by
  intro w hw
  obtain ⟨u, -, hu⟩ := forall₂_mem_right h w hw
  exact symbol_noSpace hu

theorem counts_words (cs : List ℕ) : ∀ w ∈ cs.map natStr, NoSpace w ∧ w ≠ [] := by
  intro w hw
  obtain ⟨c, -, rfl⟩ := List.mem_map.1 hw
  exact ⟨noSpace_natStr c, natStr_ne_nil c⟩

/-- First element line without its newline. -/
def symBody (syms : List Word) : List Char := "   ".toList ++ joinWords "  ".toList syms

/-- Second element line without its newline. -/
def cntBody (cs : List ℕ) : List Char := "   ".toList ++ joinWords "   ".toList (cs.map natStr)

theorem symBody_newline {syms : List Word} (h : ∀ w ∈ syms, NoSpace w ∧ w ≠ []) :
    '\n' ∉ symBody syms := by
  unfold symBody
  rw [List.mem_append]
  rintro (h' | h')
  · revert h'; decide
  · exact newline_join (by decide) syms (fun w hw => noSpace_newline (h w hw).1) h'

theorem cntBody_newline (cs : List ℕ) : '\n' ∉ cntBody cs := by
  unfold cntBody
  rw [List.mem_append]
  rintro (h' | h')
  · revert h'; decide
  · exact newline_join (by decide) _ (fun w hw => noSpace_newline (counts_words cs w hw).1) h'

theorem splitWs_symBody {syms : List Word} (h : ∀ w ∈ syms, NoSpace w ∧ w ≠ []) :
    splitWs (symBody syms ++ ['\n']) = syms := by
  unfold symBody
  rw [blanks3, blanks2]
  exact splitWs_line 3 1 syms h

theorem splitWs_cntBody (cs : List ℕ) :
    splitWs (cntBody cs ++ ['\n']) = cs.map natStr := by
  unfold cntBody
  rw [blanks3]
  exact splitWs_line 3 2 _ (counts_words cs)

theorem syms_known {us : List ℕ} {syms : List Word}
    (h : List.Forall₂ (fun u s => dictGet atomSymbols u = some s) us syms) :
    syms.all knownSymbol = true := by
  rw [List.all_eq_true]
  intro w hw
  obtain ⟨u, -, hu⟩ := forall₂_mem_right h w hw
  unfold knownSymbol
  rw [← C90_tables_inverse] at hu
  simp [hu]

theorem readAtomicSymbols_written {us : List ℕ} {syms : List Word} (cs : List ℕ)
    (h : List.Forall₂ (fun u s => dictGet atomSymbols u = some s) us syms) (hne : us ≠ [])
    (hlen : cs.length = us.length) (rest : List Char) :
    readAtomicSymbols ((symBody syms ++ ['\n']) ++ ((cntBody cs ++ ['\n']) ++ rest)) =
      .ok (expandSymbols syms (cs.map fun c => (c : ℤ)), rest) := by
  unfold readAtomicSymbols
  have hsl : syms.length = us.length := h.length_eq.symm
  have hul : us.length ≠ 0 := by simpa using hne
  rw [List.append_assoc, List.singleton_append, readline_line (symBody_newline (syms_words h))]
  dsimp only
  rw [splitWs_symBody (syms_words h), if_neg (by omega), if_neg (by simp [syms_known h])]
  rw [List.append_assoc, List.singleton_append, readline_line (cntBody_newline cs)]
  dsimp only
  rw [splitWs_cntBody, if_neg (by simp; omega), mapM_parseInt]

theorem expand_numbers {us : List ℕ} {syms : List Word} (c : ℕ → ℕ)
    (h : List.Forall₂ (fun u s => dictGet atomSymbols u = some s) us syms) :
    (expandSymbols syms ((us.map c).map fun c => (c : ℤ))).mapM numberOf =
      .ok (us.flatMap fun u => List.replicate (c u) u) := by
  rw [mapM_except_ok]
  unfold expandSymbols
  induction h with
  | nil => exact List.Forall₂.nil
  | @cons u s us syms hus _ ih =>
    simp only [List.map_cons, List.flatMap_cons]
    refine List.rel_append ?_ ih
    rw [List.forall₂_iff_get]
    refine ⟨by simp, fun i h1 h2 => ?_⟩
    simp only [List.get_eq_getElem, List.getElem_replicate]
    rw [numberOf_eq_ok, C90_tables_inverse]
    exact hus

end Verif
