import Verif.Props.Crash
import Verif.Props.Xdatcar
import Verif.Model.XdatcarTrajectory

/-!
# Property C160: writing an XDATCAR interrupted by a crash
-/

namespace Verif

section
variable {K : Type} [Field K] [LinearOrder K] [IsStrictOrderedRing K] [FloorRing K]

theorem m_digits {ds : List ℕ} (h : ∀ d ∈ ds, d < 10) : 'm' ∉ ds.map digitChar := by
  intro hm
  obtain ⟨d, hd, he⟩ := List.mem_map.1 hm
  have := h d hd
  interval_cases d <;> revert he <;> decide

theorem m_fixed16 (x : K) : 'm' ∉ fixed16 x := by
  unfold fixed16
  dsimp only
  rw [natStr_eq, fixedDigits_eq]
  have h1 := m_digits (natDigs_lt ((roundEven (|x| * 10 ^ 16)).toNat / 10 ^ 16))
  have h2 := m_digits (fixedDigs_lt 16 ((roundEven (|x| * 10 ^ 16)).toNat % 10 ^ 16))
  intro hm
  rw [List.mem_append, List.mem_append, List.mem_cons] at hm
  rcases hm with (hm | hm) | hm | hm
  · split_ifs at hm
    · revert hm; decide
    · cases hm
  · exact h1 hm
  · revert hm; decide
  · exact h2 hm

theorem m_fmt (x : Option K) : 'm' ∉ fmt916 x := by
  obtain ⟨n, h⟩ := fmt916_eq x
  rw [h, List.mem_append, not_or]
  refine ⟨fun hm => absurd (List.eq_of_mem_replicate hm) (by decide), ?_⟩
  cases x with
  | none => change 'm' ∉ ['n', 'a', 'n']; decide
  | some x => exact m_fixed16 x

theorem m_vectorBody (n : ℕ) (v : Fin 3 → Option K) :
    'm' ∉ vectorBody (List.replicate n ' ') v := by
  unfold vectorBody
  simp [m_fmt, List.mem_replicate]

/-- The message about rows that cannot be parsed is not taken for the one that ends the file. -/
theorem other_message {line : List Char} (h : 'm' ∉ line) :
    contains missingMsg ("positions could not be parsed: ".toList ++ line) = false := by
  unfold contains
  rw [decide_eq_false_iff_not]
  intro hi
  have hm : 'm' ∈ missingMsg := by decide
  have := hi.subset hm
  rw [List.mem_append] at this
  rcases this with h1 | h1
  · revert h1; decide
  · exact h h1

theorem readVectors_empty (n : ℕ) : ∃ r : Raised, r.err = .invalidFile ∧
    contains missingMsg r.msg = false ∧ readVectors (n + 1) [] = .error r :=
  ⟨_, rfl, other_message (by simp [readline]), rfl⟩

/-- Rows of a truncated file, with the message. -/
theorem readVectors_crash (ps : List (Fin 3 → Option K))
    (hv : ∀ v ∈ ps, ∀ i y, v i = some y → 0 ≤ y ∧ y ≤ 1) {p : List Char}
    (hp : p <+: getPositionsStr ps) (hne : ps ≠ []) :
    (∃ r : Raised, r.err = .invalidFile ∧ contains missingMsg r.msg = false ∧
      readVectors ps.length p = .error r) ∨
    ∃ r, readVectors ps.length p = .ok (r, []) ∧ Spec.LastShortened ps r ∧
      (getPositionsStr ps).length ≤ p.length + 18 := by
  induction ps generalizing p with
  | nil => exact absurd rfl hne
  | cons v ps ih =>
    have hs : getPositionsStr (v :: ps) = (vectorBody (List.replicate 2 ' ') v ++ ['\n']) ++
        getPositionsStr ps := by
      unfold getPositionsStr
      rw [List.flatMap_cons, blanks2, vectorLine_eq]
    rw [hs] at hp
    rw [List.length_cons, readVectors]
    rcases readline_prefix (newline_vectorBody 2 v) hp with ⟨hp', hr⟩ | ⟨q, hq, hr, hpq⟩
    · rw [hr]
      dsimp only
      cases hw : readVec p with
      | none =>
        exact Or.inl ⟨_, rfl, other_message fun hm => m_vectorBody 2 v (hp'.subset hm), rfl⟩
      | some w =>
        dsimp only
        cases ps with
        | nil =>
          obtain ⟨h0, h1, h2, h3⟩ := readVec_shortened 2 v (hv v (by simp) 2) hp' hw
          refine Or.inr ⟨[w], rfl, ⟨[], v, [], w, rfl, rfl, .nil, ?_, ?_, h2⟩, ?_⟩
          · rw [h0]; exact rounded_readBack _
          · rw [h1]; exact rounded_readBack _
          · rw [hs]
            simp only [List.length_append, List.length_singleton]
            have : (getPositionsStr ([] : List (Fin 3 → Option K))).length = 0 := rfl
            omega
        | cons u ps =>
          obtain ⟨r, hr1, hr3, hr2⟩ := readVectors_empty ps.length
          refine Or.inl ⟨r, hr1, hr3, ?_⟩
          rw [List.length_cons, hr2]
          rfl
    · rw [hr, ← vectorLine_eq]
      dsimp only
      rw [readVec_vectorLine]
      dsimp only
      cases ps with
      | nil =>
        have hq0 : q = [] := List.prefix_nil.1 hq
        subst hq0
        refine Or.inr ⟨[fun i => readBack (v i)], rfl,
          ⟨[], v, [], _, rfl, rfl, .nil, rounded_readBack _, rounded_readBack _, ?_⟩, ?_⟩
        · exact shortened_readBack (hv v (by simp) 2)
        · rw [hs, hpq]
          have : (getPositionsStr ([] : List (Fin 3 → Option K))).length = 0 := rfl
          simp only [List.length_append, List.length_cons, List.length_nil]
          omega
      | cons u ps =>
        rcases ih (fun v' h' => hv v' (by simp [h'])) hq (by simp) with
          ⟨r, hr1, hr3, hr2⟩ | ⟨r, hok, ⟨w₁, p', r₁, q'', e1, e2, e3, e4⟩, hl⟩
        · exact Or.inl ⟨r, hr1, hr3, by rw [hr2]; rfl⟩
        · refine Or.inr ⟨(fun i => readBack (v i)) :: r, by rw [hok]; rfl,
            ⟨v :: w₁, p', (fun i => readBack (v i)) :: r₁, q'', by rw [e1]; rfl, by rw [e2]; rfl,
              .cons (fun i => rounded_readBack _) e3, e4⟩, ?_⟩
          rw [hs, hpq]
          simp only [List.length_append, List.length_cons, List.length_nil]
          omega

theorem lastShortened_exact {ps : List (Fin 3 → Option K)} (hne : ps ≠ [])
    (hv : ∀ v ∈ ps, ∀ i y, v i = some y → 0 ≤ y ∧ y ≤ 1) :
    Spec.LastShortened ps (ps.map fun p i => readBack (p i)) := by
  refine ⟨ps.dropLast, ps.getLast hne, ps.dropLast.map fun p i => readBack (p i),
    fun i => readBack (ps.getLast hne i), (List.dropLast_append_getLast hne).symm, ?_, ?_,
    rounded_readBack _, rounded_readBack _, shortened_readBack (hv _ (List.getLast_mem hne) 2)⟩
  · conv_lhs => rw [← List.dropLast_append_getLast hne]
    rw [List.map_append]
    rfl
  · rw [List.forall₂_map_right_iff, List.forall₂_same]
    exact fun x _ i => rounded_readBack (x i)

theorem rounded_rows (ps : List (Fin 3 → Option K)) :
    List.Forall₂ Spec.RoundedVec ps (ps.map fun p i => readBack (p i)) := by
  rw [List.forall₂_map_right_iff, List.forall₂_same]
  exact fun x _ i => rounded_readBack (x i)

/-- Configurations of a file left behind by a crash. -/
theorem readTsLoop_crash (ext : NumMat → Py NumMat) (lattice : NumMat) (n : ℕ) (hn : 0 < n)
    (w : List (List (Fin 3 → Option K))) (hw : ∀ ps ∈ w, ps.length = n)
    (hv : ∀ ps ∈ w, ∀ v ∈ ps, ∀ i y, v i = some y → 0 ≤ y ∧ y ≤ 1) (i : ℕ) {p : List Char}
    (hp : p <+: configsStr i w) (fuel : ℕ) (hf : p.length < fuel) :
    readTsLoop ext lattice n fuel p = .error .invalidFile ∨
    ∃ j r, j ≤ w.length ∧ readTsLoop ext lattice n fuel p = .ok r ∧
      Spec.FramesShortened (w.take j) r ∧ p <+: configsStr i (w.take j) ∧
      (configsStr i (w.take j)).length ≤ p.length + 18 := by
  have hnil : ∀ (w : List (List (Fin 3 → Option K))) (i fuel : ℕ), 0 < fuel →
      ∃ j r, j ≤ w.length ∧ readTsLoop ext lattice n fuel [] = .ok r ∧
      Spec.FramesShortened (w.take j) r ∧ [] <+: configsStr i (w.take j) ∧
      (configsStr i (w.take j)).length ≤ ([] : List Char).length + 18 := by
    intro w i fuel hf
    obtain ⟨fuel, rfl⟩ : ∃ k, fuel = k + 1 := ⟨fuel - 1, by omega⟩
    exact ⟨0, [], Nat.zero_le _, readTsLoop_nil ext lattice n fuel, Or.inl ⟨rfl, rfl⟩,
      List.nil_prefix, by simp [configsStr_nil]⟩
  induction w generalizing i p fuel with
  | nil =>
    rw [configsStr_nil, List.prefix_nil] at hp
    subst hp
    exact Or.inr (hnil [] i fuel (by omega))
  | cons ps w ih =>
    obtain ⟨l, hl, -, hc⟩ := configsStr_cons i ps w
    have hps : ps.length = n := hw ps (by simp)
    have hne : ps ≠ [] := by
      rintro rfl
      simp at hps
      omega
    have hvps := hv ps (by simp)
    by_cases hp0 : p = []
    · subst hp0
      exact Or.inr (hnil (ps :: w) i fuel (by omega))
    obtain ⟨fuel, rfl⟩ : ∃ k, fuel = k + 1 := ⟨fuel - 1, by omega⟩
    have hone : configsStr i ((ps :: w).take 1) = ('D' :: l ++ ['\n']) ++ getPositionsStr ps := by
      have h1 : configsStr i ((ps :: w).take 1) ++ configsStr (i + 1) w = configsStr i (ps :: w) := by
        simp only [List.take_succ_cons, List.take_zero, configsStr_succ, configsStr_nil,
          List.append_nil]
      rw [hc, ← List.append_assoc] at h1
      exact List.append_cancel_right h1
    have hjs : ∀ j, configsStr i ((ps :: w).take (j + 1)) =
        ('D' :: l ++ ['\n']) ++ (getPositionsStr ps ++ configsStr (i + 1) (w.take j)) := by
      intro j
      rw [← List.append_assoc, ← hone]
      simp only [List.take_succ_cons, List.take_zero, configsStr_succ, configsStr_nil,
        List.append_nil]
    rw [hc] at hp
    rw [readTsLoop]
    have hfail : ∀ r : Raised, r.err = .invalidFile → contains missingMsg r.msg = false →
        (if r.err = .invalidFile ∧ contains missingMsg r.msg = true then
          (.ok [] : Py (List (List NumVec))) else .error r.err) = .error .invalidFile := by
      intro r h1 h2
      rw [if_neg (fun h => by rw [h2] at h; exact absurd h.2 (by decide)), h1]
    rcases prefix_append hp with hp1 | ⟨q, rfl, hq⟩
    · left
      have hcut : p <+: ('D' :: l ++ ['\n']) ++
          (getPositionsStr ([] : List (Fin 3 → Option K)) ++ []) :=
        hp1.trans (List.prefix_append _ _)
      rcases readPositions_cut ext lattice hl [] hcut with ⟨t, ht, hread⟩ | h0
      · obtain ⟨k, hk⟩ := Nat.exists_eq_succ_of_ne_zero hn.ne'
        obtain ⟨r, hr1, hr3, hr2⟩ := readVectors_empty k
        rw [(hread _).1, List.prefix_nil.1 ht, hk, Nat.succ_eq_add_one, hr2]
        exact hfail r hr1 hr3
      · exact absurd h0 hp0
    · rw [readPositions_line ext lattice hl q n]
      rcases prefix_append hq with hq1 | ⟨t, rfl, ht⟩
      · rcases readVectors_crash ps hvps hq1 hne with ⟨r, hr1, hr3, hr2⟩ | ⟨r, hok, hls, hlen⟩
        · left
          rw [← hps, hr2]
          exact hfail r hr1 hr3
        · right
          rw [← hps, hok]
          obtain ⟨fuel', rfl⟩ : ∃ k, fuel = k + 1 :=
            ⟨fuel - 1, by simp only [List.length_append, List.length_cons] at hf; omega⟩
          refine ⟨1, [r], by simp, ?_, Or.inr ⟨[], ps, [], r, by simp, rfl, .nil, hls⟩, ?_, ?_⟩
          · change (readTsLoop ext lattice ps.length (fuel' + 1) [] >>= _) = _
            rw [readTsLoop_nil]
            rfl
          · rw [hone]
            exact (List.prefix_append_right_inj _).2 hq1
          · rw [hone, List.length_append, List.length_append (as := 'D' :: l ++ ['\n']) (bs := q)]
            omega
      · rw [← hps, readVectors_written]
        change (readTsLoop ext lattice ps.length fuel t >>= _) = _ ∨
          ∃ _ _, _ ∧ (readTsLoop ext lattice ps.length fuel t >>= _) = _ ∧ _
        rw [hps]
        rcases ih (fun x hx => hw x (by simp [hx])) (fun x hx => hv x (by simp [hx])) (i + 1) ht fuel
          (by simp only [List.length_append, List.length_cons] at hf; omega) with
          h | ⟨j, r, hj, h, hfs, hpre, hlen⟩
        · left
          rw [h]
          rfl
        · right
          rw [h]
          refine ⟨j + 1, (ps.map fun p i => readBack (p i)) :: r, by simpa using hj, rfl, ?_, ?_, ?_⟩
          · rw [List.take_succ_cons]
            rcases hfs with ⟨h1, rfl⟩ | ⟨w₁, c, r₁, d, e1, e2, e3, e4⟩
            · rw [h1]
              exact Or.inr ⟨[], ps, [], _, rfl, rfl, .nil, lastShortened_exact hne hvps⟩
            · exact Or.inr ⟨ps :: w₁, c, _ :: r₁, d, by rw [e1]; rfl, by rw [e2]; rfl,
                .cons (rounded_rows ps) e3, e4⟩
          · rw [hjs]
            exact (List.prefix_append_right_inj _).2 ((List.prefix_append_right_inj _).2 hpre)
          · rw [hjs]
            simp only [List.length_append] at hlen ⊢
            omega

/-- C160: an XDATCAR of which only a part has been written is rejected with `InvalidFileException`,
or it is read as the first `j` configurations, where only the very last coordinate may be shortened.
In the second case the part is, up to 18 characters, the complete file of these `j` configurations,
or no configuration was returned. -/
theorem C160_prefix (printable : Char → Bool) (ext : NumMat → Py NumMat)
    (lattice : Fin 3 → Fin 3 → Option K) (numbers : List ℕ) (n : ℕ)
    (positionsTs : List (Fin n → Fin 3 → Option K)) (label content : List Char)
    (h : xdatcarContent printable lattice numbers n positionsTs label = .ok content)
    (part : List Char) (hpart : part <+: content) :
    readPositionsTs ext part = .error .invalidFile ∨
    ∃ j r file, j ≤ positionsTs.length ∧ readPositionsTs ext part = .ok r ∧
      Spec.FramesShortened ((positionsTs.take j).map List.ofFn) r ∧
      xdatcarContent printable lattice numbers n (positionsTs.take j) label = .ok file ∧
      part <+: file ∧ (r ≠ [] → file.length ≤ part.length + 18) := by
  have hvalid := (C63_writable printable lattice numbers n positionsTs label).1 ⟨content, h⟩
  have hfile : ∀ j, ∃ file, xdatcarContent printable lattice numbers n (positionsTs.take j) label =
      .ok file := fun j =>
    (C63_writable printable lattice numbers n (positionsTs.take j) label).2 ⟨hvalid.1, hvalid.2.1,
      hvalid.2.2.1, hvalid.2.2.2.1, fun p hp => hvalid.2.2.2.2 p (List.mem_of_mem_take hp)⟩
  obtain ⟨hn, str, hs, rfl⟩ := xdatcarContent_ok h
  have hfile' : ∀ j, xdatcarContent printable lattice numbers n (positionsTs.take j) label =
      .ok ((headerStr printable label ++ getLatticeStr lattice) ++ (str ++
        configsStr 0 ((positionsTs.map List.ofFn).take j))) := by
    intro j
    obtain ⟨file, hf⟩ := hfile j
    obtain ⟨-, str', hs', rfl⟩ := xdatcarContent_ok hf
    rw [hf]
    rw [hs] at hs'
    rw [← Except.ok.inj hs', List.map_take, List.append_assoc]
  have hcr : '\r' ∉ part := fun hm => xdatcar_nocr (lattice := lattice)
    (printable := printable) (label := label) _ hs (hpart.subset hm)
  have hL : ∀ q, readLattice ((headerStr printable label ++ getLatticeStr lattice) ++ q) =
      .ok (fun i j => readBack (lattice i j), q) := by
    intro q
    rw [List.append_assoc, readLattice_written]
  rw [← List.append_assoc] at hpart
  unfold readPositionsTs
  rw [universalNewlines_id hcr]
  dsimp only
  rcases prefix_append hpart with hp | ⟨q, rfl, hq⟩
  · left
    have hp' : part <+: headerStr printable label ++ (getLatticeStr lattice ++ []) := by
      rw [List.append_nil]; exact hp
    rcases readLattice_cut printable label lattice hp' with h1 | ⟨m, q, hq, h1⟩
    · rw [h1]; rfl
    · rw [h1]
      change (readAtomicSymbols q >>= _) = _
      rw [List.prefix_nil.1 hq, readAtomicSymbols_nil]
      rfl
  rw [hL q]
  change (readAtomicSymbols q >>= _) = _ ∨ ∃ j r file, _ ∧ (readAtomicSymbols q >>= _) = _ ∧ _
  rcases prefix_append hq with hq | ⟨u, rfl, hu⟩
  · obtain ⟨us, syms, hne, hf, -, -, hstr⟩ := getSymbolsStr_ok hs
    have hq' : q <+: (symBody syms ++ ['\n']) ++ ((cntBody (us.map fun n => numbers.count n) ++
        ['\n']) ++ []) := by
      rw [List.append_nil]
      rw [hstr] at hq
      exact hq
    have hend : readAtomicSymbols q = .error .invalidFile ∨
        ∃ l, readAtomicSymbols q = .ok (l, []) := by
      rcases readAtomicSymbols_cut (us.map fun n => numbers.count n) hf hne (by simp) hq' with
        h1 | h1 | ⟨q', hq'', h1⟩
      · exact Or.inl h1
      · exact Or.inr h1
      · rw [List.prefix_nil.1 hq''] at h1
        exact Or.inr ⟨_, h1⟩
    rcases hend with h1 | ⟨l, h1⟩
    · left
      rw [h1]; rfl
    · right
      rw [h1]
      refine ⟨0, [], _, Nat.zero_le _, readTsLoop_nil ext (fun i j => readBack (lattice i j)) l.length 0, Or.inl ⟨rfl, rfl⟩, hfile' 0,
        ?_, fun h => absurd rfl h⟩
      rw [List.take_zero, configsStr_nil, List.append_nil]
      exact (List.prefix_append_right_inj _).2 hq
  · obtain ⟨S, hS1, hS2⟩ := C62_decode numbers str u hs
    rw [hS1]
    change readTsLoop _ _ _ _ _ = _ ∨ ∃ j r file, _ ∧ readTsLoop _ _ _ _ _ = _ ∧ _
    have hlen : S.length = n := by rw [hS2.length_eq, hn]
    have hpos : 0 < n := by rw [hn]; exact List.length_pos_iff.2 hvalid.2.2.1
    rw [hlen]
    rcases readTsLoop_crash ext (fun i j => readBack (lattice i j)) n hpos
      (positionsTs.map List.ofFn) (by
        intro ps hps
        obtain ⟨p, -, rfl⟩ := List.mem_map.1 hps
        rw [List.length_ofFn]) (by
        intro ps hps v hv i y hy
        obtain ⟨p, hp, rfl⟩ := List.mem_map.1 hps
        obtain ⟨a, rfl⟩ := (List.mem_ofFn' _ _).1 hv
        exact hvalid.2.2.2.2 p hp a i y hy) 0 hu _ (Nat.lt_succ_self _) with
      h1 | ⟨j, r, hj, h1, h2, h3, h4⟩
    · exact Or.inl h1
    · refine Or.inr ⟨j, r, _, by simpa using hj, h1, by rw [List.map_take]; exact h2, hfile' j, ?_, ?_⟩
      · exact (List.prefix_append_right_inj _).2 ((List.prefix_append_right_inj _).2 h3)
      · intro _
        simp only [List.length_append]
        omega

/-- C160: what is on disk if the process stops at any time during `write_trajectory`. -/
theorem C160_crash (printable : Char → Bool) (ext : NumMat → Py NumMat)
    (deny : Path → Option PyErr) (fs : FS) (lattice : Fin 3 → Fin 3 → Option K) (numbers : List ℕ)
    (n : ℕ) (positionsTs : List (Fin n → Fin 3 → Option K)) (path : Path) (overwrite : Bool)
    (label : List Char) (run : WriteRun)
    (hrun : run = xdatcarWriteTrajectory printable deny fs lattice numbers n positionsTs path
      overwrite label) :
    ∀ st ∈ run.after :: run.during, st path = fs path ∨
      ∃ text, readFile st path = .ok text ∧ (readPositionsTs ext text = .error .invalidFile ∨
        ∃ j r, j ≤ positionsTs.length ∧ readPositionsTs ext text = .ok r ∧
          Spec.FramesShortened ((positionsTs.take j).map List.ofFn) r) := by
  intro st hst
  refine ((C66_xdatcar printable deny fs lattice numbers n positionsTs path overwrite label run
    hrun).1 st hst).2.imp_right ?_
  rintro ⟨content, text, hc, ht, hfile⟩
  refine ⟨text, by unfold readFile; rw [hfile], ?_⟩
  refine (C160_prefix printable ext lattice numbers n positionsTs label content hc text ht).imp_right ?_
  rintro ⟨j, r, -, h1, h2, h3, -⟩
  exact ⟨j, r, h1, h2, h3⟩

/-- C160: missing configurations go unnoticed: for every number `j` of configurations there is a
moment at which a crash leaves a file that is read without complaint as the first `j`
configurations. -/
theorem C160_silent (printable : Char → Bool) (ext : NumMat → Py NumMat)
    (deny : Path → Option PyErr) (fs : FS) (lattice : Fin 3 → Fin 3 → Option K) (numbers : List ℕ)
    (n : ℕ) (positionsTs : List (Fin n → Fin 3 → Option K)) (path : Path) (overwrite : Bool)
    (label : List Char) (run : WriteRun)
    (hrun : run = xdatcarWriteTrajectory printable deny fs lattice numbers n positionsTs path
      overwrite label) (hok : run.result = .ok ()) (j : ℕ) :
    ∃ st ∈ run.during, ∃ text r, readFile st path = .ok text ∧
      readPositionsTs ext text = .ok r ∧
      List.Forall₂ (List.Forall₂ Spec.RoundedVec) ((positionsTs.take j).map List.ofFn) r := by
  subst hrun
  unfold xdatcarWriteTrajectory at hok ⊢
  cases hc : xdatcarContent printable lattice numbers n positionsTs label with
  | error e => rw [hc] at hok; cases hok
  | ok content =>
    rw [hc] at hok
    dsimp only at hok ⊢
    have hvalid := (C63_writable printable lattice numbers n positionsTs label).1 ⟨content, hc⟩
    obtain ⟨file, hf⟩ := (C63_writable printable lattice numbers n (positionsTs.take j) label).2
      ⟨hvalid.1, hvalid.2.1, hvalid.2.2.1, hvalid.2.2.2.1,
        fun p hp => hvalid.2.2.2.2 p (List.mem_of_mem_take hp)⟩
    obtain ⟨r, hr1, hr2⟩ := C63_roundtrip printable ext lattice numbers n (positionsTs.take j) label
      file hf
    have hpre : file <+: content := by
      obtain ⟨-, str, hs, rfl⟩ := xdatcarContent_ok hc
      obtain ⟨-, str', hs', rfl⟩ := xdatcarContent_ok hf
      rw [hs] at hs'
      rw [← Except.ok.inj hs']
      refine (List.prefix_append_right_inj _).2 ((List.prefix_append_right_inj _).2
        ((List.prefix_append_right_inj _).2 ?_))
      have hstep : ∀ (w : List (List (Fin 3 → Option K))) (i j : ℕ),
          configsStr i (w.take j) <+: configsStr i w := by
        intro w
        induction w with
        | nil => intro i j; simp
        | cons ps w ih =>
          intro i j
          cases j with
          | zero => rw [List.take_zero, configsStr_nil]; exact List.nil_prefix
          | succ j =>
            rw [List.take_succ_cons, configsStr_succ, configsStr_succ]
            exact (List.prefix_append_right_inj _).2 (ih (i + 1) j)
      rw [List.map_take]
      exact hstep _ 0 j
    unfold writeFile at hok ⊢
    cases hd : deny path with
    | some e => rw [hd] at hok; cases hok
    | none =>
      rw [hd] at hok
      dsimp only at hok ⊢
      by_cases hx : overwrite = false ∧ (fs path).isSome = true
      · rw [if_pos hx] at hok; cases hok
      rw [if_neg hx]
      refine ⟨fs.set path (content.take file.length), ?_, file, r, ?_, hr1, hr2⟩
      · rw [List.mem_map]
        exact ⟨file.length, List.mem_range.2 (Nat.lt_succ_of_le hpre.length_le), rfl⟩
      · unfold readFile FS.set
        rw [if_pos rfl, ← List.prefix_iff_eq_take.1 hpre]

/-- C160: `read_trajectory` on such a file raises an exception or returns at least one
configuration. -/
theorem C160_trajectory (printable : Char → Bool) (ext : NumMat → Py NumMat)
    (lattice : Fin 3 → Fin 3 → Option K) (numbers : List ℕ) (n : ℕ)
    (positionsTs : List (Fin n → Fin 3 → Option K)) (label content : List Char)
    (h : xdatcarContent printable lattice numbers n positionsTs label = .ok content)
    (part : List Char) (hpart : part <+: content) (timestep : Num) (t : OutcarTrajectory)
    (ht : xdatcarReadTrajectory ext part timestep = .ok t) :
    ∃ j r, 1 ≤ j ∧ j ≤ positionsTs.length ∧
      Spec.FramesShortened ((positionsTs.take j).map List.ofFn) r ∧
      makeTrajectory r timestep = .ok t := by
  unfold xdatcarReadTrajectory at ht
  rcases C160_prefix printable ext lattice numbers n positionsTs label content h part hpart with
    h1 | ⟨j, r, -, hj, h1, h2, -⟩
  · rw [h1] at ht; cases ht
  · rw [h1] at ht
    change (if r = [] ∨ [] ∈ r then Except.error _ else makeTrajectory r timestep) = _ at ht
    split_ifs at ht with h0
    refine ⟨j, r, ?_, hj, h2, ht⟩
    by_contra hj0
    have : j = 0 := by omega
    subst this
    rcases h2 with ⟨-, h3⟩ | ⟨w₁, c, r₁, d, h3, -⟩
    · exact h0 (Or.inl h3)
    · simp at h3

/-- C160, concrete: two configurations of one carbon atom are being written; a crash can leave a file
that is read as the first configuration only. -/
example (fs : FS) (ext : NumMat → Py NumMat) : ∃ st ∈ (xdatcarWriteTrajectory (K := ℚ)
      (fun _ => true) (fun _ => none) fs (fun i j => if i = j then some 4 else some 0) [6] 1
      [fun _ _ => some (1 / 3), fun _ _ => some (1 / 2)] "X".toList true "C".toList).during,
    ∃ text r, readFile st "X".toList = .ok text ∧ readPositionsTs ext text = .ok r ∧
      r.length = 1 := by
  obtain ⟨st, h1, text, r, h2, h3, h4⟩ := C160_silent (K := ℚ) (fun _ => true) ext (fun _ => none) fs
    (fun i j => if i = j then some 4 else some 0) [6] 1
    [fun _ _ => some (1 / 3), fun _ _ => some (1 / 2)] "X".toList true "C".toList _ rfl (by
      have hc : ∃ content, xdatcarContent (K := ℚ) (fun _ => true)
          (fun i j => if i = j then some 4 else some 0) [6] 1
          [fun _ _ => some (1 / 3), fun _ _ => some (1 / 2)] "C".toList = .ok content := by
        refine (C63_writable _ _ _ _ _ _).2 ⟨by simp, rfl, by simp, ?_, ?_⟩
        · intro x y h
          have := h.length_le
          simp at this
        · intro p hp a i x hx
          simp only [List.mem_cons, List.not_mem_nil, or_false] at hp
          rcases hp with rfl | rfl <;> cases hx <;> constructor <;> norm_num
      obtain ⟨content, hc⟩ := hc
      unfold xdatcarWriteTrajectory
      rw [hc]
      rfl) 1
  exact ⟨st, h1, text, r, h2, h3, by rw [← h4.length_eq]; rfl⟩

end

end Verif
