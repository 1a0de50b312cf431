import Verif.Model.XdatcarTrajectory
import Verif.Props.Generic
import Verif.Props.Write
import Verif.Props.Xdatcar
import Verif.Props.Layout

/-!
# C139: what the generic writers write is what the generic readers read
-/

namespace Verif

namespace Spec

/-- The coordinate `q` is `x` rounded to 16 decimals and then moved into the cell. -/
def RoundedInCell {K : Type} [Field K] [LinearOrder K] [IsStrictOrderedRing K] (x : Option K)
    (q : Option ℚ) : Prop :=
  (x = none ∧ q = none) ∨
  ∃ y r z, x = some y ∧ q = some z ∧ RoundedTo y r ∧ 0 ≤ z ∧ z < 1 ∧ ∃ k : ℤ, r = z + k

end Spec

section
variable {K : Type} [Field K] [LinearOrder K] [IsStrictOrderedRing K] [FloorRing K]

theorem genericWriteStructure_ok {printable : Char → Bool} {deny : Path → Option PyErr} {fs : FS}
    {lattice : Fin 3 → Fin 3 → Option K} {numbers : List ℕ} {positions : List (Fin 3 → Option K)}
    {path : Path} {fmt : Word} {overwrite : Bool}
    (hok : (genericWriteStructure printable deny fs lattice numbers positions path fmt
      overwrite).result = .ok ()) :
    ∃ content, poscarContent printable lattice numbers positions
        "POSCAR written by ramannoodle".toList = .ok content ∧
      (genericWriteStructure printable deny fs lattice numbers positions path fmt
        overwrite).after = fs.set path content := by
  unfold genericWriteStructure at hok ⊢
  split_ifs at hok ⊢ with hf
  · unfold poscarWriteStructure at hok ⊢
    cases hc : poscarContent printable lattice numbers positions
        "POSCAR written by ramannoodle".toList with
    | error e =>
      rw [hc] at hok
      dsimp only [WriteRun.catchKeyError, WriteRun.fail] at hok
      cases e <;> cases hok
    | ok content =>
      rw [hc] at hok
      dsimp only at hok ⊢
      refine ⟨content, rfl, ?_⟩
      rcases writeFile_cases deny fs path overwrite content with ⟨e, h, -⟩ | ⟨-, -, h⟩
      · rw [h] at hok
        dsimp only [WriteRun.catchKeyError, WriteRun.fail] at hok
        cases e <;> cases hok
      · rw [h]; rfl
  · cases hok

theorem genericWriteTrajectory_ok {printable : Char → Bool} {deny : Path → Option PyErr} {fs : FS}
    {lattice : Fin 3 → Fin 3 → Option K} {numbers : List ℕ} {n : ℕ}
    {positionsTs : List (Fin n → Fin 3 → Option K)}
    {path : Path} {fmt : Word} {overwrite : Bool}
    (hok : (genericWriteTrajectory printable deny fs lattice numbers n positionsTs path fmt
      overwrite).result = .ok ()) :
    ∃ content, xdatcarContent printable lattice numbers n positionsTs
        "XDATCAR written by ramannoodle".toList = .ok content ∧
      (genericWriteTrajectory printable deny fs lattice numbers n positionsTs path fmt
        overwrite).after = fs.set path content := by
  unfold genericWriteTrajectory at hok ⊢
  split_ifs at hok ⊢ with hf
  · unfold xdatcarWriteTrajectory at hok ⊢
    cases hc : xdatcarContent printable lattice numbers n positionsTs
        "XDATCAR written by ramannoodle".toList with
    | error e =>
      rw [hc] at hok
      dsimp only [WriteRun.catchKeyError, WriteRun.fail] at hok
      cases e <;> cases hok
    | ok content =>
      rw [hc] at hok
      dsimp only at hok ⊢
      refine ⟨content, rfl, ?_⟩
      rcases writeFile_cases deny fs path overwrite content with ⟨e, h, -⟩ | ⟨-, -, h⟩
      · rw [h] at hok
        dsimp only [WriteRun.catchKeyError, WriteRun.fail] at hok
        cases e <;> cases hok
      · rw [h]; rfl
  · cases hok

theorem withFile_set {R α : Type} (env : Env R) (fs : FS) (path : Path) (content : List Char)
    (h : env.fs = fs.set path content) (f : List Char → Py α) :
    env.withFile f path = f content := by
  unfold Env.withFile readFile
  rw [h]
  unfold FS.set
  rw [if_pos rfl]
  rfl

/-- Reading both formats of structures through the generic interface. -/
theorem generic_read_structure {R : Type} (env : Env R) (fs : FS) (path : Path)
    (content : List Char) (h : env.fs = fs.set path content) (s : ReadStructure)
    (hs : readStructure env.ext content = .ok s) (fmt : Word)
    (hf : fmt = "poscar".toList ∨ fmt = "xdatcar".toList) :
    genericReadPositions env path fmt = .ok (vecRows s.positions) ∧
    genericReadRefStructure env path fmt =
      catchKeyError (env.mkRef s.atomicNumbers (matRows s.lattice) (vecRows s.positions)) := by
  have h1 : env.poscarPositions path = .ok (vecRows s.positions) := by
    unfold Env.poscarPositions
    rw [withFile_set env fs path content h, (C115_positions env.ext content).1 s hs]
    rfl
  have h2 : env.poscarRef path =
      env.mkRef s.atomicNumbers (matRows s.lattice) (vecRows s.positions) := by
    unfold Env.poscarRef
    rw [withFile_set env fs path content h, hs]
    rfl
  rcases hf with rfl | rfl
  · constructor
    · change catchKeyError (env.poscarPositions path) = _
      rw [h1]; rfl
    · change catchKeyError (env.poscarRef path) = _
      rw [h2]
  · constructor
    · change catchKeyError (env.poscarPositions path) = _
      rw [h1]; rfl
    · change catchKeyError (env.poscarRef path) = _
      rw [h2]

theorem vecRows_eq (ps : List NumVec) : vecRows ps = ps.map List.ofFn := by
  unfold vecRows
  congr 1

theorem matRows_eq (m : NumMat) : matRows m = List.ofFn fun i => List.ofFn (m i) := rfl

/-- C139: once `write_structure` has returned, reading the file with either format gives the atomic
numbers, and the lattice and the positions rounded to 16 decimals; other files are as they were. -/
theorem C139_structure (printable : Char → Bool) (deny : Path → Option PyErr) (fs : FS)
    (lattice : Fin 3 → Fin 3 → Option K) (numbers : List ℕ) (positions : List (Fin 3 → Option K))
    (path : Path) (fmt : Word) (overwrite : Bool) (run : WriteRun)
    (hrun : run = genericWriteStructure printable deny fs lattice numbers positions path fmt overwrite)
    (hok : run.result = .ok ()) :
    (∀ other, other ≠ path → run.after other = fs other) ∧
    ∀ (R : Type) (env : Env R), env.fs = run.after →
      ∃ (lat : Fin 3 → Fin 3 → Num) (ps : List (Fin 3 → Num)),
        (∀ i, Spec.RoundedVec (lattice i) (lat i)) ∧ List.Forall₂ Spec.RoundedVec positions ps ∧
        ∀ fmt' ∈ ["poscar".toList, "xdatcar".toList],
          genericReadPositions env path fmt' = .ok (ps.map List.ofFn) ∧
          ∀ r, env.mkRef numbers (List.ofFn fun i => List.ofFn (lat i)) (ps.map List.ofFn) = .ok r →
            genericReadRefStructure env path fmt' = .ok r := by
  subst hrun
  obtain ⟨content, hc, hafter⟩ := genericWriteStructure_ok hok
  rw [hafter]
  refine ⟨fun other ho => if_neg ho, fun R env henv => ?_⟩
  obtain ⟨s, hs, rfl, h2, h3⟩ := C60_roundtrip printable env.ext _ _ _ _ _ hc
  refine ⟨s.lattice, s.positions, h2, h3, fun fmt' hf => ?_⟩
  obtain ⟨g1, g2⟩ := generic_read_structure env fs path content henv s hs fmt' (by simpa using hf)
  rw [vecRows_eq] at g1
  refine ⟨g1, fun r hr => ?_⟩
  rw [g2, vecRows_eq, matRows_eq, hr]
  rfl

/-- A written XDATCAR with configurations is read as its first configuration. -/
theorem readStructure_xdatcar (printable : Char → Bool) (ext : NumMat → Py NumMat)
    (lattice : Fin 3 → Fin 3 → Option K) (numbers : List ℕ) (n : ℕ)
    (first : Fin n → Fin 3 → Option K) (rest : List (Fin n → Fin 3 → Option K))
    (label content : List Char)
    (h : xdatcarContent printable lattice numbers n (first :: rest) label = .ok content) :
    readStructure ext content = .ok ⟨fun i j => readBack (lattice i j), numbers,
      (List.ofFn first).map fun p i => readBack (p i)⟩ := by
  obtain ⟨hn, str, hs, rfl⟩ := xdatcarContent_ok h
  obtain ⟨symbols, hread, hsym⟩ := C62_decode numbers str
    (configsStr 0 ((first :: rest).map List.ofFn)) hs
  have hnum : symbols.mapM numberOf = .ok numbers := by
    rw [mapM_except_ok]
    exact hsym.imp fun a b hab => numberOf_eq_ok.2 hab
  unfold readStructure
  rw [universalNewlines_id (xdatcar_nocr _ hs)]
  dsimp only
  rw [readLattice_written]
  change (readAtomicSymbols _ >>= _) = _
  rw [hread]
  change (symbols.mapM numberOf >>= _) = _
  rw [hnum]
  change (dropMsg (readPositions _ _ _ _) >>= _) = _
  obtain ⟨l, hl, -, hc⟩ := configsStr_cons 0 (List.ofFn first) (rest.map List.ofFn)
  have hlen : symbols.length = (List.ofFn first).length := by
    rw [hsym.length_eq, List.length_ofFn, hn]
  rw [List.map_cons, hc, hlen]
  have he : ('D' :: l ++ ['\n']) ++ (getPositionsStr (List.ofFn first) ++
      configsStr (0 + 1) (rest.map List.ofFn)) =
      'D' :: l ++ '\n' :: (getPositionsStr (List.ofFn first) ++
        configsStr (0 + 1) (rest.map List.ofFn)) := by simp
  rw [he, readPositions_direct ext _ l hl]
  rfl

theorem roundedInCell_pbc (x : Option K) (r : Num) (h : Spec.Rounded x r) :
    Spec.RoundedInCell x (r.map pbc1) := by
  cases x with
  | none =>
    cases r with
    | none => exact Or.inl ⟨rfl, rfl⟩
    | some r => cases h
  | some y =>
    cases r with
    | none => cases h
    | some r =>
      obtain ⟨k, hk⟩ := pbc1_sameImage r
      refine Or.inr ⟨y, r, pbc1 r, rfl, rfl, h, (pbc1_inCell r).1, (pbc1_inCell r).2, -k, ?_⟩
      rw [hk]; push_cast; ring

/-- C139: once `write_trajectory` has returned, `xdatcar.read_trajectory` with a positive time step
returns the trajectory with all configurations in order, each coordinate rounded to 16 decimals and
moved into the cell; the readers of structures return the first configuration.  A trajectory without
configurations is written, but reading it is a `ValueError`, and an `InvalidFileException` for the
positions. -/
theorem C139_trajectory (printable : Char → Bool) (deny : Path → Option PyErr) (fs : FS)
    (lattice : Fin 3 → Fin 3 → Option K) (numbers : List ℕ) (n : ℕ)
    (positionsTs : List (Fin n → Fin 3 → Option K))
    (path : Path) (fmt : Word) (overwrite : Bool) (run : WriteRun)
    (hrun : run = genericWriteTrajectory printable deny fs lattice numbers n positionsTs path fmt
      overwrite)
    (hok : run.result = .ok ()) (R : Type) (env : Env R) (henv : env.fs = run.after) :
    (∀ other, other ≠ path → run.after other = fs other) ∧
    (positionsTs ≠ [] → ∀ t : ℚ, 0 < t → ∃ tr : OutcarTrajectory,
      env.withFile (fun c => xdatcarReadTrajectory env.ext c (some t)) path = .ok tr ∧
      tr.timestep = t ∧
      List.Forall₂ (fun (w : Fin n → Fin 3 → Option K) r =>
        List.Forall₂ (fun x q => ∀ i, Spec.RoundedInCell (x i) (q i)) (List.ofFn w) r)
        positionsTs tr.positionsTs) ∧
    (∀ first rest, positionsTs = first :: rest →
      ∃ (lat : Fin 3 → Fin 3 → Num) (ps : List (Fin 3 → Num)),
        (∀ i, Spec.RoundedVec (lattice i) (lat i)) ∧
        List.Forall₂ Spec.RoundedVec (List.ofFn first) ps ∧
        ∀ fmt' ∈ ["poscar".toList, "xdatcar".toList],
          genericReadPositions env path fmt' = .ok (ps.map List.ofFn) ∧
          ∀ r, env.mkRef numbers (List.ofFn fun i => List.ofFn (lat i)) (ps.map List.ofFn) = .ok r →
            genericReadRefStructure env path fmt' = .ok r) ∧
    (positionsTs = [] →
      (∀ t, env.withFile (fun c => xdatcarReadTrajectory env.ext c t) path = .error .valueError) ∧
      ∀ fmt' ∈ ["poscar".toList, "xdatcar".toList],
        genericReadPositions env path fmt' = .error .invalidFile) := by
  subst hrun
  obtain ⟨content, hc, hafter⟩ := genericWriteTrajectory_ok hok
  rw [hafter] at henv ⊢
  obtain ⟨frames, hr, hround⟩ := C63_roundtrip printable env.ext _ _ _ _ _ _ hc
  have hfile : ∀ t, env.withFile (fun c => xdatcarReadTrajectory env.ext c t) path =
      if frames = [] ∨ [] ∈ frames then .error .valueError else makeTrajectory frames t := by
    intro t
    rw [withFile_set env fs path content henv]
    unfold xdatcarReadTrajectory
    rw [hr]
    rfl
  have hn : 0 < n := by
    obtain ⟨hn, str, hs, -⟩ := xdatcarContent_ok hc
    rcases Nat.eq_zero_or_pos n with h0 | h0
    · rw [hn] at h0
      rw [List.length_eq_zero_iff.1 h0] at hs
      cases hs
    · exact h0
  refine ⟨fun other ho => if_neg ho, fun hne t ht => ?_, ?_, ?_⟩
  · have hcond : ¬ (frames = [] ∨ [] ∈ frames) := by
      rintro (h | h)
      · subst h
        cases positionsTs with
        | nil => exact hne rfl
        | cons => cases hround
      · obtain ⟨w, hw, h⟩ := forall₂_mem_right hround _ h
        obtain ⟨p, -, rfl⟩ := List.mem_map.1 hw
        have := h.length_eq
        rw [List.length_ofFn, List.length_nil] at this
        omega
    refine ⟨⟨frames.map fun ps => ps.map fun p i => (p i).map pbc1, t⟩, ?_, rfl, ?_⟩
    · rw [hfile, if_neg hcond]
      unfold makeTrajectory
      dsimp only
      rw [if_neg (not_le.2 ht)]
    · rw [List.forall₂_map_left_iff] at hround
      rw [List.forall₂_map_right_iff]
      refine hround.imp fun w r h => ?_
      rw [List.forall₂_map_right_iff]
      exact h.imp fun x q hx i => roundedInCell_pbc _ _ (hx i)
  · rintro first rest rfl
    have hs := readStructure_xdatcar printable env.ext lattice numbers n first rest _ content hc
    refine ⟨fun i j => readBack (lattice i j), (List.ofFn first).map fun p i => readBack (p i),
      fun i j => rounded_readBack _, ?_, fun fmt' hf => ?_⟩
    rotate_left
    · obtain ⟨g1, g2⟩ := generic_read_structure env fs path content henv _ hs fmt' (by simpa using hf)
      rw [vecRows_eq] at g1
      refine ⟨g1, fun r hr => ?_⟩
      rw [g2, vecRows_eq, matRows_eq, hr]
      rfl
    · rw [List.forall₂_map_right_iff, List.forall₂_same]
      exact fun x _ i => rounded_readBack (x i)
  · rintro rfl
    obtain rfl : frames = [] := by
      cases hround; rfl
    refine ⟨fun t => by rw [hfile, if_pos (Or.inl rfl)], ?_⟩
    have hpos : readPoscarPositions env.ext content = .error .invalidFile := by
      obtain ⟨-, str, hs, rfl⟩ := xdatcarContent_ok hc
      obtain ⟨symbols, hread, -⟩ := C62_decode numbers str (configsStr 0 ([] : List (List (Fin 3 → Option K)))) hs
      unfold readPoscarPositions
      rw [universalNewlines_id (xdatcar_nocr _ hs)]
      dsimp only
      rw [readLattice_written]
      change (readAtomicSymbols _ >>= _) = _
      rw [List.map_nil, hread]
      rfl
    have h1 : env.poscarPositions path = .error .invalidFile := by
      unfold Env.poscarPositions
      rw [withFile_set env fs path content henv, hpos]
      rfl
    intro fmt' hf
    rcases (by simpa using hf : fmt' = _ ∨ fmt' = _) with rfl | rfl
    · change catchKeyError (env.poscarPositions path) = _
      rw [h1]; rfl
    · change catchKeyError (env.poscarPositions path) = _
      rw [h1]; rfl

theorem roundedTo_bounds {x : K} {q : ℚ} (h : Spec.RoundedTo x q) (h0 : 0 ≤ x) (h1 : x ≤ 1) :
    0 ≤ q ∧ q ≤ 1 := by
  obtain ⟨m, rfl, hm, -⟩ := h
  have ha := abs_le.1 (show |x * 10 ^ 16 - m| ≤ 1 / 2 from (le_div_iff₀' two_pos).2 hm)
  have h2 : (-1 : K) < m := by nlinarith [ha.2, mul_nonneg h0 (by positivity : (0:K) ≤ 10 ^ 16)]
  have h3 : (m : K) < 10 ^ 16 + 1 := by
    nlinarith [ha.1, mul_le_mul_of_nonneg_right h1 (by positivity : (0:K) ≤ 10 ^ 16)]
  have h2' : (0 : ℤ) ≤ m := by
    have : (-1 : ℤ) < m := by exact_mod_cast h2
    omega
  have h3' : m ≤ 10 ^ 16 := by
    have : m < 10 ^ 16 + 1 := by exact_mod_cast h3
    omega
  constructor
  · exact div_nonneg (by exact_mod_cast h2') (by positivity)
  · rw [div_le_one (by positivity)]
    exact_mod_cast h3'

theorem roundedTo_self {x : K} {q r : ℚ} (h : Spec.RoundedTo x q) (h' : Spec.RoundedTo q r) :
    r = q := by
  obtain ⟨m, rfl, -, -⟩ := h
  refine C60_rounded_unique ((m : ℚ) / 10 ^ 16) _ _ h' ⟨m, rfl, ?_⟩
  have : (m : ℚ) / 10 ^ 16 * 10 ^ 16 - m = 0 := by
    rw [div_mul_cancel₀ _ (by positivity), sub_self]
  simp only [this]
  norm_num

theorem rounded_self {x : Option K} {q r : Num} (h : Spec.Rounded x q) (h' : Spec.Rounded q r) :
    r = q := by
  cases x with
  | none =>
    cases q with
    | none => cases r with
      | none => rfl
      | some => cases h'
    | some => cases h
  | some x =>
    cases q with
    | none => cases h
    | some q => cases r with
      | none => cases h'
      | some r => rw [roundedTo_self h h']

theorem forall₂_rounded_self {l : List (Fin 3 → Option K)} {m r : List NumVec}
    (h : List.Forall₂ Spec.RoundedVec l m) (h' : List.Forall₂ Spec.RoundedVec m r) : r = m := by
  induction h generalizing r with
  | nil => cases h'; rfl
  | cons h1 _ ih =>
    cases h' with
    | cons h2 h3 =>
      rw [ih h3]
      congr 1
      funext i
      exact rounded_self (h1 i) (h2 i)

/-- C139: the loss of digits happens once.  What is read from a written file can be written again
(anywhere a file can be created or overwritten) and is then read back exactly. -/
theorem C139_stable (printable : Char → Bool) (deny : Path → Option PyErr) (fs : FS)
    (lattice : Fin 3 → Fin 3 → Option K) (numbers : List ℕ) (positions : List (Fin 3 → Option K))
    (path : Path) (fmt : Word) (overwrite : Bool) (run : WriteRun)
    (hrun : run = genericWriteStructure printable deny fs lattice numbers positions path fmt overwrite)
    (hok : run.result = .ok ()) (ext : NumMat → Py NumMat) :
    ∃ content s, readFile run.after path = .ok content ∧ readStructure ext content = .ok s ∧
      ∀ (path' : Path) (fmt' : Word) (overwrite' : Bool) (run' : WriteRun), deny path' = none →
        (overwrite' = false → run.after path' = none) →
        fmt' ∈ ["poscar".toList, "xdatcar".toList] →
        run' = genericWriteStructure printable deny run.after s.lattice s.atomicNumbers s.positions
          path' fmt' overwrite' →
        run'.result = .ok () ∧
        ∃ content', readFile run'.after path' = .ok content' ∧ readStructure ext content' = .ok s := by
  subst hrun
  obtain ⟨content, hc, hafter⟩ := genericWriteStructure_ok hok
  rw [hafter]
  obtain ⟨s, hs, hnum, hlat, hpos⟩ := C60_roundtrip printable ext _ _ _ _ _ hc
  refine ⟨content, s, ?_, hs, ?_⟩
  · unfold readFile FS.set
    rw [if_pos rfl]
  · intro path' fmt' overwrite' run' hd ho hf hrun'
    obtain ⟨hv, hg, hne⟩ := (C60_writable printable lattice numbers positions _).1 ⟨content, hc⟩
    have hv' : Spec.ValidStructure s.atomicNumbers s.positions := by
      rw [hnum]
      refine ⟨hv.1, hpos.length_eq.symm.trans hv.2.1, fun q hq i x hx => ?_⟩
      obtain ⟨p, hp, hpq⟩ := forall₂_mem_right hpos q hq
      have h := hpq i
      rw [hx] at h
      cases hpi : p i with
      | none => rw [hpi] at h; cases h
      | some y =>
        rw [hpi] at h
        obtain ⟨h0, h1⟩ := hv.2.2 p hp i y hpi
        exact roundedTo_bounds h h0 h1
    obtain ⟨h1, content', s', h2, h3, h4, h5, h6⟩ := C66_write_then_read printable ext deny
      (fs.set path content) s.lattice s.atomicNumbers s.positions path' overwrite'
      "POSCAR written by ramannoodle".toList hv' (by rw [hnum]; exact hne) (by rw [hnum]; exact hg)
      hd ho _ rfl
    have hr : run' = poscarWriteStructure printable deny (fs.set path content) s.lattice
        s.atomicNumbers s.positions path' overwrite' "POSCAR written by ramannoodle".toList := by
      rw [hrun']
      unfold genericWriteStructure
      rw [if_pos (by simpa using hf)]
      unfold WriteRun.catchKeyError
      rw [h1]
    rw [hr]
    refine ⟨h1, content', h2, ?_⟩
    rw [h3]
    congr 1
    obtain ⟨l, a, b⟩ := s
    obtain ⟨l', a', b'⟩ := s'
    dsimp only at *
    congr 1
    · funext i j
      exact rounded_self (hlat i j) (h5 i j)
    · exact forall₂_rounded_self hpos h6

end

/-- C139, concrete: one carbon atom at one third is written with 16 decimals. -/
theorem carbon_written : (genericWriteStructure (K := ℚ) (fun _ => true) (fun _ => none)
    (fun _ => none) (fun i j => if i = j then some 4 else some 0) [6] [fun _ => some (1 / 3)]
    "POSCAR".toList "poscar".toList false).result = .ok () := by
  have h := (C66_write_then_read (K := ℚ) (fun _ => true) (fun m => .ok m) (fun _ => none)
    (fun _ => none) (fun i j => if i = j then some 4 else some 0) [6] [fun _ => some (1 / 3)]
    "POSCAR".toList false "POSCAR written by ramannoodle".toList ⟨by simp, rfl, ?_⟩ (by simp) ?_
    rfl (fun _ => rfl) _ rfl).1
  · unfold genericWriteStructure
    rw [if_pos (Or.inl rfl)]
    unfold WriteRun.catchKeyError
    rw [h]
    exact h
  · intro p hp i x hx
    rw [List.mem_singleton] at hp
    subst hp
    cases hx
    constructor <;> norm_num
  · intro x y h
    have := h.length_le
    simp at this

example : ∃ ps, genericReadPositions (R := Unit) ⟨(genericWriteStructure (K := ℚ) (fun _ => true)
      (fun _ => none) (fun _ => none) (fun i j => if i = j then some 4 else some 0) [6]
      [fun _ => some (1 / 3)] "POSCAR".toList "poscar".toList false).after, fun _ => .error .keyError,
      fun m => .ok m, false, fun _ _ _ => .ok (), true⟩ "POSCAR".toList "xdatcar".toList =
        .ok (ps.map List.ofFn) ∧
      List.Forall₂ (Spec.RoundedVec (K := ℚ)) [fun _ => some (1 / 3)] ps := by
  obtain ⟨-, h⟩ := C139_structure (K := ℚ) _ _ _ _ _ _ _ _ _ _ rfl carbon_written
  obtain ⟨_, ps, -, h1, h2⟩ := h Unit ⟨_, fun _ => .error .keyError, fun m => .ok m, false,
    fun _ _ _ => .ok (), true⟩ rfl
  exact ⟨ps, (h2 _ (by simp)).1, h1⟩

end Verif
