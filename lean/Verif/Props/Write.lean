import Verif.Props.Xdatcar
import Verif.Props.Displace
import Verif.Spec.Files

/-!
# Properties C23, C24, C66: writing files
-/

namespace Verif

/-! ## C66: one file -/

/-- What a writing call does when the text it should write is `content` (or an error). -/
theorem writeFile_cases (deny : Path → Option PyErr) (fs : FS) (path : Path) (overwrite : Bool)
    (content : List Char) :
    (∃ e, writeFile deny fs path overwrite content = .fail e fs ∧
      (deny path = some e ∨
        deny path = none ∧ overwrite = false ∧ (∃ c, fs path = some c) ∧
          e = .fileExistsError)) ∨
    deny path = none ∧ (overwrite = false → fs path = none) ∧
      writeFile deny fs path overwrite content = ⟨.ok (),
        (List.range (content.length + 1)).map fun k : ℕ => fs.set path (content.take k),
        fs.set path content⟩ := by
  unfold writeFile
  cases hd : deny path with
  | some e => exact Or.inl ⟨e, rfl, Or.inl rfl⟩
  | none =>
    dsimp only
    split_ifs with h
    · exact Or.inl ⟨_, rfl, Or.inr ⟨rfl, h.1, Option.isSome_iff_exists.1 h.2, rfl⟩⟩
    · refine Or.inr ⟨rfl, fun ho => ?_, rfl⟩
      by_contra hne
      exact h ⟨ho, Option.isSome_iff_ne_none.2 hne⟩

theorem set_onlyAt (fs : FS) (path : Path) (c : List Char) : Spec.OnlyAt path fs (fs.set path c) :=
  fun _ hp => if_neg hp

theorem set_self (fs : FS) (path : Path) (c : List Char) : fs.set path c path = some c := if_pos rfl

/-- A run that writes the text `content` to `path`, or stops before touching anything. -/
theorem writeFile_spec (deny : Path → Option PyErr) (fs : FS) (path : Path) (overwrite : Bool)
    (content : List Char) :
    (∀ st ∈ (writeFile deny fs path overwrite content).after ::
        (writeFile deny fs path overwrite content).during, Spec.OnlyAt path fs st ∧
        (st path = fs path ∨ ∃ t, t <+: content ∧ st path = some t)) ∧
    (∀ e, (writeFile deny fs path overwrite content).result = .error e →
      (writeFile deny fs path overwrite content).after = fs ∧
      (writeFile deny fs path overwrite content).during = []) ∧
    ((writeFile deny fs path overwrite content).result = .ok () →
      (writeFile deny fs path overwrite content).after path = some content) := by
  rcases writeFile_cases deny fs path overwrite content with ⟨e, h, -⟩ | ⟨-, -, h⟩
  · rw [h]
    refine ⟨?_, fun _ _ => ⟨rfl, rfl⟩, (fun h => by cases h)⟩
    intro st hst
    rw [show st = fs by simpa [WriteRun.fail] using hst]
    exact ⟨fun _ _ => rfl, Or.inl rfl⟩
  · rw [h]
    refine ⟨?_, (fun e h => by cases h), fun _ => set_self fs path content⟩
    intro st hst
    rcases List.mem_cons.1 hst with rfl | hst
    · exact ⟨set_onlyAt _ _ _, Or.inr ⟨content, List.prefix_rfl, set_self _ _ _⟩⟩
    · obtain ⟨k, -, rfl⟩ := List.mem_map.1 hst
      exact ⟨set_onlyAt _ _ _, Or.inr ⟨_, List.take_prefix k content, set_self _ _ _⟩⟩

section
variable {K : Type} [Field K] [LinearOrder K] [IsStrictOrderedRing K] [FloorRing K]

/-- C66: POSCAR writer.  Whatever happens, and whenever the process stops, only the target can
change and it is then old or a prefix of the new text; exceptions leave everything as it was; a
normal return means the target holds the new text. -/
theorem C66_poscar (printable : Char → Bool) (deny : Path → Option PyErr) (fs : FS)
    (lattice : Fin 3 → Fin 3 → Option K) (numbers : List ℕ) (positions : List (Fin 3 → Option K))
    (path : Path) (overwrite : Bool) (label : List Char) (run : WriteRun)
    (hrun : run = poscarWriteStructure printable deny fs lattice numbers positions path overwrite
      label) :
    (∀ st ∈ run.after :: run.during, Spec.OnlyAt path fs st ∧ (st path = fs path ∨
      ∃ content t, poscarContent printable lattice numbers positions label = .ok content ∧
        t <+: content ∧ st path = some t)) ∧
    (∀ e, run.result = .error e → run.after = fs ∧ run.during = []) ∧
    (run.result = .ok () → ∃ content,
      poscarContent printable lattice numbers positions label = .ok content ∧
      run.after path = some content) ∧
    (∀ e, poscarContent printable lattice numbers positions label = .error e →
      run.result = .error e) := by
  subst hrun
  unfold poscarWriteStructure
  cases hc : poscarContent printable lattice numbers positions label with
  | error e =>
    refine ⟨?_, fun _ _ => ⟨rfl, rfl⟩, (fun h => by cases h), ?_⟩
    · intro st hst
      rw [show st = fs by simpa [WriteRun.fail] using hst]
      exact ⟨fun _ _ => rfl, Or.inl rfl⟩
    · rintro e' h
      cases h
      rfl
  | ok content =>
    obtain ⟨h1, h2, h3⟩ := writeFile_spec deny fs path overwrite content
    refine ⟨?_, h2, fun h => ⟨content, rfl, h3 h⟩, (fun e h => by cases h)⟩
    intro st hst
    obtain ⟨ho, h⟩ := h1 st hst
    refine ⟨ho, h.imp_right ?_⟩
    rintro ⟨t, ht, hst⟩
    exact ⟨content, t, rfl, ht, hst⟩

/-- C66: XDATCAR writer. -/
theorem C66_xdatcar (printable : Char → Bool) (deny : Path → Option PyErr) (fs : FS)
    (lattice : Fin 3 → Fin 3 → Option K) (numbers : List ℕ) (n : ℕ)
    (positionsTs : List (Fin n → Fin 3 → Option K))
    (path : Path) (overwrite : Bool) (label : List Char) (run : WriteRun)
    (hrun : run = xdatcarWriteTrajectory printable deny fs lattice numbers n positionsTs path
      overwrite label) :
    (∀ st ∈ run.after :: run.during, Spec.OnlyAt path fs st ∧ (st path = fs path ∨
      ∃ content t, xdatcarContent printable lattice numbers n positionsTs label = .ok content ∧
        t <+: content ∧ st path = some t)) ∧
    (∀ e, run.result = .error e → run.after = fs ∧ run.during = []) ∧
    (run.result = .ok () → ∃ content,
      xdatcarContent printable lattice numbers n positionsTs label = .ok content ∧
      run.after path = some content) ∧
    (∀ e, xdatcarContent printable lattice numbers n positionsTs label = .error e →
      run.result = .error e) := by
  subst hrun
  unfold xdatcarWriteTrajectory
  cases hc : xdatcarContent printable lattice numbers n positionsTs label with
  | error e =>
    refine ⟨?_, fun _ _ => ⟨rfl, rfl⟩, (fun h => by cases h), ?_⟩
    · intro st hst
      rw [show st = fs by simpa [WriteRun.fail] using hst]
      exact ⟨fun _ _ => rfl, Or.inl rfl⟩
    · rintro e' h
      cases h
      rfl
  | ok content =>
    obtain ⟨h1, h2, h3⟩ := writeFile_spec deny fs path overwrite content
    refine ⟨?_, h2, fun h => ⟨content, rfl, h3 h⟩, (fun e h => by cases h)⟩
    intro st hst
    obtain ⟨ho, h⟩ := h1 st hst
    refine ⟨ho, h.imp_right ?_⟩
    rintro ⟨t, ht, hst⟩
    exact ⟨content, t, rfl, ht, hst⟩

/-- C66: without `overwrite`, an existing file makes the call fail and nothing changes; the
exception is `FileExistsError` when the structure is valid and the file can be opened. -/
theorem C66_exists (printable : Char → Bool) (deny : Path → Option PyErr) (fs : FS)
    (lattice : Fin 3 → Fin 3 → Option K) (numbers : List ℕ) (positions : List (Fin 3 → Option K))
    (path : Path) (label old : List Char) (hold : fs path = some old) (run : WriteRun)
    (hrun : run = poscarWriteStructure printable deny fs lattice numbers positions path false
      label) :
    (∃ e, run.result = .error e) ∧ run.after = fs ∧ run.during = [] ∧
    (deny path = none → Spec.ValidStructure numbers positions → numbers ≠ [] →
      Spec.Grouped numbers → run.result = .error .fileExistsError) := by
  subst hrun
  unfold poscarWriteStructure
  cases hc : poscarContent printable lattice numbers positions label with
  | error e =>
    refine ⟨⟨e, rfl⟩, rfl, rfl, fun _ hv hne hg => ?_⟩
    obtain ⟨c, hc'⟩ := (C60_writable printable lattice numbers positions label).2 ⟨hv, hg, hne⟩
    rw [hc] at hc'
    cases hc'
  | ok content =>
    dsimp only
    rcases writeFile_cases deny fs path false content with ⟨e, h, he⟩ | ⟨-, h, -⟩
    · rw [h]
      refine ⟨⟨e, rfl⟩, rfl, rfl, fun hd _ _ _ => ?_⟩
      rcases he with he | ⟨-, -, -, rfl⟩
      · rw [hd] at he; cases he
      · rfl
    · rw [h rfl] at hold; cases hold

/-- C66: the same for trajectories. -/
theorem C66_exists_xdatcar (printable : Char → Bool) (deny : Path → Option PyErr) (fs : FS)
    (lattice : Fin 3 → Fin 3 → Option K) (numbers : List ℕ) (n : ℕ)
    (positionsTs : List (Fin n → Fin 3 → Option K))
    (path : Path) (label old : List Char) (hold : fs path = some old) (run : WriteRun)
    (hrun : run = xdatcarWriteTrajectory printable deny fs lattice numbers n positionsTs path false
      label) :
    (∃ e, run.result = .error e) ∧ run.after = fs ∧ run.during = [] ∧
    (deny path = none →
      (∃ content, xdatcarContent printable lattice numbers n positionsTs label = .ok content) →
      run.result = .error .fileExistsError) := by
  subst hrun
  unfold xdatcarWriteTrajectory
  cases hc : xdatcarContent printable lattice numbers n positionsTs label with
  | error e =>
    refine ⟨⟨e, rfl⟩, rfl, rfl, ?_⟩
    rintro - ⟨c, hc'⟩
    cases hc'
  | ok content =>
    dsimp only
    rcases writeFile_cases deny fs path false content with ⟨e, h, he⟩ | ⟨-, h, -⟩
    · rw [h]
      refine ⟨⟨e, rfl⟩, rfl, rfl, fun hd _ => ?_⟩
      rcases he with he | ⟨-, -, -, rfl⟩
      · rw [hd] at he; cases he
      · rfl
    · rw [h rfl] at hold; cases hold

/-- C66: a valid structure is written when the file can be opened and does not exist or may be
overwritten, and reading the file gives the structure back (rounded to 16 decimals). -/
theorem C66_write_then_read (printable : Char → Bool) (ext : NumMat → Py NumMat)
    (deny : Path → Option PyErr) (fs : FS)
    (lattice : Fin 3 → Fin 3 → Option K) (numbers : List ℕ) (positions : List (Fin 3 → Option K))
    (path : Path) (overwrite : Bool) (label : List Char)
    (hv : Spec.ValidStructure numbers positions) (hne : numbers ≠ [])
    (hg : Spec.Grouped numbers) (hd : deny path = none)
    (ho : overwrite = false → fs path = none) (run : WriteRun)
    (hrun : run = poscarWriteStructure printable deny fs lattice numbers positions path overwrite
      label) :
    run.result = .ok () ∧ ∃ content s, readFile run.after path = .ok content ∧
      readStructure ext content = .ok s ∧ s.atomicNumbers = numbers ∧
      (∀ i, Spec.RoundedVec (lattice i) (s.lattice i)) ∧
      List.Forall₂ Spec.RoundedVec positions s.positions := by
  obtain ⟨content, hc⟩ := (C60_writable printable lattice numbers positions label).2 ⟨hv, hg, hne⟩
  obtain ⟨s, hs⟩ := C60_roundtrip printable ext lattice numbers positions label content hc
  subst hrun
  unfold poscarWriteStructure
  rw [hc]
  dsimp only
  rcases writeFile_cases deny fs path overwrite content with ⟨e, h, he⟩ | ⟨-, -, h⟩
  · exfalso
    rcases he with he | ⟨-, ho', ⟨c, hc⟩, -⟩
    · rw [hd] at he; cases he
    · rw [ho ho'] at hc; cases hc
  · rw [h]
    refine ⟨rfl, content, s, ?_, hs⟩
    unfold readFile
    dsimp only
    rw [set_self]

/-- C66: unsupported formats raise `ValueError` and change nothing. -/
theorem C66_format (printable : Char → Bool) (deny : Path → Option PyErr) (fs : FS)
    (lattice : Fin 3 → Fin 3 → Option K) (numbers : List ℕ) (positions : List (Fin 3 → Option K))
    (path : Path) (overwrite : Bool) (fmt : List Char)
    (h1 : fmt ≠ "poscar".toList) (h2 : fmt ≠ "xdatcar".toList) :
    (genericWriteStructure printable deny fs lattice numbers positions path fmt overwrite).result =
      .error .valueError ∧
    (genericWriteStructure printable deny fs lattice numbers positions path fmt overwrite).after =
      fs ∧
    (genericWriteStructure printable deny fs lattice numbers positions path fmt overwrite).during =
      [] := by
  unfold genericWriteStructure
  rw [if_neg (not_or.2 ⟨h1, h2⟩)]
  exact ⟨rfl, rfl, rfl⟩

end

/-- C66, concrete: an existing POSCAR is not overwritten. -/
example : (poscarWriteStructure (K := ℚ) (fun _ => true) (fun _ => none)
    (fun _ => some "old".toList) (fun i j => if i = j then some 4 else some 0) [6]
    [fun _ => some (1 / 3)] "POSCAR".toList false "C".toList).result =
      .error .fileExistsError := by
  refine (C66_exists (K := ℚ) (fun _ => true) (fun _ => none) (fun _ => some "old".toList)
    (fun i j => if i = j then some 4 else some 0) [6] [fun _ => some (1 / 3)] "POSCAR".toList
    "C".toList "old".toList rfl _ rfl).2.2.2 rfl ?_ (by simp) ?_
  · refine ⟨by simp, rfl, ?_⟩
    intro p hp i x hx
    simp only [List.mem_cons, List.not_mem_nil, or_false] at hp
    subst hp
    cases hx
    constructor <;> norm_num
  · intro x y h
    have := h.length_le
    simp at this

/-! ## C23, C24: several files -/

theorem catchKeyError_after (r : WriteRun) : r.catchKeyError.after = r.after ∧
    r.catchKeyError.during = r.during ∧
    (r.catchKeyError.result = .ok () ↔ r.result = .ok ()) := by
  unfold WriteRun.catchKeyError
  split <;> rename_i h
  · refine ⟨rfl, rfl, ?_⟩
    rw [h]
    constructor <;> (intro h; cases h)
  · exact ⟨rfl, rfl, Iff.rfl⟩

/-- One step of the loop: nothing happens, or the text of the structure is written. -/
theorem genericWrite_cases (printable : Char → Bool) (deny : Path → Option PyErr) (fs : FS)
    (lattice : Fin 3 → Fin 3 → Option ℝ) (numbers : List ℕ) (positions : List (Fin 3 → Option ℝ))
    (path : Path) (fmt : Word) (overwrite : Bool) :
    (∃ e, genericWriteStructure printable deny fs lattice numbers positions path fmt overwrite =
      .fail e fs) ∨
    ∃ content, poscarContent printable lattice numbers positions
        "POSCAR written by ramannoodle".toList = .ok content ∧
      (overwrite = false → fs path = none) ∧
      genericWriteStructure printable deny fs lattice numbers positions path fmt overwrite =
      ⟨.ok (), (List.range (content.length + 1)).map fun k : ℕ => fs.set path (content.take k),
        fs.set path content⟩ := by
  have hfail : ∀ e : PyErr, ∃ e', (WriteRun.fail e fs).catchKeyError = .fail e' fs := by
    intro e
    unfold WriteRun.catchKeyError
    split
    · exact ⟨_, rfl⟩
    · exact ⟨e, rfl⟩
  unfold genericWriteStructure
  split_ifs
  · unfold poscarWriteStructure
    cases hc : poscarContent printable lattice numbers positions
        "POSCAR written by ramannoodle".toList with
    | error e => exact Or.inl (hfail e)
    | ok content =>
      dsimp only
      rcases writeFile_cases deny fs path overwrite content with ⟨e, h, -⟩ | ⟨-, ho, h⟩
      · rw [h]; exact Or.inl (hfail e)
      · rw [h]; exact Or.inr ⟨content, rfl, ho, rfl⟩
  · exact Or.inl (hfail _)

/-- Files written so far by a loop: `k` of them, with these texts. -/
structure PrefixRun {α : Type} (content : α → Py (List Char)) (pathOf : α → Path)
    (overwrite : Bool) (fs : FS) (xs : List α) (run : WriteRun) where
  texts : List (List Char)
  count : texts.length ≤ xs.length
  text : List.Forall₂ (fun x t => content x = .ok t) (xs.take texts.length) texts
  after : run.after = Spec.written fs (((xs.take texts.length).map pathOf).zip texts)
  result : run.result = .ok () ↔ texts.length = xs.length
  fresh : overwrite = false → ((xs.take texts.length).map pathOf).Nodup ∧
    ∀ x ∈ xs.take texts.length, fs (pathOf x) = none
  during : ∀ st ∈ run.during, ∃ j t c, j < texts.length ∧ texts[j]? = some c ∧ t <+: c ∧
    st = Spec.written fs ((((xs.take texts.length).map pathOf).take (j + 1)).zip
      (texts.take j ++ [t]))

theorem written_set (fs : FS) (path : Path) (c : List Char) :
    (fun r => if r = path then some c else fs r) = fs.set path c := rfl

theorem writeAll_prefix {α : Type} (content : α → Py (List Char)) (pathOf : α → Path)
    (overwrite : Bool) (write : FS → α → WriteRun)
    (hw : ∀ fs x, (∃ e, write fs x = .fail e fs) ∨
      ∃ c, content x = .ok c ∧ (overwrite = false → fs (pathOf x) = none) ∧
        write fs x = ⟨.ok (), (List.range (c.length + 1)).map fun k : ℕ =>
          fs.set (pathOf x) (c.take k), fs.set (pathOf x) c⟩) (fs : FS) (xs : List α) :
    Nonempty (PrefixRun content pathOf overwrite fs xs (writeAll write fs xs)) := by
  induction xs generalizing fs with
  | nil =>
    exact ⟨⟨[], le_rfl, List.Forall₂.nil, rfl, by simp [writeAll], by simp, by simp [writeAll]⟩⟩
  | cons x xs ih =>
    rcases hw fs x with ⟨e, he⟩ | ⟨c, hc, ho, he⟩
    · refine ⟨⟨[], by simp, by simp, ?_, ?_, by simp, ?_⟩⟩
      · unfold writeAll
        rw [he]
        rfl
      · unfold writeAll
        rw [he]
        constructor
        · intro h; cases h
        · intro h; cases h
      · unfold writeAll
        rw [he]
        intro st hst
        cases hst
    · obtain ⟨r⟩ := ih (fs.set (pathOf x) c)
      have hr : writeAll write fs (x :: xs) = ⟨(writeAll write (fs.set (pathOf x) c) xs).result,
          ((List.range (c.length + 1)).map fun k : ℕ => fs.set (pathOf x) (c.take k)) ++
            (writeAll write (fs.set (pathOf x) c) xs).during,
          (writeAll write (fs.set (pathOf x) c) xs).after⟩ := by
        rw [writeAll, he]
      rw [hr]
      refine ⟨⟨c :: r.texts, by simpa using r.count, ?_, ?_, ?_, ?_, ?_⟩⟩
      · simp only [List.length_cons, List.take_succ_cons]
        exact List.Forall₂.cons hc r.text
      · simp only [List.length_cons, List.take_succ_cons, List.map_cons, List.zip_cons_cons,
          Spec.written]
        rw [written_set]
        exact r.after
      · simp only [List.length_cons, Nat.add_right_cancel_iff]
        exact r.result
      · intro h
        obtain ⟨hn, hf⟩ := r.fresh h
        simp only [List.length_cons, List.take_succ_cons, List.map_cons, List.nodup_cons,
          List.mem_cons, forall_eq_or_imp]
        have hne : ∀ y ∈ xs.take r.texts.length, pathOf y ≠ pathOf x := by
          intro y hy heq
          have := hf y hy
          rw [heq, set_self] at this
          cases this
        refine ⟨⟨?_, hn⟩, ho h, fun y hy => ?_⟩
        · intro hm
          obtain ⟨y, hy, heq⟩ := List.mem_map.1 hm
          exact hne y hy heq
        · have := hf y hy
          rwa [set_onlyAt fs (pathOf x) c _ (hne y hy)] at this
      · intro st hst
        rcases List.mem_append.1 hst with hst | hst
        · obtain ⟨k, -, rfl⟩ := List.mem_map.1 hst
          refine ⟨0, c.take k, c, by simp, rfl, List.take_prefix _ _, ?_⟩
          simp only [List.length_cons, List.take_succ_cons, List.map_cons, List.take_zero,
            List.nil_append, List.zip_cons_cons, List.zip_nil_right, Spec.written]
          rfl
        · obtain ⟨j, t, c', hj, hc', ht, hst⟩ := r.during st hst
          refine ⟨j + 1, t, c', by simpa using hj, by simpa using hc', ht, ?_⟩
          rw [hst]
          simp only [List.length_cons, List.take_succ_cons, List.map_cons, List.cons_append,
            List.zip_cons_cons, Spec.written]
          rfl

/-- Positions as rows of coordinates; NaN arrays have NaN (`none`) everywhere. -/
def rowsOf {N : ℕ} (p : Option (Pos N ℝ)) : List (Fin 3 → Option ℝ) :=
  List.ofFn fun a i => p.map fun q => q a i

/-- The text of the POSCAR file for displaced positions. -/
noncomputable def displacedText {N : ℕ} (printable : Char → Bool) (s : RefStructure N)
    (p : Option (Pos N ℝ)) : Py (List Char) :=
  poscarContent printable (fun i j => some (s.lattice i j)) (List.ofFn s.atomicNumbers) (rowsOf p)
    "POSCAR written by ramannoodle".toList

theorem writePositionList_prefix {N : ℕ} (smallInt : ℕ) (printable : Char → Bool)
    (deny : Path → Option PyErr) (fs : FS) (s : RefStructure N)
    (positionList : List (Option (Pos N ℝ))) (paths : List Path) (fmt : Word) (overwrite : Bool)
    (run : WriteRun) (hrun : run = writePositionList smallInt printable deny fs s positionList paths
      fmt overwrite) :
    (run = .fail .valueError fs ∧ ¬ (paths.length = positionList.length ∧
      paths.length ≤ smallInt)) ∨
    paths.length = positionList.length ∧ paths.length ≤ smallInt ∧
    Nonempty (PrefixRun (fun x => displacedText printable s x.1) (fun x => x.2) overwrite fs
      (positionList.zip paths) run) := by
  subst hrun
  unfold writePositionList verifyListLen
  by_cases h : paths.length = positionList.length ∧ paths.length ≤ smallInt
  · rw [if_pos h]
    refine Or.inr ⟨h.1, h.2, ?_⟩
    exact writeAll_prefix (α := Option (Pos N ℝ) × Path)
      (fun x => displacedText printable s x.1) (fun x => x.2) overwrite _
      (fun fs x => genericWrite_cases printable deny fs _ _ _ x.2 fmt overwrite) fs _
  · rw [if_neg h]
    exact Or.inl ⟨rfl, h⟩

/-- The file paths an argument stands for. -/
inductive StandsFor : PathsArg → List Path → Prop
  | one (p : Path) : StandsFor (.one p) [p]
  | many (ps : List Path) : StandsFor (.many ps) ps

theorem pathify_standsFor {arg : PathsArg} {ps : List Path} (h : StandsFor arg ps) :
    (ps = [] ∧ pathifyAsList arg = .error .valueError) ∨ (ps ≠ [] ∧ pathifyAsList arg = .ok ps) := by
  cases h with
  | one p => exact Or.inr ⟨by simp, rfl⟩
  | many ps =>
    cases ps with
    | nil => exact Or.inl ⟨rfl, rfl⟩
    | cons p ps => exact Or.inr ⟨by simp, rfl⟩

theorem getDisplacedPositions_length {N : ℕ} {s : RefStructure N} {d : Pos N ℝ} {amps : List ℝ}
    {ps : List (Option (Pos N ℝ))} (h : getDisplacedPositions s d amps = .ok ps) :
    ps.length = amps.length := by
  unfold getDisplacedPositions at h
  exact ((mapM_except_ok _ _ _).1 h).length_eq.symm

theorem getAstDisplacedPositions_length {N : ℕ} {s : RefStructure N} {k : ℤ} {d : Vec3}
    {amps : List ℝ} {ps : List (Option (Pos N ℝ))}
    (h : getAstDisplacedPositions s k d amps = .ok ps) : ps.length = amps.length := by
  unfold getAstDisplacedPositions at h
  dsimp only at h
  cases hk : pyIndex N k with
  | none => rw [hk] at h; cases h
  | some k =>
    rw [hk] at h
    dsimp only at h
    cases hu : normalize d with
    | none => rw [hu] at h; exact ((mapM_except_ok _ _ _).1 h).length_eq.symm
    | some u => rw [hu] at h; exact getDisplacedPositions_length h

/-- `write_displaced_structures` computes positions with `get_displaced_positions`, then writes. -/
theorem writeDisplaced_cases {N : ℕ} (smallInt : ℕ) (printable : Char → Bool)
    (deny : Path → Option PyErr) (fs : FS) (s : RefStructure N) (d : Pos N ℝ) (amps : List ℝ)
    (arg : PathsArg) (paths : List Path) (hp : StandsFor arg paths) (fmt : Word)
    (overwrite : Bool) (run : WriteRun)
    (hrun : run = writeDisplacedStructures smallInt printable deny fs s d amps arg fmt overwrite) :
    (run = .fail .valueError fs ∧ paths = []) ∨
    (∃ e, run = .fail e fs ∧ getDisplacedPositions s d amps = .error e) ∨
    ∃ ps, getDisplacedPositions s d amps = .ok ps ∧
      run = writePositionList smallInt printable deny fs s ps paths fmt overwrite := by
  subst hrun
  unfold writeDisplacedStructures
  rcases pathify_standsFor hp with ⟨h, h'⟩ | ⟨-, h'⟩
  · rw [h']; exact Or.inl ⟨rfl, h⟩
  · rw [h']
    dsimp only
    cases hg : getDisplacedPositions s d amps with
    | error e => exact Or.inr (Or.inl ⟨e, rfl, rfl⟩)
    | ok ps => exact Or.inr (Or.inr ⟨ps, rfl, rfl⟩)

theorem writeAst_cases {N : ℕ} (smallInt : ℕ) (printable : Char → Bool)
    (deny : Path → Option PyErr) (fs : FS) (s : RefStructure N) (k : ℤ) (d : Vec3)
    (amps : List ℝ) (arg : PathsArg) (paths : List Path) (hp : StandsFor arg paths) (fmt : Word)
    (overwrite : Bool) (run : WriteRun)
    (hrun : run = writeAstDisplacedStructures smallInt printable deny fs s k d amps arg fmt
      overwrite) :
    (run = .fail .valueError fs ∧ paths = []) ∨
    (∃ e, run = .fail e fs ∧ getAstDisplacedPositions s k d amps = .error e) ∨
    ∃ ps, getAstDisplacedPositions s k d amps = .ok ps ∧
      run = writePositionList smallInt printable deny fs s ps paths fmt overwrite := by
  subst hrun
  unfold writeAstDisplacedStructures
  rcases pathify_standsFor hp with ⟨h, h'⟩ | ⟨-, h'⟩
  · rw [h']; exact Or.inl ⟨rfl, h⟩
  · rw [h']
    dsimp only
    cases hg : getAstDisplacedPositions s k d amps with
    | error e => exact Or.inr (Or.inl ⟨e, rfl, rfl⟩)
    | ok ps => exact Or.inr (Or.inr ⟨ps, rfl, rfl⟩)

/-- C23: with a different number of files and amplitudes (or more files than small integers) the
call raises and writes nothing; the exception is `ValueError` unless computing the positions
already failed. -/
theorem C23_file_count {N : ℕ} (smallInt : ℕ) (printable : Char → Bool)
    (deny : Path → Option PyErr) (fs : FS) (s : RefStructure N) (d : Pos N ℝ) (amps : List ℝ)
    (arg : PathsArg) (paths : List Path) (hp : StandsFor arg paths) (fmt : Word)
    (overwrite : Bool) (hlen : paths.length ≠ amps.length ∨ smallInt < paths.length)
    (run : WriteRun)
    (hrun : run = writeDisplacedStructures smallInt printable deny fs s d amps arg fmt overwrite) :
    run.after = fs ∧ run.during = [] ∧
    (run.result = .error .valueError ∨
      ∃ e, run.result = .error e ∧ getDisplacedPositions s d amps = .error e) ∧
    (s.lattice.det ≠ 0 → d ≠ 0 → run.result = .error .valueError) := by
  rcases writeDisplaced_cases smallInt printable deny fs s d amps arg paths hp fmt overwrite run
    hrun with ⟨rfl, -⟩ | ⟨e, rfl, he⟩ | ⟨ps, hps, hr⟩
  · exact ⟨rfl, rfl, Or.inl rfl, fun _ _ => rfl⟩
  · refine ⟨rfl, rfl, Or.inr ⟨e, rfl, he⟩, fun hL hd => ?_⟩
    obtain ⟨qs, hq, -⟩ := C21_displaced_positions s hL d hd amps
    rw [he] at hq
    cases hq
  · rcases writePositionList_prefix smallInt printable deny fs s ps paths fmt overwrite run hr with
      ⟨rfl, -⟩ | ⟨h1, h2, -⟩
    · exact ⟨rfl, rfl, Or.inl rfl, fun _ _ => rfl⟩
    · rw [getDisplacedPositions_length hps] at h1
      rcases hlen with h | h
      · exact absurd h1 h
      · omega

/-- C23: the same for one displaced atom. -/
theorem C23_file_count_ast {N : ℕ} (smallInt : ℕ) (printable : Char → Bool)
    (deny : Path → Option PyErr) (fs : FS) (s : RefStructure N) (k : ℤ) (d : Vec3)
    (amps : List ℝ) (arg : PathsArg) (paths : List Path) (hp : StandsFor arg paths) (fmt : Word)
    (overwrite : Bool) (hlen : paths.length ≠ amps.length ∨ smallInt < paths.length)
    (run : WriteRun)
    (hrun : run = writeAstDisplacedStructures smallInt printable deny fs s k d amps arg fmt
      overwrite) :
    run.after = fs ∧ run.during = [] ∧
    (run.result = .error .valueError ∨
      ∃ e, run.result = .error e ∧ getAstDisplacedPositions s k d amps = .error e) ∧
    (s.lattice.det ≠ 0 → d ≠ 0 → -(N : ℤ) ≤ k → k < N →
      run.result = .error .valueError) := by
  rcases writeAst_cases smallInt printable deny fs s k d amps arg paths hp fmt overwrite run
    hrun with ⟨rfl, -⟩ | ⟨e, rfl, he⟩ | ⟨ps, hps, hr⟩
  · exact ⟨rfl, rfl, Or.inl rfl, fun _ _ _ _ => rfl⟩
  · refine ⟨rfl, rfl, Or.inr ⟨e, rfl, he⟩, fun hL hd h1 h2 => ?_⟩
    have hne : pyIndex N k ≠ none := fun h => by
      rcases (pyIndex_none_iff _ _).1 h with h | h <;> omega
    obtain ⟨i, hi⟩ := Option.ne_none_iff_exists'.1 hne
    obtain ⟨qs, hq, -⟩ := C22_ast_displaced_positions s hL k i ((pyIndex_some_iff _ _ _).1 hi) d hd
      amps
    rw [he] at hq
    cases hq
  · rcases writePositionList_prefix smallInt printable deny fs s ps paths fmt overwrite run hr with
      ⟨rfl, -⟩ | ⟨h1, h2, -⟩
    · exact ⟨rfl, rfl, Or.inl rfl, fun _ _ _ _ => rfl⟩
    · rw [getAstDisplacedPositions_length hps] at h1
      rcases hlen with h | h
      · exact absurd h1 h
      · omega

/-- What C24 says of a run that was asked to write the texts of `ps` to `paths`. -/
def BatchOK {N : ℕ} (printable : Char → Bool) (s : RefStructure N) (fs : FS)
    (ps : List (Option (Pos N ℝ))) (paths : List Path) (overwrite : Bool) (run : WriteRun) :
    Prop :=
  ∃ texts : List (List Char),
    -- the texts of the first structures, one for each path
    texts.length ≤ ps.length ∧
    List.Forall₂ (fun p t => displacedText printable s p = .ok t) (ps.take texts.length) texts ∧
    -- in the end exactly these have been written, in order
    run.after = Spec.written fs ((paths.take texts.length).zip texts) ∧
    -- all of them if and only if the call returns
    (run.result = .ok () ↔ texts.length = ps.length) ∧
    -- without `overwrite` the files written were new
    (overwrite = false → (paths.take texts.length).Nodup ∧
      ∀ p ∈ paths.take texts.length, fs p = none) ∧
    -- a crash leaves some files finished and at most one incomplete
    ∀ st ∈ run.during, ∃ j t c, texts[j]? = some c ∧ t <+: c ∧
      st = Spec.written fs ((paths.take (j + 1)).zip (texts.take j ++ [t]))

theorem batchOK_of_prefix {N : ℕ} {printable : Char → Bool} {s : RefStructure N} {fs : FS}
    {ps : List (Option (Pos N ℝ))} {paths : List Path} {overwrite : Bool} {run : WriteRun}
    (hlen : paths.length = ps.length)
    (r : PrefixRun (fun x => displacedText printable s x.1) (fun x => x.2) overwrite fs
      (ps.zip paths) run) : BatchOK printable s fs ps paths overwrite run := by
  have hz : (ps.zip paths).length = ps.length := by simp [hlen]
  have hfst : ∀ k, ((ps.zip paths).take k).map Prod.fst = ps.take k := by
    intro k
    rw [List.map_take, List.map_fst_zip (by omega)]
  have hsnd : ∀ k, ((ps.zip paths).take k).map (fun x => x.2) = paths.take k := by
    intro k
    change List.map Prod.snd _ = _
    rw [List.map_take, List.map_snd_zip (by omega)]
  refine ⟨r.texts, by rw [← hz]; exact r.count, ?_, ?_, ?_, ?_, ?_⟩
  · rw [← hfst, List.forall₂_map_left_iff]
    exact r.text
  · rw [r.after, hsnd]
  · rw [r.result, hz]
  · intro h
    obtain ⟨h1, h2⟩ := r.fresh h
    rw [hsnd] at h1
    refine ⟨h1, fun p hp => ?_⟩
    rw [← hsnd] at hp
    obtain ⟨x, hx, rfl⟩ := List.mem_map.1 hp
    exact h2 x hx
  · intro st hst
    obtain ⟨j, t, c, hj, hc, ht, hs⟩ := r.during st hst
    refine ⟨j, t, c, hc, ht, ?_⟩
    rw [hs, hsnd, List.take_take, min_eq_left (by omega)]

/-- C24: files are written one after the other; see `BatchOK`. -/
theorem C24_prefix {N : ℕ} (smallInt : ℕ) (printable : Char → Bool)
    (deny : Path → Option PyErr) (fs : FS) (s : RefStructure N) (d : Pos N ℝ) (amps : List ℝ)
    (arg : PathsArg) (paths : List Path) (hp : StandsFor arg paths) (fmt : Word)
    (overwrite : Bool) (run : WriteRun)
    (hrun : run = writeDisplacedStructures smallInt printable deny fs s d amps arg fmt overwrite) :
    ((∃ e, run.result = .error e) ∧ run.after = fs ∧ run.during = []) ∨
    ∃ ps, getDisplacedPositions s d amps = .ok ps ∧ ps.length = paths.length ∧
      BatchOK printable s fs ps paths overwrite run := by
  rcases writeDisplaced_cases smallInt printable deny fs s d amps arg paths hp fmt overwrite run
    hrun with ⟨rfl, -⟩ | ⟨e, rfl, he⟩ | ⟨ps, hps, hr⟩
  · exact Or.inl ⟨⟨_, rfl⟩, rfl, rfl⟩
  · exact Or.inl ⟨⟨_, rfl⟩, rfl, rfl⟩
  · rcases writePositionList_prefix smallInt printable deny fs s ps paths fmt overwrite run hr with
      ⟨rfl, -⟩ | ⟨h1, h2, ⟨r⟩⟩
    · exact Or.inl ⟨⟨_, rfl⟩, rfl, rfl⟩
    · exact Or.inr ⟨ps, hps, h1.symm, batchOK_of_prefix h1 r⟩

/-- C24: the same for one displaced atom. -/
theorem C24_prefix_ast {N : ℕ} (smallInt : ℕ) (printable : Char → Bool)
    (deny : Path → Option PyErr) (fs : FS) (s : RefStructure N) (k : ℤ) (d : Vec3)
    (amps : List ℝ) (arg : PathsArg) (paths : List Path) (hp : StandsFor arg paths) (fmt : Word)
    (overwrite : Bool) (run : WriteRun)
    (hrun : run = writeAstDisplacedStructures smallInt printable deny fs s k d amps arg fmt
      overwrite) :
    ((∃ e, run.result = .error e) ∧ run.after = fs ∧ run.during = []) ∨
    ∃ ps, getAstDisplacedPositions s k d amps = .ok ps ∧ ps.length = paths.length ∧
      BatchOK printable s fs ps paths overwrite run := by
  rcases writeAst_cases smallInt printable deny fs s k d amps arg paths hp fmt overwrite run
    hrun with ⟨rfl, -⟩ | ⟨e, rfl, he⟩ | ⟨ps, hps, hr⟩
  · exact Or.inl ⟨⟨_, rfl⟩, rfl, rfl⟩
  · exact Or.inl ⟨⟨_, rfl⟩, rfl, rfl⟩
  · rcases writePositionList_prefix smallInt printable deny fs s ps paths fmt overwrite run hr with
      ⟨rfl, -⟩ | ⟨h1, h2, ⟨r⟩⟩
    · exact Or.inl ⟨⟨_, rfl⟩, rfl, rfl⟩
    · exact Or.inr ⟨ps, hps, h1.symm, batchOK_of_prefix h1 r⟩

theorem written_not_mem {P T : Type} [DecidableEq P] (old : P → Option T) (l : List (P × T))
    (p : P) (h : ∀ x ∈ l, x.1 ≠ p) : Spec.written old l p = old p := by
  induction l generalizing old with
  | nil => rfl
  | cons x l ih =>
    obtain ⟨q, c⟩ := x
    rw [Spec.written, ih _ fun y hy => h y (by simp [hy])]
    exact if_neg (fun heq => h (q, c) (by simp) heq.symm)

/-- Writing new files keeps the old ones. -/
theorem written_preserved {fs : FS} {paths : List Path} {texts : List (List Char)}
    (h : ∀ p ∈ paths, fs p = none) : Spec.Preserved fs (Spec.written fs (paths.zip texts)) := by
  intro p c hp
  rw [written_not_mem, hp]
  rintro ⟨q, t⟩ hx rfl
  rw [h q (List.of_mem_zip hx).1] at hp
  cases hp

theorem preserved_of_batch {N : ℕ} {printable : Char → Bool} {s : RefStructure N} {fs : FS}
    {ps : List (Option (Pos N ℝ))} {paths : List Path} {run : WriteRun}
    (h : BatchOK printable s fs ps paths false run) :
    ∀ st ∈ run.after :: run.during, Spec.Preserved fs st := by
  obtain ⟨texts, -, -, ha, -, hf, hd⟩ := h
  have hf := (hf rfl).2
  intro st hst
  rcases List.mem_cons.1 hst with rfl | hst
  · rw [ha]
    exact written_preserved hf
  · obtain ⟨j, t, c, hc, -, rfl⟩ := hd st hst
    refine written_preserved fun p hp => hf p ?_
    have hj : j < texts.length := (List.getElem?_eq_some_iff.1 hc).1
    exact (List.take_subset_take_left paths (show j + 1 ≤ texts.length by omega)) hp

/-- C24: without `overwrite`, no existing file ever changes, whatever fails and whenever the
process stops. -/
theorem C24_never_overwrites {N : ℕ} (smallInt : ℕ) (printable : Char → Bool)
    (deny : Path → Option PyErr) (fs : FS) (s : RefStructure N) (d : Pos N ℝ) (amps : List ℝ)
    (arg : PathsArg) (fmt : Word) (run : WriteRun)
    (hrun : run = writeDisplacedStructures smallInt printable deny fs s d amps arg fmt false) :
    ∀ st ∈ run.after :: run.during, Spec.Preserved fs st := by
  obtain ⟨paths, hp⟩ : ∃ paths, StandsFor arg paths := by
    cases arg with
    | one p => exact ⟨_, .one p⟩
    | many ps => exact ⟨_, .many ps⟩
  rcases C24_prefix smallInt printable deny fs s d amps arg paths hp fmt false run hrun with
    ⟨-, h1, h2⟩ | ⟨ps, -, -, h⟩
  · intro st hst
    rw [h1, h2] at hst
    rw [show st = fs by simpa using hst]
    exact fun _ _ h => h
  · exact preserved_of_batch h

theorem C24_never_overwrites_ast {N : ℕ} (smallInt : ℕ) (printable : Char → Bool)
    (deny : Path → Option PyErr) (fs : FS) (s : RefStructure N) (k : ℤ) (d : Vec3)
    (amps : List ℝ) (arg : PathsArg) (fmt : Word) (run : WriteRun)
    (hrun : run = writeAstDisplacedStructures smallInt printable deny fs s k d amps arg fmt false) :
    ∀ st ∈ run.after :: run.during, Spec.Preserved fs st := by
  obtain ⟨paths, hp⟩ : ∃ paths, StandsFor arg paths := by
    cases arg with
    | one p => exact ⟨_, .one p⟩
    | many ps => exact ⟨_, .many ps⟩
  rcases C24_prefix_ast smallInt printable deny fs s k d amps arg paths hp fmt false run hrun with
    ⟨-, h1, h2⟩ | ⟨ps, -, -, h⟩
  · intro st hst
    rw [h1, h2] at hst
    rw [show st = fs by simpa using hst]
    exact fun _ _ h => h
  · exact preserved_of_batch h

/-- Distinct files keep what was written to them. -/
theorem written_nodup {P T : Type} [DecidableEq P] (old : P → Option T) (ps : List P) (ts : List T)
    (hn : ps.Nodup) (i : ℕ) (p : P) (t : T) (hp : ps[i]? = some p) (ht : ts[i]? = some t) :
    Spec.written old (ps.zip ts) p = some t := by
  induction ps generalizing old ts i with
  | nil => simp at hp
  | cons q ps ih =>
    cases ts with
    | nil => simp at ht
    | cons u ts =>
      rw [List.zip_cons_cons, Spec.written]
      rw [List.nodup_cons] at hn
      cases i with
      | zero =>
        simp only [List.getElem?_cons_zero, Option.some.injEq] at hp ht
        subst hp ht
        rw [written_not_mem]
        · exact if_pos rfl
        · rintro ⟨r, v⟩ hr rfl
          exact hn.1 (List.of_mem_zip hr).1
      | succ i => exact ih _ ts hn.2 i (by simpa using hp) (by simpa using ht)

/-- C24: when the call returns and the paths are distinct, file `i` reads back as structure
`i`. -/
theorem C24_read_back {N : ℕ} (smallInt : ℕ) (printable : Char → Bool)
    (ext : NumMat → Py NumMat)
    (deny : Path → Option PyErr) (fs : FS) (s : RefStructure N) (d : Pos N ℝ) (amps : List ℝ)
    (arg : PathsArg) (paths : List Path) (hp : StandsFor arg paths) (hn : paths.Nodup) (fmt : Word)
    (overwrite : Bool) (run : WriteRun)
    (hrun : run = writeDisplacedStructures smallInt printable deny fs s d amps arg fmt overwrite)
    (hok : run.result = .ok ()) :
    ∃ ps, getDisplacedPositions s d amps = .ok ps ∧ List.Forall₂ (fun p path =>
      ∃ content r, readFile run.after path = .ok content ∧ readStructure ext content = .ok r ∧
        r.atomicNumbers = List.ofFn s.atomicNumbers ∧
        (∀ i, Spec.RoundedVec (fun j => some (s.lattice i j)) (r.lattice i)) ∧
        List.Forall₂ Spec.RoundedVec (rowsOf p) r.positions) ps paths := by
  rcases C24_prefix smallInt printable deny fs s d amps arg paths hp fmt overwrite run hrun with
    ⟨⟨e, h⟩, -⟩ | ⟨ps, hps, hlen, texts, -, htext, hafter, hres, -⟩
  · rw [h] at hok; cases hok
  · have hl := hres.1 hok
    refine ⟨ps, hps, ?_⟩
    rw [hl, List.take_length] at htext
    rw [hl, hlen, List.take_length] at hafter
    rw [List.forall₂_iff_get]
    refine ⟨hlen, fun i h1 h2 => ?_⟩
    have hi : i < texts.length := by omega
    have htx := (List.forall₂_iff_get.1 htext).2 i h1 hi
    obtain ⟨r, hr⟩ := C60_roundtrip printable ext _ _ _ _ _ htx
    refine ⟨texts[i], r, ?_, hr⟩
    unfold readFile
    have hw := written_nodup fs paths texts hn i (paths.get ⟨i, h2⟩) texts[i] (by simp) (by simp)
    rw [hafter, hw]

/-- C23/C24, concrete: one amplitude and two files. -/
example (fs : FS) (s : RefStructure 1) (d : Pos 1 ℝ) :
    (writeDisplacedStructures 256 (fun _ => true) (fun _ => none) fs s d [0.1]
      (.many ["a".toList, "b".toList]) "poscar".toList true).after = fs :=
  (C23_file_count 256 _ _ fs s d [0.1] _ _ (.many _) _ true (Or.inl (by simp)) _ rfl).1

end Verif
