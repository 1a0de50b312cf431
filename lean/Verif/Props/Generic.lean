import Verif.Model.Generic
import Verif.Props.OutcarErrors
import Verif.Props.VasprunPhonons
import Verif.Props.DatasetFiles

/-!
# C73: dispatch of the generic readers and writers
-/

namespace Verif

/-- A generic function is faithful to the functions of the supported formats: results are passed on,
errors as well, except that `KeyError` becomes `ValueError`; all other formats are refused with
`ValueError`. -/
structure Faithful {α : Type} (supported : List (Word × Py α)) (generic : Word → Py α) : Prop where
  results : ∀ f r, (f, r) ∈ supported → ∀ a, generic f = .ok a ↔ r = .ok a
  errors : ∀ f r, (f, r) ∈ supported → ∀ e, e ≠ .keyError → e ≠ .valueError →
    (generic f = .error e ↔ r = .error e)
  valueError : ∀ f r, (f, r) ∈ supported →
    (generic f = .error .valueError ↔ r = .error .valueError ∨ r = .error .keyError)
  unsupported : ∀ f, f ∉ supported.map (·.1) → generic f = .error .valueError

theorem dictGet_mem {α β : Type} [DecidableEq α] (t : List (α × β)) (hnd : (t.map (·.1)).Nodup)
    (k : α) (v : β) (h : (k, v) ∈ t) : dictGet t k = some v := by
  induction t with
  | nil => simp at h
  | cons x xs ih =>
    obtain ⟨k', v'⟩ := x
    rw [List.map_cons, List.nodup_cons] at hnd
    rw [dictGet]
    rcases List.mem_cons.1 h with h | h
    · cases h; rw [if_pos rfl]
    · rw [if_neg, ih hnd.2 h]
      rintro rfl
      exact hnd.1 (List.mem_map_of_mem (f := (·.1)) h)

theorem dictGet_not_mem {α β : Type} [DecidableEq α] (t : List (α × β)) (k : α)
    (h : k ∉ t.map (·.1)) : dictGet t k = none := by
  induction t with
  | nil => rfl
  | cons x xs ih =>
    obtain ⟨k', v'⟩ := x
    simp only [List.map_cons, List.mem_cons, not_or] at h
    rw [dictGet, if_neg (fun hh => h.1 hh.symm), ih h.2]

theorem dispatch_faithful {α β : Type} (table : List (Word × (α → Py β)))
    (hnd : (table.map (·.1)).Nodup) (arg : α) :
    Faithful (table.map fun x => (x.1, x.2 arg)) (fun f => dispatch table f arg) := by
  have key : ∀ f r, (f, r) ∈ table.map (fun x => (x.1, x.2 arg)) →
      dispatch table f arg = catchKeyError r := by
    intro f r h
    obtain ⟨⟨f', g⟩, hx, hy⟩ := List.mem_map.1 h
    obtain ⟨h1, h2⟩ := Prod.mk.inj hy
    dsimp only at h1 h2
    subst h1 h2
    unfold dispatch
    rw [dictGet_mem table hnd f' g hx]
  refine ⟨?_, ?_, ?_, ?_⟩
  · intro f r h a
    rw [key f r h]
    unfold catchKeyError
    split <;> simp_all
  · intro f r h e h1 h2
    rw [key f r h]
    unfold catchKeyError
    split
    · simp [h1.symm, h2.symm]
    · rfl
  · intro f r h
    rw [key f r h]
    unfold catchKeyError
    split
    · simp
    · rename_i r hr
      constructor
      · intro h; exact Or.inl h
      · rintro (h | h)
        · exact h
        · exact absurd h hr
  · intro f h
    have hf : f ∉ table.map (·.1) := by
      rwa [List.map_map] at h
    unfold dispatch
    rw [dictGet_not_mem table f hf]
    rfl

theorem two_nodup : ["outcar".toList, "vasprun.xml".toList].Nodup := by decide

theorem wr2_nodup : ["poscar".toList, "xdatcar".toList].Nodup := by decide

theorem four_nodup :
    ["poscar".toList, "outcar".toList, "xdatcar".toList, "vasprun.xml".toList].Nodup := by decide

variable {R : Type}

/-- C73: `read_phonons`. -/
theorem C73_phonons (env : Env R) (path : Path) :
    Faithful [("outcar".toList, env.outcarPhonons path),
      ("vasprun.xml".toList, env.withXml (vasprunReadPhonons env.ext) path)]
      (genericReadPhonons env path) :=
  dispatch_faithful [("outcar".toList, env.outcarPhonons),
    ("vasprun.xml".toList, env.withXml (vasprunReadPhonons env.ext))] two_nodup path

/-- C73: `read_trajectory`. -/
theorem C73_trajectory (env : Env R) (path : Path) :
    Faithful [("outcar".toList, env.withFile (outcarReadTrajectory env.ext) path),
      ("vasprun.xml".toList, env.withXml vasprunTrajectory path)]
      (genericReadTrajectory env path) :=
  dispatch_faithful [("outcar".toList, env.withFile (outcarReadTrajectory env.ext)),
    ("vasprun.xml".toList, env.withXml vasprunTrajectory)] two_nodup path

/-- C73: `read_positions_and_polarizability`. -/
theorem C73_positions_and_polarizability (env : Env R) (path : Path) :
    Faithful [("outcar".toList, env.withFile outcarPositionsAndPolarizability path),
      ("vasprun.xml".toList, env.withXml vasprunPositionsAndPolarizability path)]
      (genericReadPositionsAndPolarizability env path) :=
  dispatch_faithful [("outcar".toList, env.withFile outcarPositionsAndPolarizability),
    ("vasprun.xml".toList, env.withXml vasprunPositionsAndPolarizability)] two_nodup path

/-- C73: `read_structure_and_polarizability`. -/
theorem C73_structure_and_polarizability (env : Env R) (path : Path) :
    Faithful [("outcar".toList, env.withFile outcarStructureAndPolarizability path),
      ("vasprun.xml".toList, env.withXml vasprunStructureAndPolarizability path)]
      (genericReadStructureAndPolarizability env path) :=
  dispatch_faithful [("outcar".toList, env.withFile outcarStructureAndPolarizability),
    ("vasprun.xml".toList, env.withXml vasprunStructureAndPolarizability)] two_nodup path

/-- C73: `read_positions`; the reader of POSCAR files also reads XDATCAR files. -/
theorem C73_positions (env : Env R) (path : Path) :
    Faithful [("poscar".toList, env.poscarPositions path),
      ("outcar".toList, env.withFile outcarPositions path),
      ("xdatcar".toList, env.poscarPositions path),
      ("vasprun.xml".toList, env.withXml vasprunPositions path)]
      (genericReadPositions env path) :=
  dispatch_faithful [("poscar".toList, env.poscarPositions),
    ("outcar".toList, env.withFile outcarPositions), ("xdatcar".toList, env.poscarPositions),
    ("vasprun.xml".toList, env.withXml vasprunPositions)] four_nodup path

/-- C73: `read_ref_structure`. -/
theorem C73_ref_structure (env : Env R) (path : Path) :
    Faithful [("poscar".toList, env.poscarRef path), ("outcar".toList, env.outcarRef path),
      ("xdatcar".toList, env.poscarRef path), ("vasprun.xml".toList, env.vasprunRef path)]
      (genericReadRefStructure env path) :=
  dispatch_faithful [("poscar".toList, env.poscarRef), ("outcar".toList, env.outcarRef),
    ("xdatcar".toList, env.poscarRef), ("vasprun.xml".toList, env.vasprunRef)] four_nodup path

/-- C73: `read_polarizability_dataset`; without PyTorch it is refused for every format. -/
theorem C73_dataset (env : Env R) (paths : PathsArg) :
    (env.torch = true → Faithful [("outcar".toList, env.outcarDataset paths),
      ("vasprun.xml".toList, env.vasprunDataset paths)] (genericReadDataset env paths)) ∧
    (env.torch = false → ∀ f, genericReadDataset env paths f = .error .userError) := by
  constructor
  · intro ht
    have : genericReadDataset env paths = fun f => dispatch [("outcar".toList, env.outcarDataset),
        ("vasprun.xml".toList, env.vasprunDataset)] f paths := by
      funext f
      unfold genericReadDataset
      rw [if_neg (by simp [ht])]
    rw [this]
    exact dispatch_faithful [("outcar".toList, env.outcarDataset),
      ("vasprun.xml".toList, env.vasprunDataset)] two_nodup paths
  · intro ht f
    unfold genericReadDataset
    rw [if_pos ht]

/-- C73: OUTCAR files never raise `KeyError`, so for them the generic readers of structures do
exactly what the OUTCAR readers do. -/
theorem C73_outcar_exact (env : Env R) (path : Path) :
    genericReadPositions env path "outcar".toList = env.withFile outcarPositions path ∧
    genericReadPositionsAndPolarizability env path "outcar".toList =
      env.withFile outcarPositionsAndPolarizability path ∧
    genericReadStructureAndPolarizability env path "outcar".toList =
      env.withFile outcarStructureAndPolarizability path := by
  have key : ∀ {α : Type} {g : Word → Py α} {l : List (Word × Py α)} {r : Py α},
      Faithful l g → ("outcar".toList, r) ∈ l → r ≠ .error .keyError → g "outcar".toList = r := by
    intro α g l r hF hm hk
    cases r with
    | ok a => exact (hF.results _ _ hm a).2 rfl
    | error e =>
      by_cases hv : e = .valueError
      · subst hv; exact (hF.valueError _ _ hm).2 (Or.inl rfl)
      · exact (hF.errors _ _ hm e (fun h => hk (by rw [h])) hv).2 rfl
  have hfile : ∀ {α : Type} {f : List Char → Py α}, (∀ c, OnlyErr FileErr (f c)) →
      env.withFile f path ≠ .error .keyError := by
    intro α f hf h
    unfold Env.withFile readFile at h
    cases hp : env.fs path with
    | none => rw [hp] at h; cases h
    | some c =>
      rw [hp] at h
      rcases hf c _ h with h' | h' <;> cases h'
  refine ⟨key (C73_positions env path) (by simp) (hfile fun c => (C95_structures c).1),
    key (C73_positions_and_polarizability env path) (by simp) (hfile fun c => (C95_structures c).2.1),
    key (C73_structure_and_polarizability env path) (by simp)
      (hfile fun c => (C95_structures c).2.2.1)⟩

/-- C73: a `vasprun.xml` file with an unknown element is reported as an unsupported format. -/
theorem C73_misreported (env : Env R) (path : Path) (content : List Char)
    (hf : env.fs path = some content)
    (hp : env.parse content = .ok (sampleRoot (el "rc" none [el "c" (some "Xx ") []]))) :
    env.vasprunRef path = .error .keyError ∧
      genericReadRefStructure env path "vasprun.xml".toList = .error .valueError := by
  have h : env.vasprunRef path = .error .keyError := by
    unfold Env.vasprunRef Env.withXml Env.withFile readFile
    rw [hf]
    change (env.parse content >>= _) = _
    rw [hp]
    dsimp only [bind, Except.bind]
    rw [C97_other_errors.2]
  exact ⟨h, ((C73_ref_structure env path).valueError "vasprun.xml".toList _ (by simp)).2 (Or.inr h)⟩

/-- C73: the generic reader of reference structures hands the atomic numbers, the lattice and the
positions of a POSCAR (or XDATCAR) file to the constructor, in this order and row by row. -/
theorem C73_poscar_reference (env : Env R) (path : Path) (content : List Char)
    (hf : env.fs path = some content) (f : Word)
    (h : f ∈ ["poscar".toList, "xdatcar".toList]) :
    (∀ s, readStructure env.ext content = .ok s → ∀ r,
      (genericReadRefStructure env path f = .ok r ↔
        env.mkRef s.atomicNumbers (List.ofFn fun i => List.ofFn fun j => s.lattice i j)
          (s.positions.map fun p => List.ofFn p) = .ok r)) ∧
    (∀ e, e ≠ .keyError → readStructure env.ext content = .error e →
      genericReadRefStructure env path f = .error e) := by
  have hg : genericReadRefStructure env path f = catchKeyError (env.poscarRef path) := by
    simp only [List.mem_cons, List.not_mem_nil, or_false] at h
    rcases h with rfl | rfl <;> rfl
  have hr : env.poscarRef path = (readStructure env.ext content >>= fun s =>
      env.mkRef s.atomicNumbers (matRows s.lattice) (vecRows s.positions)) := by
    unfold Env.poscarRef Env.withFile readFile
    rw [hf]
    rfl
  constructor
  · intro s hs r
    have h1 : matRows s.lattice = List.ofFn fun i => List.ofFn fun j => s.lattice i j := by
      simp [matRows, List.ofFn_succ]
    have h2 : vecRows s.positions = s.positions.map fun p => List.ofFn p := by
      unfold vecRows
      refine List.map_congr_left fun p _ => ?_
      simp [List.ofFn_succ]
    rw [hg, hr, hs, ← h1, ← h2]
    change catchKeyError (env.mkRef s.atomicNumbers (matRows s.lattice) (vecRows s.positions))
      = .ok r ↔ _
    unfold catchKeyError
    split <;> simp_all
  · intro e he hs
    rw [hg, hr, hs]
    change catchKeyError (.error e) = .error e
    unfold catchKeyError
    split
    · rename_i h'
      exact absurd (Except.error.inj h') he
    · rfl

/-- C73: phonons of an OUTCAR file are passed on unchanged. -/
theorem C73_outcar_phonons (env : Env R) (path : Path) (content : List Char)
    (hf : env.fs path = some content) (p : OutcarPhonons)
    (hp : outcarReadPhonons env.linAlgIsValue env.ext content = .ok p) :
    ∃ q, genericReadPhonons env path "outcar".toList = .ok q ∧
      q.refPositions = p.refPositions ∧ q.displacements = p.displacements ∧
      List.Forall₂ (fun (w : Num) (x : Option ℝ) =>
        (∀ v : ℚ, w = some v → x = some (v : ℝ)) ∧ (w = none → x = none))
        p.wavenumbers q.wavenumbers := by
  refine ⟨p.toReal, ?_, rfl, rfl, ?_⟩
  · refine ((C73_phonons env path).results "outcar".toList _ List.mem_cons_self _).2 ?_
    unfold Env.outcarPhonons Env.withFile readFile
    rw [hf]
    change (outcarReadPhonons env.linAlgIsValue env.ext content >>= _) = _
    rw [hp]
    rfl
  · unfold OutcarPhonons.toReal
    dsimp only
    rw [List.forall₂_map_right_iff, List.forall₂_same]
    rintro w -
    exact ⟨fun v hv => by rw [hv]; rfl, fun hv => by rw [hv]; rfl⟩

/-- C77: the lattice, atomic numbers, positions and polarizability entering a dataset are those read
from the file, entry by entry. -/
theorem C77_sample (s : OutcarStructure) (x : FileSample) (h : typedSample s = .ok x) :
    x.atomicNumbers = s.atomicNumbers ∧
    (∃ L : Fin 3 → Fin 3 → ℚ, s.lattice = (List.ofFn fun i => List.ofFn fun j => some (L i j)) ∧
      ∀ i j, x.lattice i j = L i j) ∧
    (∃ A : Fin 3 → Fin 3 → ℚ,
      s.polarizability = (List.ofFn fun i => List.ofFn fun j => some (A i j)) ∧
      ∀ i j, x.polarizability i j = A i j) ∧
    List.Forall₂ (fun row (p : Fin 3 → ℝ) => ∃ v : Fin 3 → ℚ, row = (List.ofFn fun j => some (v j)) ∧
      ∀ j, p j = v j) s.positions x.positions := by
  have hvec : ∀ (r : List Num) (v : NumVec), toVec r = some v → (∀ i, (v i).isSome) →
      r = List.ofFn fun j => some ((v j).getD 0) := by
    intro r v hv hi
    rw [toVec_eq_some hv]
    have : ∀ j, some ((v j).getD 0) = v j := fun j => by
      obtain ⟨y, hy⟩ := Option.isSome_iff_exists.1 (hi j)
      rw [hy]; rfl
    simp only [this]
    simp [List.ofFn_succ]
  have hmat : ∀ (a : List (List Num)) (m : Mat3 ℝ), finiteMat a = some m →
      ∃ L : Fin 3 → Fin 3 → ℚ, a = (List.ofFn fun i => List.ofFn fun j => some (L i j)) ∧
        ∀ i j, m i j = L i j := by
    intro a m hm
    unfold finiteMat at hm
    split at hm
    · cases hm
    rename_i n hn
    split_ifs at hm with hs
    obtain rfl := Option.some.inj hm
    refine ⟨fun i j => (n i j).getD 0, ?_, fun i j => rfl⟩
    unfold toMat at hn
    split at hn
    · rename_i v0 v1 v2 hv
      obtain rfl := Option.some.inj hn
      rw [mapM_toVec_eq_some hv]
      have : ∀ i j, some (((![v0, v1, v2] : NumMat) i j).getD 0) = (![v0, v1, v2] : NumMat) i j :=
        fun i j => by
          obtain ⟨y, hy⟩ := Option.isSome_iff_exists.1 (hs i j)
          rw [hy]; rfl
      simp only [this]
      simp [List.ofFn_succ]
    · cases hn
  unfold typedSample at h
  split at h
  · rename_i l p a hl hp ha
    obtain rfl := Except.ok.inj h
    refine ⟨rfl, hmat _ _ hl, hmat _ _ ha, ?_⟩
    unfold finiteRows at hp
    refine ((mapM_option_iff _ _ _).1 hp).imp fun row p hrow => ?_
    split at hrow
    · cases hrow
    rename_i v hv
    split_ifs at hrow with hi
    obtain rfl := Option.some.inj hrow
    exact ⟨fun j => (v j).getD 0, hvec _ _ hv hi, fun j => rfl⟩
  · cases h

/-- C77, concrete: a file with one hydrogen atom. -/
example : ∃ x, typedSample ⟨[[some 2, some 0, some 0], [some 0, some 3, some 0], [some 0, some 0, some 4]],
    [1], [[some (1 / 2), some 0, some 0]],
    [[some 5, some 0, some 0], [some 0, some 5, some 0], [some 0, some 0, some 7]]⟩ = .ok x :=
  ⟨_, rfl⟩

/-- C73, concrete: a POSCAR read through the generic function (with the identity as constructor). -/
example : ∃ (env : Env (List ℕ)) (s : ReadStructure), env.fs ['f'] = some
      "c\n1\n1 0 0\n0 1 0\n0 0 1\nH\n1\nD\n0 0 0\n".toList ∧
    readStructure env.ext "c\n1\n1 0 0\n0 1 0\n0 0 1\nH\n1\nD\n0 0 0\n".toList = .ok s ∧
    genericReadRefStructure env ['f'] "poscar".toList = .ok s.atomicNumbers := by
  let env : Env (List ℕ) := ⟨fun _ => some "c\n1\n1 0 0\n0 1 0\n0 0 1\nH\n1\nD\n0 0 0\n".toList,
    fun _ => .error .invalidFile, fun _ => .error .linAlgError, true, fun n _ _ => .ok n, true⟩
  have h : ∃ s, readStructure env.ext "c\n1\n1 0 0\n0 1 0\n0 0 1\nH\n1\nD\n0 0 0\n".toList = .ok s := by
    have h1 : (match readStructure env.ext
        "c\n1\n1 0 0\n0 1 0\n0 0 1\nH\n1\nD\n0 0 0\n".toList with
        | .ok _ => true | .error _ => false) = true := by decide +kernel
    split at h1
    · rename_i s hs; exact ⟨s, hs⟩
    · cases h1
  obtain ⟨s, hs⟩ := h
  exact ⟨env, s, rfl, hs, ((C73_poscar_reference env ['f'] _ rfl _ List.mem_cons_self).1 s hs _).2 rfl⟩

/-- C73: a missing file is reported as such by every reader of a supported format. -/
theorem C73_missing_file (env : Env R) (path : Path) (hf : env.fs path = none) (f : Word)
    (h : f ∈ ["poscar".toList, "outcar".toList, "xdatcar".toList, "vasprun.xml".toList]) :
    genericReadPositions env path f = .error .fileNotFoundError ∧
      genericReadRefStructure env path f = .error .fileNotFoundError := by
  have hr : ∀ {α : Type} (g : List Char → Py α), env.withFile g path = .error .fileNotFoundError := by
    intro α g
    unfold Env.withFile readFile
    rw [hf]
    rfl
  have hx : ∀ {α : Type} (g : Elem → Py α), env.withXml g path = .error .fileNotFoundError :=
    fun g => hr _
  have h1 := (C73_positions env path).errors
  have h2 := (C73_ref_structure env path).errors
  simp only [List.mem_cons, List.not_mem_nil, or_false] at h
  rcases h with rfl | rfl | rfl | rfl
  · exact ⟨(h1 "poscar".toList (env.poscarPositions path) (by simp) _ (by decide) (by decide)).2 (hr _),
      (h2 "poscar".toList (env.poscarRef path) (by simp) _ (by decide) (by decide)).2 (hr _)⟩
  · exact ⟨(h1 "outcar".toList (env.withFile outcarPositions path) (by simp) _ (by decide)
        (by decide)).2 (hr _),
      (h2 "outcar".toList (env.outcarRef path) (by simp) _ (by decide) (by decide)).2 (hr _)⟩
  · exact ⟨(h1 "xdatcar".toList (env.poscarPositions path) (by simp) _ (by decide) (by decide)).2 (hr _),
      (h2 "xdatcar".toList (env.poscarRef path) (by simp) _ (by decide) (by decide)).2 (hr _)⟩
  · exact ⟨(h1 "vasprun.xml".toList (env.withXml vasprunPositions path) (by simp) _ (by decide)
        (by decide)).2 (hx _),
      (h2 "vasprun.xml".toList (env.vasprunRef path) (by simp) _ (by decide) (by decide)).2 (hx _)⟩

section
variable {K : Type} [Field K] [LinearOrder K] [IsStrictOrderedRing K] [FloorRing K]

theorem catchKeyError_result (r : WriteRun) :
    r.catchKeyError.result = catchKeyError r.result ∧ r.catchKeyError.after = r.after ∧
      r.catchKeyError.during = r.during := by
  unfold WriteRun.catchKeyError catchKeyError
  split
  · rename_i h; rw [h]; exact ⟨rfl, rfl, rfl⟩
  · rename_i h
    refine ⟨?_, rfl, rfl⟩
    split
    · rename_i h'; exact absurd h' h
    · rfl

/-- C73: `write_structure` writes POSCAR files for the formats `poscar` and `xdatcar` and refuses
every other format without touching a file. -/
theorem C73_write_structure (printable : Char → Bool) (deny : Path → Option PyErr) (fs : FS)
    (lattice : Fin 3 → Fin 3 → Option K) (numbers : List ℕ) (positions : List (Fin 3 → Option K))
    (path : Path) (overwrite : Bool) :
    let generic := fun f =>
      genericWriteStructure printable deny fs lattice numbers positions path f overwrite
    let writer := poscarWriteStructure printable deny fs lattice numbers positions path overwrite
      "POSCAR written by ramannoodle".toList
    Faithful [("poscar".toList, writer.result), ("xdatcar".toList, writer.result)]
      (fun f => (generic f).result) ∧
    (∀ f ∈ ["poscar".toList, "xdatcar".toList],
      (generic f).after = writer.after ∧ (generic f).during = writer.during) ∧
    (∀ f, f ∉ ["poscar".toList, "xdatcar".toList] →
      (generic f).after = fs ∧ (generic f).during = []) := by
  intro generic writer
  have h1 : ∀ f ∈ ["poscar".toList, "xdatcar".toList], generic f = writer.catchKeyError := by
    intro f hf
    simp only [List.mem_cons, List.not_mem_nil, or_false] at hf
    simp only [generic, genericWriteStructure]
    rw [if_pos hf]
  have h2 : ∀ f, f ∉ ["poscar".toList, "xdatcar".toList] →
      generic f = ⟨.error .valueError, [], fs⟩ := by
    intro f hf
    simp only [List.mem_cons, List.not_mem_nil, or_false] at hf
    simp only [generic, genericWriteStructure]
    rw [if_neg hf]
    rfl
  refine ⟨?_, ?_, ?_⟩
  · have h := dispatch_faithful [("poscar".toList, fun _ : Unit => writer.result),
      ("xdatcar".toList, fun _ : Unit => writer.result)] wr2_nodup ()
    have he : (fun f => (generic f).result) = fun f =>
        dispatch [("poscar".toList, fun _ : Unit => writer.result),
          ("xdatcar".toList, fun _ : Unit => writer.result)] f () := by
      funext f
      by_cases hf : f ∈ ["poscar".toList, "xdatcar".toList]
      · rw [h1 f hf, (catchKeyError_result _).1]
        simp only [List.mem_cons, List.not_mem_nil, or_false] at hf
        unfold dispatch
        rcases hf with rfl | rfl
        · rw [dictGet_mem _ (by exact wr2_nodup) "poscar".toList _ (List.mem_cons_self ..)]
        · rw [dictGet_mem _ (by exact wr2_nodup) "xdatcar".toList _
            (List.mem_cons_of_mem _ (List.mem_cons_self ..))]
      · rw [h2 f hf]
        unfold dispatch
        rw [dictGet_not_mem _ f (by exact hf)]
        rfl
    rw [he]
    exact h
  · intro f hf
    rw [h1 f hf]
    exact (catchKeyError_result _).2
  · intro f hf
    rw [h2 f hf]
    exact ⟨rfl, rfl⟩

/-- C73: `write_trajectory` likewise, with `xdatcar` the only format. -/
theorem C73_write_trajectory (printable : Char → Bool) (deny : Path → Option PyErr) (fs : FS)
    (lattice : Fin 3 → Fin 3 → Option K) (numbers : List ℕ) (n : ℕ)
    (positionsTs : List (Fin n → Fin 3 → Option K)) (path : Path) (overwrite : Bool) :
    let generic := fun f =>
      genericWriteTrajectory printable deny fs lattice numbers n positionsTs path f overwrite
    let writer := xdatcarWriteTrajectory printable deny fs lattice numbers n positionsTs path
      overwrite "XDATCAR written by ramannoodle".toList
    Faithful [("xdatcar".toList, writer.result)] (fun f => (generic f).result) ∧
    ((generic "xdatcar".toList).after = writer.after ∧
      (generic "xdatcar".toList).during = writer.during) ∧
    (∀ f, f ≠ "xdatcar".toList → (generic f).after = fs ∧ (generic f).during = []) := by
  intro generic writer
  have h1 : generic "xdatcar".toList = writer.catchKeyError := by
    simp only [generic, genericWriteTrajectory]
    rw [if_pos trivial]
  have h2 : ∀ f, f ≠ "xdatcar".toList → generic f = ⟨.error .valueError, [], fs⟩ := by
    intro f hf
    simp only [generic, genericWriteTrajectory]
    rw [if_neg hf]
    rfl
  refine ⟨?_, ?_, ?_⟩
  · have h := dispatch_faithful [("xdatcar".toList, fun _ : Unit => writer.result)] (List.nodup_singleton _) ()
    have he : (fun f => (generic f).result) = fun f =>
        dispatch [("xdatcar".toList, fun _ : Unit => writer.result)] f () := by
      funext f
      unfold dispatch
      by_cases hf : f = "xdatcar".toList
      · subst hf
        rw [h1, (catchKeyError_result _).1,
          dictGet_mem _ (by exact List.nodup_singleton _) "xdatcar".toList _ (List.mem_cons_self ..)]
      · rw [h2 f hf, dictGet_not_mem _ f (by simpa using hf)]
        rfl
    rw [he]
    exact h
  · rw [h1]
    exact (catchKeyError_result _).2
  · intro f hf
    rw [h2 f hf]
    exact ⟨rfl, rfl⟩

end

/-- C73, concrete: an environment with one file, in which a supported format is dispatched and an
unsupported one refused. -/
example : ∃ env : Env Unit, genericReadPositions env "f".toList "vasprun.xml".toList =
      .ok [[some (1 / 4), some (1 / 2), some 0]] ∧
    genericReadPositions env "f".toList "cif".toList = .error .valueError := by
  refine ⟨⟨fun _ => some [], fun _ => .ok (sampleRoot (el "rc" none [el "c" (some "O ") []])),
    fun _ => .error .linAlgError, false, fun _ _ _ => .ok (), true⟩, ?_, ?_⟩
  · have h : vasprunPositions (sampleRoot (el "rc" none [el "c" (some "O ") []])) =
        .ok [[some (1 / 4), some (1 / 2), some 0]] := by decide +kernel
    refine ((C73_positions _ _).results "vasprun.xml".toList _ ?_ _).2 h
    exact List.mem_of_getElem? (i := 3) rfl
  · exact (C73_positions _ _).unsupported _ (by decide)

end Verif
