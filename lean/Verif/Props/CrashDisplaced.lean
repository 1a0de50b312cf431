import Verif.Props.Crash

/-!
# Property C162: writing displaced structures interrupted by a crash
-/

namespace Verif

/-- The file at `path` is read as the given structure, rounded to 16 decimals. -/
def Spec.ReadsAs (ext : NumMat → Py NumMat) (lattice : Fin 3 → Fin 3 → Option ℝ) (numbers : List ℕ)
    (st : FS) (positions : List (Fin 3 → Option ℝ)) (path : Path) : Prop :=
  ∃ text s, readFile st path = .ok text ∧ readStructure ext text = .ok s ∧ s.atomicNumbers = numbers ∧
    (∀ i, Spec.RoundedVec (lattice i) (s.lattice i)) ∧ List.Forall₂ Spec.RoundedVec positions s.positions

/-- The file at `path` is rejected, or read as the given structure with at most the very last coordinate
shortened. -/
def Spec.RejectedOrCut (ext : NumMat → Py NumMat) (lattice : Fin 3 → Fin 3 → Option ℝ)
    (numbers : List ℕ) (st : FS) (positions : List (Fin 3 → Option ℝ)) (path : Path) : Prop :=
  ∃ text, readFile st path = .ok text ∧ (readStructure ext text = .error .invalidFile ∨
    ∃ s, readStructure ext text = .ok s ∧ s.atomicNumbers = numbers ∧
      (∀ i, Spec.RoundedVec (lattice i) (s.lattice i)) ∧ Spec.LastShortened positions s.positions)

/-- Files after a crash: the structures of `done` are complete, at most the next one is damaged, and no
other file has changed. -/
def Spec.CrashedAt (ext : NumMat → Py NumMat) (lattice : Fin 3 → Fin 3 → Option ℝ) (numbers : List ℕ)
    (fs st : FS) (xs : List (List (Fin 3 → Option ℝ) × Path)) : Prop :=
  ∃ done rest, xs = done ++ rest ∧
    (∀ x ∈ done, Spec.ReadsAs ext lattice numbers st x.1 x.2) ∧
    (∀ x ∈ rest.head?, st x.2 = fs x.2 ∨ Spec.RejectedOrCut ext lattice numbers st x.1 x.2) ∧
    ∀ p, p ∉ done.map Prod.snd → p ∉ rest.head?.map Prod.snd → st p = fs p

theorem writeAll_crash {ext : NumMat → Py NumMat} {lattice : Fin 3 → Fin 3 → Option ℝ}
    {numbers : List ℕ} {printable : Char → Bool} {deny : Path → Option PyErr} {fmt : Word}
    {overwrite : Bool} (xs : List (List (Fin 3 → Option ℝ) × Path)) (hx : (xs.map Prod.snd).Nodup)
    (fs : FS) (run : WriteRun) (hrun : run = writeAll (fun fs x =>
      genericWriteStructure printable deny fs lattice numbers x.1 x.2 fmt overwrite) fs xs) :
    (∀ st ∈ run.after :: run.during, Spec.CrashedAt ext lattice numbers fs st xs) ∧
    (run.result = .ok () → ∀ x ∈ xs, Spec.ReadsAs ext lattice numbers run.after x.1 x.2) := by
  induction xs generalizing fs run with
  | nil =>
    subst hrun
    refine ⟨?_, fun _ x hx => by cases hx⟩
    intro st hst
    rw [show st = fs by simpa [writeAll] using hst]
    exact ⟨[], [], rfl, by simp, by simp, fun _ _ _ => rfl⟩
  | cons x xs ih =>
    rw [List.map_cons, List.nodup_cons] at hx
    rcases genericWrite_cases printable deny fs lattice numbers x.1 x.2 fmt overwrite with
      ⟨e, he⟩ | ⟨content, hc, -, hw⟩
    · have hr : run = .fail e fs := by rw [hrun, writeAll, he]; rfl
      rw [hr]
      refine ⟨?_, fun h => by cases h⟩
      intro st hst
      rw [show st = fs by simpa [WriteRun.fail] using hst]
      exact ⟨[], x :: xs, rfl, by simp, by simp, fun _ _ _ => rfl⟩
    · obtain ⟨ih1, ih2⟩ := ih hx.2 (fs.set x.2 content) _ rfl
      generalize hrest : writeAll (fun fs x => genericWriteStructure printable deny fs lattice numbers
        x.1 x.2 fmt overwrite) (fs.set x.2 content) xs = more at ih1 ih2
      have hr : run = ⟨more.result, ((List.range (content.length + 1)).map fun k : ℕ =>
          fs.set x.2 (content.take k)) ++ more.during, more.after⟩ := by
        rw [hrun, writeAll, hw]
        dsimp only
        rw [hrest]
      -- The finished file stays as it is while the others are written.
      have hdone : ∀ st : FS, st x.2 = some content →
          Spec.ReadsAs ext lattice numbers st x.1 x.2 := by
        intro st hst
        obtain ⟨s, hs⟩ := C60_roundtrip printable ext lattice numbers x.1 _ content hc
        exact ⟨content, s, by unfold readFile; rw [hst], hs⟩
      have hkeep : ∀ st, Spec.CrashedAt ext lattice numbers (fs.set x.2 content) st xs →
          st x.2 = some content := by
        rintro st ⟨done, rest, rfl, -, -, hother⟩
        rw [hother x.2 ?_ ?_, set_self]
        · exact fun h => hx.1 (by rw [List.map_append]; exact List.mem_append_left _ h)
        · intro h
          refine hx.1 ?_
          obtain ⟨y, hy, hyx⟩ := Option.map_eq_some_iff.1 h
          rw [List.map_append, ← hyx]
          exact List.mem_append_right _ (List.mem_map_of_mem (List.mem_of_mem_head? hy))
      have hstep : ∀ st, Spec.CrashedAt ext lattice numbers (fs.set x.2 content) st xs →
          Spec.CrashedAt ext lattice numbers fs st (x :: xs) := by
        intro st hst
        have hk := hkeep st hst
        obtain ⟨done, rest, rfl, h1, h2, h3⟩ := hst
        refine ⟨x :: done, rest, rfl, ?_, ?_, ?_⟩
        · intro y hy
          rcases List.mem_cons.1 hy with rfl | hy
          · exact hdone st hk
          · exact h1 y hy
        · intro y hy
          have hne : y.2 ≠ x.2 := by
            intro h
            refine hx.1 ?_
            rw [List.map_append, ← h]
            exact List.mem_append_right _ (List.mem_map_of_mem (List.mem_of_mem_head? hy))
          refine (h2 y hy).imp_left fun h => h.trans ?_
          exact set_onlyAt fs x.2 content y.2 hne
        · intro p hp hp'
          rw [List.map_cons, List.mem_cons, not_or] at hp
          exact (h3 p hp.2 hp').trans (set_onlyAt fs x.2 content p hp.1)
      rw [hr]
      constructor
      · intro st hst
        rcases List.mem_cons.1 hst with rfl | hst
        · exact hstep _ (ih1 _ (List.mem_cons_self ..))
        · rcases List.mem_append.1 hst with hst | hst
          · obtain ⟨k, -, rfl⟩ := List.mem_map.1 hst
            refine ⟨[], x :: xs, rfl, by simp, ?_, ?_⟩
            · intro y hy
              obtain rfl : x = y := by simpa using hy
              right
              refine ⟨content.take k, by unfold readFile; rw [set_self], ?_⟩
              refine (C157_prefix printable ext lattice numbers x.1 _ content hc _
                (List.take_prefix _ _)).imp_right ?_
              rintro ⟨s, h1, h2, h3, h4, -⟩
              exact ⟨s, h1, h2, h3, h4⟩
            · intro p _ hp
              refine set_onlyAt fs x.2 _ p fun h => hp ?_
              rw [h]
              rfl
          · exact hstep _ (ih1 _ (List.mem_cons_of_mem _ hst))
      · intro hok y hy
        rcases List.mem_cons.1 hy with rfl | hy
        · exact hdone _ (hkeep _ (ih1 _ (List.mem_cons_self ..)))
        · exact ih2 hok y hy

variable {N : ℕ}

/-- The structures that a call is meant to write, with their paths. -/
def Spec.targets (ps : List (Option (Pos N ℝ))) (paths : List Path) :
    List (List (Fin 3 → Option ℝ) × Path) :=
  (ps.zip paths).map fun x => (List.ofFn fun a i => x.1.map fun q => q a i, x.2)

theorem writeAll_map {α β : Type} (f : α → β) (write : FS → β → WriteRun) (fs : FS) (xs : List α) :
    writeAll write fs (xs.map f) = writeAll (fun fs x => write fs (f x)) fs xs := by
  induction xs generalizing fs with
  | nil => rfl
  | cons x xs ih =>
    rw [List.map_cons, writeAll, writeAll]
    cases (write fs (f x)).result with
    | error e => rfl
    | ok _ => dsimp only; rw [ih]

theorem writePositionList_crash (ext : NumMat → Py NumMat) (smallInt : ℕ) (printable : Char → Bool)
    (deny : Path → Option PyErr) (fs : FS) (s : RefStructure N) (ps : List (Option (Pos N ℝ)))
    (paths : List Path) (hp : paths.Nodup) (fmt : Word) (overwrite : Bool) (run : WriteRun)
    (hrun : run = writePositionList smallInt printable deny fs s ps paths fmt overwrite) :
    (∀ st ∈ run.after :: run.during, Spec.CrashedAt ext (fun i j => some (s.lattice i j))
      (List.ofFn s.atomicNumbers) fs st (Spec.targets ps paths)) ∧
    (run.result = .ok () → ps.length = paths.length ∧ ∀ x ∈ Spec.targets ps paths,
      Spec.ReadsAs ext (fun i j => some (s.lattice i j)) (List.ofFn s.atomicNumbers) run.after x.1
        x.2) := by
  unfold writePositionList verifyListLen at hrun
  by_cases hl : paths.length = ps.length ∧ paths.length ≤ smallInt
  · rw [if_pos hl] at hrun
    have hnd : ((Spec.targets ps paths).map Prod.snd).Nodup := by
      unfold Spec.targets
      rw [List.map_map]
      change ((ps.zip paths).map Prod.snd).Nodup
      rwa [List.map_snd_zip (le_of_eq hl.1)]
    have hrun' : run = writeAll (fun fs x => genericWriteStructure printable deny fs
        (fun i j => some (s.lattice i j)) (List.ofFn s.atomicNumbers) x.1 x.2 fmt overwrite) fs
        (Spec.targets ps paths) := by
      rw [hrun]
      unfold Spec.targets
      rw [writeAll_map]
      rfl
    obtain ⟨h1, h2⟩ := writeAll_crash (ext := ext) (Spec.targets ps paths) hnd fs run hrun'
    exact ⟨h1, fun h => ⟨hl.1.symm, h2 h⟩⟩
  · rw [if_neg hl] at hrun
    subst hrun
    refine ⟨?_, fun h => by cases h⟩
    intro st hst
    rw [show st = fs by simpa [WriteRun.fail] using hst]
    exact ⟨[], _, rfl, by simp, fun _ _ => Or.inl rfl, fun _ _ _ => rfl⟩

/-- C162: whenever the process stops while `write_displaced_structures` writes to different paths, there
is a number of files that are complete, at most the next one is damaged (rejected, or its very last
coordinate is too small), and all other files are as before the call.  If the call returns, every file
holds its displaced structure. -/
theorem C162_displaced (ext : NumMat → Py NumMat) (smallInt : ℕ) (printable : Char → Bool)
    (deny : Path → Option PyErr) (fs : FS) (s : RefStructure N) (d : Pos N ℝ) (amps : List ℝ)
    (arg : PathsArg) (paths : List Path) (hp : StandsFor arg paths) (hnd : paths.Nodup) (fmt : Word)
    (overwrite : Bool) (run : WriteRun)
    (hrun : run = writeDisplacedStructures smallInt printable deny fs s d amps arg fmt overwrite) :
    (∀ st ∈ run.after :: run.during, st = fs ∨ ∃ ps, getDisplacedPositions s d amps = .ok ps ∧
      Spec.CrashedAt ext (fun i j => some (s.lattice i j)) (List.ofFn s.atomicNumbers) fs st
        (Spec.targets ps paths)) ∧
    (run.result = .ok () → ∃ ps, getDisplacedPositions s d amps = .ok ps ∧
      ps.length = paths.length ∧ ∀ x ∈ Spec.targets ps paths, Spec.ReadsAs ext
        (fun i j => some (s.lattice i j)) (List.ofFn s.atomicNumbers) run.after x.1 x.2) := by
  rcases writeDisplaced_cases smallInt printable deny fs s d amps arg paths hp fmt overwrite run hrun
    with ⟨h, -⟩ | ⟨e, h, -⟩ | ⟨ps, hps, h⟩
  · rw [h]
    exact ⟨fun st hst => Or.inl (by simpa [WriteRun.fail] using hst), fun h => by cases h⟩
  · rw [h]
    exact ⟨fun st hst => Or.inl (by simpa [WriteRun.fail] using hst), fun h => by cases h⟩
  · obtain ⟨h1, h2⟩ := writePositionList_crash ext smallInt printable deny fs s ps paths hnd fmt
      overwrite run h
    exact ⟨fun st hst => Or.inr ⟨ps, hps, h1 st hst⟩, fun hr => ⟨ps, hps, h2 hr⟩⟩

/-- C162: the same for `write_ast_displaced_structures`. -/
theorem C162_ast (ext : NumMat → Py NumMat) (smallInt : ℕ) (printable : Char → Bool)
    (deny : Path → Option PyErr) (fs : FS) (s : RefStructure N) (k : ℤ) (d : Vec3) (amps : List ℝ)
    (arg : PathsArg) (paths : List Path) (hp : StandsFor arg paths) (hnd : paths.Nodup) (fmt : Word)
    (overwrite : Bool) (run : WriteRun)
    (hrun : run = writeAstDisplacedStructures smallInt printable deny fs s k d amps arg fmt
      overwrite) :
    (∀ st ∈ run.after :: run.during, st = fs ∨ ∃ ps, getAstDisplacedPositions s k d amps = .ok ps ∧
      Spec.CrashedAt ext (fun i j => some (s.lattice i j)) (List.ofFn s.atomicNumbers) fs st
        (Spec.targets ps paths)) ∧
    (run.result = .ok () → ∃ ps, getAstDisplacedPositions s k d amps = .ok ps ∧
      ps.length = paths.length ∧ ∀ x ∈ Spec.targets ps paths, Spec.ReadsAs ext
        (fun i j => some (s.lattice i j)) (List.ofFn s.atomicNumbers) run.after x.1 x.2) := by
  rcases writeAst_cases smallInt printable deny fs s k d amps arg paths hp fmt overwrite run hrun
    with ⟨h, -⟩ | ⟨e, h, -⟩ | ⟨ps, hps, h⟩
  · rw [h]
    exact ⟨fun st hst => Or.inl (by simpa [WriteRun.fail] using hst), fun h => by cases h⟩
  · rw [h]
    exact ⟨fun st hst => Or.inl (by simpa [WriteRun.fail] using hst), fun h => by cases h⟩
  · obtain ⟨h1, h2⟩ := writePositionList_crash ext smallInt printable deny fs s ps paths hnd fmt
      overwrite run h
    exact ⟨fun st hst => Or.inr ⟨ps, hps, h1 st hst⟩, fun hr => ⟨ps, hps, h2 hr⟩⟩

/-- One carbon atom in a cube. -/
noncomputable def carbonCube : RefStructure 1 := ⟨fun _ => 6, 1, fun _ _ => 0, [], [], []⟩

theorem carbonCube_text (x : ℝ) (h0 : 0 ≤ x) (h1 : x ≤ 1) : ∃ content, poscarContent (fun _ => true)
    (fun i j => some (carbonCube.lattice i j)) (List.ofFn carbonCube.atomicNumbers)
    (positionRows (some fun (_ : Fin 1) _ => x)) "POSCAR written by ramannoodle".toList =
      .ok content := by
  refine (C60_writable _ _ _ _ _).2 ⟨⟨by simp [carbonCube], by simp [positionRows], ?_⟩, ?_,
    by simp [carbonCube]⟩
  · intro p hp i y hy
    simp only [positionRows, List.ofFn_succ, List.ofFn_zero, List.mem_cons, List.not_mem_nil,
      or_false] at hp
    subst hp
    cases hy
    exact ⟨h0, h1⟩
  · intro x y h
    have := h.length_le
    simp [carbonCube] at this

/-- C162, concrete: two structures are written to the files `a` and `b` of an empty file system; a crash
between the two leaves `a` complete and `b` missing. -/
example (ext : NumMat → Py NumMat) : ∃ st ∈ (writePositionList 256 (fun _ => true) (fun _ => none)
      (fun _ => none) carbonCube [some fun _ _ => 0, some fun _ _ => 1 / 2] [['a'], ['b']]
      "poscar".toList false).during,
    Spec.ReadsAs ext (fun i j => some (carbonCube.lattice i j)) (List.ofFn carbonCube.atomicNumbers) st
      (positionRows (some fun (_ : Fin 1) _ => 0)) ['a'] ∧ st ['b'] = none := by
  obtain ⟨c, hc⟩ := carbonCube_text 0 le_rfl zero_le_one
  obtain ⟨s, hs⟩ := C60_roundtrip (fun _ => true) ext _ _ _ _ c hc
  refine ⟨FS.set (fun _ => none) ['a'] c, ?_, ⟨c, s, ?_, hs⟩, ?_⟩
  · have hw : ∀ fs : FS, fs ['a'] = none → genericWriteStructure (fun _ => true) (fun _ => none) fs
        (fun i j => some (carbonCube.lattice i j)) (List.ofFn carbonCube.atomicNumbers)
        (positionRows (some fun (_ : Fin 1) _ => 0)) ['a'] "poscar".toList false =
        ⟨.ok (), (List.range (c.length + 1)).map fun k : ℕ => fs.set ['a'] (c.take k),
          fs.set ['a'] c⟩ := by
      intro fs hfs
      unfold genericWriteStructure poscarWriteStructure
      rw [if_pos (Or.inl rfl), hc]
      dsimp only [writeFile]
      rw [if_neg (by simp [hfs])]
      rfl
    unfold writePositionList verifyListLen
    rw [if_pos (by simp)]
    dsimp only [List.zip_cons_cons, List.zip_nil_right]
    rw [writeAll, hw _ rfl]
    dsimp only
    refine List.mem_append_left _ (List.mem_map.2 ⟨c.length, by simp, ?_⟩)
    rw [List.take_length]
  · unfold readFile
    rw [set_self]
  · exact set_onlyAt _ _ _ _ (by decide)

end Verif
