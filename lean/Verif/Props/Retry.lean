import Verif.Props.CrashDisplaced

/-!
# Property C163: writing again after interrupted attempts
-/

namespace Verif

/-- File systems that attempts of a call can leave behind: any number of attempts, with or without
`overwrite`, each of which ends (with or without an exception) or is interrupted at any time. -/
inductive Spec.Attempted (call : Bool → FS → WriteRun) (fs : FS) : FS → Prop
  | start : Spec.Attempted call fs fs
  | again {st st' : FS} (overwrite : Bool) : Spec.Attempted call fs st →
      st' ∈ (call overwrite st).after :: (call overwrite st).during → Spec.Attempted call fs st'

/-! ### Calls that write a list of files with fixed contents -/

/-- Writing one file: fails without looking at the file system, or writes `content` to `path` unless
the file exists and must not be overwritten. -/
def WritesText (write : Bool → FS → WriteRun) (path : Path) : Prop :=
  (∃ e, ∀ ow fs, write ow fs = .fail e fs) ∨
  ∃ content : List Char, ∀ ow fs, write ow fs =
    if ow = false ∧ (fs path).isSome then .fail .fileExistsError fs
    else ⟨.ok (), (List.range (content.length + 1)).map fun k : ℕ => fs.set path (content.take k),
      fs.set path content⟩

/-- A call that fails at once or writes texts to `paths`, one after the other. -/
def WritesTexts (call : Bool → FS → WriteRun) : Prop :=
  (∃ e, ∀ ow fs, call ow fs = .fail e fs) ∨
  ∃ (α : Type) (write : Bool → FS → α → WriteRun) (pathOf : α → Path) (xs : List α),
    (∀ x, WritesText (fun ow fs => write ow fs x) (pathOf x)) ∧
    ∀ ow fs, call ow fs = writeAll (write ow) fs xs

section loop
variable {α : Type} {write : Bool → FS → α → WriteRun} {pathOf : α → Path}
  (hw : ∀ x, WritesText (fun ow fs => write ow fs x) (pathOf x))

include hw

/-- Attempts only touch the files of the call. -/
theorem writeAll_touches (ow : Bool) (xs : List α) (fs st : FS)
    (hst : st ∈ (writeAll (write ow) fs xs).after :: (writeAll (write ow) fs xs).during) (p : Path)
    (hp : p ∉ xs.map pathOf) : st p = fs p := by
  induction xs generalizing fs with
  | nil =>
    rw [show st = fs by simpa [writeAll] using hst]
  | cons x xs ih =>
    rw [List.map_cons, List.mem_cons, not_or] at hp
    rw [writeAll] at hst
    have hset : ∀ c : List Char, (fs.set (pathOf x) c) p = fs p :=
      fun c => set_onlyAt fs _ c p hp.1
    rcases hw x with ⟨e, he⟩ | ⟨content, hc⟩
    · dsimp only at he
      rw [he] at hst
      rw [show st = fs by simpa [WriteRun.fail] using hst]
    · by_cases hex : ow = false ∧ (fs (pathOf x)).isSome
      · have h1 := hc ow fs
        dsimp only at h1
        rw [if_pos hex] at h1
        rw [h1] at hst
        rw [show st = fs by simpa [WriteRun.fail] using hst]
      · have h1 := hc ow fs
        dsimp only at h1
        rw [if_neg hex] at h1
        rw [h1] at hst
        dsimp only at hst
        rcases List.mem_cons.1 hst with rfl | hst
        · exact (ih _ (List.mem_cons_self ..) hp.2).trans (hset _)
        · rcases List.mem_append.1 hst with hst | hst
          · obtain ⟨k, -, rfl⟩ := List.mem_map.1 hst
            exact hset _
          · exact (ih _ (List.mem_cons_of_mem _ hst) hp.2).trans (hset _)

/-- Writing with `overwrite` from a file system that only differs in the files of the call. -/
theorem writeAll_recover (ow : Bool) (xs : List α) (fs st : FS)
    (hst : ∀ p, p ∉ xs.map pathOf → st p = fs p)
    (hok : (writeAll (write ow) fs xs).result = .ok ()) :
    (writeAll (write true) st xs).result = .ok () ∧
    (writeAll (write true) st xs).after = (writeAll (write ow) fs xs).after := by
  induction xs generalizing fs st with
  | nil => exact ⟨rfl, funext fun p => hst p (by simp)⟩
  | cons x xs ih =>
    rw [writeAll] at hok ⊢
    rw [writeAll]
    rcases hw x with ⟨e, he⟩ | ⟨content, hc⟩
    · dsimp only at he
      rw [he] at hok
      cases hok
    · have h1 := hc ow fs
      have h2 := hc true st
      dsimp only at h1 h2
      rw [if_neg (by simp)] at h2
      by_cases hex : ow = false ∧ (fs (pathOf x)).isSome
      · rw [if_pos hex] at h1
        rw [h1] at hok
        cases hok
      · rw [if_neg hex] at h1
        rw [h1] at hok
        rw [h1, h2]
        dsimp only at hok ⊢
        refine ih _ _ (fun p hp => ?_) hok
        by_cases hpx : p = pathOf x
        · rw [hpx, set_self, set_self]
        · rw [set_onlyAt st _ _ p hpx, set_onlyAt fs _ _ p hpx]
          exact hst p (by rw [List.map_cons, List.mem_cons, not_or]; exact ⟨hpx, hp⟩)

/-- Writing without `overwrite` after an interruption. -/
theorem writeAll_refuse (ow : Bool) (xs : List α) (fs st : FS)
    (hst : st ∈ (writeAll (write ow) fs xs).during) :
    writeAll (write false) st xs = .fail .fileExistsError st := by
  cases xs with
  | nil => simp [writeAll] at hst
  | cons x xs =>
    have hex : (st (pathOf x)).isSome ∧ ∃ content : List Char, ∀ ow fs, write ow fs x =
        if ow = false ∧ (fs (pathOf x)).isSome then .fail .fileExistsError fs
        else ⟨.ok (), (List.range (content.length + 1)).map fun k : ℕ =>
          fs.set (pathOf x) (content.take k), fs.set (pathOf x) content⟩ := by
      rw [writeAll] at hst
      rcases hw x with ⟨e, he⟩ | ⟨content, hc⟩
      · dsimp only at he
        rw [he] at hst
        simp [WriteRun.fail] at hst
      · refine ⟨?_, content, hc⟩
        have h1 := hc ow fs
        dsimp only at h1
        by_cases hex : ow = false ∧ (fs (pathOf x)).isSome
        · rw [if_pos hex] at h1
          rw [h1] at hst
          simp [WriteRun.fail] at hst
        · rw [if_neg hex] at h1
          rw [h1] at hst
          dsimp only at hst
          rcases List.mem_append.1 hst with hst | hst
          · obtain ⟨k, -, rfl⟩ := List.mem_map.1 hst
            rw [set_self]
            rfl
          · have hkeep : ∀ (xs : List α) (fs : FS), (fs (pathOf x)).isSome →
                ∀ st ∈ (writeAll (write ow) fs xs).during, (st (pathOf x)).isSome := by
              intro xs
              induction xs with
              | nil => intro fs _ st hst; simp [writeAll] at hst
              | cons y ys ih =>
                intro fs hfs st hst
                rw [writeAll] at hst
                have hset : ∀ c : List Char, (fs.set (pathOf y) c (pathOf x)).isSome := by
                  intro c
                  unfold FS.set
                  split_ifs
                  · rfl
                  · exact hfs
                rcases hw y with ⟨e, he⟩ | ⟨text, ht⟩
                · dsimp only at he
                  rw [he] at hst
                  simp [WriteRun.fail] at hst
                · have h3 := ht ow fs
                  dsimp only at h3
                  by_cases hexy : ow = false ∧ (fs (pathOf y)).isSome
                  · rw [if_pos hexy] at h3
                    rw [h3] at hst
                    simp [WriteRun.fail] at hst
                  · rw [if_neg hexy] at h3
                    rw [h3] at hst
                    dsimp only at hst
                    rcases List.mem_append.1 hst with hst | hst
                    · obtain ⟨k, -, rfl⟩ := List.mem_map.1 hst
                      exact hset _
                    · exact ih _ (hset _) st hst
            exact hkeep xs _ (by rw [set_self]; rfl) st hst
    obtain ⟨h1, content, hc⟩ := hex
    rw [writeAll, hc false st, if_pos ⟨rfl, h1⟩]
    rfl

end loop

theorem texts_recover {call : Bool → FS → WriteRun} (hcall : WritesTexts call) (ow : Bool)
    (fs st : FS) (hok : (call ow fs).result = .ok ()) (hst : Spec.Attempted call fs st) :
    (call true st).result = .ok () ∧ (call true st).after = (call ow fs).after := by
  rcases hcall with ⟨e, he⟩ | ⟨α, write, pathOf, xs, hw, hc⟩
  · rw [he] at hok
    cases hok
  · rw [hc] at hok ⊢
    rw [hc]
    refine writeAll_recover hw ow xs fs st ?_ hok
    clear hok
    induction hst with
    | start => exact fun _ _ => rfl
    | again ow' _ hmem ih =>
      intro p hp
      rw [hc] at hmem
      exact (writeAll_touches hw ow' xs _ _ hmem p hp).trans (ih p hp)

theorem texts_refuse {call : Bool → FS → WriteRun} (hcall : WritesTexts call) (ow : Bool)
    (fs st : FS) (hst : st ∈ (call ow fs).during) : call false st = .fail .fileExistsError st := by
  rcases hcall with ⟨e, he⟩ | ⟨α, write, pathOf, xs, hw, hc⟩
  · rw [he] at hst
    simp [WriteRun.fail] at hst
  · rw [hc] at hst ⊢
    exact writeAll_refuse hw ow xs fs st hst

/-! ### The calls of the library -/

theorem writeFile_text (deny : Path → Option PyErr) (path : Path) (content : List Char) :
    WritesText (fun ow fs => writeFile deny fs path ow content) path := by
  cases hd : deny path with
  | some e => exact Or.inl ⟨e, fun ow fs => by unfold writeFile; rw [hd]⟩
  | none => exact Or.inr ⟨content, fun ow fs => by unfold writeFile; rw [hd]⟩

theorem WritesText.catch {write : Bool → FS → WriteRun} {path : Path} (h : WritesText write path) :
    WritesText (fun ow fs => (write ow fs).catchKeyError) path := by
  rcases h with ⟨e, he⟩ | ⟨content, hc⟩
  · left
    by_cases hk : e = .keyError
    · refine ⟨.valueError, fun ow fs => ?_⟩
      dsimp only
      rw [he, hk]
      rfl
    · refine ⟨e, fun ow fs => ?_⟩
      dsimp only
      rw [he]
      unfold WriteRun.catchKeyError WriteRun.fail
      cases e <;> first | rfl | exact absurd rfl hk
  · right
    refine ⟨content, fun ow fs => ?_⟩
    dsimp only
    rw [hc]
    split_ifs <;> rfl

theorem genericStructure_text (printable : Char → Bool) (deny : Path → Option PyErr)
    (lattice : Fin 3 → Fin 3 → Option ℝ) (numbers : List ℕ) (positions : List (Fin 3 → Option ℝ))
    (path : Path) (fmt : Word) : WritesText (fun ow fs =>
      genericWriteStructure printable deny fs lattice numbers positions path fmt ow) path := by
  unfold genericWriteStructure
  refine WritesText.catch (write := fun ow fs => if fmt = "poscar".toList ∨ fmt = "xdatcar".toList
    then poscarWriteStructure printable deny fs lattice numbers positions path ow
      "POSCAR written by ramannoodle".toList else .fail .keyError fs) ?_
  by_cases hf : fmt = "poscar".toList ∨ fmt = "xdatcar".toList
  · simp only [if_pos hf]
    unfold poscarWriteStructure
    cases poscarContent printable lattice numbers positions "POSCAR written by ramannoodle".toList with
    | error e => exact Or.inl ⟨e, fun _ _ => rfl⟩
    | ok content => exact writeFile_text deny path content
  · exact Or.inl ⟨.keyError, fun _ _ => if_neg hf⟩

theorem genericTrajectory_text (printable : Char → Bool) (deny : Path → Option PyErr)
    (lattice : Fin 3 → Fin 3 → Option ℝ) (numbers : List ℕ) (n : ℕ)
    (positionsTs : List (Fin n → Fin 3 → Option ℝ)) (path : Path) (fmt : Word) :
    WritesText (fun ow fs =>
      genericWriteTrajectory printable deny fs lattice numbers n positionsTs path fmt ow) path := by
  unfold genericWriteTrajectory
  refine WritesText.catch (write := fun ow fs => if fmt = "xdatcar".toList
    then xdatcarWriteTrajectory printable deny fs lattice numbers n positionsTs path ow
      "XDATCAR written by ramannoodle".toList else .fail .keyError fs) ?_
  by_cases hf : fmt = "xdatcar".toList
  · simp only [if_pos hf]
    unfold xdatcarWriteTrajectory
    cases xdatcarContent printable lattice numbers n positionsTs
      "XDATCAR written by ramannoodle".toList with
    | error e => exact Or.inl ⟨e, fun _ _ => rfl⟩
    | ok content => exact writeFile_text deny path content
  · exact Or.inl ⟨.keyError, fun _ _ => if_neg hf⟩

theorem WritesText.single {write : Bool → FS → WriteRun} {path : Path} (h : WritesText write path) :
    WritesTexts write := by
  refine Or.inr ⟨Unit, fun ow fs _ => write ow fs, fun _ => path, [()], fun _ => h, ?_⟩
  intro ow fs
  rw [writeAll]
  dsimp only [writeAll]
  rcases h with ⟨e, he⟩ | ⟨content, hc⟩
  · simp only [he, WriteRun.fail]
  · simp only [hc ow fs]
    split_ifs
    · rfl
    · simp

variable {N : ℕ}

theorem positionList_texts (smallInt : ℕ) (printable : Char → Bool) (deny : Path → Option PyErr)
    (s : RefStructure N) (ps : List (Option (Pos N ℝ))) (paths : List Path) (fmt : Word) :
    WritesTexts (fun ow fs => writePositionList smallInt printable deny fs s ps paths fmt ow) := by
  unfold writePositionList
  cases verifyListLen smallInt paths.length ps.length with
  | error e => exact Or.inl ⟨e, fun _ _ => rfl⟩
  | ok _ =>
    exact Or.inr ⟨_, fun ow fs x => genericWriteStructure printable deny fs
      (fun i j => some (s.lattice i j)) (List.ofFn s.atomicNumbers) (positionRows x.1) x.2 fmt ow,
      Prod.snd, ps.zip paths, fun x => genericStructure_text _ _ _ _ _ _ _, fun _ _ => rfl⟩

theorem displaced_texts (smallInt : ℕ) (printable : Char → Bool) (deny : Path → Option PyErr)
    (s : RefStructure N) (d : Pos N ℝ) (amps : List ℝ) (arg : PathsArg) (fmt : Word) :
    WritesTexts (fun ow fs =>
      writeDisplacedStructures smallInt printable deny fs s d amps arg fmt ow) := by
  unfold writeDisplacedStructures
  cases pathifyAsList arg with
  | error e => exact Or.inl ⟨e, fun _ _ => rfl⟩
  | ok paths =>
    dsimp only
    cases getDisplacedPositions s d amps with
    | error e => exact Or.inl ⟨e, fun _ _ => rfl⟩
    | ok ps => exact positionList_texts smallInt printable deny s ps paths fmt

theorem ast_texts (smallInt : ℕ) (printable : Char → Bool) (deny : Path → Option PyErr)
    (s : RefStructure N) (k : ℤ) (d : Vec3) (amps : List ℝ) (arg : PathsArg) (fmt : Word) :
    WritesTexts (fun ow fs =>
      writeAstDisplacedStructures smallInt printable deny fs s k d amps arg fmt ow) := by
  unfold writeAstDisplacedStructures
  cases pathifyAsList arg with
  | error e => exact Or.inl ⟨e, fun _ _ => rfl⟩
  | ok paths =>
    dsimp only
    cases getAstDisplacedPositions s k d amps with
    | error e => exact Or.inl ⟨e, fun _ _ => rfl⟩
    | ok ps => exact positionList_texts smallInt printable deny s ps paths fmt

/-! ### C163 -/

/-- C163: if `write_displaced_structures` would succeed on `fs`, then after any number of interrupted or
failed attempts a call with `overwrite=True` succeeds and leaves exactly the files that the undisturbed
call would have left. -/
theorem C163_displaced (smallInt : ℕ) (printable : Char → Bool) (deny : Path → Option PyErr)
    (s : RefStructure N) (d : Pos N ℝ) (amps : List ℝ) (arg : PathsArg) (fmt : Word) (ow : Bool)
    (fs st : FS)
    (hok : (writeDisplacedStructures smallInt printable deny fs s d amps arg fmt ow).result = .ok ())
    (hst : Spec.Attempted (fun ow fs =>
      writeDisplacedStructures smallInt printable deny fs s d amps arg fmt ow) fs st) :
    (writeDisplacedStructures smallInt printable deny st s d amps arg fmt true).result = .ok () ∧
    (writeDisplacedStructures smallInt printable deny st s d amps arg fmt true).after =
      (writeDisplacedStructures smallInt printable deny fs s d amps arg fmt ow).after :=
  texts_recover (displaced_texts smallInt printable deny s d amps arg fmt) ow fs st hok hst

/-- C163: the same for `write_ast_displaced_structures`. -/
theorem C163_ast (smallInt : ℕ) (printable : Char → Bool) (deny : Path → Option PyErr)
    (s : RefStructure N) (k : ℤ) (d : Vec3) (amps : List ℝ) (arg : PathsArg) (fmt : Word) (ow : Bool)
    (fs st : FS)
    (hok : (writeAstDisplacedStructures smallInt printable deny fs s k d amps arg fmt ow).result =
      .ok ())
    (hst : Spec.Attempted (fun ow fs =>
      writeAstDisplacedStructures smallInt printable deny fs s k d amps arg fmt ow) fs st) :
    (writeAstDisplacedStructures smallInt printable deny st s k d amps arg fmt true).result = .ok () ∧
    (writeAstDisplacedStructures smallInt printable deny st s k d amps arg fmt true).after =
      (writeAstDisplacedStructures smallInt printable deny fs s k d amps arg fmt ow).after :=
  texts_recover (ast_texts smallInt printable deny s k d amps arg fmt) ow fs st hok hst

/-- C163: the same for `write_structure`. -/
theorem C163_structure (printable : Char → Bool) (deny : Path → Option PyErr)
    (lattice : Fin 3 → Fin 3 → Option ℝ) (numbers : List ℕ) (positions : List (Fin 3 → Option ℝ))
    (path : Path) (fmt : Word) (ow : Bool) (fs st : FS)
    (hok : (genericWriteStructure printable deny fs lattice numbers positions path fmt ow).result =
      .ok ())
    (hst : Spec.Attempted (fun ow fs =>
      genericWriteStructure printable deny fs lattice numbers positions path fmt ow) fs st) :
    (genericWriteStructure printable deny st lattice numbers positions path fmt true).result = .ok () ∧
    (genericWriteStructure printable deny st lattice numbers positions path fmt true).after =
      (genericWriteStructure printable deny fs lattice numbers positions path fmt ow).after :=
  texts_recover (genericStructure_text printable deny lattice numbers positions path fmt).single ow fs
    st hok hst

/-- C163: the same for `write_trajectory`. -/
theorem C163_trajectory (printable : Char → Bool) (deny : Path → Option PyErr)
    (lattice : Fin 3 → Fin 3 → Option ℝ) (numbers : List ℕ) (n : ℕ)
    (positionsTs : List (Fin n → Fin 3 → Option ℝ)) (path : Path) (fmt : Word) (ow : Bool)
    (fs st : FS)
    (hok : (genericWriteTrajectory printable deny fs lattice numbers n positionsTs path fmt ow).result =
      .ok ())
    (hst : Spec.Attempted (fun ow fs =>
      genericWriteTrajectory printable deny fs lattice numbers n positionsTs path fmt ow) fs st) :
    (genericWriteTrajectory printable deny st lattice numbers n positionsTs path fmt true).result =
      .ok () ∧
    (genericWriteTrajectory printable deny st lattice numbers n positionsTs path fmt true).after =
      (genericWriteTrajectory printable deny fs lattice numbers n positionsTs path fmt ow).after :=
  texts_recover (genericTrajectory_text printable deny lattice numbers n positionsTs path fmt).single
    ow fs st hok hst

/-- C163: repeated without `overwrite`, an interrupted call raises `FileExistsError` and touches
nothing: the damaged file stays as it is. -/
theorem C163_refused (smallInt : ℕ) (printable : Char → Bool) (deny : Path → Option PyErr)
    (s : RefStructure N) (d : Pos N ℝ) (k : ℤ) (dir : Vec3) (amps : List ℝ) (arg : PathsArg)
    (fmt : Word) (ow : Bool) (fs st : FS) :
    (st ∈ (writeDisplacedStructures smallInt printable deny fs s d amps arg fmt ow).during →
      writeDisplacedStructures smallInt printable deny st s d amps arg fmt false =
        .fail .fileExistsError st) ∧
    (st ∈ (writeAstDisplacedStructures smallInt printable deny fs s k dir amps arg fmt ow).during →
      writeAstDisplacedStructures smallInt printable deny st s k dir amps arg fmt false =
        .fail .fileExistsError st) :=
  ⟨texts_refuse (displaced_texts smallInt printable deny s d amps arg fmt) ow fs st,
    texts_refuse (ast_texts smallInt printable deny s k dir amps arg fmt) ow fs st⟩

/-- C163: the same for `write_structure` and `write_trajectory`. -/
theorem C163_refused_file (printable : Char → Bool) (deny : Path → Option PyErr)
    (lattice : Fin 3 → Fin 3 → Option ℝ) (numbers : List ℕ) (positions : List (Fin 3 → Option ℝ))
    (n : ℕ) (positionsTs : List (Fin n → Fin 3 → Option ℝ)) (path : Path) (fmt : Word) (ow : Bool)
    (fs st : FS) :
    (st ∈ (genericWriteStructure printable deny fs lattice numbers positions path fmt ow).during →
      genericWriteStructure printable deny st lattice numbers positions path fmt false =
        .fail .fileExistsError st) ∧
    (st ∈ (genericWriteTrajectory printable deny fs lattice numbers n positionsTs path fmt ow).during →
      genericWriteTrajectory printable deny st lattice numbers n positionsTs path fmt false =
        .fail .fileExistsError st) :=
  ⟨texts_refuse (genericStructure_text printable deny lattice numbers positions path fmt).single ow fs
      st,
    texts_refuse
      (genericTrajectory_text printable deny lattice numbers n positionsTs path fmt).single ow fs st⟩

/-- C163, concrete: the first of two attempts to write one carbon atom to the file `a` is interrupted
when the file is still empty, the second one (without `overwrite`) is refused; the third one, with
`overwrite`, leaves what the first one would have left. -/
example (write : Bool → FS → WriteRun) (hwrite : write = fun ow fs =>
      genericWriteStructure (fun _ => true) (fun _ => none) fs
        (fun i j => some (carbonCube.lattice i j)) (List.ofFn carbonCube.atomicNumbers)
        (positionRows (some fun (_ : Fin 1) _ => 0)) ['a'] "poscar".toList ow) : ∃ st,
    st ∈ (write false fun _ => none).during ∧ st ['a'] = some [] ∧
    write false st = .fail .fileExistsError st ∧ (write true st).result = .ok () ∧
    (write true st).after = (write false fun _ => none).after := by
  subst hwrite
  obtain ⟨c, hc⟩ := carbonCube_text 0 le_rfl zero_le_one
  have hw : genericWriteStructure (fun _ => true) (fun _ => none) (fun _ => none)
      (fun i j => some (carbonCube.lattice i j)) (List.ofFn carbonCube.atomicNumbers)
      (positionRows (some fun (_ : Fin 1) _ => 0)) ['a'] "poscar".toList false =
      ⟨.ok (), (List.range (c.length + 1)).map fun k : ℕ => FS.set (fun _ => none) ['a'] (c.take k),
        FS.set (fun _ => none) ['a'] c⟩ := by
    unfold genericWriteStructure poscarWriteStructure
    rw [if_pos (Or.inl rfl), hc]
    dsimp only [writeFile]
    rw [if_neg (by simp)]
    rfl
  have hmem : FS.set (fun _ => none) ['a'] [] ∈ (genericWriteStructure (fun _ => true) (fun _ => none)
      (fun _ => none) (fun i j => some (carbonCube.lattice i j)) (List.ofFn carbonCube.atomicNumbers)
      (positionRows (some fun (_ : Fin 1) _ => 0)) ['a'] "poscar".toList false).during := by
    rw [hw]
    exact List.mem_map.2 ⟨0, by simp, rfl⟩
  refine ⟨FS.set (fun _ => none) ['a'] [], hmem, set_self .., ?_, ?_⟩
  · exact (C163_refused_file _ _ _ _ _ 0 [] _ _ _ _ _).1 hmem
  · exact C163_structure _ _ _ _ _ _ _ false _ _ (by rw [hw])
      (.again false .start (List.mem_cons_of_mem _ hmem))

end Verif
