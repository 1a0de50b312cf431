import Verif.Props.Generic
import Verif.Props.DatasetFiles
import Verif.Props.VasprunFile

/-!
# C73 and C77 for OUTCAR and vasprun files

The generic readers of reference structures and datasets together with the descriptions of the files
(`Verif.Spec.OutcarFile`, `Verif.Spec.Vasprun`).
-/

namespace Verif

open Spec

variable {R : Type}

theorem catchKeyError_pass {α : Type} (r : Py α) :
    (∀ x, catchKeyError r = .ok x ↔ r = .ok x) ∧
      ∀ e, e ≠ .keyError → r = .error e → catchKeyError r = .error e := by
  unfold catchKeyError
  refine ⟨fun x => ?_, fun e he hr => ?_⟩
  · split <;> simp_all
  · subst hr
    split
    · rename_i h; exact absurd (Except.error.inj h) he
    · rfl

/-- C73: the generic reader of reference structures hands the atomic numbers, the lattice and the
positions of an OUTCAR to the constructor, in this order. -/
theorem C73_outcar_reference (env : Env R) (path : Path) (content : List Char)
    (hf : env.fs path = some content) (numbers : List ℕ) (lattice positions : List NumVec)
    (h : ∃ f g h, ElementsIn IsNumber (fileLines content) numbers f ∧ LatticeIn f lattice g ∧
      PositionsIn numbers.length g positions h) :
    (∀ r, genericReadRefStructure env path "outcar".toList = .ok r ↔
      env.mkRef numbers (rowsList lattice) (rowsList positions) = .ok r) ∧
    ∀ e, e ≠ .keyError → env.mkRef numbers (rowsList lattice) (rowsList positions) = .error e →
      genericReadRefStructure env path "outcar".toList = .error e := by
  have hg : genericReadRefStructure env path "outcar".toList
      = catchKeyError (env.mkRef numbers (rowsList lattice) (rowsList positions)) := by
    change catchKeyError (env.outcarRef path) = _
    unfold Env.outcarRef Env.withFile readFile
    rw [hf]
    change catchKeyError (outcarRefArgs content >>= _) = _
    rw [(C134_reference content numbers lattice positions).2 h]
    rfl
  rw [hg]
  exact catchKeyError_pass _

/-- C73: the same for vasprun.xml files. -/
theorem C73_vasprun_reference (env : Env R) (path : Path) (content : List Char) (root : Elem)
    (hf : env.fs path = some content) (hp : env.parse content = .ok root) (numbers : List ℕ)
    (lattice positions : List (List Num)) (h1 : AtomsAre IsNumber root numbers)
    (h2 : InitialLattice root lattice) (h3 : InitialPositions root positions) :
    (∀ r, genericReadRefStructure env path "vasprun.xml".toList = .ok r ↔
      env.mkRef numbers lattice positions = .ok r) ∧
    ∀ e, e ≠ .keyError → env.mkRef numbers lattice positions = .error e →
      genericReadRefStructure env path "vasprun.xml".toList = .error e := by
  have hg : genericReadRefStructure env path "vasprun.xml".toList
      = catchKeyError (env.mkRef numbers lattice positions) := by
    change catchKeyError (env.vasprunRef path) = _
    unfold Env.vasprunRef Env.withXml Env.withFile readFile
    rw [hf]
    change catchKeyError (env.parse content >>= _) = _
    rw [hp]
    change catchKeyError (vasprunRefArgs root >>= _) = _
    rw [(C135_reference root numbers lattice positions).2 ⟨h1, h2, h3⟩]
    rfl
  rw [hg]
  exact catchKeyError_pass _

/-- The entries of a 3×3 array are the given finite numbers. -/
def Entries (a : List (List Num)) (m : Mat3 ℝ) : Prop :=
  ∃ L : Fin 3 → Fin 3 → ℚ, a = (List.ofFn fun i => List.ofFn fun j => some (L i j)) ∧
    ∀ i j, m i j = L i j

/-- The entries of an array with three columns are the given finite numbers. -/
def RowEntries (a : List (List Num)) (ps : List (Fin 3 → ℝ)) : Prop :=
  List.Forall₂ (fun row (p : Fin 3 → ℝ) => ∃ v : Fin 3 → ℚ, row = (List.ofFn fun j => some (v j)) ∧
    ∀ j, p j = v j) a ps

theorem toVec_ofFn (v : Fin 3 → ℚ) : toVec (List.ofFn fun j => some (v j)) = some fun j => some (v j) := by
  have : (List.ofFn fun j => some (v j)) = [some (v 0), some (v 1), some (v 2)] := by
    simp [List.ofFn_succ]
  rw [this]
  change some _ = some _
  congr 1
  funext j
  fin_cases j <;> rfl

theorem finiteMat_of_entries {a : List (List Num)} {m : Mat3 ℝ} (h : Entries a m) :
    finiteMat a = some m := by
  obtain ⟨L, rfl, hm⟩ := h
  have h1 : toMat (List.ofFn fun i => List.ofFn fun j => some (L i j)) =
      some fun i j => some (L i j) := by
    unfold toMat
    have : (List.ofFn fun i => List.ofFn fun j => some (L i j)).mapM toVec
        = some [fun j => some (L 0 j), fun j => some (L 1 j), fun j => some (L 2 j)] := by
      have h3 : ∀ {α : Type} (f : Fin 3 → α), List.ofFn f = [f 0, f 1, f 2] := fun f => by
        simp [List.ofFn_succ]
      rw [mapM_option_iff, h3]
      exact .cons (toVec_ofFn _) (.cons (toVec_ofFn _) (.cons (toVec_ofFn _) .nil))
    rw [this]
    dsimp only
    congr 1
    funext i j
    fin_cases i <;> rfl
  unfold finiteMat
  rw [h1]
  dsimp only
  rw [if_pos (by simp)]
  congr 1
  funext i j
  rw [hm]
  rfl

theorem finiteRows_of_entries {a : List (List Num)} {ps : List (Fin 3 → ℝ)} (h : RowEntries a ps) :
    finiteRows a = some ps := by
  unfold finiteRows
  rw [mapM_option_iff]
  refine h.imp fun row p ⟨v, hr, hp⟩ => ?_
  subst hr
  rw [toVec_ofFn]
  dsimp only
  rw [if_pos (by simp)]
  congr 1
  funext j
  rw [hp]
  rfl

/-- C77: a sample is made exactly from arrays of the right shapes with finite entries, and holds these
entries. -/
theorem C77_sample_iff (s : OutcarStructure) (x : FileSample) : typedSample s = .ok x ↔
    x.atomicNumbers = s.atomicNumbers ∧ Entries s.lattice x.lattice ∧
      Entries s.polarizability x.polarizability ∧ RowEntries s.positions x.positions := by
  refine ⟨C77_sample s x, ?_⟩
  rintro ⟨h1, h2, h3, h4⟩
  unfold typedSample
  rw [finiteMat_of_entries h2, finiteRows_of_entries h4, finiteMat_of_entries h3]
  obtain ⟨a, b, c, d⟩ := x
  dsimp only at h1 ⊢
  rw [h1]

/-- What one OUTCAR contributes to a dataset. -/
def OutcarSample (fs : FS) (path : Path) (x : FileSample) : Prop :=
  ∃ content lattice positions tensor f g h, fs path = some content ∧
    ElementsIn IsNumber (fileLines content) x.atomicNumbers f ∧ LatticeIn f lattice g ∧
    PositionsIn x.atomicNumbers.length g positions h ∧ TensorIn h tensor ∧
    Entries (rowsList lattice) x.lattice ∧ Entries (rowsList tensor) x.polarizability ∧
    RowEntries (rowsList positions) x.positions

/-- What one vasprun.xml file contributes to a dataset. -/
def VasprunSample (fs : FS) (parse : List Char → Py Elem) (path : Path) (x : FileSample) : Prop :=
  ∃ content root lattice positions tensor, fs path = some content ∧ parse content = .ok root ∧
    AtomsAre IsNumber root x.atomicNumbers ∧ InitialLattice root lattice ∧
    InitialPositions root positions ∧ DielectricTensor root tensor ∧
    Entries lattice x.lattice ∧ Entries tensor x.polarizability ∧ RowEntries positions x.positions

theorem entries_rowsList {a : List (List Num)} {m : Mat3 ℝ} (h : Entries a m) :
    ∃ vs, a = rowsList vs := by
  obtain ⟨L, rfl, -⟩ := h
  exact ⟨List.ofFn fun i => fun j => some (L i j), by simp [rowsList, List.ofFn_succ]⟩

theorem rowEntries_rowsList {a : List (List Num)} {ps : List (Fin 3 → ℝ)} (h : RowEntries a ps) :
    ∃ vs, a = rowsList vs := by
  induction h with
  | nil => exact ⟨[], rfl⟩
  | cons h _ ih =>
    obtain ⟨v, rfl, -⟩ := h
    obtain ⟨vs, rfl⟩ := ih
    exact ⟨(fun j => some (v j)) :: vs, by simp [rowsList, List.ofFn_succ]⟩

/-- What a dataset holds: the positions and polarizabilities of its files in order, the atomic numbers
common to all and the lattice of the last one. -/
def HoldsSamples (d : PolDataset) (xs : List FileSample) : Prop :=
  d.positions = xs.map (·.positions) ∧ d.polarizabilities = xs.map (·.polarizability) ∧
    (∀ x ∈ xs, d.atomicNumbers = x.atomicNumbers) ∧ ∃ x, xs.getLast? = some x ∧ d.lattice = x.lattice

/-- The files of a dataset fit together: successive files agree and each has one position per atom. -/
def Consistent (xs : List FileSample) : Prop :=
  xs.IsChain FilesAgree ∧ ∀ x ∈ xs, x.positions.length = x.atomicNumbers.length

theorem chain_numbers (s : FileSample) (ss : List FileSample) (h : (s :: ss).IsChain FilesAgree) :
    ∀ x ∈ s :: ss, x.atomicNumbers = s.atomicNumbers := by
  induction ss generalizing s with
  | nil => intro x hx; simp at hx; rw [hx]
  | cons y ys ih =>
    intro x hx
    rw [List.isChain_cons_cons] at h
    rcases List.mem_cons.1 hx with rfl | hx
    · rfl
    · rw [ih y h.2 x hx, h.1.2]

theorem readDataset_holds (read : Path → Py FileSample) (sample : Path → FileSample → Prop)
    (hs : ∀ path x, read path = .ok x ↔ sample path x) (arg : PathsArg) :
    (∀ d, readDataset true read arg = .ok d → ∃ paths xs, PathsOf arg paths ∧
      List.Forall₂ sample paths xs ∧ Consistent xs ∧ HoldsSamples d xs) ∧
    ∀ paths xs, PathsOf arg paths → List.Forall₂ sample paths xs → Consistent xs →
      ∃ d, readDataset true read arg = .ok d ∧ HoldsSamples d xs := by
  have hf : (fun path x => read path = .ok x) = sample := by
    funext path x
    exact propext (hs path x)
  have key : ∀ paths s ss d, PathsOf arg paths → List.Forall₂ sample paths (s :: ss) →
      Consistent (s :: ss) → makeDataset ((s :: ss).getLast (by simp)).lattice s.atomicNumbers
          ((s :: ss).map (·.positions)) ((s :: ss).map (·.polarizability)) = .ok d →
      HoldsSamples d (s :: ss) := by
    intro paths s ss d h1 h2 h3 h5
    obtain ⟨-, -, rfl⟩ := makeDataset_ok h5
    exact ⟨rfl, rfl, fun x hx => (chain_numbers s ss h3.1 x hx).symm, _,
      List.getLast?_eq_some_getLast (by simp), rfl⟩
  constructor
  · intro d h
    obtain ⟨paths, s, ss, h1, h2, h3, h4, h5⟩ := (C77_accepts read arg d).1 h
    rw [hf] at h2
    exact ⟨paths, s :: ss, h1, h2, ⟨h3, h4⟩, key paths s ss d h1 h2 ⟨h3, h4⟩ h5⟩
  · intro paths xs h1 h2 h3
    obtain ⟨s, ss, rfl⟩ : ∃ s ss, xs = s :: ss := by
      cases h1 <;> cases h2 <;> exact ⟨_, _, rfl⟩
    obtain ⟨d, hd⟩ : ∃ d, makeDataset ((s :: ss).getLast (by simp)).lattice s.atomicNumbers
        ((s :: ss).map (·.positions)) ((s :: ss).map (·.polarizability)) = .ok d := by
      unfold makeDataset
      rw [if_neg, if_neg (by simp)]
      · rw [scaleAndFlatten_standard]
        exact ⟨_, rfl⟩
      · push Not
        intro p hp
        obtain ⟨x, hx, rfl⟩ := List.mem_map.1 hp
        rw [h3.2 x hx, chain_numbers s ss h3.1 x hx]
    exact ⟨d, (C77_accepts read arg d).2 ⟨paths, s, ss, h1, by rw [hf]; exact h2, h3.1, h3.2, hd⟩,
      key paths s ss d h1 h2 h3 hd⟩

/-- C77, C73: a dataset is read from OUTCAR files exactly if they hold finite structures and dielectric
tensors which fit together, and then holds what the files hold. -/
theorem C77_outcar_files (env : Env R) (ht : env.torch = true) (arg : PathsArg) :
    (∀ d, genericReadDataset env arg "outcar".toList = .ok d → ∃ paths xs, PathsOf arg paths ∧
      List.Forall₂ (OutcarSample env.fs) paths xs ∧ Consistent xs ∧ HoldsSamples d xs) ∧
    ∀ paths xs, PathsOf arg paths → List.Forall₂ (OutcarSample env.fs) paths xs → Consistent xs →
      ∃ d, genericReadDataset env arg "outcar".toList = .ok d ∧ HoldsSamples d xs := by
  have hg : ∀ d, genericReadDataset env arg "outcar".toList = .ok d ↔ env.outcarDataset arg = .ok d := by
    intro d
    unfold genericReadDataset
    rw [if_neg (by simp [ht])]
    exact (catchKeyError_pass (env.outcarDataset arg)).1 d
  simp only [hg]
  unfold Env.outcarDataset
  rw [ht]
  refine readDataset_holds _ _ (fun path x => ?_) arg
  unfold OutcarSample Env.withFile readFile
  cases env.fs path with
  | none =>
    constructor
    · intro h; cases h
    · rintro ⟨_, _, _, _, _, _, _, h, -⟩; cases h
  | some content =>
    change (outcarStructureAndPolarizability content >>= fun s => typedSample s) = .ok x ↔ _
    constructor
    · intro h
      obtain ⟨s, h1, h2⟩ := (bind_ok_iff _ _ _).1 h
      obtain ⟨hn, hl, hp, hx⟩ := (C77_sample_iff s x).1 h2
      obtain ⟨lattice, e1⟩ := entries_rowsList hl
      obtain ⟨tensor, e2⟩ := entries_rowsList hp
      obtain ⟨positions, e3⟩ := rowEntries_rowsList hx
      obtain ⟨a, b, c, d⟩ := s
      dsimp only at e1 e2 e3 hn hl hp hx
      subst e1 e2 e3 hn
      obtain ⟨f, g, h, k1, k2, k3, k4⟩ := (C134_structure_and_polarizability _ _ _ _ _).1 h1
      exact ⟨content, lattice, positions, tensor, f, g, h, rfl, k1, k2, k3, k4, hl, hp, hx⟩
    · rintro ⟨content', lattice, positions, tensor, f, g, h, hc, k1, k2, k3, k4, hl, hp, hx⟩
      obtain rfl := Option.some.inj hc
      exact (bind_ok_iff _ _ _).2 ⟨_, (C134_structure_and_polarizability _ _ _ _ _).2
        ⟨f, g, h, k1, k2, k3, k4⟩, (C77_sample_iff _ x).2 ⟨rfl, hl, hp, hx⟩⟩

/-- C77, C73: the same for vasprun.xml files. -/
theorem C77_vasprun_files (env : Env R) (ht : env.torch = true) (arg : PathsArg) :
    (∀ d, genericReadDataset env arg "vasprun.xml".toList = .ok d → ∃ paths xs, PathsOf arg paths ∧
      List.Forall₂ (VasprunSample env.fs env.parse) paths xs ∧ Consistent xs ∧ HoldsSamples d xs) ∧
    ∀ paths xs, PathsOf arg paths → List.Forall₂ (VasprunSample env.fs env.parse) paths xs →
      Consistent xs →
      ∃ d, genericReadDataset env arg "vasprun.xml".toList = .ok d ∧ HoldsSamples d xs := by
  have hg : ∀ d, genericReadDataset env arg "vasprun.xml".toList = .ok d ↔
      env.vasprunDataset arg = .ok d := by
    intro d
    unfold genericReadDataset
    rw [if_neg (by simp [ht])]
    exact (catchKeyError_pass (env.vasprunDataset arg)).1 d
  simp only [hg]
  unfold Env.vasprunDataset
  rw [ht]
  refine readDataset_holds _ _ (fun path x => ?_) arg
  unfold VasprunSample Env.withXml Env.withFile readFile
  cases env.fs path with
  | none =>
    constructor
    · intro h; cases h
    · rintro ⟨_, _, _, _, _, h, -⟩; cases h
  | some content =>
    change (env.parse content >>= fun root => vasprunStructureAndPolarizability root >>= fun s =>
      typedSample s) = .ok x ↔ _
    constructor
    · intro h
      obtain ⟨root, h0, h⟩ := (bind_ok_iff _ _ _).1 h
      obtain ⟨s, h1, h2⟩ := (bind_ok_iff _ _ _).1 h
      obtain ⟨hn, hl, hp, hx⟩ := (C77_sample_iff s x).1 h2
      obtain ⟨k1, k2, k3, k4⟩ := (C135_structure_and_polarizability _ _).1 h1
      rw [← hn] at k1
      exact ⟨content, root, _, _, _, rfl, h0, k1, k2, k3, k4, hl, hp, hx⟩
    · rintro ⟨content', root, lattice, positions, tensor, hc, h0, k1, k2, k3, k4, hl, hp, hx⟩
      obtain rfl := Option.some.inj hc
      exact (bind_ok_iff _ _ _).2 ⟨root, h0, (bind_ok_iff _ _ _).2
        ⟨⟨lattice, x.atomicNumbers, positions, tensor⟩,
          (C135_structure_and_polarizability _ _).2 ⟨k1, k2, k3, k4⟩,
          (C77_sample_iff _ x).2 ⟨rfl, hl, hp, hx⟩⟩⟩

/-- The crystal of the example `saltOutcar`. -/
noncomputable def saltSample : FileSample :=
  ⟨fun i j => if i = j then 0 else 14 / 5, [11, 17], [fun _ => 0, fun _ => 1 / 2],
    fun i j => if i = j then 5 / 2 else 0⟩

/-- C77, concrete: a dataset of two OUTCAR files. -/
example (env : Env R) (ht : env.torch = true) (hf : ∀ path, env.fs path = some saltOutcar) :
    ∃ d, genericReadDataset env (.many ["a".toList, "b".toList]) "outcar".toList = .ok d ∧
      d.atomicNumbers = [11, 17] ∧ d.polarizabilities.length = 2 := by
  have hs : ∀ path, OutcarSample env.fs path saltSample := by
    intro path
    obtain ⟨f, g, h, k1, k2, k3, k4⟩ := salt_parts
    refine ⟨saltOutcar, _, _, _, f, g, h, hf path, k1, k2, k3, k4, ?_, ?_, ?_⟩
    · refine ⟨fun i j => if i = j then 0 else 14 / 5, by simp [rowsList, List.ofFn_succ], ?_⟩
      intro i j
      simp only [saltSample]
      split_ifs <;> simp
    · refine ⟨fun i j => if i = j then 5 / 2 else 0, by simp [rowsList, List.ofFn_succ], ?_⟩
      intro i j
      simp only [saltSample]
      split_ifs <;> simp
    · exact .cons ⟨fun _ => 0, by simp [List.ofFn_succ], by simp⟩
        (.cons ⟨fun _ => 1 / 2, by simp [List.ofFn_succ], by simp⟩ .nil)
  obtain ⟨d, hd, h1, h2, h3, -⟩ := (C77_outcar_files env ht _).2 ["a".toList, "b".toList]
    [saltSample, saltSample] (.many _ _) (.cons (hs _) (.cons (hs _) .nil)) ⟨by
      rw [List.isChain_cons_cons]
      refine ⟨⟨?_, rfl⟩, by simp⟩
      intro i j
      simp only [sub_self, abs_zero]
      positivity, by simp [saltSample]⟩
  exact ⟨d, hd, h3 saltSample (by simp), by rw [h2]; rfl⟩

/-- C77, C73, concrete: a dataset and a reference structure read from a vasprun.xml file. -/
example (env : Env (List ℕ × List (List Num))) (ht : env.torch = true)
    (hf : env.fs "v".toList = some []) (hp : env.parse [] = .ok oxygenRoot)
    (hm : env.mkRef = fun numbers _ positions => .ok (numbers, positions)) :
    (∃ d, genericReadDataset env (.one "v".toList) "vasprun.xml".toList = .ok d ∧
      d.atomicNumbers = [8]) ∧
    genericReadRefStructure env "v".toList "vasprun.xml".toList =
      .ok ([8], [[some (1 / 4), some (1 / 2), some 0]]) := by
  obtain ⟨k1, k2, k3, k4⟩ := oxygen_parts
  constructor
  · obtain ⟨d, hd, -, -, h3, -⟩ := (C77_vasprun_files env ht _).2 ["v".toList]
      [⟨fun i j => if i = j then 2 else 0, [8], [![1 / 4, 1 / 2, 0]],
        fun i j => if i = j then if i = 2 then 1 else 3 else 0⟩] (.one _)
      (.cons ⟨[], oxygenRoot, _, _, _, hf, hp, k1, k2, k3, k4,
        ⟨fun i j => if i = j then 2 else 0, by simp [List.ofFn_succ], fun i j => by
          dsimp only; split_ifs <;> simp⟩,
        ⟨fun i j => if i = j then if i = 2 then 1 else 3 else 0, by simp [List.ofFn_succ], fun i j => by
          dsimp only; split_ifs <;> simp⟩,
        .cons ⟨![1 / 4, 1 / 2, 0], by simp [List.ofFn_succ], fun j => by fin_cases j <;> simp⟩ .nil⟩ .nil)
      ⟨by simp, by simp⟩
    exact ⟨d, hd, h3 _ List.mem_cons_self⟩
  · refine ((C73_vasprun_reference env _ _ _ hf hp _ _ _ k1 k2 k3).1 _).2 ?_
    rw [hm]

/-- C73, concrete: a reference structure read from an OUTCAR. -/
example (env : Env (List ℕ × List (List Num))) (hf : env.fs "o".toList = some saltOutcar)
    (hm : env.mkRef = fun numbers _ positions => .ok (numbers, positions)) :
    genericReadRefStructure env "o".toList "outcar".toList =
      .ok ([11, 17], [[some 0, some 0, some 0], [some (1 / 2), some (1 / 2), some (1 / 2)]]) := by
  obtain ⟨f, g, h, k1, k2, k3, -⟩ := salt_parts
  refine ((C73_outcar_reference env _ _ hf _ _ _ ⟨f, g, h, k1, k2, k3⟩).1 _).2 ?_
  rw [hm]
  rfl

end Verif
