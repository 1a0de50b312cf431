import Verif.Model.DofPaths
import Verif.Props.DofFiles
import Verif.Props.GenericFiles
import Verif.Props.Layout

/-!
# Property C167: degrees of freedom from the files on disk
-/

namespace Verif
open Spec

variable {N : ℕ} {R : Type}

/-! ## What files say -/

/-- The file at `path` gives positions (rows of numbers) and, for models with polarizabilities, a
dielectric tensor: OUTCAR and vasprun.xml files, and for models without polarizabilities also POSCAR
and XDATCAR files (the first configuration). -/
def Describes (env : Env R) (dummy : Bool) (fmt : Word) (path : Path)
    (rows tensor : List (List Num)) : Prop :=
  ∃ content, env.fs path = some content ∧
    ((fmt = "outcar".toList ∧ ∃ numbers f g vs, ElementsIn IsNumber (fileLines content) numbers f ∧
        PositionsIn numbers.length f vs g ∧ rows = rowsList vs ∧
        (dummy = false → ∃ t, TensorIn g t ∧ tensor = rowsList t)) ∨
      (fmt = "vasprun.xml".toList ∧ ∃ root, env.parse content = .ok root ∧
        InitialPositions root rows ∧ (dummy = false → DielectricTensor root tensor)) ∨
      (dummy = true ∧ (fmt = "poscar".toList ∨ fmt = "xdatcar".toList) ∧
        ∃ ls a numbers vs, IsText ls content ∧
          IsPoscar (fun s z => dictGet atomicNumbers s = some z) ls a numbers vs ∧
          rows = rowsList vs))

/-- The file gives finite positions of `N` atoms and a finite dielectric tensor. -/
def DescribesDof (env : Env R) (dummy : Bool) (fmt : Word) (path : Path) (x : Pos N ℝ × Mat3 ℝ) :
    Prop :=
  ∃ rows tensor, Describes env dummy fmt path rows tensor ∧ RowEntries rows (List.ofFn x.1) ∧
    (dummy = false → Entries tensor x.2)

/-- The formats that `add_dof_from_files` can read. -/
def DofFormat (dummy : Bool) (fmt : Word) : Prop :=
  fmt = "outcar".toList ∨ fmt = "vasprun.xml".toList ∨
    (dummy = true ∧ (fmt = "poscar".toList ∨ fmt = "xdatcar".toList))

/-! ## Reading one file -/

theorem readSnapshot_describes {env : Env R} {dummy : Bool} {fmt : Word} {path : Path}
    {rows tensor : List (List Num)} (h : Describes env dummy fmt path rows tensor) :
    readSnapshot env dummy fmt path =
      .ok (rows, if dummy then List.replicate 3 (List.replicate 3 (some 0)) else tensor) := by
  obtain ⟨content, hf, h⟩ := h
  have hfile : ∀ {α : Type} (g : List Char → Py α), env.withFile g path = g content := by
    intro α g
    unfold Env.withFile readFile
    rw [hf]
    rfl
  unfold readSnapshot
  cases dummy with
  | false =>
    rw [if_pos rfl]
    rcases h with ⟨rfl, numbers, f, g, vs, h1, h2, rfl, h3⟩ | ⟨rfl, root, h0, h1, h2⟩ | ⟨h, -⟩
    · obtain ⟨t, h4, rfl⟩ := h3 rfl
      change catchKeyError (env.withFile outcarPositionsAndPolarizability path) = _
      rw [hfile, (C134_positions_and_polarizability content vs t).2 ⟨numbers, f, g, h1, h2, h4⟩]
      rfl
    · change catchKeyError (env.withXml vasprunPositionsAndPolarizability path) = _
      unfold Env.withXml
      rw [hfile, h0]
      change catchKeyError (vasprunPositionsAndPolarizability root) = _
      rw [(C135_positions_and_polarizability root rows tensor).2 ⟨h1, h2 rfl⟩]
      rfl
    · cases h
  | true =>
    rw [if_neg (by simp)]
    have key : genericReadPositions env path fmt = .ok rows := by
      rcases h with ⟨rfl, numbers, f, g, vs, h1, h2, rfl, -⟩ | ⟨rfl, root, h0, h1, -⟩ |
        ⟨-, hfmt, ls, a, numbers, vs, h1, h2, rfl⟩
      · change catchKeyError (env.withFile outcarPositions path) = _
        rw [hfile, (C134_positions content vs).2 ⟨numbers, f, g, h1, h2⟩]
        rfl
      · change catchKeyError (env.withXml vasprunPositions path) = _
        unfold Env.withXml
        rw [hfile, h0]
        change catchKeyError (vasprunInitialPositions root) = _
        rw [(vasprunInitialPositions_iff root rows).2 h1]
        rfl
      · have : env.poscarPositions path = .ok (rowsList vs) := by
          unfold Env.poscarPositions
          rw [hfile, (C115_positions env.ext content).1 _ ((C114_poscar env.ext content ls h1 a numbers
            vs).2 h2)]
          rfl
        rcases hfmt with rfl | rfl
        · change catchKeyError (env.poscarPositions path) = _
          rw [this]; rfl
        · change catchKeyError (env.poscarPositions path) = _
          rw [this]; rfl
    rw [key]
    rfl

theorem readSnapshot_format {env : Env R} {dummy : Bool} {fmt : Word} (path : Path)
    (h : ¬ DofFormat dummy fmt) : readSnapshot env dummy fmt path = .error .valueError := by
  unfold DofFormat at h
  push Not at h
  obtain ⟨h1, h2, h3⟩ := h
  unfold readSnapshot
  cases dummy with
  | false =>
    rw [if_pos rfl]
    exact (C73_positions_and_polarizability env path).unsupported fmt (by
      simp only [List.map_cons, List.map_nil, List.mem_cons, List.not_mem_nil, or_false, not_or]
      exact ⟨h1, h2⟩)
  | true =>
    obtain ⟨h3, h4⟩ := h3 rfl
    rw [if_neg (by simp), (C73_positions env path).unsupported fmt (by
      simp only [List.map_cons, List.map_nil, List.mem_cons, List.not_mem_nil, or_false, not_or]
      exact ⟨h3, h1, h4, h2⟩)]
    rfl

theorem readSnapshot_missing {env : Env R} {dummy : Bool} {fmt : Word} {path : Path}
    (h : DofFormat dummy fmt) (hf : env.fs path = none) :
    readSnapshot env dummy fmt path = .error .fileNotFoundError := by
  have hfile : ∀ {α : Type} (g : List Char → Py α), env.withFile g path = .error .fileNotFoundError := by
    intro α g
    unfold Env.withFile readFile
    rw [hf]
    rfl
  have hxml : ∀ {α : Type} (g : Elem → Py α), env.withXml g path = .error .fileNotFoundError := by
    intro α g
    unfold Env.withXml
    exact hfile _
  have hpos : env.poscarPositions path = .error .fileNotFoundError := hfile _
  unfold readSnapshot
  cases dummy with
  | false =>
    rw [if_pos rfl]
    rcases h with rfl | rfl | ⟨h, -⟩
    · change catchKeyError (env.withFile outcarPositionsAndPolarizability path) = _
      rw [hfile]; rfl
    · change catchKeyError (env.withXml vasprunPositionsAndPolarizability path) = _
      rw [hxml]; rfl
    · cases h
  | true =>
    rw [if_neg (by simp)]
    have key : genericReadPositions env path fmt = .error .fileNotFoundError := by
      rcases h with rfl | rfl | ⟨-, rfl | rfl⟩
      · change catchKeyError (env.withFile outcarPositions path) = _
        rw [hfile]; rfl
      · change catchKeyError (env.withXml vasprunPositions path) = _
        rw [hxml]; rfl
      · change catchKeyError (env.poscarPositions path) = _
        rw [hpos]; rfl
      · change catchKeyError (env.poscarPositions path) = _
        rw [hpos]; rfl
    rw [key]
    rfl

/-! ## Fitting the arrays to the model -/

theorem broadcastRow_row (v : NumVec) : broadcastRow [v 0, v 1, v 2] = some v := by
  change some _ = some _
  congr 1
  funext i
  fin_cases i <;> rfl

theorem mapM_broadcast (vs : List NumVec) : (rowsList vs).mapM broadcastRow = some vs := by
  induction vs with
  | nil => rfl
  | cons v vs ih =>
    change (([v 0, v 1, v 2]) :: rowsList vs).mapM broadcastRow = _
    rw [List.mapM_cons, broadcastRow_row, ih]
    rfl

theorem positionsFor_rows (vs : List NumVec) (hN : N ≠ 0) (h : vs.length = N) :
    positionsFor N (rowsList vs) = .ok (some fun a => vs[a]'(by rw [h]; exact a.2)) := by
  unfold positionsFor
  rw [if_neg, mapM_broadcast]
  · dsimp only
    rw [dif_pos h]
  · intro e
    have := congrArg List.length e
    simp only [rowsList, List.length_map, List.length_nil] at this
    omega

theorem positionsFor_single (v : NumVec) :
    positionsFor N (rowsList [v]) = .ok (some fun _ => v) := by
  unfold positionsFor
  rw [if_neg (by simp [rowsList]), mapM_broadcast]
  dsimp only
  by_cases h : ([v] : List NumVec).length = N
  · rw [dif_pos h]
    congr 2
    funext a
    simp
  · rw [dif_neg h]
    rfl

theorem positionsFor_other (vs : List NumVec) (h : vs.length ≠ N) (h1 : vs.length ≠ 1)
    (hN : N ≠ 1) : positionsFor N (rowsList vs) = .ok none := by
  unfold positionsFor
  by_cases he : rowsList vs = []
  · rw [if_pos he]
  · rw [if_neg he, mapM_broadcast]
    dsimp only
    rw [dif_neg h, dif_neg h1, if_neg hN]

theorem positionsFor_width (rows : List (List Num))
    (h : rows = [] ∨ ∃ row ∈ rows, row.length ≠ 1 ∧ row.length ≠ 3) :
    positionsFor N rows = .ok none := by
  unfold positionsFor
  by_cases h0 : rows = []
  · rw [if_pos h0]
  · rw [if_neg h0]
    have : rows.mapM broadcastRow = none := by
      obtain ⟨row, hr, h1, h3⟩ := h.resolve_left h0
      clear h h0
      have hb : broadcastRow row = none := by
        match row, h1, h3 with
        | [], _, _ => rfl
        | [_], h1, _ => exact absurd rfl h1
        | [_, _], _, _ => rfl
        | [_, _, _], _, h3 => exact absurd rfl h3
        | _ :: _ :: _ :: _ :: _, _, _ => rfl
      induction rows with
      | nil => simp at hr
      | cons r rows ih =>
        rw [List.mapM_cons]
        rcases List.mem_cons.1 hr with rfl | hr
        · rw [hb]; rfl
        · rw [ih hr]
          cases broadcastRow r <;> rfl
    rw [this]

theorem finitePositions_some {p : Fin N → NumVec} {q : Pos N ℝ} {v : Fin N → Fin 3 → ℚ}
    (hp : p = fun a i => some (v a i)) (hq : ∀ a i, q a i = v a i) : finitePositions p = some q := by
  subst hp
  unfold finitePositions
  rw [if_pos (by simp)]
  congr 1
  funext a i
  rw [hq]
  rfl

theorem finitePositions_nan {p : Fin N → NumVec} (h : ∃ a i, p a i = none) :
    finitePositions p = none := by
  obtain ⟨a, i, h⟩ := h
  unfold finitePositions
  rw [if_neg]
  intro h'
  have := h' a i
  rw [h] at this
  cases this

/-! ## Reading all files -/

/-- The arrays of a file fit the model, with the values that the model works with. -/
def FitsAs (env : Env R) (dummy : Bool) (fmt : Word) (path : Path)
    (y : (Fin N → NumVec) × List (List Num)) : Prop :=
  ∃ rows tensor, Describes env dummy fmt path rows tensor ∧
    positionsFor N rows = .ok (some y.1) ∧
    y.2 = if dummy then List.replicate 3 (List.replicate 3 (some 0)) else tensor

theorem readSnapshots_step {env : Env R} {dummy : Bool} {fmt : Word} {path : Path}
    {y : (Fin N → NumVec) × List (List Num)} (h : FitsAs env dummy fmt path y) (paths : List Path) :
    readSnapshots env dummy N fmt (path :: paths) =
      (readSnapshots env dummy N fmt paths).map (y :: ·) := by
  obtain ⟨rows, tensor, h1, h2, h3⟩ := h
  obtain ⟨p, t⟩ := y
  dsimp only at h2 h3
  subst h3
  rw [readSnapshots, readSnapshot_describes h1]
  change (positionsFor N rows >>= _) = _
  rw [h2]
  dsimp only [bind, Except.bind]
  cases readSnapshots env dummy N fmt paths <;> rfl

theorem readSnapshots_ok {env : Env R} {dummy : Bool} {fmt : Word} {paths : List Path}
    {data : List ((Fin N → NumVec) × List (List Num))}
    (h : List.Forall₂ (FitsAs env dummy fmt) paths data) :
    readSnapshots env dummy N fmt paths = .ok data := by
  induction h with
  | nil => rfl
  | cons h _ ih => rw [readSnapshots_step h, ih]; rfl

theorem readSnapshots_error {env : Env R} {dummy : Bool} {fmt : Word} {pre rest : List Path}
    {data : List ((Fin N → NumVec) × List (List Num))} {e : PyErr}
    (h : List.Forall₂ (FitsAs env dummy fmt) pre data)
    (he : readSnapshots env dummy N fmt rest = .error e) :
    readSnapshots env dummy N fmt (pre ++ rest) = .error e := by
  induction h with
  | nil => exact he
  | cons h _ ih => rw [List.cons_append, readSnapshots_step h, ih]; rfl

theorem pathsOf_eq {arg : PathsArg} {paths : List Path} (h : PathsOf arg paths) :
    pathifyAsList arg = .ok paths := (pathifyAsList_iff arg paths).2 h

theorem fromPaths_error {env : Env R} {m : IModel N} {arg : PathsArg} {fmt : Word} {paths : List Path}
    (hp : PathsOf arg paths) {e : PyErr}
    (he : readSnapshots env m.dummy N fmt paths = .error e) (run : List (DofFile N) → Outcome N)
    (runF : List (DofFile N) → List (Option (Mat3 ℝ)) → Outcome N)
    (runS : List (DofFile N) → List (List (List Num)) → Outcome N) :
    fromPaths env m arg fmt run runF runS = ⟨.error e, [], m⟩ := by
  unfold fromPaths
  rw [pathsOf_eq hp]
  dsimp only [bind, Except.bind]
  rw [he]

theorem fromPaths_ok {env : Env R} {m : IModel N} {arg : PathsArg} {fmt : Word} {paths : List Path}
    (hp : PathsOf arg paths) {data : List ((Fin N → NumVec) × List (List Num))}
    (hd : List.Forall₂ (FitsAs env m.dummy fmt) paths data) (run : List (DofFile N) → Outcome N)
    (runF : List (DofFile N) → List (Option (Mat3 ℝ)) → Outcome N)
    (runS : List (DofFile N) → List (List (List Num)) → Outcome N) :
    fromPaths env m arg fmt run runF runS = withSnapshots m data run runF runS := by
  unfold fromPaths
  rw [pathsOf_eq hp]
  dsimp only [bind, Except.bind]
  rw [readSnapshots_ok hd]

/-- The positions of a file as positions of the atoms of the model: either one row per atom, or a single
row that stands for all atoms. -/
def Placed (rows : List (List Num)) (p : Pos N ℝ) : Prop :=
  RowEntries rows (List.ofFn p) ∨ ∃ r : Fin 3 → ℝ, RowEntries rows [r] ∧ p = fun _ => r

theorem placed_fits (hN : N ≠ 0) {rows : List (List Num)} {p : Pos N ℝ} (h : Placed rows p) :
    ∃ q, positionsFor N rows = .ok (some q) ∧ finitePositions q = some p := by
  have hrows : ∀ {rows : List (List Num)} {ps : List (Fin 3 → ℝ)}, RowEntries rows ps →
      ∃ vs : List (Fin 3 → ℚ), rows = rowsList (vs.map fun v i => some (v i)) ∧
        List.Forall₂ (fun (v : Fin 3 → ℚ) (p : Fin 3 → ℝ) => ∀ j, p j = v j) vs ps := by
    intro rows ps h
    induction h with
    | nil => exact ⟨[], rfl, .nil⟩
    | cons h _ ih =>
      obtain ⟨v, rfl, hv⟩ := h
      obtain ⟨vs, rfl, hvs⟩ := ih
      exact ⟨v :: vs, by simp [rowsList, List.ofFn_succ], .cons hv hvs⟩
  rcases h with h | ⟨r, h, rfl⟩
  · obtain ⟨vs, rfl, hvs⟩ := hrows h
    have hl : vs.length = N := by rw [hvs.length_eq, List.length_ofFn]
    refine ⟨_, positionsFor_rows _ hN (by rw [List.length_map, hl]), ?_⟩
    refine finitePositions_some (v := fun a => vs[a]'(by rw [hl]; exact a.2)) ?_ ?_
    · funext a i
      simp
    · intro a i
      have := (List.forall₂_iff_get.1 hvs).2 a (by rw [hl]; exact a.2) (by simp) i
      simpa using this
  · obtain ⟨vs, rfl, hvs⟩ := hrows h
    cases hvs with
    | cons hv hvs =>
      cases hvs
      rename_i v
      exact ⟨_, positionsFor_single _, finitePositions_some (v := fun _ => v) rfl fun _ i => hv i⟩

theorem zeroEntries : Entries (List.replicate 3 (List.replicate 3 (some 0))) 0 :=
  ⟨fun _ _ => 0, by simp [List.ofFn_succ, List.replicate_succ], by simp⟩

/-- The file gives arrays that the model takes as these finite positions and this tensor. -/
def PlacedFile (env : Env R) (dummy : Bool) (fmt : Word) (path : Path) (x : Pos N ℝ × Mat3 ℝ) :
    Prop :=
  ∃ rows tensor, Describes env dummy fmt path rows tensor ∧
    (∃ q, positionsFor N rows = .ok (some q) ∧ finitePositions q = some x.1) ∧
    (dummy = false → Entries tensor x.2)

theorem fromPaths_placed {env : Env R} {m : IModel N} {arg : PathsArg} {fmt : Word}
    {paths : List Path} (hp : PathsOf arg paths) {data : List (Pos N ℝ × Mat3 ℝ)}
    (hd : List.Forall₂ (PlacedFile env m.dummy fmt) paths data)
    (run : List (DofFile N) → Outcome N)
    (runF : List (DofFile N) → List (Option (Mat3 ℝ)) → Outcome N)
    (runS : List (DofFile N) → List (List (List Num)) → Outcome N) :
    fromPaths env m arg fmt run runF runS =
      run (goodFiles (data.map fun x => (x.1, if m.dummy then 0 else x.2))) := by
  have key : ∃ ys : List ((Fin N → NumVec) × List (List Num)),
      List.Forall₂ (FitsAs env m.dummy fmt) paths ys ∧
      (ys.mapM fun y => finitePositions y.1) = some (data.map (·.1)) ∧
      (ys.mapM fun y => finiteMat y.2) = some (data.map fun x => if m.dummy then 0 else x.2) := by
    clear hp
    induction hd with
    | nil => exact ⟨[], .nil, rfl, rfl⟩
    | @cons _ x _ _ h _ ih =>
      obtain ⟨ys, h1, h2, h3⟩ := ih
      obtain ⟨rows, tensor, k1, k2, k3⟩ := h
      obtain ⟨q, k4, k5⟩ := k2
      refine ⟨(q, if m.dummy then List.replicate 3 (List.replicate 3 (some 0)) else tensor) :: ys,
        .cons ⟨rows, tensor, k1, k4, rfl⟩ h1, ?_, ?_⟩
      · rw [List.mapM_cons, h2]
        dsimp only
        rw [k5]
        rfl
      · rw [List.mapM_cons, h3]
        dsimp only
        have : finiteMat (if m.dummy then List.replicate 3 (List.replicate 3 (some 0)) else tensor) =
            some (if m.dummy then 0 else x.2) := by
          cases hm : m.dummy with
          | true => exact finiteMat_of_entries zeroEntries
          | false => exact finiteMat_of_entries (k3 hm)
        rw [this]
        rfl
  obtain ⟨ys, h1, h2, h3⟩ := key
  rw [fromPaths_ok hp h1]
  unfold withSnapshots
  rw [h2, h3]
  dsimp only
  congr 1
  unfold goodFiles
  rw [List.zip_map', List.map_map]

theorem DescribesDof.placed (hN : N ≠ 0) {env : Env R} {dummy : Bool} {fmt : Word} {path : Path}
    {x : Pos N ℝ × Mat3 ℝ} (h : DescribesDof env dummy fmt path x) :
    PlacedFile env dummy fmt path x := by
  obtain ⟨rows, tensor, h1, h2, h3⟩ := h
  exact ⟨rows, tensor, h1, placed_fits hN (Or.inl h2), h3⟩

/-! ## C167 -/

/-- C167, acceptance: when the displacements of the files from the reference are collinear,
`add_dof_from_files` does what `add_dof` does with the Cartesian displacement of the first file, the
signed lengths of all displacements along it and the dielectric tensors in the order of the files.
Neither the lattice nor the elements of the files matter. -/
theorem C167_files (env : Env R) (spline : SplineFn) (we : Bool) (m : IModel N)
    (hL : m.ref.lattice.det ≠ 0) (arg : PathsArg) (fmt : Word) (path : Path) (paths : List Path)
    (hp : PathsOf arg (path :: paths)) (x₀ : Pos N ℝ × Mat3 ℝ) (xs : List (Pos N ℝ × Mat3 ℝ))
    (hd : List.Forall₂ (DescribesDof env m.dummy fmt) (path :: paths) (x₀ :: xs))
    (w : Pos N ℝ → Pos N ℝ) (hw : ∀ p, NearestImage m.ref.positions p (w p))
    (hc : ∀ x ∈ x₀ :: xs, Collinear (flatten (w x₀.1)) (flatten (w x.1))) (order : ℤ) :
    m.addDofFromPaths env spline we arg fmt order =
      m.addDof spline we (toCart m.ref.lattice (w x₀.1))
        ((x₀ :: xs).map fun x =>
          inner3 (toCart m.ref.lattice (w x₀.1)) (toCart m.ref.lattice (w x.1)) /
            Real.sqrt (inner3 (toCart m.ref.lattice (w x₀.1)) (toCart m.ref.lattice (w x₀.1))))
        ((x₀ :: xs).map fun x => if m.dummy then 0 else x.2) order := by
  have hN : N ≠ 0 := by
    rintro rfl
    refine (hc x₀ List.mem_cons_self).1 ?_
    funext ⟨a, _⟩
    exact a.elim0
  unfold IModel.addDofFromPaths
  rw [fromPaths_placed hp (hd.imp fun _ _ h => h.placed hN)]
  have := C117_files spline we m hL (x₀.1, if m.dummy then 0 else x₀.2)
    (xs.map fun x => (x.1, if m.dummy then 0 else x.2)) w hw (by
      intro x hx
      rcases List.mem_cons.1 hx with rfl | hx
      · exact hc x₀ List.mem_cons_self
      · obtain ⟨y, hy, rfl⟩ := List.mem_map.1 hx
        exact hc y (List.mem_cons_of_mem _ hy)) order
  refine Eq.trans this ?_
  simp only [List.map_cons, List.map_map, Function.comp_def]
  congr 2
  · cases m.dummy <;> rfl
  · cases m.dummy <;> rfl

/-- C167, refusal: when the displacement of some file is not collinear with that of the first (in
particular, when it is zero), `InvalidDOFException` is raised and the model is left alone. -/
theorem C167_not_collinear (env : Env R) (spline : SplineFn) (we : Bool) (m : IModel N)
    (hN : N ≠ 0) (arg : PathsArg) (fmt : Word) (path : Path) (paths : List Path)
    (hp : PathsOf arg (path :: paths)) (x₀ : Pos N ℝ × Mat3 ℝ) (xs : List (Pos N ℝ × Mat3 ℝ))
    (hd : List.Forall₂ (DescribesDof env m.dummy fmt) (path :: paths) (x₀ :: xs))
    (w : Pos N ℝ → Pos N ℝ) (hw : ∀ p, NearestImage m.ref.positions p (w p))
    (x : Pos N ℝ × Mat3 ℝ) (hx : x ∈ x₀ :: xs)
    (hc : ¬ Collinear (flatten (w x₀.1)) (flatten (w x.1))) (order : ℤ) :
    m.addDofFromPaths env spline we arg fmt order = ⟨.error .invalidDOF, [], m⟩ ∧
    m.addArtFromPaths env spline we arg fmt = ⟨.error .invalidDOF, [], m⟩ := by
  have h := C117_not_collinear spline we m (x₀.1, if m.dummy then 0 else x₀.2)
    (xs.map fun x => (x.1, if m.dummy then 0 else x.2)) w hw (x.1, if m.dummy then 0 else x.2) (by
      rcases List.mem_cons.1 hx with rfl | hx
      · exact List.mem_cons_self
      · exact List.mem_cons_of_mem _ (List.mem_map.2 ⟨x, hx, rfl⟩)) hc order
  unfold IModel.addDofFromPaths IModel.addArtFromPaths
  constructor
  · rw [fromPaths_placed hp (hd.imp fun _ _ h => h.placed hN)]
    exact h.1
  · rw [fromPaths_placed hp (hd.imp fun _ _ h => h.placed hN)]
    exact h.2

/-- C167: `add_art_from_files` works on the same positions and tensors; C117, C125 and C145 say what it
does with them. -/
theorem C167_art (env : Env R) (spline : SplineFn) (we : Bool) (m : IModel N) (hN : N ≠ 0)
    (arg : PathsArg) (fmt : Word) (paths : List Path) (hp : PathsOf arg paths)
    (data : List (Pos N ℝ × Mat3 ℝ))
    (hd : List.Forall₂ (DescribesDof env m.dummy fmt) paths data) :
    m.addArtFromPaths env spline we arg fmt =
      m.addArtFromFiles spline we
        (data.map fun x => .ok (some x.1, if m.dummy then 0 else x.2)) := by
  unfold IModel.addArtFromPaths
  rw [fromPaths_placed hp (hd.imp fun _ _ h => h.placed hN)]
  unfold goodFiles
  rw [List.map_map]
  rfl

/-- C167: a file with a single atom is taken as all atoms of the model at the place of this atom. -/
theorem C167_single_atom (env env' : Env R) (spline : SplineFn) (we : Bool) (m : IModel N)
    (hN : N ≠ 0) (arg arg' : PathsArg) (fmt fmt' : Word) (paths paths' : List Path)
    (hp : PathsOf arg paths) (hp' : PathsOf arg' paths')
    (data : List ((Fin 3 → ℝ) × Mat3 ℝ))
    (hd : List.Forall₂ (fun path x => DescribesDof (N := 1) env m.dummy fmt path (fun _ => x.1, x.2))
      paths data)
    (hd' : List.Forall₂ (fun path x => DescribesDof (N := N) env' m.dummy fmt' path (fun _ => x.1, x.2))
      paths' data) (order : ℤ) :
    m.addDofFromPaths env spline we arg fmt order = m.addDofFromPaths env' spline we arg' fmt' order ∧
    m.addArtFromPaths env spline we arg fmt = m.addArtFromPaths env' spline we arg' fmt' := by
  have h1 : List.Forall₂ (PlacedFile (N := N) env m.dummy fmt) paths
      (data.map fun x => ((fun _ => x.1, x.2) : Pos N ℝ × Mat3 ℝ)) := by
    rw [List.forall₂_map_right_iff]
    refine hd.imp fun path x h => ?_
    obtain ⟨rows, tensor, k1, k2, k3⟩ := h
    exact ⟨rows, tensor, k1, placed_fits hN (Or.inr ⟨x.1, by simpa using k2, rfl⟩), k3⟩
  have h2 : List.Forall₂ (PlacedFile (N := N) env' m.dummy fmt') paths'
      (data.map fun x => ((fun _ => x.1, x.2) : Pos N ℝ × Mat3 ℝ)) := by
    rw [List.forall₂_map_right_iff]
    exact hd'.imp fun path x h => h.placed hN
  unfold IModel.addDofFromPaths IModel.addArtFromPaths
  rw [fromPaths_placed hp h1, fromPaths_placed hp h1, fromPaths_placed hp' h2,
    fromPaths_placed hp' h2]
  exact ⟨rfl, rfl⟩

/-- C167: rows with a single number (only a vasprun.xml file can have them) are taken as three equal
coordinates. -/
theorem C167_single_column (env env' : Env R) (spline : SplineFn) (we : Bool) (m : IModel N)
    (hN : N ≠ 0) (arg arg' : PathsArg) (fmt fmt' : Word) (paths paths' : List Path)
    (hp : PathsOf arg paths) (hp' : PathsOf arg' paths') (data : List ((Fin N → ℚ) × Mat3 ℝ))
    (hd : List.Forall₂ (fun path (x : (Fin N → ℚ) × Mat3 ℝ) => ∃ tensor,
      Describes env m.dummy fmt path (List.ofFn fun a => [some (x.1 a)]) tensor ∧
        (m.dummy = false → Entries tensor x.2)) paths data)
    (hd' : List.Forall₂ (fun path (x : (Fin N → ℚ) × Mat3 ℝ) =>
      DescribesDof env' m.dummy fmt' path (fun a _ => (x.1 a : ℝ), x.2)) paths' data) (order : ℤ) :
    m.addDofFromPaths env spline we arg fmt order = m.addDofFromPaths env' spline we arg' fmt' order ∧
    m.addArtFromPaths env spline we arg fmt = m.addArtFromPaths env' spline we arg' fmt' := by
  have h1 : List.Forall₂ (PlacedFile (N := N) env m.dummy fmt) paths
      (data.map fun x => ((fun a _ => (x.1 a : ℝ), x.2) : Pos N ℝ × Mat3 ℝ)) := by
    rw [List.forall₂_map_right_iff]
    refine hd.imp fun path x h => ?_
    obtain ⟨tensor, k1, k3⟩ := h
    refine ⟨_, tensor, k1, ⟨fun a _ => some (x.1 a), ?_,
      finitePositions_some (v := fun a _ => x.1 a) rfl fun _ _ => rfl⟩, k3⟩
    have hb : ∀ l : List ℚ, (l.map fun q => [some q]).mapM broadcastRow =
        some (l.map fun q _ => some q) := by
      intro l
      induction l with
      | nil => rfl
      | cons q l ih =>
        rw [List.map_cons, List.mapM_cons, ih]
        rfl
    have he : (List.ofFn fun a => [some (x.1 a)]) = (List.ofFn x.1).map fun q => [some q] := by
      rw [List.map_ofFn]
      rfl
    unfold positionsFor
    rw [if_neg, he, hb]
    · dsimp only
      rw [dif_pos (by simp)]
      congr 2
      funext a i
      simp
    · intro e
      have := congrArg List.length e
      simp only [List.length_ofFn, List.length_nil] at this
      exact hN this
  have h2 : List.Forall₂ (PlacedFile (N := N) env' m.dummy fmt') paths'
      (data.map fun x => ((fun a _ => (x.1 a : ℝ), x.2) : Pos N ℝ × Mat3 ℝ)) := by
    rw [List.forall₂_map_right_iff]
    exact hd'.imp fun path x h => h.placed hN
  unfold IModel.addDofFromPaths IModel.addArtFromPaths
  rw [fromPaths_placed hp h1, fromPaths_placed hp h1, fromPaths_placed hp' h2,
    fromPaths_placed hp' h2]
  exact ⟨rfl, rfl⟩

/-- C167: an empty list of files and formats that cannot be read give `ValueError`, whatever the files
are; models with polarizabilities read OUTCAR and vasprun.xml files only. -/
theorem C167_refused (env : Env R) (spline : SplineFn) (we : Bool) (m : IModel N) (arg : PathsArg)
    (fmt : Word) (h : arg = .many [] ∨ ¬ DofFormat m.dummy fmt) (order : ℤ) :
    m.addDofFromPaths env spline we arg fmt order = ⟨.error .valueError, [], m⟩ ∧
    m.addArtFromPaths env spline we arg fmt = ⟨.error .valueError, [], m⟩ := by
  have key : ∀ (run : List (DofFile N) → Outcome N)
      (runF : List (DofFile N) → List (Option (Mat3 ℝ)) → Outcome N)
    (runS : List (DofFile N) → List (List (List Num)) → Outcome N),
      fromPaths env m arg fmt run runF runS = ⟨.error .valueError, [], m⟩ := by
    intro run runF runS
    by_cases ha : arg = .many []
    · subst ha; rfl
    · have h := h.resolve_left ha
      have hs : ∀ path paths, readSnapshots env m.dummy N fmt (path :: paths) = .error .valueError := by
        intro path paths
        unfold readSnapshots
        rw [readSnapshot_format path h]
        rfl
      rcases arg with p | _ | ⟨p, ps⟩
      · exact fromPaths_error (.one p) (hs p []) run runF runS
      · exact absurd rfl ha
      · exact fromPaths_error (.many p ps) (hs p ps) run runF runS
  exact ⟨key _ _ _, key _ _ _⟩

/-- C167, unusable files: the first file that is missing, cannot be read or has another number of atoms
decides.  The model is left alone. -/
theorem C167_unusable (env : Env R) (spline : SplineFn) (we : Bool) (m : IModel N) (hN : N ≠ 0)
    (arg : PathsArg) (fmt : Word) (pre post : List Path) (path : Path)
    (hp : PathsOf arg (pre ++ path :: post))
    (hpre : ∀ q ∈ pre, ∃ vs tensor, Describes env m.dummy fmt q (rowsList vs) tensor ∧ vs.length = N)
    (order : ℤ) :
    (∀ e, (m.dummy = false → genericReadPositionsAndPolarizability env path fmt = .error e) →
      (m.dummy = true → genericReadPositions env path fmt = .error e) →
      m.addDofFromPaths env spline we arg fmt order = ⟨.error e, [], m⟩ ∧
      m.addArtFromPaths env spline we arg fmt = ⟨.error e, [], m⟩) ∧
    (DofFormat m.dummy fmt → env.fs path = none →
      m.addDofFromPaths env spline we arg fmt order = ⟨.error .fileNotFoundError, [], m⟩ ∧
      m.addArtFromPaths env spline we arg fmt = ⟨.error .fileNotFoundError, [], m⟩) ∧
    (∀ vs tensor, Describes env m.dummy fmt path (rowsList vs) tensor → vs.length ≠ N →
      vs.length ≠ 1 → N ≠ 1 →
      m.addDofFromPaths env spline we arg fmt order = ⟨.error .invalidDOF, [], m⟩ ∧
      m.addArtFromPaths env spline we arg fmt = ⟨.error .invalidDOF, [], m⟩) ∧
    ∀ rows tensor, Describes env m.dummy fmt path rows tensor →
      (rows = [] ∨ ∃ row ∈ rows, row.length ≠ 1 ∧ row.length ≠ 3) →
      m.addDofFromPaths env spline we arg fmt order = ⟨.error .invalidDOF, [], m⟩ ∧
      m.addArtFromPaths env spline we arg fmt = ⟨.error .invalidDOF, [], m⟩ := by
  have hdata : ∃ data : List ((Fin N → NumVec) × List (List Num)),
      List.Forall₂ (FitsAs env m.dummy fmt) pre data := by
    clear hp
    induction pre with
    | nil => exact ⟨[], .nil⟩
    | cons q pre ih =>
      obtain ⟨data, hd⟩ := ih fun q hq => hpre q (List.mem_cons_of_mem _ hq)
      obtain ⟨vs, tensor, h1, h2⟩ := hpre q List.mem_cons_self
      exact ⟨(_, _) :: data, .cons ⟨_, _, h1, positionsFor_rows vs hN h2, rfl⟩ hd⟩
  obtain ⟨data, hd⟩ := hdata
  have key : ∀ e, readSnapshots env m.dummy N fmt (path :: post) = .error e →
      m.addDofFromPaths env spline we arg fmt order = ⟨.error e, [], m⟩ ∧
      m.addArtFromPaths env spline we arg fmt = ⟨.error e, [], m⟩ := fun e he =>
    ⟨fromPaths_error hp (readSnapshots_error hd he) _ _ _, fromPaths_error hp (readSnapshots_error hd he) _ _ _⟩
  have key' : ∀ e, readSnapshot env m.dummy fmt path = .error e →
      m.addDofFromPaths env spline we arg fmt order = ⟨.error e, [], m⟩ ∧
      m.addArtFromPaths env spline we arg fmt = ⟨.error e, [], m⟩ := by
    intro e he
    refine key e ?_
    unfold readSnapshots
    rw [he]
    rfl
  refine ⟨fun e h1 h2 => key' e ?_, fun h1 h2 => key' _ (readSnapshot_missing h1 h2),
    fun vs tensor h1 h2 h3 h4 => key _ ?_, fun rows tensor h1 h2 => key _ ?_⟩
  · unfold readSnapshot
    cases hm : m.dummy with
    | false => rw [if_pos rfl]; exact h1 hm
    | true => rw [if_neg (by simp), h2 hm]; rfl
  · unfold readSnapshots
    rw [readSnapshot_describes h1]
    change (positionsFor N (rowsList vs) >>= _) = _
    rw [positionsFor_other vs h2 h3 h4]
    rfl
  · unfold readSnapshots
    rw [readSnapshot_describes h1]
    change (positionsFor N rows >>= _) = _
    rw [positionsFor_width rows h2]
    rfl

/-- C167: when all files can be read and have the right number of atoms but some coordinate is not a
finite number, `InvalidDOFException` is raised. -/
theorem C167_nan (env : Env R) (spline : SplineFn) (we : Bool) (m : IModel N) (hN : N ≠ 0)
    (arg : PathsArg) (fmt : Word) (paths : List Path) (hp : PathsOf arg paths)
    (data : List (List NumVec × List (List Num)))
    (hd : List.Forall₂ (fun path x => Describes env m.dummy fmt path (rowsList x.1) x.2 ∧
      x.1.length = N) paths data)
    (hnan : ∃ x ∈ data, ∃ v ∈ x.1, ∃ i, v i = none) (order : ℤ) :
    m.addDofFromPaths env spline we arg fmt order = ⟨.error .invalidDOF, [], m⟩ ∧
    m.addArtFromPaths env spline we arg fmt = ⟨.error .invalidDOF, [], m⟩ := by
  have key : ∃ ys : List ((Fin N → NumVec) × List (List Num)),
      List.Forall₂ (FitsAs env m.dummy fmt) paths ys ∧
      (ys.mapM fun y => finitePositions y.1) = none := by
    clear hp
    induction hd with
    | nil => obtain ⟨x, hx, -⟩ := hnan; simp at hx
    | @cons path x paths data h hd ih =>
      have hfit : FitsAs (N := N) env m.dummy fmt path (_, _) :=
        ⟨_, _, h.1, positionsFor_rows x.1 hN h.2, rfl⟩
      by_cases hx : ∃ v ∈ x.1, ∃ i, v i = none
      · have hrest : ∃ ys : List ((Fin N → NumVec) × List (List Num)),
            List.Forall₂ (FitsAs env m.dummy fmt) paths ys := by
          clear ih hnan
          induction hd with
          | nil => exact ⟨[], .nil⟩
          | cons h _ ih =>
            obtain ⟨ys, hys⟩ := ih
            exact ⟨(_, _) :: ys, .cons ⟨_, _, h.1, positionsFor_rows _ hN h.2, rfl⟩ hys⟩
        obtain ⟨ys, hys⟩ := hrest
        refine ⟨_ :: ys, .cons hfit hys, ?_⟩
        obtain ⟨v, hv, i, hi⟩ := hx
        obtain ⟨n, hn, rfl⟩ := List.getElem_of_mem hv
        have hfin : finitePositions (fun a : Fin N => x.1[a]'(by rw [h.2]; exact a.2)) = none :=
          finitePositions_nan ⟨⟨n, by rw [← h.2]; exact hn⟩, i, hi⟩
        rw [List.mapM_cons]
        dsimp only
        rw [hfin]
        rfl
      · obtain ⟨ys, h1, h2⟩ := ih (by
          obtain ⟨y, hy, h'⟩ := hnan
          rcases List.mem_cons.1 hy with rfl | hy
          · exact absurd h' hx
          · exact ⟨y, hy, h'⟩)
        refine ⟨_ :: ys, .cons hfit h1, ?_⟩
        rw [List.mapM_cons, h2]
        dsimp only [bind, Option.bind]
        cases finitePositions _ <;> rfl
  obtain ⟨ys, h1, h2⟩ := key
  have : ∀ (run : List (DofFile N) → Outcome N)
      (runF : List (DofFile N) → List (Option (Mat3 ℝ)) → Outcome N)
    (runS : List (DofFile N) → List (List (List Num)) → Outcome N),
      fromPaths env m arg fmt run runF runS = ⟨.error .invalidDOF, [], m⟩ := by
    intro run runF runS
    rw [fromPaths_ok hp h1]
    unfold withSnapshots
    rw [h2]
  exact ⟨this _ _ _, this _ _ _⟩

/-- C167, concrete: a vasprun.xml file with an oxygen atom at (1/4, 1/2, 0) is added to a model of a
crystal with one atom at the origin as the displacement by this vector. -/
example (env : Env R) (hf : env.fs "v".toList = some []) (hp : env.parse [] = .ok oxygenRoot)
    (pol : Mat3 ℝ) : ∃ s : RefStructure 1,
    (IModel.init s pol false).addDofFromPaths env lookupSpline true (.one "v".toList)
        "vasprun.xml".toList 1
      = (IModel.init s pol false).addDof lookupSpline true (fun _ => ![1 / 4, 1 / 2, 0])
          [Real.sqrt (5 / 16)] [fun i j => if i = j then if i = 2 then 1 else 3 else 0] 1 ∧
    (IModel.init s pol false).addDofFromPaths env lookupSpline true (.one "v".toList)
        "poscar".toList 1 = ⟨.error .valueError, [], IModel.init s pol false⟩ := by
  obtain ⟨s, hs, hops⟩ := trivialInit
  obtain ⟨hpos, hlat, -⟩ := init_facts hs
  have hL : s.lattice.det ≠ 0 := by rw [hlat]; simp
  have hx : calcDisplacement s.positions (fun _ => ![1 / 4, 1 / 2, 0]) = fun _ => ![1 / 4, 1 / 2, 0] := by
    rw [hpos]
    exact near_zero fun i => by fin_cases i <;> norm_num [InHalfBox]
  obtain ⟨-, -, k3, k4⟩ := oxygen_parts
  refine ⟨s, ?_, (C167_refused env lookupSpline true _ _ _ (Or.inr (by
    rintro (h | h | ⟨h, -⟩)
    · exact absurd h (by decide)
    · exact absurd h (by decide)
    · cases h)) 1).1⟩
  have hne : (flatten (fun _ => ![1 / 4, 1 / 2, 0] : Pos 1 ℝ)) ≠ 0 := fun h => by
    have := congrFun h (0, 0)
    norm_num [flatten] at this
  have h := C167_files env lookupSpline true (IModel.init s pol false) hL (.one "v".toList)
    "vasprun.xml".toList "v".toList [] (.one _)
    (fun _ => ![1 / 4, 1 / 2, 0], fun i j => if i = j then if i = 2 then 1 else 3 else 0) []
    (.cons ⟨_, _, ⟨[], hf, Or.inr (Or.inl ⟨rfl, oxygenRoot, hp, k3, fun _ => k4⟩)⟩,
      by
        rw [List.ofFn_succ, List.ofFn_zero]
        exact .cons ⟨![1 / 4, 1 / 2, 0], by simp [List.ofFn_succ], fun j => by
          fin_cases j <;> simp⟩ .nil,
      fun _ => ⟨fun i j => if i = j then if i = 2 then 1 else 3 else 0, by simp [List.ofFn_succ],
        fun i j => by dsimp only; split_ifs <;> simp⟩⟩ .nil)
    (calcDisplacement s.positions) (calcDisplacement_nearest _) (by
      intro x hx'
      simp only [List.mem_cons, List.not_mem_nil, or_false] at hx'
      subst hx'
      dsimp only
      rw [hx]
      have := collinear_scaled hne one_ne_zero one_ne_zero
      simpa using this) 1
  refine h.trans ?_
  have hc : ∀ v : Fin 3 → ℝ, toCart (IModel.init s pol false).ref.lattice (fun _ => v : Pos 1 ℝ)
      = fun _ => v := by
    intro v
    change toCart s.lattice _ = _
    rw [hlat]
    funext a j
    simp [toCart, Matrix.one_apply]
  simp only [List.map_cons, List.map_nil, hx, hc]
  have h1 : inner3 (fun _ => ![1 / 4, 1 / 2, 0] : Pos 1 ℝ) (fun _ => ![1 / 4, 1 / 2, 0]) = 5 / 16 := by
    simp [inner3, Fin.sum_univ_three]
    norm_num
  rw [h1, Real.div_sqrt]
  rfl

end Verif
