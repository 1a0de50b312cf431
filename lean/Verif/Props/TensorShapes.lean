import Verif.Spec.TensorShapes
import Verif.Props.NonFinite
import Verif.Props.ArtWorkflow

/-!
# C179: dielectric tensors that are not 3x3

`add_dof_from_files` refuses them; `add_art_from_files` takes a single row, a single column or a single
number for the matrix that repeats it.
-/

namespace Verif

open Spec

noncomputable section

variable {N : ℕ} {R : Type}

/-- The file holds this array of positions and this dielectric tensor, which in an OUTCAR file may have
fewer than three numbers per line. -/
def HoldsArrays (env : Env R) (fmt : Word) (path : Path) (rows tensor : List (List Num)) : Prop :=
  Describes env false fmt path rows tensor ∨
  ∃ content numbers f g vs w, env.fs path = some content ∧ fmt = "outcar".toList ∧
    ElementsIn IsNumber (fileLines content) numbers f ∧ PositionsIn numbers.length f vs g ∧
    rows = rowsList vs ∧ ShortTensorIn w g tensor

/-- The file holds these positions, one row per atom, and this dielectric tensor. -/
def HoldsTensor (env : Env R) (fmt : Word) (path : Path) (x : Pos N ℝ × List (List Num)) : Prop :=
  ∃ rows, HoldsArrays env fmt path rows x.2 ∧ RowEntries rows (List.ofFn x.1)

/-! ## Reading -/

theorem readRow_short {w : ℕ} (hw : w < 3) {line : List Char} {r : List Num} (h : ShortRow w line r) :
    readRow line = some r ∧ r.length = w := by
  obtain ⟨h1, h2⟩ := h
  refine ⟨?_, by rw [← h2.length_eq, h1]⟩
  unfold readRow parseFloats
  rw [List.take_of_length_le (by omega), mapM_option_iff]
  exact h2

theorem readPolarizability_short {w : ℕ} {f : List (List Char)} {t : List (List Num)}
    (h : ShortTensorIn w f t) : ∃ g, outcarReadPolarizability f = .ok (t, g) := by
  obtain ⟨hw, hd, sep, l₀, l₁, l₂, r₀, r₁, r₂, g, h1, k0, k1, k2, rfl⟩ := h
  obtain ⟨a0, b0⟩ := readRow_short hw k0
  obtain ⟨a1, b1⟩ := readRow_short hw k1
  obtain ⟨a2, b2⟩ := readRow_short hw k2
  refine ⟨g, ?_⟩
  unfold outcarReadPolarizability
  refine (bind_ok_iff _ _ _).2 ⟨(hd, sep :: l₀ :: l₁ :: l₂ :: g), (titled_iff _ _ _ _).2 h1, ?_⟩
  have hr : readRows 3 (l₀ :: l₁ :: l₂ :: g) = .ok ([r₀, r₁, r₂], g) := by
    simp only [readRows, nextLine, a0, a1, a2]
    rfl
  change readArray 3 (l₀ :: l₁ :: l₂ :: g) = _
  unfold readArray
  rw [hr]
  dsimp only [bind, Except.bind, npArray]
  rw [if_pos (by simp [b0, b1, b2])]
  rfl

theorem readSnapshot_holds {env : Env R} {fmt : Word} {path : Path} {rows tensor : List (List Num)}
    (h : HoldsArrays env fmt path rows tensor) : readSnapshot env false fmt path = .ok (rows, tensor) := by
  rcases h with h | ⟨content, numbers, f, g, vs, w, hf, rfl, h1, h2, rfl, h3⟩
  · exact readSnapshot_describes h
  · unfold readSnapshot
    rw [if_pos rfl]
    change catchKeyError (env.withFile outcarPositionsAndPolarizability path) = _
    unfold Env.withFile readFile
    rw [hf]
    change catchKeyError (outcarPositionsAndPolarizability content) = _
    have : outcarPositionsAndPolarizability content = .ok (rowsList vs, tensor) := by
      obtain ⟨symbols, k1, k2⟩ := (outcarElements_iff _ _ _).2 h1
      obtain ⟨k, h5⟩ := readPolarizability_short h3
      rw [((mapM_except_ok _ _ _).1 k2).length_eq.symm] at h2
      exact (bind_ok_iff _ _ _).2 ⟨(symbols, f), k1, (bind_ok_iff _ _ _).2
        ⟨(_, g), (outcarReadPositions_iff _ _ _ _).2 h2, (bind_ok_iff _ _ _).2 ⟨(_, k), h5, rfl⟩⟩⟩
    rw [this]
    rfl

theorem readSnapshots_holds (hN : N ≠ 0) {env : Env R} {fmt : Word} {paths : List Path}
    {data : List (Pos N ℝ × List (List Num))}
    (h : List.Forall₂ (HoldsTensor env fmt) paths data) :
    ∃ ys, readSnapshots env false N fmt paths = .ok ys ∧
      (ys.mapM fun y => finitePositions y.1) = some (data.map Prod.fst) ∧
      ys.map Prod.snd = data.map Prod.snd := by
  induction h with
  | nil => exact ⟨[], rfl, rfl, rfl⟩
  | @cons path x paths data h _ ih =>
    obtain ⟨ys, h1, h2, h3⟩ := ih
    obtain ⟨rows, k1, k2⟩ := h
    obtain ⟨q, k3, k4⟩ := placed_fits hN (Or.inl k2)
    refine ⟨(q, x.2) :: ys, ?_, ?_, ?_⟩
    · rw [readSnapshots, readSnapshot_holds k1]
      change (positionsFor N rows >>= _) = _
      rw [k3]
      dsimp only [bind, Except.bind]
      rw [h1]
      rfl
    · rw [List.mapM_cons, h2]
      dsimp only
      rw [k4]
      rfl
    · rw [List.map_cons, List.map_cons, h3]

/-! ## Shapes -/

theorem toMat_shape {a : List (List Num)} {x : NumMat} (h : toMat a = some x) : ThreeByThree a := by
  unfold toMat at h
  cases hv : a.mapM toVec with
  | none => rw [hv] at h; cases h
  | some vs =>
    have hall := (mapM_option_iff _ _ _).1 hv
    rw [hv] at h
    have hl : vs.length = 3 := by
      rcases vs with _ | ⟨v0, _ | ⟨v1, _ | ⟨v2, _ | ⟨v3, vs⟩⟩⟩⟩
      · cases h
      · cases h
      · cases h
      · rfl
      · cases h
    refine ⟨by rw [hall.length_eq, hl], fun r hr => ?_⟩
    obtain ⟨v, -, hrv⟩ := forall₂_mem_left hall r hr
    unfold toVec at hrv
    split at hrv
    · rfl
    · cases hrv

theorem finiteMat_misshapen {a : List (List Num)} (h : ¬ ThreeByThree a) : finiteMat a = none := by
  unfold finiteMat
  cases ht : toMat a with
  | none => rfl
  | some x => exact absurd (toMat_shape ht) h

theorem finiteTensor_misshapen {a : List (List Num)} (h : ¬ ThreeByThree a) : finiteTensor? a = none := by
  unfold finiteTensor?
  cases ht : toMat a with
  | none => rfl
  | some x => exact absurd (toMat_shape ht) h

theorem mapM_none_of_mem {α β : Type} (f : α → Option β) {l : List α} (h : ∃ x ∈ l, f x = none) :
    l.mapM f = none := by
  cases hm : l.mapM f with
  | none => rfl
  | some r =>
    obtain ⟨x, hx, hf⟩ := h
    obtain ⟨y, -, h1⟩ := forall₂_mem_left ((mapM_option_iff _ _ _).1 hm) x hx
    rw [hf] at h1
    cases h1

/-- Files without tensors. -/
def bareFiles (ps : List (Pos N ℝ)) : List (DofFile N) := ps.map fun p => .ok (some p, 0)

/-- What `fromPaths` does when some tensor is not 3x3. -/
theorem fromPaths_misshapen (hN : N ≠ 0) {env : Env R} {m : IModel N} (hdum : m.dummy = false)
    {arg : PathsArg} {fmt : Word} {paths : List Path} (hp : PathsOf arg paths)
    {data : List (Pos N ℝ × List (List Num))} (hd : List.Forall₂ (HoldsTensor env fmt) paths data)
    (hbad : ∃ x ∈ data, ¬ ThreeByThree x.2) (run : List (DofFile N) → Outcome N)
    (runF : List (DofFile N) → List (Option (Mat3 ℝ)) → Outcome N)
    (runS : List (DofFile N) → List (List (List Num)) → Outcome N) :
    (∀ e, readDof m (bareFiles (data.map Prod.fst)) = .error e →
      fromPaths env m arg fmt run runF runS = ⟨.error e, [], m⟩) ∧
    ∀ r, readDof m (bareFiles (data.map Prod.fst)) = .ok r →
      ((∀ x ∈ data, ∀ y ∈ data, tensorShape x.2 = tensorShape y.2) →
        fromPaths env m arg fmt run runF runS
          = runS (bareFiles (data.map Prod.fst)) (data.map Prod.snd)) ∧
      ((¬ ∀ x ∈ data, ∀ y ∈ data, tensorShape x.2 = tensorShape y.2) →
        fromPaths env m arg fmt run runF runS = ⟨.error .valueError, [], m⟩) := by
  obtain ⟨ys, h1, h2, h3⟩ := readSnapshots_holds hN hd
  have hbad' : ∃ y ∈ ys, ¬ ThreeByThree y.2 := by
    obtain ⟨x, hx, hb⟩ := hbad
    have : x.2 ∈ ys.map Prod.snd := by rw [h3]; exact List.mem_map_of_mem hx
    obtain ⟨y, hy, e⟩ := List.mem_map.1 this
    exact ⟨y, hy, by rw [e]; exact hb⟩
  have hshape : (∀ x ∈ ys, ∀ y ∈ ys, tensorShape x.2 = tensorShape y.2) ↔
      ∀ x ∈ data, ∀ y ∈ data, tensorShape x.2 = tensorShape y.2 := by
    have e : ∀ l : List ((Fin N → NumVec) × List (List Num)),
        (∀ x ∈ l, ∀ y ∈ l, tensorShape x.2 = tensorShape y.2) ↔
          ∀ a ∈ l.map Prod.snd, ∀ b ∈ l.map Prod.snd, tensorShape a = tensorShape b := by
      intro l; simp only [List.forall_mem_map]
    have e' : ∀ l : List (Pos N ℝ × List (List Num)),
        (∀ x ∈ l, ∀ y ∈ l, tensorShape x.2 = tensorShape y.2) ↔
          ∀ a ∈ l.map Prod.snd, ∀ b ∈ l.map Prod.snd, tensorShape a = tensorShape b := by
      intro l; simp only [List.forall_mem_map]
    rw [e, e', h3]
  have hfrom : fromPaths env m arg fmt run runF runS = withSnapshots m ys run runF runS := by
    unfold fromPaths
    rw [pathsOf_eq hp, hdum]
    dsimp only [bind, Except.bind]
    rw [h1]
  have hw : withSnapshots m ys run runF runS =
      match readDof m (bareFiles (data.map Prod.fst)) with
      | .error e => ⟨.error e, [], m⟩
      | .ok _ =>
        if ∀ x ∈ ys, ∀ y ∈ ys, tensorShape x.2 = tensorShape y.2 then
          runS (bareFiles (data.map Prod.fst)) (ys.map Prod.snd)
        else ⟨.error .valueError, [], m⟩ := by
    unfold withSnapshots
    rw [h2, mapM_none_of_mem (fun x : (Fin N → NumVec) × List (List Num) => finiteMat x.2)
        (hbad'.imp fun y hy => ⟨hy.1, finiteMat_misshapen hy.2⟩),
      mapM_none_of_mem (fun x : (Fin N → NumVec) × List (List Num) => finiteTensor? x.2)
        (hbad'.imp fun y hy => ⟨hy.1, finiteTensor_misshapen hy.2⟩)]
    rfl
  rw [hfrom, hw]
  refine ⟨fun e he => by rw [he], fun r hr => ?_⟩
  rw [hr]
  dsimp only
  rw [← hshape, ← h3]
  exact ⟨fun h => if_pos h, fun h => if_neg h⟩

theorem readDof_tensors (m : IModel N) (data : List (Pos N ℝ × Mat3 ℝ)) :
    readDof m (goodFiles data) = (readDof m (bareFiles (data.map Prod.fst))).map fun r =>
      (r.1, r.2.1, data.map fun x => if m.dummy then 0 else x.2) := by
  have e : bareFiles (data.map Prod.fst) = goodFiles (data.map fun x => (x.1, (0 : Mat3 ℝ))) := by
    unfold bareFiles goodFiles
    rw [List.map_map, List.map_map]
    rfl
  rw [e]
  unfold readDof goodFiles
  rw [readDofFiles_ok, readDofFiles_ok]
  dsimp only [bind, Except.bind]
  simp only [List.map_map]
  have e1 : (Prod.fst ∘ fun x : Pos N ℝ × Mat3 ℝ => (calcDisplacement m.ref.positions x.1,
      if m.dummy = true then 0 else x.2)) = fun x => calcDisplacement m.ref.positions x.1 := rfl
  cases data with
  | nil => rfl
  | cons x xs =>
    simp only [List.map_cons, Function.comp_def]
    split_ifs <;> first
      | rfl
      | cases normalizePos (m.ref.getCartDisplacement (calcDisplacement m.ref.positions x.1)) <;> rfl

theorem constructAndAddF_lift (spline : SplineFn) (we : Bool) (m : IModel N) (gs : List (DofGroup N))
    (order : ℤ) :
    constructAndAddF spline we m (gs.map liftGroup) order = constructAndAdd spline we m gs order := by
  unfold constructAndAddF constructAndAdd
  rw [buildAllF_lift, finiteBasisF_lift]
  rfl

/-- Finite tensors given apart from the files. -/
theorem addArtFromFilesF_lift (spline : SplineFn) (we : Bool) (m : IModel N) (hdum : m.dummy = false)
    (data : List (Pos N ℝ × Mat3 ℝ)) :
    m.addArtFromFilesF spline we (bareFiles (data.map Prod.fst)) (data.map fun x => some x.2)
      = m.addArtFromFiles spline we (goodFiles data) := by
  unfold IModel.addArtFromFilesF IModel.addArtFromFiles
  rw [readDof_tensors, hdum]
  cases readDof m (bareFiles (data.map Prod.fst)) with
  | error e => rfl
  | ok r =>
    obtain ⟨ds, amps, pols⟩ := r
    cases ds with
    | nil => rfl
    | cons d0 ds =>
      dsimp only [Except.map]
      by_cases hm : multipleAtomsDisplaced d0
      · rw [if_pos hm, if_pos hm]
      rw [if_neg hm, if_neg hm]
      have e : (data.map fun x => some x.2) = (data.map fun x => if false = true then 0 else x.2).map some := by
        rw [List.map_map]
        rfl
      rw [e, getDofF_lift m _ rfl]
      cases getDof m (some d0) amps (data.map fun x => if false = true then 0 else x.2) false with
      | error e => rfl
      | ok gs =>
        cases gs with
        | nil => rfl
        | cons g gs =>
          have hl : (liftGroup g).pts.length = g.pts.length := by simp [liftGroup]
          change (if (liftGroup g).pts.length ≠ 2 then (⟨.error .invalidDOF, [], m⟩ : Outcome N)
            else constructAndAddF spline we m ((g :: gs).map liftGroup) 1) = _
          rw [hl]
          dsimp only
          by_cases h2 : g.pts.length ≠ 2
          · rw [if_pos h2, if_pos h2]
          · rw [if_neg h2, if_neg h2]
            exact constructAndAddF_lift spline we m (g :: gs) 1

theorem stretched_shape {k w : ℕ} {t : List (List Num)} {A : Mat3 ℝ} (h : Stretched k w t A) :
    tensorShape t = (k, w) ∧ ¬ ThreeByThree t ∧ broadcastTensor t = some (some A) := by
  cases h with
  | row v _ h =>
    refine ⟨rfl, fun h3 => by simp [ThreeByThree] at h3, ?_⟩
    have e : A = fun i j => ((((fun _ => ![some (v 0), some (v 1), some (v 2)] : NumMat) i j).getD 0 : ℚ) : ℝ) := by
      funext i j
      rw [h]
      fin_cases j <;> rfl
    rw [e]
    change some (if _ then _ else _) = _
    rw [if_pos]
    intro i j
    fin_cases j <;> rfl
  | column v _ h =>
    refine ⟨rfl, fun h3 => by simp [ThreeByThree] at h3, ?_⟩
    have e : A = fun i j => ((((![fun _ => some (v 0), fun _ => some (v 1), fun _ => some (v 2)] : NumMat) i j).getD 0 : ℚ) : ℝ) := by
      funext i j
      rw [h]
      fin_cases i <;> rfl
    rw [e]
    change some (if _ then _ else _) = _
    rw [if_pos]
    intro i j
    fin_cases i <;> rfl
  | single x _ h =>
    refine ⟨rfl, fun h3 => by simp [ThreeByThree] at h3, ?_⟩
    have e : A = fun i j => ((((fun _ _ => some x : NumMat) i j).getD 0 : ℚ) : ℝ) := by
      funext i j
      rw [h]
      rfl
    rw [e]
    change some (if _ then _ else _) = _
    rw [if_pos]
    intro i j
    rfl

theorem broadcastTensor_fits {t : List (List Num)} {x : Option (Mat3 ℝ)} (h : broadcastTensor t = some x) :
    (t.length = 1 ∨ t.length = 3) ∧ ∀ r ∈ t, r.length = 1 ∨ r.length = 3 := by
  unfold broadcastTensor at h
  cases hv : t.mapM broadcastRow with
  | none => rw [hv] at h; cases h
  | some vs =>
    have hall := (mapM_option_iff _ _ _).1 hv
    rw [hv] at h
    refine ⟨?_, fun r hr => ?_⟩
    · rw [hall.length_eq]
      rcases vs with _ | ⟨v0, _ | ⟨v1, _ | ⟨v2, _ | ⟨v3, vs⟩⟩⟩⟩
      · cases h
      · exact Or.inl rfl
      · cases h
      · exact Or.inr rfl
      · cases h
    · obtain ⟨v, -, hrv⟩ := forall₂_mem_left hall r hr
      unfold broadcastRow at hrv
      split at hrv
      · exact Or.inl rfl
      · exact Or.inr rfl
      · cases hrv

/-! ## C179 -/

/-- C179, the fault: when the tensors of all files are single rows, single columns or single numbers,
`add_art_from_files` does exactly what it does for files whose 3x3 tensors repeat them. -/
theorem C179_stretched (hN : N ≠ 0) (env : Env R) (spline : SplineFn) (we : Bool) (m : IModel N)
    (hdum : m.dummy = false) (arg : PathsArg) (fmt : Word) (paths : List Path) (hp : PathsOf arg paths)
    (k w : ℕ) (data : List (Pos N ℝ × Mat3 ℝ))
    (hd : List.Forall₂ (fun path x => ∃ t, HoldsTensor env fmt path (x.1, t) ∧ Stretched k w t x.2)
      paths data) :
    m.addArtFromPaths env spline we arg fmt = m.addArtFromFiles spline we (goodFiles data) := by
  have key : ∃ ts : List (List (List Num)), ts.length = data.length ∧
      List.Forall₂ (HoldsTensor env fmt) paths ((data.map Prod.fst).zip ts) ∧
      ((data.map Prod.fst).zip ts).map Prod.fst = data.map Prod.fst ∧
      ((data.map Prod.fst).zip ts).map Prod.snd = ts ∧
      (∀ t ∈ ts, tensorShape t = (k, w) ∧ ¬ ThreeByThree t) ∧
      ts.mapM broadcastTensor = some (data.map fun x => some x.2) := by
    clear hp
    induction hd with
    | nil => exact ⟨[], rfl, .nil, rfl, rfl, by simp, rfl⟩
    | @cons path x _ _ h _ ih =>
      obtain ⟨ts, h0, h1, h2, h3, h4, h5⟩ := ih
      obtain ⟨t, k1, k2⟩ := h
      obtain ⟨j1, j2, j3⟩ := stretched_shape k2
      refine ⟨t :: ts, by simp [h0], .cons k1 h1, ?_, ?_, ?_, ?_⟩
      · simp only [List.map_cons, List.zip_cons_cons]; rw [h2]
      · simp only [List.map_cons, List.zip_cons_cons]; rw [h3]
      · intro t' ht'
        rcases List.mem_cons.1 ht' with rfl | ht'
        · exact ⟨j1, j2⟩
        · exact h4 _ ht'
      · rw [List.mapM_cons, j3, h5]; rfl
  obtain ⟨ts, h0, h1, h2, h3, h4, h5⟩ := key
  cases data with
  | nil =>
    cases hd
    exact fromPaths_placed hp (data := []) .nil _ _ _
  | cons x data =>
    have hne : ∃ z ∈ ((x :: data).map Prod.fst).zip ts, ¬ ThreeByThree z.2 := by
      cases ts with
      | nil => simp at h0
      | cons t ts => exact ⟨(x.1, t), by simp, (h4 t (by simp)).2⟩
    have hsh : ∀ a ∈ ((x :: data).map Prod.fst).zip ts, ∀ b ∈ ((x :: data).map Prod.fst).zip ts,
        tensorShape a.2 = tensorShape b.2 := by
      intro a ha b hb
      rw [(h4 _ (List.of_mem_zip ha).2).1, (h4 _ (List.of_mem_zip hb).2).1]
    obtain ⟨e1, e2⟩ := fromPaths_misshapen hN hdum hp h1 hne
      (fun files => m.addArtFromFiles spline we files)
      (fun files pols => m.addArtFromFilesF spline we files pols)
      (fun files pols => m.addArtFromFilesS spline we files pols)
    rw [h2] at e1 e2
    unfold IModel.addArtFromPaths
    cases hr : readDof m (bareFiles ((x :: data).map Prod.fst)) with
    | error e =>
      rw [e1 e hr]
      unfold IModel.addArtFromFiles
      rw [readDof_tensors, hr]
      rfl
    | ok r =>
      rw [(e2 r hr).1 hsh, h3]
      unfold IModel.addArtFromFilesS
      rw [h5]
      exact addArtFromFilesF_lift spline we m hdum (x :: data)

/-- The error of `add_art_from_files` for tensors that do not fit is `ValueError` when the displacements are
acceptable. -/
theorem getDofMisfit_error (m : IModel N) (d0 : Pos N ℝ) (amps : List ℝ) (pols : List (Mat3 ℝ)) :
    (∀ gs, getDofMisfit m d0 = .ok gs → gs = []) ∧
    ∀ g gs, getDof m (some d0) amps pols false = .ok (g :: gs) →
      getDofMisfit m d0 = .error .valueError := by
  unfold getDofMisfit getDof
  by_cases ho : orthCheck m (some d0) ≠ -1
  · rw [if_pos ho, if_pos ho]
    exact ⟨fun _ h => (by cases h), fun _ _ h => (by cases h)⟩
  rw [if_neg ho, if_neg ho]
  dsimp only
  cases m.ref.getEquivalentDisplacements d0 with
  | error e => exact ⟨fun _ h => (by cases h), fun _ _ h => (by cases h)⟩
  | ok r =>
    cases r with
    | none =>
      dsimp only [bind, Except.bind]
      unfold nanGroups
      cases m.ref.ops.zip m.ref.perms with
      | nil =>
        rw [if_pos rfl]
        exact ⟨fun _ h => (by cases h; rfl), fun _ _ h => (by cases h)⟩
      | cons x l =>
        rw [if_neg (by simp)]
        exact ⟨fun _ h => (by cases h), fun _ _ _ => rfl⟩
    | some groups =>
      dsimp only [bind, Except.bind]
      cases groups with
      | nil => exact ⟨fun _ h => (by cases h; rfl), fun _ _ h => (by cases h)⟩
      | cons g0 groups =>
        rw [List.mapM_cons, List.mapM_cons]
        by_cases hg : g0.displacements = []
        · rw [if_pos hg]
          refine ⟨fun _ h => (by cases h), fun _ _ h => ?_⟩
          unfold dofGroup at h
          rw [hg] at h
          cases h
        · rw [if_neg hg]
          exact ⟨fun _ h => (by cases h), fun _ _ _ => rfl⟩

theorem tensorShape_eq {k w : ℕ} {t : List (List Num)} (h : IsArray k w t) :
    tensorShape t = (k, if k = 0 then 0 else w) := by
  obtain ⟨h1, h2⟩ := h
  unfold tensorShape
  cases t with
  | nil => subst h1; rfl
  | cons r t =>
    rw [h1]
    subst h1
    rw [if_neg (by simp)]
    exact congrArg _ (h2 r List.mem_cons_self)

/-- The tensors cannot be used: one of them has an axis that is not of length one or three, or two of them
have different shapes. -/
def Unusable (ts : List (List (List Num))) : Prop :=
  (∃ t ∈ ts, ∃ k w, IsArray k w t ∧ ¬ ((k = 1 ∨ k = 3) ∧ (w = 1 ∨ w = 3))) ∨
  ∃ t ∈ ts, ∃ t' ∈ ts, ∃ k w k' w', IsArray k w t ∧ IsArray k' w' t' ∧ (k ≠ k' ∨ (0 < k ∧ w ≠ w'))

theorem unusable_cases {ts : List (List (List Num))} (h : Unusable ts) :
    (∃ t ∈ ts, ¬ ThreeByThree t) ∧
    ((∀ t ∈ ts, ∀ t' ∈ ts, tensorShape t = tensorShape t') → ts.mapM broadcastTensor = none) := by
  have h33 : ∀ {k w : ℕ} {t : List (List Num)}, IsArray k w t → ThreeByThree t → k = 3 ∧ w = 3 := by
    rintro k w t ⟨h1, h2⟩ ⟨h3, h4⟩
    cases t with
    | nil => cases h3
    | cons r t => exact ⟨by rw [← h1, h3], by rw [← h2 r List.mem_cons_self, h4 r List.mem_cons_self]⟩
  rcases h with ⟨t, ht, k, w, ha, hkw⟩ | ⟨t, ht, t', ht', k, w, k', w', ha, ha', hne⟩
  · refine ⟨⟨t, ht, fun h3 => hkw ?_⟩, fun _ => mapM_none_of_mem _ ⟨t, ht, ?_⟩⟩
    · obtain ⟨rfl, rfl⟩ := h33 ha h3
      exact ⟨Or.inr rfl, Or.inr rfl⟩
    · cases hb : broadcastTensor t with
      | none => rfl
      | some x =>
        obtain ⟨k1, k2⟩ := broadcastTensor_fits hb
        refine absurd ⟨?_, ?_⟩ hkw
        · rw [← ha.1]; exact k1
        · cases t with
          | nil => simp at k1
          | cons r t => rw [← ha.2 r List.mem_cons_self]; exact k2 r List.mem_cons_self
  · refine ⟨?_, fun hs => ?_⟩
    · by_contra hall
      push Not at hall
      obtain ⟨rfl, rfl⟩ := h33 ha (hall t ht)
      obtain ⟨rfl, rfl⟩ := h33 ha' (hall t' ht')
      simp at hne
    · have := hs t ht t' ht'
      rw [tensorShape_eq ha, tensorShape_eq ha'] at this
      obtain ⟨e1, e2⟩ := Prod.mk.inj this
      subst e1
      rcases hne with hne | ⟨h0, hne⟩
      · exact absurd rfl hne
      · rw [if_neg (by omega), if_neg (by omega)] at e2
        exact absurd e2 hne

/-- C179: tensors that cannot be used make `add_art_from_files` fail and leave the model alone; the
exception is `ValueError` if the structures are acceptable, that is if some 3x3 tensors would have been
accepted with them. -/
theorem C179_art_refused (hN : N ≠ 0) (env : Env R) (spline : SplineFn) (we : Bool) (m : IModel N)
    (hdum : m.dummy = false) (arg : PathsArg) (fmt : Word) (paths : List Path) (hp : PathsOf arg paths)
    (data : List (Pos N ℝ × List (List Num))) (hd : List.Forall₂ (HoldsTensor env fmt) paths data)
    (hbad : Unusable (data.map Prod.snd)) :
    ∃ e, m.addArtFromPaths env spline we arg fmt = ⟨.error e, [], m⟩ ∧
      ∀ (spline' : SplineFn) (we' : Bool) (good : List (Pos N ℝ × Mat3 ℝ)),
        good.map Prod.fst = data.map Prod.fst →
        (m.addArtFromFiles spline' we' (goodFiles good)).result = .ok () → e = .valueError := by
  obtain ⟨⟨t, ht, hb⟩, hc⟩ := unusable_cases hbad
  obtain ⟨z, hz, rfl⟩ := List.mem_map.1 ht
  obtain ⟨e1, e2⟩ := fromPaths_misshapen hN hdum hp hd ⟨z, hz, hb⟩
    (fun files => m.addArtFromFiles spline we files)
    (fun files pols => m.addArtFromFilesF spline we files pols)
    (fun files pols => m.addArtFromFilesS spline we files pols)
  unfold IModel.addArtFromPaths
  cases hr : readDof m (bareFiles (data.map Prod.fst)) with
  | error e =>
    refine ⟨e, e1 e hr, fun spline' we' good hg hok => ?_⟩
    unfold IModel.addArtFromFiles at hok
    rw [readDof_tensors, hg, hr] at hok
    cases hok
  | ok r =>
    by_cases hs : ∀ x ∈ data, ∀ y ∈ data, tensorShape x.2 = tensorShape y.2
    · rw [(e2 r hr).1 hs]
      unfold IModel.addArtFromFilesS
      rw [hc (by simpa only [List.forall_mem_map] using hs), hr]
      obtain ⟨ds, amps, pols⟩ := r
      cases ds with
      | nil =>
        refine ⟨_, rfl, fun spline' we' good hg hok => ?_⟩
        unfold IModel.addArtFromFiles at hok
        rw [readDof_tensors, hg, hr] at hok
        cases hok
      | cons d0 ds =>
        dsimp only
        by_cases hm : multipleAtomsDisplaced d0
        · rw [if_pos hm]
          refine ⟨_, rfl, fun spline' we' good hg hok => ?_⟩
          unfold IModel.addArtFromFiles at hok
          rw [readDof_tensors, hg, hr] at hok
          dsimp only [Except.map] at hok
          rw [if_pos hm] at hok
          cases hok
        · rw [if_neg hm]
          have hv : ∀ (spline' : SplineFn) (we' : Bool) (good : List (Pos N ℝ × Mat3 ℝ)),
              good.map Prod.fst = data.map Prod.fst →
              (m.addArtFromFiles spline' we' (goodFiles good)).result = .ok () →
              getDofMisfit m d0 = .error .valueError := by
            intro spline' we' good hg hok
            unfold IModel.addArtFromFiles at hok
            rw [readDof_tensors, hg, hr] at hok
            dsimp only [Except.map] at hok
            rw [if_neg hm] at hok
            cases hgd : getDof m (some d0) amps (good.map fun x => if m.dummy then 0 else x.2) false with
            | error e => rw [hgd] at hok; cases hok
            | ok gs =>
              cases gs with
              | nil => rw [hgd] at hok; cases hok
              | cons g gs => exact (getDofMisfit_error m d0 _ _).2 g gs hgd
          cases hmis : getDofMisfit m d0 with
          | error e =>
            refine ⟨e, rfl, fun spline' we' good hg hok => ?_⟩
            have := hv spline' we' good hg hok
            rw [hmis] at this
            exact Except.error.inj this
          | ok gs =>
            refine ⟨_, rfl, fun spline' we' good hg hok => ?_⟩
            have := hv spline' we' good hg hok
            rw [hmis] at this
            cases this
    · exact ⟨_, (e2 r hr).2 hs, fun _ _ _ _ _ => rfl⟩

/-- C179: `add_dof_from_files` refuses any tensor that is not 3x3 and leaves the model alone.  The exception
is `InvalidDOFException` if the displacements are not collinear, otherwise `ValueError`. -/
theorem C179_dof (hN : N ≠ 0) (env : Env R) (spline : SplineFn) (we : Bool) (m : IModel N)
    (hdum : m.dummy = false) (hL : m.ref.lattice.det ≠ 0) (arg : PathsArg) (fmt : Word)
    (paths : List Path) (hp : PathsOf arg paths) (x₀ : Pos N ℝ × List (List Num))
    (xs : List (Pos N ℝ × List (List Num)))
    (hd : List.Forall₂ (HoldsTensor env fmt) paths (x₀ :: xs))
    (hbad : ∃ x ∈ x₀ :: xs, ¬ ThreeByThree x.2)
    (w : Pos N ℝ → Pos N ℝ) (hw : ∀ p, NearestImage m.ref.positions p (w p)) (order : ℤ) :
    ((∀ x ∈ x₀ :: xs, Collinear (flatten (w x₀.1)) (flatten (w x.1))) →
      m.addDofFromPaths env spline we arg fmt order = ⟨.error .valueError, [], m⟩) ∧
    ((∃ x ∈ x₀ :: xs, ¬ Collinear (flatten (w x₀.1)) (flatten (w x.1))) →
      m.addDofFromPaths env spline we arg fmt order = ⟨.error .invalidDOF, [], m⟩ ∧
      m.addArtFromPaths env spline we arg fmt = ⟨.error .invalidDOF, [], m⟩) := by
  have hbare : bareFiles ((x₀ :: xs).map Prod.fst)
      = (((x₀.1, (0 : Mat3 ℝ)) :: xs.map fun x => (x.1, (0 : Mat3 ℝ))).map fun x => .ok (some x.1, x.2)) := by
    unfold bareFiles
    simp only [List.map_cons, List.map_map]
    rfl
  constructor
  · intro hc
    obtain ⟨amps, pols, -, -, hr⟩ := readDof_ok m hL x₀.1 0 (xs.map fun x => (x.1, (0 : Mat3 ℝ))) w hw (by
      intro x hx
      rcases List.mem_cons.1 hx with rfl | hx
      · exact hc x₀ List.mem_cons_self
      · obtain ⟨y, hy, rfl⟩ := List.mem_map.1 hx
        exact hc y (List.mem_cons_of_mem _ hy))
    rw [← hbare] at hr
    obtain ⟨-, e2⟩ := fromPaths_misshapen hN hdum hp hd hbad
      (fun files => m.addDofFromFiles spline we files order)
      (fun files pols => m.addDofFromFilesF spline we files pols order)
      (fun files pols => m.addDofFromFilesS spline we files pols order)
    unfold IModel.addDofFromPaths
    by_cases hs : ∀ x ∈ x₀ :: xs, ∀ y ∈ x₀ :: xs, tensorShape x.2 = tensorShape y.2
    · rw [(e2 _ hr).1 hs]
      unfold IModel.addDofFromFilesS
      rw [if_neg (by simp [hdum]), hr]
      dsimp only
      rw [mapM_none_of_mem]
      obtain ⟨x, hx, hb⟩ := hbad
      exact ⟨x.2, List.mem_map_of_mem hx, finiteTensor_misshapen hb⟩
    · exact (e2 _ hr).2 hs
  · rintro ⟨x, hx, hc⟩
    have hr : readDof m (bareFiles ((x₀ :: xs).map Prod.fst)) = .error .invalidDOF := by
      have hcalc : ∀ p, calcDisplacement m.ref.positions p = w p := fun p =>
        (calcDisplacement_nearest _ _).unique (hw p)
      rw [hbare]
      unfold readDof
      rw [readDofFiles_ok]
      dsimp only [bind, Except.bind]
      simp only [List.map_cons, hcalc]
      rw [if_pos]
      intro h
      have h := (C09_neg_one _ _).1.1 h
      rcases List.mem_cons.1 hx with rfl | hx
      · exact hc (h _ List.mem_cons_self)
      · refine hc (h _ (List.mem_cons_of_mem _ ?_))
        rw [List.map_map, List.map_map, List.map_map]
        exact List.mem_map.2 ⟨x, hx, rfl⟩
    exact ⟨(fromPaths_misshapen hN hdum hp hd hbad _ _ _).1 _ hr,
      (fromPaths_misshapen hN hdum hp hd hbad _ _ _).1 _ hr⟩

/-! ## Concrete cases -/

theorem inCell_unique {a b : ℝ} (ha : InCell a) (hb : InCell b) (n : ℤ) (h : a = b + n) : a = b := by
  have h1 : (n : ℝ) < 1 := by linarith [ha.2, hb.1]
  have h2 : (-1 : ℝ) < n := by linarith [ha.1, hb.2]
  have h3 : n < 1 := by exact_mod_cast h1
  have h4 : -1 < n := by exact_mod_cast h2
  have : n = 0 := by omega
  rw [h, this]
  simp

/-- Two atoms, the second at this first coordinate, and a dielectric tensor with a single row. -/
def thinRoot (x : String) : Elem :=
  el "modeling" none [
    el "atominfo" none [el "array" none [el "set" none [el "rc" none [el "c" (some "Cs") []],
      el "rc" none [el "c" (some "Cl") []]]]],
    eln "structure" "initialpos" none [
      el "crystal" none [eln "varray" "basis" none [el "v" (some "1 0 0") [],
        el "v" (some "0 1 0") [], el "v" (some "0 0 1") []]],
      eln "varray" "positions" none [el "v" (some "0 0 0") [], el "v" (some (x ++ " 0.5 0.5")) []]],
    el "calculation" none [eln "varray" "dielectric_dft" none [el "v" (some "3 1 1") []]]]

theorem thin_parts : (InitialPositions (thinRoot "0.4") [[some 0, some 0, some 0],
      [some (2 / 5), some (1 / 2), some (1 / 2)]] ∧
    DielectricTensor (thinRoot "0.4") [[some 3, some 1, some 1]]) ∧
    InitialPositions (thinRoot "0.6") [[some 0, some 0, some 0],
      [some (3 / 5), some (1 / 2), some (1 / 2)]] ∧
    DielectricTensor (thinRoot "0.6") [[some 3, some 1, some 1]] := by
  have h1 : ∃ x, vasprunRefArgs (thinRoot "0.4") = .ok x ∧ x = ([55, 17], [[some 1, some 0, some 0],
      [some 0, some 1, some 0], [some 0, some 0, some 1]], [[some 0, some 0, some 0],
      [some (2 / 5), some (1 / 2), some (1 / 2)]]) :=
    projOr_ok id ([], [], []) _ (by decide +kernel) (by simp)
  have h2 : ∃ x, vasprunPolarizability (thinRoot "0.4") = .ok x ∧ x = [[some 3, some 1, some 1]] :=
    projOr_ok id [] _ (by decide +kernel) (by simp)
  have h3 : ∃ x, vasprunRefArgs (thinRoot "0.6") = .ok x ∧ x = ([55, 17], [[some 1, some 0, some 0],
      [some 0, some 1, some 0], [some 0, some 0, some 1]], [[some 0, some 0, some 0],
      [some (3 / 5), some (1 / 2), some (1 / 2)]]) :=
    projOr_ok id ([], [], []) _ (by decide +kernel) (by simp)
  have h4 : ∃ x, vasprunPolarizability (thinRoot "0.6") = .ok x ∧ x = [[some 3, some 1, some 1]] :=
    projOr_ok id [] _ (by decide +kernel) (by simp)
  obtain ⟨x, h1, rfl⟩ := h1
  obtain ⟨y, h2, rfl⟩ := h2
  obtain ⟨z, h3, rfl⟩ := h3
  obtain ⟨u, h4, rfl⟩ := h4
  exact ⟨⟨((C135_reference _ _ _ _).1 h1).2.2, (vasprunPolarizability_iff _ _).1 h2⟩,
    ((C135_reference _ _ _ _).1 h3).2.2, (vasprunPolarizability_iff _ _).1 h4⟩

/-- The positions of CsCl with the second atom at this first coordinate. -/
def csClAt (x : ℝ) : Pos 2 ℝ := ![![0, 0, 0], ![x, 1 / 2, 1 / 2]]

/-- C179, witness: two vasprun.xml files of CsCl whose dielectric tensors have a single row are accepted
without a warning, and the model then predicts a polarizability with three equal rows. -/
theorem C179_accepted {R : Type} (env : Env R) (hf : env.fs "a".toList = some ['1'])
    (hg : env.fs "b".toList = some ['2']) (hp : env.parse ['1'] = .ok (thinRoot "0.4"))
    (hq : env.parse ['2'] = .ok (thinRoot "0.6")) (pol : Mat3 ℝ) :
    ∃ s : RefStructure 2, s.positions = csCl ∧
      ((IModel.init s pol false).addArtFromPaths env lineSpline true (.many ["a".toList, "b".toList])
        "vasprun.xml".toList).result = .ok () ∧
      ((IModel.init s pol false).addArtFromPaths env lineSpline true (.many ["a".toList, "b".toList])
        "vasprun.xml".toList).state.calcPolarizabilities [csClAt (2 / 5)]
          = .ok [fun _ j => (![3, 1, 1] : Fin 3 → ℝ) j] := by
  obtain ⟨s, hs, hops⟩ := pairInit
  obtain ⟨hpos, hlat, -⟩ := init_facts hs
  have hd : (![2, 0, 0] : Vec3) ≠ 0 := fun h => by
    have := congrFun h 0
    norm_num at this
  have hsq : Real.sqrt (∑ c, (![2, 0, 0] : Vec3) c ^ 2) = 2 := by
    rw [show (∑ c, (![2, 0, 0] : Vec3) c ^ 2) = 2 ^ 2 by simp [Fin.sum_univ_three]]
    exact Real.sqrt_sq (by norm_num)
  have he : ∀ j, ∑ c, (![1, 0, 0] : Vec3) c * (1 : Mat3 ℝ) c j
      = (![2, 0, 0] : Vec3) j / Real.sqrt (∑ c, (![2, 0, 0] : Vec3) c ^ 2) := fun j => by
    rw [hsq]
    fin_cases j <;> simp [Fin.sum_univ_three, Matrix.one_apply]
  set A : Mat3 ℝ := fun _ j => (![3, 1, 1] : Fin 3 → ℝ) j with hA
  obtain ⟨q, r, o, h1, h2, h3, -, h6, -⟩ := C122_end_to_end pairSpglib _ 1 (by simp) csCl s hs
    csCl_apart hops lineSpline lineSpline_interpolates lineSpline_builds true pol (-1) 1
    (Or.inr (by norm_num)) ![2, 0, 0] hd ![1, 0, 0] he (-(1 / 10)) (1 / 10) (by norm_num) (by norm_num)
    (by norm_num [TooClose, abs_of_neg, abs_of_pos]) (by
      intro c
      fin_cases c <;> norm_num [InHalfBox]) (Or.inr (by norm_num [abs_of_neg, abs_of_pos])) A A
  obtain ⟨ps, k1, k2⟩ := C22_ast_displaced_positions s (by rw [hlat]; simp) (-1) 1 (Or.inr (by norm_num))
    ![2, 0, 0] hd [-(1 / 10), 1 / 10]
  rw [h1] at k1
  have hval : ∀ (x : ℝ) (q : Pos 2 ℝ), -(1 / 2) < x → x < 1 / 2 → (∀ a i, InCell (q a i)) →
      (∀ a : Fin 2, a ≠ 1 → ∀ i, SameImage (s.positions a i) (q a i)) →
      (∃ n : Fin 3 → ℤ, ∀ j, ∑ i, (q 1 i - s.positions 1 i) * s.lattice i j
          = x * ((![2, 0, 0] : Vec3) j / Real.sqrt (∑ c, (![2, 0, 0] : Vec3) c ^ 2))
            + ∑ i, n i * s.lattice i j) → q = csClAt (1 / 2 + x) := by
    intro x q hx1 hx2 c1 c2 ⟨n, c3⟩
    rw [hpos, hlat, hsq] at c3
    have hcl : ∀ i, csCl 1 i = 1 / 2 := fun i => by simp [csCl]
    have hc0 : ∀ i, csCl 0 i = 0 := fun i => by simp [csCl]
    funext a i
    fin_cases a
    · obtain ⟨k, hk⟩ := c2 0 (by decide) i
      rw [hpos, hc0] at hk
      have := inCell_unique (c1 0 i) (b := 0) ⟨le_rfl, one_pos⟩ k (by simpa using hk)
      change q 0 i = _
      rw [this]
      fin_cases i <;> rfl
    · change q 1 i = _
      have c0 : q 1 0 = 1 / 2 + x + n 0 := by
        have := c3 0
        simp [Fin.sum_univ_three, Matrix.one_apply, hcl] at this
        linarith
      have c1' : q 1 1 = 1 / 2 + n 1 := by
        have := c3 1
        simp [Fin.sum_univ_three, Matrix.one_apply, hcl] at this
        linarith
      have c2' : q 1 2 = 1 / 2 + n 2 := by
        have := c3 2
        simp [Fin.sum_univ_three, Matrix.one_apply, hcl] at this
        linarith
      fin_cases i
      · exact inCell_unique (c1 1 0) (b := 1 / 2 + x) ⟨by linarith, by linarith⟩ (n 0) c0
      · exact inCell_unique (c1 1 1) (b := 1 / 2) ⟨by norm_num, by norm_num⟩ (n 1) c1'
      · exact inCell_unique (c1 1 2) (b := 1 / 2) ⟨by norm_num, by norm_num⟩ (n 2) c2'
  have hqr : q = csClAt (2 / 5) ∧ r = csClAt (3 / 5) := by
    cases k2 with
    | cons a1 a2 => cases a2 with
      | cons a2 a3 =>
        cases a3
        have k1 := Except.ok.inj k1
        simp only [List.map_cons, List.map_nil, List.cons.injEq, Option.some.injEq, and_true] at k1
        obtain ⟨rfl, rfl⟩ := k1
        refine ⟨?_, ?_⟩
        · rw [hval _ _ (by norm_num) (by norm_num) a1.1 a1.2.1 a1.2.2]; norm_num
        · rw [hval _ _ (by norm_num) (by norm_num) a2.1 a2.2.1 a2.2.2]; norm_num
  obtain ⟨rfl, rfl⟩ := hqr
  obtain ⟨⟨t1, t2⟩, t3, t4⟩ := thin_parts
  have hst : Stretched 1 3 [[some 3, some 1, some 1]] A :=
    .row ![3, 1, 1] A fun i j => by fin_cases j <;> simp [hA]
  have hmain : (IModel.init s pol false).addArtFromPaths env lineSpline true
      (.many ["a".toList, "b".toList]) "vasprun.xml".toList = o := by
    rw [C179_stretched (by decide) env lineSpline true (IModel.init s pol false) rfl _ _ _ (.many _ _) 1 3
      [(csClAt (2 / 5), A), (csClAt (3 / 5), A)] (.cons ⟨_, ⟨_, Or.inl ⟨_, hf, Or.inr (Or.inl
        ⟨rfl, _, hp, t1, fun _ => t2⟩)⟩, ?_⟩, hst⟩ (.cons ⟨_, ⟨_, Or.inl ⟨_, hg, Or.inr (Or.inl
        ⟨rfl, _, hq, t3, fun _ => t4⟩)⟩, ?_⟩, hst⟩ .nil)), h2]
    · rfl
    · exact .cons ⟨![0, 0, 0], by simp [List.ofFn_succ], fun j => by fin_cases j <;> simp [csClAt]⟩
        (.cons ⟨![2 / 5, 1 / 2, 1 / 2], by simp [List.ofFn_succ], fun j => by
          fin_cases j <;> simp [csClAt]⟩ .nil)
    · exact .cons ⟨![0, 0, 0], by simp [List.ofFn_succ], fun j => by fin_cases j <;> simp [csClAt]⟩
        (.cons ⟨![3 / 5, 1 / 2, 1 / 2], by simp [List.ofFn_succ], fun j => by
          fin_cases j <;> simp [csClAt]⟩ .nil)
  exact ⟨s, hpos, by rw [hmain]; exact h3, by rw [hmain]; exact h6⟩

/-- C179_dof, concrete: the first of these files given to `add_dof_from_files`. -/
example {R : Type} (env : Env R) (hf : env.fs "a".toList = some ['1'])
    (hp : env.parse ['1'] = .ok (thinRoot "0.4")) (pol : Mat3 ℝ) :
    ∃ s : RefStructure 2, (IModel.init s pol false).addDofFromPaths env lineSpline true (.one "a".toList)
      "vasprun.xml".toList 1 = ⟨.error .valueError, [], IModel.init s pol false⟩ := by
  obtain ⟨s, hs, hops⟩ := pairInit
  obtain ⟨hpos, hlat, -⟩ := init_facts hs
  obtain ⟨⟨t1, t2⟩, -⟩ := thin_parts
  refine ⟨s, (C179_dof (by decide) env lineSpline true (IModel.init s pol false) rfl ?_ _ _ ["a".toList]
    (.one _) (csClAt (2 / 5), [[some 3, some 1, some 1]]) [] (.cons ⟨_, Or.inl ⟨_, hf, Or.inr (Or.inl
      ⟨rfl, _, hp, t1, fun _ => t2⟩)⟩, ?_⟩ .nil) ⟨_, List.mem_cons_self, by simp [ThreeByThree]⟩
    (calcDisplacement csCl) ?_ 1).1 ?_⟩
  · change s.lattice.det ≠ 0
    rw [hlat]; simp
  · exact .cons ⟨![0, 0, 0], by simp [List.ofFn_succ], fun j => by fin_cases j <;> simp [csClAt]⟩
      (.cons ⟨![2 / 5, 1 / 2, 1 / 2], by simp [List.ofFn_succ], fun j => by
        fin_cases j <;> simp [csClAt]⟩ .nil)
  · intro p
    change NearestImage s.positions p _
    rw [hpos]
    exact calcDisplacement_nearest _ _
  · intro x hx
    rw [List.mem_singleton] at hx
    subst hx
    dsimp only
    have hne : flatten (calcDisplacement csCl (csClAt (2 / 5))) ≠ 0 := fun h => by
      have h1 := congrFun h ((1 : Fin 2), (0 : Fin 3))
      obtain ⟨-, n, hn⟩ := calcDisplacement_nearest csCl (csClAt (2 / 5)) 1 0
      change calcDisplacement csCl (csClAt (2 / 5)) 1 0 = 0 at h1
      rw [h1] at hn
      have h2 : (10 : ℝ) * n = 1 ∨ (10 : ℝ) * n = -1 := by
        have : csClAt (2 / 5) 1 0 = 2 / 5 := rfl
        have h3 : csCl 1 0 = 1 / 2 := by simp [csCl]
        rw [this, h3] at hn
        exact Or.inl (by linarith)
      rcases h2 with h2 | h2
      · have : (10 : ℤ) * n = 1 := by exact_mod_cast h2
        omega
      · have : (10 : ℤ) * n = -1 := by exact_mod_cast h2
        omega
    refine ⟨hne, hne, ?_⟩
    rw [cosine_eq, ← norm2_sq, ← sq, div_self (pow_ne_zero _ (norm2_pos hne).ne')]
    norm_num [angTol]

/-- C179_art_refused, concrete: three rows of two numbers, and tensors of different shapes. -/
example (a b c d e f : Num) : Unusable [[[a, b], [c, d], [e, f]]] ∧
    Unusable [[[a], [b], [c]], [[a, b, c]]] :=
  ⟨Or.inl ⟨_, List.mem_cons_self, 3, 2, ⟨rfl, by simp⟩, by simp⟩,
    Or.inr ⟨_, List.mem_cons_self, _, List.mem_cons_of_mem _ List.mem_cons_self, 3, 1, 1, 3,
      ⟨rfl, by simp⟩, ⟨rfl, by simp⟩, Or.inl (by decide)⟩⟩

/-- A tensor with one number per line in an OUTCAR file. -/
example : ShortTensorIn 1 ([" MACROSCOPIC STATIC DIELECTRIC TENSOR (including local field effects in DFT)",
    " ----", "  3.0", " 1.5", " 2"].map String.toList) [[some 3], [some (3 / 2)], [some 2]] := by
  refine ⟨by decide, _, _, _, _, _, _, _, _, [], ⟨[], rfl, by simp, ?_⟩, ⟨?_, ?_⟩, ⟨?_, ?_⟩, ⟨?_, ?_⟩, rfl⟩
  · exact ⟨" ".toList, " in DFT)".toList, by decide⟩
  · decide
  · rw [show splitWs "  3.0".toList = ["3.0".toList] by decide]
    exact .cons (by decide +kernel) .nil
  · decide
  · rw [show splitWs " 1.5".toList = ["1.5".toList] by decide]
    exact .cons (by decide +kernel) .nil
  · decide
  · rw [show splitWs " 2".toList = ["2".toList] by decide]
    exact .cons (by decide +kernel) .nil

end

end Verif
