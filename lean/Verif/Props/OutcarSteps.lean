import Verif.Props.Outcar
import Verif.Proofs.Pbc

/-!
# Properties C68, C69, C95: trajectories and phonons in OUTCAR files
-/

namespace Verif

/-! ## C68: trajectories -/

theorem kept_cons {α : Type} (ml : α → Bool) (flag : Bool) (s : α) (ss : List α) :
    (((s :: ss).zip (flag :: (s :: ss).map ml)).filter fun x => ml x.1 || !x.2).map Prod.fst =
      (if ml s || !flag then [s] else []) ++
        ((ss.zip (ml s :: ss.map ml)).filter fun x => ml x.1 || !x.2).map Prod.fst := by
  rw [List.map_cons, List.zip_cons_cons, List.filter_cons]
  by_cases h : (ml s || !flag) = true
  · rw [if_pos h, if_pos h]; rfl
  · rw [if_neg h, if_neg h]; rfl

/-- Well-formed ionic steps with `n` atoms. -/
def StepOK (n : ℕ) (s : Spec.Step) : Prop :=
  "POSITION                                       TOTAL-FORCE ".toList <:+: s.header ∧
    ¬ "POSITION                                       TOTAL-FORCE ".toList <:+: s.sep ∧
    (∀ l ∈ s.rows, ¬ "POSITION                                       TOTAL-FORCE ".toList <:+: l) ∧
    (∀ l ∈ s.trailing, ¬ "POSITION                                       TOTAL-FORCE ".toList <:+: l) ∧
    s.rows.length = n ∧ ∀ l ∈ s.rows, ∃ x : Fin 3 → ℚ, Spec.RowOf l fun i => some (x i)

theorem exists_rows {rows : List (List Char)}
    (h : ∀ l ∈ rows, ∃ x : Fin 3 → ℚ, Spec.RowOf l fun i => some (x i)) :
    ∃ xs : List (Fin 3 → ℚ), List.Forall₂ (fun l x => Spec.RowOf l fun i => some (x i)) rows xs := by
  induction rows with
  | nil => exact ⟨[], List.Forall₂.nil⟩
  | cons l rows ih =>
    obtain ⟨x, hx⟩ := h l (by simp)
    obtain ⟨xs, hxs⟩ := ih fun l hl => h l (by simp [hl])
    exact ⟨x :: xs, List.Forall₂.cons hx hxs⟩

theorem arrayInv_of_mat (ext : NumMat → Py NumMat) (a : Matrix (Fin 3) (Fin 3) ℚ)
    (hdet : a.det ≠ 0) :
    ∃ b : Matrix (Fin 3) (Fin 3) ℚ, b * a = 1 ∧
      arrayInv ext (List.ofFn fun i => List.ofFn fun j => some (a i j)) =
        .ok fun i j => some (b i j) := by
  rcases numInv_finite ext a with ⟨h, -⟩ | ⟨-, b, hb, hba⟩
  · exact absurd h hdet
  · refine ⟨b, hba, ?_⟩
    unfold arrayInv
    have : toMat (List.ofFn fun i => List.ofFn fun j => some (a i j)) =
        some fun i j => some (a i j) := by
      change some (![![some (a 0 0), some (a 0 1), some (a 0 2)],
        ![some (a 1 0), some (a 1 1), some (a 1 2)],
        ![some (a 2 0), some (a 2 1), some (a 2 2)]] : NumMat) = _
      congr 1
      funext i j
      fin_cases i <;> fin_cases j <;> rfl
    rw [this]
    exact hb

theorem vecMul_inv {a b : Matrix (Fin 3) (Fin 3) ℚ} (hba : b * a = 1) (x : Fin 3 → ℚ) (k : Fin 3) :
    ∑ i, (∑ j, x j * b j i) * a i k = x k := by
  have hv : Matrix.vecMul (Matrix.vecMul x b) a = x := by
    rw [Matrix.vecMul_vecMul, hba, Matrix.vecMul_one]
  have := congrFun hv k
  simpa [Matrix.vecMul, dotProduct] using this

theorem stepLoop_steps (ext : NumMat → Py NumMat) (lattice : List (List Num)) (inv : NumMat)
    (hinv : arrayInv ext lattice = .ok inv) (n : ℕ) (hn : 0 < n) (steps : List Spec.Step)
    (hs : ∀ s ∈ steps, StepOK n s) (flag : Bool) (pre : List (List Char))
    (hpre : ∀ l ∈ pre, ¬ stepHeader <:+: l) (fuel : ℕ)
    (hfuel : (pre ++ steps.flatMap Spec.Step.lines).length < fuel) :
    ∃ ps, stepLoop ext lattice n fuel flag (pre ++ steps.flatMap Spec.Step.lines) = .ok ps ∧
      List.Forall₂ (fun (s : Spec.Step) p => ∃ xs : List (Fin 3 → ℚ),
        List.Forall₂ (fun l x => Spec.RowOf l fun i => some (x i)) s.rows xs ∧
        p = xs.map fun x => numVecMul (fun i => some (x i)) inv)
      (((steps.zip (flag :: steps.map fun s => contains "(ML)".toList s.header)).filter
        fun x => contains "(ML)".toList x.1.header || !x.2).map Prod.fst) ps := by
  induction steps generalizing flag pre fuel with
  | nil =>
    obtain ⟨fuel, rfl⟩ : ∃ k, fuel = k + 1 := ⟨fuel - 1, by omega⟩
    refine ⟨[], ?_, List.Forall₂.nil⟩
    rw [List.flatMap_nil, List.append_nil, stepLoop, skipUntil_none hpre]
  | cons s ss ih =>
    obtain ⟨fuel, rfl⟩ : ∃ k, fuel = k + 1 := ⟨fuel - 1, by omega⟩
    obtain ⟨hh, hsep, hrows, htr, hlen, hnum⟩ := hs s (by simp)
    rw [kept_cons (fun s : Spec.Step => contains "(ML)".toList s.header)]
    have hfile : pre ++ (s :: ss).flatMap Spec.Step.lines =
        pre ++ s.header :: (s.sep :: (s.rows ++ (s.trailing ++ ss.flatMap Spec.Step.lines))) := by
      rw [List.flatMap_cons]
      change pre ++ ((s.header :: s.sep :: (s.rows ++ s.trailing)) ++ _) = _
      simp only [List.cons_append, List.append_assoc]
    rw [hfile] at hfuel ⊢
    rw [stepLoop, skipUntil_append hpre hh]
    dsimp only
    by_cases hskip : flag = true ∧ ¬ contains "(ML)".toList s.header = true
    · rw [if_pos hskip]
      have hk : ¬ (contains "(ML)".toList s.header || !flag) = true := by
        rw [hskip.1, Bool.eq_false_of_not_eq_true hskip.2]
        simp
      rw [if_neg hk, List.nil_append]
      have hre : s.sep :: (s.rows ++ (s.trailing ++ ss.flatMap Spec.Step.lines)) =
          (s.sep :: (s.rows ++ s.trailing)) ++ ss.flatMap Spec.Step.lines := by simp
      rw [hre] at hfuel ⊢
      refine ih (fun x hx => hs x (by simp [hx])) _ _ ?_ fuel ?_
      · intro l hl
        rcases List.mem_cons.1 hl with rfl | hl
        · exact hsep
        · rcases List.mem_append.1 hl with hl | hl
          · exact hrows l hl
          · exact htr l hl
      · simp only [List.length_append, List.length_cons] at hfuel ⊢
        omega
    · rw [if_neg hskip]
      have hk : (contains "(ML)".toList s.header || !flag) = true := by
        cases hm : contains "(ML)".toList s.header with
        | true => rfl
        | false =>
          cases hf : flag with
          | false => rfl
          | true => exact absurd ⟨hf, by rw [hm]; simp⟩ hskip
      rw [if_pos hk]
      obtain ⟨xs, hxs⟩ := exists_rows hnum
      have hall : List.Forall₂ Spec.RowOf s.rows (xs.map fun x i => some (x i)) := by
        rw [List.forall₂_map_right_iff]
        exact hxs
      unfold readNextCart
      dsimp only [nextLine]
      rw [← hlen, readArray_append hall]
      change ∃ ps, (cartToFrac ext lattice _ >>= _) = _ ∧ _
      have hcart : cartToFrac ext lattice
          ((xs.map fun x i => some (x i)).map fun v : NumVec => [v 0, v 1, v 2]) =
          .ok (xs.map fun x => numVecMul (fun i => some (x i)) inv) := by
        unfold cartToFrac
        rw [hinv]
        change ((match ((xs.map fun x i => some (x i)).map
          fun v : NumVec => [v 0, v 1, v 2]).mapM toVec with
          | none => Except.error PyErr.valueError
          | some vs => _) : Py (List NumVec)) = _
        rw [mapM_toVec_rows]
        dsimp only
        rw [if_neg]
        · change Except.ok _ = Except.ok _
          rw [List.map_map]
          rfl
        · intro he
          have := congrArg List.length he
          have h2 := hxs.length_eq
          simp only [List.length_map, List.length_nil] at this
          omega
      rw [hcart]
      obtain ⟨ps, hps, hall'⟩ := ih (fun x hx => hs x (by simp [hx]))
        (contains "(ML)".toList s.header) s.trailing htr fuel (by
          simp only [List.length_append, List.length_cons] at hfuel ⊢
          omega)
      refine ⟨(xs.map fun x => numVecMul (fun i => some (x i)) inv) :: ps, ?_, ?_⟩
      · change (stepLoop ext lattice s.rows.length fuel (contains "(ML)".toList s.header)
          (s.trailing ++ ss.flatMap Spec.Step.lines) >>= _) = _
        rw [hlen, hps]
        rfl
      · exact List.Forall₂.cons ⟨xs, hxs, rfl⟩ hall'

/-- C68: for every sequence of ionic steps, the trajectory read consists of the steps that are
machine-learned or do not follow a machine-learned step, in order; the positions are in the cell
and agree with the Cartesian coordinates listed up to lattice vectors.  Without steps the file is
refused. -/
theorem C68_trajectory (ext : NumMat → Py NumMat) (content : List Char) (symbols : List Word)
    (f1 f2 f3 : List (List Char)) (t : ℚ) (ht : 0 < t) (a : Matrix (Fin 3) (Fin 3) ℚ)
    (hdet : a.det ≠ 0) (hne : symbols ≠ [])
    (hs : outcarSymbols (fileLines content) = .ok (symbols, f1))
    (htime : readTimestep f1 = .ok (some t, f2))
    (hlat : outcarReadLattice f2 = .ok (List.ofFn fun i => List.ofFn fun j => some (a i j), f3))
    (pre : List (List Char)) (steps : List Spec.Step)
    (hf3 : f3 = pre ++ steps.flatMap Spec.Step.lines)
    (hpre : ∀ l ∈ pre, ¬ "POSITION                                       TOTAL-FORCE ".toList <:+: l)
    (hsteps : ∀ s ∈ steps, StepOK symbols.length s) :
    (steps = [] → outcarReadTrajectory ext content = .error .invalidFile) ∧
    (steps ≠ [] → ∃ tr, outcarReadTrajectory ext content = .ok tr ∧ tr.timestep = t ∧
      List.Forall₂ (fun (s : Spec.Step) p => List.Forall₂ (fun l v =>
        ∃ (x y : Fin 3 → ℚ) (k : Fin 3 → ℤ), (Spec.RowOf l fun i => some (x i)) ∧
          (v = fun i => some (y i)) ∧ (∀ i, 0 ≤ y i ∧ y i < 1) ∧
          ∀ j, ∑ i, (y i + k i) * a i j = x j) s.rows p)
        (Spec.kept (fun s => decide ("(ML)".toList <:+: s.header)) steps) tr.positionsTs) := by
  obtain ⟨b, hba, hinv⟩ := arrayInv_of_mat ext a hdet
  obtain ⟨ps, hps, hall⟩ := stepLoop_steps ext _ _ hinv symbols.length
    (List.length_pos_iff.2 hne) steps hsteps false pre hpre (f3.length + 1)
    (by rw [hf3]; exact Nat.lt_succ_self _)
  rw [← hf3] at hps
  have hkept : (Spec.kept (fun s : Spec.Step => decide ("(ML)".toList <:+: s.header)) steps) =
      ((steps.zip (false :: steps.map fun s => contains "(ML)".toList s.header)).filter
        fun x => contains "(ML)".toList x.1.header || !x.2).map Prod.fst := rfl
  have hrun : outcarReadTrajectory ext content =
      if ps = [] then .error .invalidFile else makeTrajectory ps (some t) := by
    unfold outcarReadTrajectory
    rw [hs]
    change (readTimestep f1 >>= _) = _
    rw [htime]
    change (outcarReadLattice f2 >>= _) = _
    rw [hlat]
    change (stepLoop ext _ symbols.length (f3.length + 1) false f3 >>= _) = _
    rw [hps]
    rfl
  constructor
  · rintro rfl
    rw [hrun, if_pos]
    cases hall
    rfl
  · intro hsne
    have hpsne : ps ≠ [] := by
      rintro rfl
      obtain ⟨s, ss, rfl⟩ := List.exists_cons_of_ne_nil hsne
      rw [kept_cons (fun s : Spec.Step => contains "(ML)".toList s.header)] at hall
      rw [if_pos (by simp)] at hall
      cases hall
    refine ⟨⟨ps.map fun q => q.map fun p i => (p i).map pbc1, t⟩, ?_, rfl, ?_⟩
    · rw [hrun, if_neg hpsne]
      unfold makeTrajectory
      dsimp only
      rw [if_neg (not_le.2 ht)]
    · rw [hkept, List.forall₂_map_right_iff]
      refine hall.imp ?_
      rintro s p ⟨xs, hxs, rfl⟩
      rw [List.map_map, List.forall₂_map_right_iff]
      refine hxs.imp ?_
      intro l x hx
      have hk : ∀ i, ∃ k : ℤ, pbc1 (∑ j, x j * b j i) + k = ∑ j, x j * b j i := by
        intro i
        obtain ⟨k, hk⟩ := pbc1_sameImage (∑ j, x j * b j i)
        exact ⟨-k, by rw [hk]; push_cast; ring⟩
      choose k hk using hk
      refine ⟨x, fun i => pbc1 (∑ j, x j * b j i), k, hx, ?_, fun i => pbc1_inCell _, fun j => ?_⟩
      · dsimp only [Function.comp]
        rw [numVecMul_finite x b]
        rfl
      · rw [← vecMul_inv hba x j]
        exact Finset.sum_congr rfl fun i _ => by rw [hk i]

/-- C68, concrete: of an ML step, an ab initio step after it and another one, the second is
skipped. -/
example : Spec.kept (fun s : ℕ × Bool => s.2) [(0, true), (1, false), (2, false)] =
    [(0, true), (2, false)] := by decide

/-! ## C69: phonons -/

/-- Well-formed mode of `n` atoms. -/
def ModeOK (n : ℕ) (m : Spec.ModeBlock) : Prop :=
  (∀ l ∈ m.before, ¬ "cm-1".toList <:+: l) ∧ "cm-1".toList <:+: m.freq ∧
  (∃ w, Spec.RealFrequency m.freq w ∨ Spec.ImaginaryFrequency m.freq w) ∧ m.body.length = n ∧
  ∀ x ∈ m.body, (∀ h ∈ x.1, ['X'] <:+: h) ∧ ¬ ['X'] <:+: x.2 ∧ ∃ v, Spec.EigenRow x.2 v

/-- The wavenumber returned for a line: negative for unstable modes. -/
def WavenumberOf (freq : List Char) (w : ℚ) : Prop :=
  Spec.RealFrequency freq w ∨ ∃ x, Spec.ImaginaryFrequency freq x ∧ w = -x

theorem eigenvalue_of {freq : List Char}
    (h : ∃ w, Spec.RealFrequency freq w ∨ Spec.ImaginaryFrequency freq w) :
    ∃ w, eigenvalue freq = .ok (some w) ∧ WavenumberOf freq w := by
  obtain ⟨w, ⟨hn, x, hx, hp⟩ | ⟨hi, x, hx, hp⟩⟩ := h
  · refine ⟨w, ?_, Or.inl ⟨hn, x, hx, hp⟩⟩
    unfold eigenvalue
    rw [if_neg (fun h => hn ((contains_iff _ _).1 h)), hx]
    dsimp only
    rw [hp]
  · refine ⟨-w, ?_, Or.inr ⟨w, ⟨hi, x, hx, hp⟩, rfl⟩⟩
    unfold eigenvalue
    rw [if_pos ((contains_iff _ _).2 hi), hx]
    dsimp only
    rw [hp]
    rfl

theorem eigenRow_of {ext : NumMat → Py NumMat} {lattice : List (List Num)} {inv : NumMat}
    (hinv : arrayInv ext lattice = .ok inv) {line : List Char} {v : Fin 3 → ℚ}
    (h : Spec.EigenRow line v) :
    eigenRow ext lattice line = .ok (numVecMul (fun i => some (v i)) inv) := by
  obtain ⟨p, q, r, a, b, c, hw, ha, hb, hc⟩ := h
  unfold eigenRow
  have : parseFloats ((splitWs line).drop 3) = some [some (v 0), some (v 1), some (v 2)] := by
    unfold parseFloats
    rw [hw]
    simp [ha, hb, hc]
  rw [this]
  dsimp only
  rw [hinv]
  change ((match toVec [some (v 0), some (v 1), some (v 2)] with
    | none => Except.error PyErr.valueError
    | some v => _) : Py NumVec) = _
  have h3 := toVec_row (fun i => some (v i))
  rw [h3]
  rfl

theorem readEigenvector_skip (b : Bool) (ext : NumMat → Py NumMat) (lattice : List (List Num))
    (n : ℕ) (hs : List (List Char)) (hX : ∀ h ∈ hs, ['X'] <:+: h) (rest : List (List Char)) :
    readEigenvector b ext lattice (n + 1) (hs ++ rest) =
      readEigenvector b ext lattice (n + 1) rest := by
  induction hs with
  | nil => rfl
  | cons h hs ih =>
    rw [List.cons_append, readEigenvector, if_pos ((contains_iff _ _).2 (hX h (by simp))),
      ih fun x hx => hX x (by simp [hx])]

theorem readEigenvector_body (b : Bool) (ext : NumMat → Py NumMat) (lattice : List (List Num))
    (inv : NumMat) (hinv : arrayInv ext lattice = .ok inv)
    (body : List (List (List Char) × List Char))
    (hb : ∀ x ∈ body, (∀ h ∈ x.1, ['X'] <:+: h) ∧ ¬ ['X'] <:+: x.2 ∧ ∃ v, Spec.EigenRow x.2 v)
    (after : List Char) (rest : List (List Char)) :
    ∃ vs : List (Fin 3 → ℚ), List.Forall₂ (fun x v => Spec.EigenRow x.2 v) body vs ∧
      readEigenvector b ext lattice body.length (Spec.bodyLines body ++ after :: rest) =
        .ok (vs.map fun v => numVecMul (fun i => some (v i)) inv, rest) := by
  induction body with
  | nil => exact ⟨[], List.Forall₂.nil, rfl⟩
  | cons x body ih =>
    obtain ⟨vs, hvs, h⟩ := ih fun y hy => hb y (by simp [hy])
    obtain ⟨hX, hn, v, hv⟩ := hb x (by simp)
    refine ⟨v :: vs, List.Forall₂.cons hv hvs, ?_⟩
    have he : Spec.bodyLines (x :: body) ++ after :: rest =
        x.1 ++ (x.2 :: (Spec.bodyLines body ++ after :: rest)) := by
      unfold Spec.bodyLines
      rw [List.flatMap_cons]
      simp
    rw [he, List.length_cons, readEigenvector_skip b ext lattice _ _ hX, readEigenvector,
      if_neg (fun h => hn ((contains_iff _ _).1 h)), eigenRow_of hinv hv]
    change (readEigenvector b ext lattice body.length _ >>= _) = _
    rw [h]
    rfl

theorem readModes_blocks (b : Bool) (ext : NumMat → Py NumMat) (lattice : List (List Num))
    (inv : NumMat) (hinv : arrayInv ext lattice = .ok inv) (n : ℕ) (blocks : List Spec.ModeBlock)
    (hb : ∀ m ∈ blocks, ModeOK n m) (rest : List (List Char)) :
    ∃ ms, readModes b ext lattice n blocks.length (blocks.flatMap Spec.ModeBlock.lines ++ rest) =
        .ok ms ∧
      List.Forall₂ (fun (m : Spec.ModeBlock) (x : Num × List NumVec) =>
        (∃ w, x.1 = some w ∧ WavenumberOf m.freq w) ∧
        ∃ vs : List (Fin 3 → ℚ), List.Forall₂ (fun r v => Spec.EigenRow r.2 v) m.body vs ∧
          x.2 = vs.map fun v => numVecMul (fun i => some (v i)) inv) blocks ms := by
  induction blocks with
  | nil => exact ⟨[], rfl, List.Forall₂.nil⟩
  | cons m blocks ih =>
    obtain ⟨ms, h, hall⟩ := ih fun x hx => hb x (by simp [hx])
    obtain ⟨hbef, hf, hw, hlen, hbody⟩ := hb m (by simp)
    obtain ⟨w, hw, hw'⟩ := eigenvalue_of hw
    obtain ⟨vs, hvs, hread⟩ := readEigenvector_body b ext lattice inv hinv m.body hbody m.after
      (blocks.flatMap Spec.ModeBlock.lines ++ rest)
    refine ⟨(some w, vs.map fun v => numVecMul (fun i => some (v i)) inv) :: ms, ?_,
      List.Forall₂.cons ⟨⟨w, rfl, hw'⟩, vs, hvs, rfl⟩ hall⟩
    have he : (m :: blocks).flatMap Spec.ModeBlock.lines ++ rest = m.before ++ m.freq ::
        (Spec.bodyLines m.body ++ m.after :: (blocks.flatMap Spec.ModeBlock.lines ++ rest)) := by
      rw [List.flatMap_cons]
      change (m.before ++ m.freq :: (Spec.bodyLines m.body ++ [m.after]) ++ _) ++ _ = _
      simp only [List.cons_append, List.append_assoc, List.nil_append]
    rw [he, List.length_cons, readModes, orInvalid_skip_append hbef hf]
    change (eigenvalue m.freq >>= _) = _
    rw [hw]
    change (readEigenvector b ext lattice n _ >>= _) = _
    rw [← hlen, hread]
    change (readModes b ext lattice m.body.length blocks.length _ >>= _) = _
    rw [hlen, h]
    rfl

theorem weights_of_symbols {symbols : List Word}
    (h : ∀ s ∈ symbols, ∃ n, dictGet atomicNumbers s = some n) :
    ∃ ws : List ℚ, symbols.mapM weightOf = .ok ws ∧
      List.Forall₂ (fun s w => dictGet atomicWeights s = some w ∧ 0 < w) symbols ws := by
  induction symbols with
  | nil => exact ⟨[], rfl, List.Forall₂.nil⟩
  | cons s ss ih =>
    obtain ⟨ws, hm, hall⟩ := ih fun x hx => h x (by simp [hx])
    obtain ⟨w, hw⟩ := (C90_weights s).1.2 (h s (by simp))
    refine ⟨w :: ws, ?_, List.Forall₂.cons ⟨hw, (C90_weights s).2 w hw⟩ hall⟩
    rw [List.mapM_cons]
    have : weightOf s = .ok w := by unfold weightOf; rw [hw]
    rw [this]
    change (List.mapM weightOf ss >>= _) = _
    rw [hm]
    rfl

theorem mem_repeatEach {names : List Word} {counts : List ℤ} {s : Word}
    (h : s ∈ Spec.repeatEach names counts) : s ∈ names := by
  induction names generalizing counts with
  | nil => cases h
  | cons n names ih =>
    cases counts with
    | nil => cases h
    | cons c counts =>
      rw [Spec.repeatEach, List.mem_append] at h
      rcases h with h | h
      · rw [(List.mem_replicate.1 h).2]; simp
      · exact List.mem_cons_of_mem _ (ih h)

theorem symbols_known {f g : List (List Char)} {symbols : List Word}
    (h : outcarSymbols f = .ok (symbols, g)) :
    ∀ s ∈ symbols, ∃ n, dictGet atomicNumbers s = some n := by
  obtain ⟨_, first, more, _, next, _, _, names, counts, -, -, -, -, -, hall, -, -, -, rfl⟩ :=
    (C67_symbols f g symbols).1 h
  intro s hs
  have h1 := mem_repeatEach hs
  have h2 : s ∈ names := by
    split_ifs at h1
    · exact List.dropLast_subset _ h1
    · exact h1
  clear h1 hs h
  generalize first :: more = ls at hall
  induction hall with
  | nil => cases h2
  | cons hx _ ih =>
    rcases List.mem_cons.1 h2 with rfl | h2
    · exact hx.2
    · exact ih h2

theorem massScale_spec {symbols : List Word} {ws : List ℚ}
    (hws : List.Forall₂ (fun s w => dictGet atomicWeights s = some w ∧ 0 < w) symbols ws)
    {a b : Matrix (Fin 3) (Fin 3) ℚ} (hba : b * a = 1)
    {body : List (List (List Char) × List Char)} {vs : List (Fin 3 → ℚ)}
    (hvs : List.Forall₂ (fun r v => Spec.EigenRow r.2 v) body vs)
    (hlen : body.length = symbols.length) :
    List.Forall₂ (fun (r : (List (List Char) × List Char) × Word) d =>
        ∃ (x : Fin 3 → ℚ) (w : ℚ) (y : Fin 3 → ℝ), Spec.EigenRow r.1.2 x ∧
          dictGet atomicWeights r.2 = some w ∧ (d = fun i => some (y i)) ∧
          ∀ k, ∑ i, (y i * Real.sqrt w) * a i k = x k)
      (body.zip symbols)
      (massScale ws (vs.map fun v => numVecMul (fun i => some (v i)) fun i j => some (b i j))) := by
  induction hvs generalizing symbols ws with
  | nil => exact List.Forall₂.nil
  | @cons r v body vs hr _ ih =>
    cases hws with
    | nil => cases hlen
    | @cons s w symbols ws hs hws =>
      refine List.Forall₂.cons ?_ (ih hws (by simpa using hlen))
      refine ⟨v, w, fun i => ((∑ j, v j * b j i : ℚ) : ℝ) / Real.sqrt w, hr, hs.1, ?_, ?_⟩
      · dsimp only
        rw [numVecMul_finite]
        rfl
      · intro k
        have hw : Real.sqrt (w : ℝ) ≠ 0 := by
          rw [Real.sqrt_ne_zero']
          exact_mod_cast hs.2
        have := vecMul_inv hba v k
        rw [← this]
        push_cast
        refine Finset.sum_congr rfl fun i _ => ?_
        rw [div_mul_cancel₀ _ hw]

/-- C69: from an OUTCAR with `N` atoms and `3 N` modes, `read_phonons` returns all modes in order:
wavenumbers as listed, negated for unstable modes, and displacements that, multiplied by the square
root of the mass and the lattice, are the eigenvectors listed. -/
theorem C69_phonons (linAlgIsValue : Bool) (ext : NumMat → Py NumMat) (content : List Char)
    (symbols : List Word) (f1 f2 f3 : List (List Char)) (a : Matrix (Fin 3) (Fin 3) ℚ)
    (hdet : a.det ≠ 0) (hne : symbols ≠ []) (ps : List NumVec)
    (hs : outcarSymbols (fileLines content) = .ok (symbols, f1))
    (hlat : outcarReadLattice f1 = .ok (List.ofFn fun i => List.ofFn fun j => some (a i j), f2))
    (hpos : outcarReadPositions f2 symbols.length =
      .ok (ps.map fun v => [v 0, v 1, v 2], f3))
    (pre rest : List (List Char)) (header : List Char) (blocks : List Spec.ModeBlock)
    (hf3 : f3 = pre ++ header :: (blocks.flatMap Spec.ModeBlock.lines ++ rest))
    (hpre : ∀ l ∈ pre,
      ¬ "Eigenvectors and eigenvalues of the dynamical matrix".toList <:+: l)
    (hheader : "Eigenvectors and eigenvalues of the dynamical matrix".toList <:+: header)
    (hblocks : ∀ m ∈ blocks, ModeOK symbols.length m)
    (hcount : blocks.length = 3 * symbols.length) :
    ∃ ph, outcarReadPhonons linAlgIsValue ext content = .ok ph ∧ ph.refPositions = ps ∧
      List.Forall₂ (fun (m : Spec.ModeBlock) w => ∃ x, w = some x ∧ WavenumberOf m.freq x)
        blocks ph.wavenumbers ∧
      List.Forall₂ (fun (m : Spec.ModeBlock) d => List.Forall₂
        (fun (r : (List (List Char) × List Char) × Word) v =>
          ∃ (x : Fin 3 → ℚ) (w : ℚ) (y : Fin 3 → ℝ), Spec.EigenRow r.1.2 x ∧
            dictGet atomicWeights r.2 = some w ∧ (v = fun i => some (y i)) ∧
            ∀ k, ∑ i, (y i * Real.sqrt w) * a i k = x k) (m.body.zip symbols) d)
        blocks ph.displacements := by
  obtain ⟨b, hba, hinv⟩ := arrayInv_of_mat ext a hdet
  obtain ⟨ws, hws, hwall⟩ := weights_of_symbols (symbols_known hs)
  obtain ⟨ms, hms, hall⟩ := readModes_blocks linAlgIsValue ext _ _ hinv symbols.length blocks
    hblocks rest
  have hpl : ps.length = symbols.length := by
    unfold outcarReadPositions at hpos
    rcases orInvalid_skip_cases fracHeader f2 with ⟨h1, -⟩ | ⟨header, g, pre, h1, -⟩
    · rw [h1] at hpos; cases hpos
    · rw [h1] at hpos
      change readArray symbols.length g = _ at hpos
      rcases readArray_cases symbols.length g with h2 | h2 | ⟨rows, g', h2, -, hlen, -⟩
      · rw [h2] at hpos; cases hpos
      · rw [h2] at hpos; cases hpos
      · rw [h2] at hpos
        obtain ⟨rfl, -⟩ := Prod.mk.inj (Except.ok.inj hpos)
        simpa using hlen
  have hrun : outcarReadPhonons linAlgIsValue ext content =
      makePhonons ws (ps.map fun v => [v 0, v 1, v 2]) ms := by
    unfold outcarReadPhonons
    rw [hs]
    change (symbols.mapM weightOf >>= _) = _
    rw [hws]
    change (outcarReadLattice f1 >>= _) = _
    rw [hlat]
    change (outcarReadPositions f2 symbols.length >>= _) = _
    rw [hpos]
    change (orInvalid (skipUntil _ f3) >>= _) = _
    rw [hf3, orInvalid_skip_append hpre hheader]
    change (readModes linAlgIsValue ext _ symbols.length (symbols.length * 3) _ >>= _) = _
    rw [Nat.mul_comm, ← hcount, hms]
    rfl
  have hcounts : ∀ m ∈ ms, m.2.length = ps.length := by
    have : ∀ (bs : List Spec.ModeBlock) (ms : List (Num × List NumVec)),
        (∀ m ∈ bs, m.body.length = symbols.length) →
        List.Forall₂ (fun (m : Spec.ModeBlock) (x : Num × List NumVec) =>
        (∃ w, x.1 = some w ∧ WavenumberOf m.freq w) ∧
        ∃ vs : List (Fin 3 → ℚ), List.Forall₂ (fun r v => Spec.EigenRow r.2 v) m.body vs ∧
          x.2 = vs.map fun v => numVecMul (fun i => some (v i)) fun i j => some (b i j)) bs ms →
        ∀ m ∈ ms, m.2.length = ps.length := by
      intro bs ms hb h
      induction h with
      | nil => intro m hm; cases hm
      | cons hx _ ih =>
        intro m hm
        rcases List.mem_cons.1 hm with rfl | hm
        · obtain ⟨-, vs, hvs, he⟩ := hx
          rw [he, List.length_map, ← hvs.length_eq, hpl]
          exact hb _ (by simp)
        · exact ih (fun y hy => hb y (by simp [hy])) m hm
    exact this blocks ms (fun m hm => (hblocks m hm).2.2.2.1) hall
  have hmk : makePhonons ws (ps.map fun v => [v 0, v 1, v 2]) ms =
      .ok ⟨ps, ms.map (·.1), ms.map fun m => massScale ws m.2⟩ := by
    unfold makePhonons
    rw [mapM_toVec_rows]
    dsimp only
    rw [if_neg]
    rintro (h | h)
    · rw [h] at hpl
      exact hne (List.length_eq_zero_iff.1 hpl.symm)
    · obtain ⟨m, hm, hc⟩ := List.any_eq_true.1 h
      exact absurd (hcounts m hm) (by simpa using hc)
  refine ⟨⟨ps, ms.map (·.1), ms.map fun m => massScale ws m.2⟩, by rw [hrun, hmk], rfl, ?_, ?_⟩
  · rw [List.forall₂_map_right_iff]
    exact hall.imp fun m x h => h.1
  · rw [List.forall₂_map_right_iff]
    have : ∀ (bs : List Spec.ModeBlock) (ms : List (Num × List NumVec)),
        (∀ m ∈ bs, m.body.length = symbols.length) →
        List.Forall₂ (fun (m : Spec.ModeBlock) (x : Num × List NumVec) =>
        (∃ w, x.1 = some w ∧ WavenumberOf m.freq w) ∧
        ∃ vs : List (Fin 3 → ℚ), List.Forall₂ (fun r v => Spec.EigenRow r.2 v) m.body vs ∧
          x.2 = vs.map fun v => numVecMul (fun i => some (v i)) fun i j => some (b i j)) bs ms →
        List.Forall₂ (fun (m : Spec.ModeBlock) (z : Num × List NumVec) => List.Forall₂
        (fun (r : (List (List Char) × List Char) × Word) v =>
          ∃ (x : Fin 3 → ℚ) (w : ℚ) (y : Fin 3 → ℝ), Spec.EigenRow r.1.2 x ∧
            dictGet atomicWeights r.2 = some w ∧ (v = fun i => some (y i)) ∧
            ∀ k, ∑ i, (y i * Real.sqrt w) * a i k = x k) (m.body.zip symbols) (massScale ws z.2))
        bs ms := by
      intro bs ms hb h
      induction h with
      | nil => exact List.Forall₂.nil
      | @cons m x bs ms hx _ ih =>
        refine List.Forall₂.cons ?_ (ih fun y hy => hb y (by simp [hy]))
        obtain ⟨-, vs, hvs, he⟩ := hx
        rw [he]
        exact massScale_spec hwall hba hvs (hb m (by simp))
    exact this blocks ms (fun m hm => (hblocks m hm).2.2.2.1) hall

theorem readModes_length {b : Bool} {ext : NumMat → Py NumMat} {lattice : List (List Num)}
    {n k : ℕ} {f : List (List Char)} {ms : List (Num × List NumVec)}
    (h : readModes b ext lattice n k f = .ok ms) : ms.length = k := by
  induction k generalizing f ms with
  | zero => rw [← Except.ok.inj h]; rfl
  | succ k ih =>
    rw [readModes] at h
    rcases orInvalid_skip_cases "cm-1".toList f with ⟨h1, -⟩ | ⟨l, g, _, h1, -⟩
    · rw [h1] at h; cases h
    · rw [h1] at h
      change (eigenvalue l >>= _) = _ at h
      cases h2 : eigenvalue l with
      | error e => rw [h2] at h; cases h
      | ok w =>
        rw [h2] at h
        change (readEigenvector b ext lattice n g >>= _) = _ at h
        cases h3 : readEigenvector b ext lattice n g with
        | error e => rw [h3] at h; cases h
        | ok x =>
          rw [h3] at h
          change (readModes b ext lattice n k x.2 >>= _) = _ at h
          cases h4 : readModes b ext lattice n k x.2 with
          | error e => rw [h4] at h; cases h
          | ok ms' =>
            rw [h4] at h
            rw [← Except.ok.inj h, List.length_cons, ih h4]

/-- C69: whatever the file, phonons that are returned are complete: `N ≥ 1` atoms, `3 N`
wavenumbers and `3 N` displacements of `N` atoms. -/
theorem C69_complete (linAlgIsValue : Bool) (ext : NumMat → Py NumMat) (content : List Char)
    (ph : OutcarPhonons) (h : outcarReadPhonons linAlgIsValue ext content = .ok ph) :
    ∃ symbols f, outcarSymbols (fileLines content) = .ok (symbols, f) ∧ symbols ≠ [] ∧
      ph.refPositions.length = symbols.length ∧ ph.wavenumbers.length = 3 * symbols.length ∧
      ph.displacements.length = 3 * symbols.length ∧
      ∀ d ∈ ph.displacements, d.length = symbols.length := by
  unfold outcarReadPhonons at h
  cases hs : outcarSymbols (fileLines content) with
  | error e => rw [hs] at h; cases h
  | ok x =>
    obtain ⟨symbols, f⟩ := x
    obtain ⟨ws, hws, hwall⟩ := weights_of_symbols (symbols_known hs)
    rw [hs] at h
    change (symbols.mapM weightOf >>= _) = _ at h
    rw [hws] at h
    change (outcarReadLattice f >>= _) = _ at h
    cases hl : outcarReadLattice f with
    | error e => rw [hl] at h; cases h
    | ok x =>
      obtain ⟨lattice, f2⟩ := x
      rw [hl] at h
      change (outcarReadPositions f2 symbols.length >>= _) = _ at h
      cases hp : outcarReadPositions f2 symbols.length with
      | error e => rw [hp] at h; cases h
      | ok x =>
        obtain ⟨positions, f3⟩ := x
        have hplen : positions.length = symbols.length := by
          unfold outcarReadPositions at hp
          rcases orInvalid_skip_cases fracHeader f2 with ⟨h1, -⟩ | ⟨header, g, pre, h1, -⟩
          · rw [h1] at hp; cases hp
          · rw [h1] at hp
            change readArray symbols.length g = _ at hp
            rcases readArray_cases symbols.length g with h2 | h2 | ⟨rows, g', h2, -, hlen, -⟩
            · rw [h2] at hp; cases hp
            · rw [h2] at hp; cases hp
            · rw [h2] at hp
              obtain ⟨rfl, -⟩ := Prod.mk.inj (Except.ok.inj hp)
              exact hlen
        rw [hp] at h
        change (orInvalid (skipUntil _ f3) >>= _) = _ at h
        rcases orInvalid_skip_cases "Eigenvectors and eigenvalues of the dynamical matrix".toList f3
          with ⟨h1, -⟩ | ⟨l, g, _, h1, -⟩
        · rw [h1] at h; cases h
        · rw [h1] at h
          change (readModes linAlgIsValue ext lattice symbols.length (symbols.length * 3) g >>= _) = _
            at h
          cases hm : readModes linAlgIsValue ext lattice symbols.length (symbols.length * 3) g with
          | error e => rw [hm] at h; cases h
          | ok ms =>
            rw [hm] at h
            change makePhonons ws positions ms = _ at h
            unfold makePhonons at h
            cases hv : positions.mapM toVec with
            | none => rw [hv] at h; cases h
            | some ps =>
              rw [hv] at h
              dsimp only at h
              split_ifs at h with hc
              push Not at hc
              obtain rfl := Except.ok.inj h
              have hpl : ps.length = symbols.length := by
                rw [← hplen]
                exact ((mapM_option_iff _ _ _).1 hv).length_eq.symm
              have hne : symbols ≠ [] := by
                rintro rfl
                exact hc.1 (List.length_eq_zero_iff.1 hpl)
              refine ⟨symbols, f, rfl, hne, hpl, ?_, ?_, ?_⟩
              · rw [List.length_map, readModes_length hm, Nat.mul_comm]
              · rw [List.length_map, readModes_length hm, Nat.mul_comm]
              · intro d hd
                obtain ⟨m, hm', rfl⟩ := List.mem_map.1 hd
                have : m.2.length = ps.length := by
                  by_contra hcon
                  exact hc.2 (List.any_eq_true.2 ⟨m, hm', by simpa using hcon⟩)
                unfold massScale
                rw [List.length_map, List.length_zip, this, hpl, ← hwall.length_eq, min_self]

/-- C69, concrete: a mode of one atom. -/
example : ModeOK 1 ⟨[], "  1 f/i=    1.5 THz    9.4 2PiTHz   50.25 cm-1     6.2 meV\n".toList,
    [(["    X  Y  Z  dx dy dz\n".toList], " 0.0 0.0 0.0  0.5 -1 0\n".toList)], ['\n']⟩ := by
  refine ⟨by simp, by decide +kernel, ⟨201 / 4, Or.inr ⟨by decide +kernel, "50.25".toList, ?_, ?_⟩⟩,
    rfl, ?_⟩
  · decide +kernel
  · decide +kernel
  · intro x hx
    rw [List.mem_singleton.1 hx]
    refine ⟨?_, by decide +kernel, ![1 / 2, -1, 0], "0.0".toList, "0.0".toList, "0.0".toList,
      "0.5".toList, "-1".toList, "0".toList, ?_, ?_, ?_, ?_⟩ <;> decide +kernel

end Verif
