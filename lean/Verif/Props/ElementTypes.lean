import Verif.Model.ElementTypes
import Verif.Props.InvalidDof
import Verif.Props.Convolve
import Verif.Props.Interpolation

/-!
# Properties C172 (arrays of integers) and C173 (masks of numbers)
-/

namespace Verif
open Spec

variable {N : ℕ}

/-! ## C172: spectra -/

theorem typedLoop_floats (function : List Char) (width : ℝ) (out : NpVec) (peaks : List (ℝ × ℝ))
    (acc : List ℝ) : typedLoop function width out peaks (.floats acc)
      = (convolveLoop function width out.values peaks acc).map .floats := by
  induction peaks generalizing acc with
  | nil => rfl
  | cons p peaks ih =>
    obtain ⟨w, i⟩ := p
    rw [typedLoop, convolveLoop]
    by_cases hk : knownShape function = true
    · rw [if_pos hk, if_pos hk]
      dsimp only [NpVec.addFloats, bind, Except.bind]
      rw [ih, List.zipWith_map_left]
    · rw [if_neg hk, if_neg hk]; rfl

/-- C172: with a grid of floating-point numbers, or none, the element types of the peaks do not matter:
the result is that of the same numbers stored as floating-point numbers. -/
theorem C172_convolve_floats (ws is : NpVec) (function : List Char) (width : ℝ)
    (out : Option (List ℝ)) :
    typedConvolve ws is function width (out.map .floats)
      = (convolveSpectrum ws.values is.values function width out).map
          fun r => (.floats r.1, .floats r.2) := by
  unfold typedConvolve convolveSpectrum
  cases out with
  | none =>
    dsimp only [Option.map]
    cases autoGrid ws.values with
    | error e => rfl
    | ok grid =>
      dsimp only [bind, Except.bind, pure, Except.pure, Except.map]
      split_ifs
      · rfl
      · rfl
      · rw [show (NpVec.floats grid).timesZero = .floats (grid.map fun _ => 0) from rfl,
          typedLoop_floats]
        rw [show (NpVec.floats grid).values = grid from rfl]
        cases convolveLoop function width grid (ws.values.zip is.values) (grid.map fun _ => 0) <;> rfl
  | some grid =>
    dsimp only [Option.map, bind, Except.bind, pure, Except.pure]
    split_ifs
    · rfl
    · rfl
    · rw [show (NpVec.floats grid).timesZero = .floats (grid.map fun _ => 0) from rfl,
        typedLoop_floats]
      rw [show (NpVec.floats grid).values = grid from rfl]
      cases convolveLoop function width grid (ws.values.zip is.values) (grid.map fun _ => 0) <;> rfl

/-- C172: peaks stored as integers give the result of the same numbers, signs included, stored as
floating-point numbers. -/
theorem C172_convolve_same (ws is : List ℤ) (function : List Char) (width : ℝ)
    (out : Option (List ℝ)) :
    typedConvolve (.ints ws) (.ints is) function width (out.map .floats)
      = typedConvolve (.floats (ws.map fun n : ℤ => (n : ℝ))) (.floats (is.map fun n : ℤ => (n : ℝ)))
          function width (out.map .floats) := by
  rw [C172_convolve_floats, C172_convolve_floats]
  rfl

/-- C172, concrete: a peak of intensity -2 at 500, stored as integers. -/
example : typedConvolve (.ints [500]) (.ints [-2]) gaussianName 5 (some (.floats [0]))
    = typedConvolve (.floats [500]) (.floats [-2]) gaussianName 5 (some (.floats [0])) := by
  have := C172_convolve_same [500] [-2] gaussianName 5 (some [0])
  simpa using this

/-- C172: a grid of integers, such as `np.arange(0, 1000)`.  Whenever there is a peak, a call that would
succeed with the same numbers stored as floating-point numbers ends in `TypeError`; calls that fail
with floating-point numbers fail with the same exception. -/
theorem C172_convolve_integers (ws is : NpVec) (hpeak : ws.values ≠ []) (function : List Char)
    (width : ℝ) (grid : List ℤ) :
    typedConvolve ws is function width (some (.ints grid))
      = match convolveSpectrum ws.values is.values function width
          (some (grid.map fun n : ℤ => (n : ℝ))) with
        | .ok _ => .error .typeError
        | .error e => .error e := by
  unfold typedConvolve
  dsimp only [bind, Except.bind, pure, Except.pure]
  by_cases hl : is.values.length ≠ ws.values.length
  · rw [if_pos hl, C58_lengths_width _ _ _ _ _ (.inl hl)]
  rw [if_neg hl]
  by_cases hw : width ≤ 0
  · rw [if_pos hw, C58_lengths_width _ _ _ _ _ (.inr hw)]
  rw [if_neg hw]
  push Not at hl hw
  obtain ⟨w, wt, hws⟩ := List.exists_cons_of_ne_nil hpeak
  obtain ⟨i, it, his⟩ := List.exists_cons_of_ne_nil
    (show is.values ≠ [] from fun h => by rw [h, hws] at hl; simp at hl)
  rw [hws, his, List.zip_cons_cons, typedLoop]
  by_cases hk : knownShape function = true
  · rw [if_pos hk]
    have hf : Supported function := by
      unfold knownShape at hk
      rw [Bool.or_eq_true, decide_eq_true_iff, decide_eq_true_iff] at hk
      exact hk
    rw [C56_value _ _ (by rw [← hws, ← his]; exact hl) function hf width hw]
    rfl
  · rw [if_neg hk]
    have hf : ¬ Supported function := by
      intro h
      apply hk
      unfold knownShape
      rw [Bool.or_eq_true, decide_eq_true_iff, decide_eq_true_iff]
      exact h
    rw [C58_shape _ _ _ _ _ hf]

/-- C172, concrete: one peak at 500, Gaussian of width 5, grid 0, 1, ..., 999. -/
example : typedConvolve (.floats [500]) (.floats [1]) gaussianName 5
    (some (.ints ((List.range 1000).map Int.ofNat))) = .error .typeError := by
  rw [C172_convolve_integers _ _ (by simp [NpVec.values])]
  rw [show (NpVec.floats [500]).values = [500] from rfl, show (NpVec.floats [1]).values = [1] from rfl,
    C56_value [500] [1] rfl gaussianName (.inl rfl) _ (by norm_num)]

/-! ## C172: displaced atoms -/

theorem truncInt_small {x : ℝ} (h : |x| < 1) : truncInt x = 0 := by
  obtain ⟨h1, h2⟩ := abs_lt.1 h
  unfold truncInt
  split_ifs with h0
  · exact Int.floor_eq_zero_iff.2 ⟨h0, h2⟩
  · rw [Int.ceil_eq_zero_iff]
    exact ⟨h1, by linarith⟩

theorem truncInt_one : truncInt 1 = 1 := by
  unfold truncInt
  rw [if_pos (by norm_num), Int.floor_one]

theorem truncInt_neg_one : truncInt (-1) = -1 := by
  unfold truncInt
  rw [if_neg (by norm_num), Int.ceil_neg, Int.floor_one]

/-- The direction is that of a Cartesian axis. -/
def Spec.AlongAxis (v : Fin 3 → ℝ) : Prop := ∃ i, v i ≠ 0 ∧ ∀ j, j ≠ i → v j = 0

theorem norm2_sq3 (v : Fin 3 → ℝ) : norm2 v ^ 2 = v 0 ^ 2 + v 1 ^ 2 + v 2 ^ 2 := by
  rw [norm2_sq, dot, Fin.sum_univ_three]
  ring

/-- C172: the array of positions consists of integers.  For directions along a Cartesian axis, the
displaced positions are those for floating-point positions; for all others, every coordinate is NaN. -/
theorem C172_displaced (s : RefStructure N) (hs : s.lattice.det ≠ 0) (atomIndex : ℤ) (k : Fin N)
    (hk : pyIndex N atomIndex = some k) (direction : Vec3) (hd : direction ≠ 0)
    (amplitudes : List ℝ) :
    typedAstPositions false s atomIndex direction amplitudes
      = getAstDisplacedPositions s atomIndex direction amplitudes ∧
    (AlongAxis direction → typedAstPositions true s atomIndex direction amplitudes
      = getAstDisplacedPositions s atomIndex direction amplitudes) ∧
    (¬ AlongAxis direction → typedAstPositions true s atomIndex direction amplitudes
      = .ok (amplitudes.map fun _ => none)) := by
  have hn : norm2 direction ≠ 0 := by
    intro h0
    apply hd
    have h2 := norm2_sq3 direction
    rw [h0] at h2
    funext i
    fin_cases i <;> dsimp <;> nlinarith [sq_nonneg (direction 0), sq_nonneg (direction 1), sq_nonneg (direction 2)]
  have hpos : 0 < norm2 direction := lt_of_le_of_ne (Real.sqrt_nonneg _) (Ne.symm hn)
  have hnorm : normalize direction = some fun i => direction i / norm2 direction := by
    unfold normalize; rw [if_neg hn]
  have hfloat : getAstDisplacedPositions s atomIndex direction amplitudes
      = getDisplacedPositions s (storedRow false k fun i => direction i / norm2 direction)
          amplitudes := by
    unfold getAstDisplacedPositions
    dsimp only
    rw [hnorm, hk]
    rfl
  have htyped : ∀ b, typedAstPositions b s atomIndex direction amplitudes
      = getDisplacedPositions s (storedRow b k fun i => direction i / norm2 direction)
          amplitudes := by
    intro b
    unfold typedAstPositions
    rw [hnorm, hk]
  refine ⟨by rw [htyped, hfloat], fun hax => ?_, fun hax => ?_⟩
  · rw [htyped, hfloat]
    congr 1
    funext a
    unfold storedRow
    by_cases ha : a = k
    · rw [if_pos ha, if_pos ha, if_pos rfl, if_neg (by simp)]
      funext j
      obtain ⟨i, hi, hz⟩ := hax
      have hni : norm2 direction = |direction i| := by
        have h2 := norm2_sq3 direction
        have : norm2 direction ^ 2 = direction i ^ 2 := by
          rw [h2]
          clear hfloat htyped hnorm hn hd hpos
          have h0 := hz 0
          have h1 := hz 1
          have h3 := hz 2
          fin_cases i <;> simp_all
        rw [← abs_of_pos hpos]
        exact (sq_eq_sq_iff_abs_eq_abs _ _).1 this
      by_cases hj : j = i
      · subst hj
        rw [hni]
        dsimp only
        rcases lt_or_gt_of_ne hi with h | h
        · rw [abs_of_neg h, div_neg, div_self hi]
          rw [truncInt_neg_one]
          norm_num
        · rw [abs_of_pos h, div_self hi]
          rw [truncInt_one]
          norm_num
      · dsimp only
        rw [hz j hj, zero_div, truncInt_small (by norm_num)]
        norm_num
    · rw [if_neg ha, if_neg ha]
  · have hzero : storedRow true k (fun i => direction i / norm2 direction) = (0 : Pos N ℝ) := by
      funext a
      unfold storedRow
      by_cases ha : a = k
      · rw [if_pos ha, if_pos rfl]
        funext j
        rw [truncInt_small]
        · simp
        · rw [abs_div, abs_of_pos hpos, div_lt_one hpos]
          by_contra hge
          push Not at hge
          apply hax
          have h2 := norm2_sq3 direction
          have h3 : norm2 direction ^ 2 ≤ direction j ^ 2 := by
            rw [← sq_abs (direction j)]
            exact pow_le_pow_left₀ hpos.le hge 2
          have h4 : direction j ≠ 0 := by
            intro h0
            rw [h0, abs_zero] at hge
            linarith
          refine ⟨j, h4, ?_⟩
          rw [h2] at h3
          intro l hl
          have : direction l ^ 2 ≤ 0 := by
            fin_cases j <;> fin_cases l <;> simp_all <;>
              nlinarith [sq_nonneg (direction 0), sq_nonneg (direction 1), sq_nonneg (direction 2)]
          nlinarith [sq_nonneg (direction l)]
      · rw [if_neg ha]; rfl
    rw [htyped, hzero]
    unfold getDisplacedPositions
    have hz : normalize (flat (0 : Pos N ℝ)) = none := by
      have h0 : norm2 (flat (0 : Pos N ℝ)) = 0 := by
        unfold norm2 flat dot
        simp
      unfold normalize
      rw [if_pos h0]
    dsimp only
    rw [hz]
    rw [mapM_except_ok, List.forall₂_map_right_iff, List.forall₂_same]
    intro x _
    unfold displacedBy npInv
    rw [if_neg hs]
    rfl

/-- C172: for positions stored as floating-point numbers the functions are the ones of the other
properties, whatever the arguments (including the direction zero). -/
theorem C172_floats (s : RefStructure N) (spline : SplineFn) (we : Bool) (m : IModel N)
    (atomIndex : ℤ) (direction : Vec3) (amps : List ℝ) (pols : List (Mat3 ℝ)) :
    typedAstPositions false s atomIndex direction amps
      = getAstDisplacedPositions s atomIndex direction amps ∧
    m.typedAddArt false spline we atomIndex direction amps pols
      = m.addArt spline we atomIndex direction amps pols := by
  constructor
  · unfold typedAstPositions getAstDisplacedPositions
    dsimp only
    cases normalize direction with
    | none => rfl
    | some u => cases pyIndex N atomIndex <;> rfl
  · have : typedPrepareArt false m atomIndex direction amps pols
        = prepareArt m atomIndex direction amps pols := by
      unfold typedPrepareArt prepareArt
      cases m.ref.getFracDirection direction with
      | error e => rfl
      | ok d =>
        dsimp only [bind, Except.bind, pure, Except.pure]
        cases pyIndex N atomIndex with
        | none => rfl
        | some k =>
          dsimp only
          unfold artDisplacement
          dsimp only
          by_cases hn : norm2 (fun i => d i * 10) = 0
          · rw [if_pos hn, if_pos hn]; rfl
          · rw [if_neg hn, if_neg hn]; rfl
    unfold IModel.typedAddArt IModel.addArt
    rw [this]
    cases prepareArt m atomIndex direction amps pols <;> rfl

/-- C172: the array of positions consists of integers.  `add_art` never accepts anything: the
displacement, one tenth of a lattice vector, is truncated to zero. -/
theorem C172_add_art (spline : SplineFn) (we : Bool) (m : IModel N) (hs : m.ref.lattice.det ≠ 0)
    (atomIndex : ℤ) (cartDirection direction : Vec3)
    (hfrac : m.ref.getFracDirection cartDirection = .ok direction) (hd : direction ≠ 0)
    (amps : List ℝ) (pols : List (Mat3 ℝ))
    (op : SymOp) (P : PermMat N) (ops : List SymOp) (Ps : List (PermMat N))
    (hops : m.ref.ops = op :: ops) (hperms : m.ref.perms = P :: Ps) (hdet : op.rot.det ≠ 0) :
    m.typedAddArt false spline we atomIndex cartDirection amps pols
      = m.addArt spline we atomIndex cartDirection amps pols ∧
    (m.typedAddArt true spline we atomIndex cartDirection amps pols).state = m ∧
    ∃ e ∈ [PyErr.valueError, .indexError, .invalidDOF],
      (m.typedAddArt true spline we atomIndex cartDirection amps pols).result = .error e := by
  have hn : norm2 (fun i => direction i * 10) ≠ 0 := by
    intro h0
    apply hd
    have h2 := norm2_sq3 fun i => direction i * 10
    rw [h0] at h2
    funext i
    fin_cases i <;> dsimp <;>
      nlinarith [sq_nonneg (direction 0), sq_nonneg (direction 1), sq_nonneg (direction 2)]
  have hpos : 0 < norm2 fun i => direction i * 10 :=
    lt_of_le_of_ne (Real.sqrt_nonneg _) (Ne.symm hn)
  have hprep : ∀ b, typedPrepareArt b m atomIndex cartDirection amps pols
      = if ¬ (amps.length = 1 ∨ amps.length = 2) then .error .valueError
        else if (if m.dummy then amps.map fun _ => (0 : Mat3 ℝ) else pols).length ≠ amps.length
        then .error .valueError
        else match pyIndex N atomIndex with
          | none => .error .indexError
          | some k => .ok (some (m.ref.getCartDisplacement
              (storedRow b k fun i => direction i / norm2 fun i => direction i * 10))) := by
    intro b
    unfold typedPrepareArt
    rw [hfrac]
    dsimp only [bind, Except.bind, pure, Except.pure]
    cases pyIndex N atomIndex with
    | none => rfl
    | some k =>
      dsimp only
      rw [if_neg hn]
  constructor
  · have : typedPrepareArt false m atomIndex cartDirection amps pols
        = prepareArt m atomIndex cartDirection amps pols := by
      rw [hprep]
      unfold prepareArt
      rw [hfrac]
      dsimp only [bind, Except.bind, pure, Except.pure]
      cases pyIndex N atomIndex with
      | none => rfl
      | some k =>
        dsimp only
        unfold artDisplacement
        dsimp only
        rw [if_neg hn]
        rfl
    unfold IModel.typedAddArt IModel.addArt
    rw [this]
    cases prepareArt m atomIndex cartDirection amps pols <;> rfl
  · unfold IModel.typedAddArt
    rw [hprep]
    by_cases h1 : ¬ (amps.length = 1 ∨ amps.length = 2)
    · rw [if_pos h1]
      exact ⟨rfl, _, by simp, rfl⟩
    rw [if_neg h1]
    by_cases h2 : (if m.dummy then amps.map fun _ => (0 : Mat3 ℝ) else pols).length ≠ amps.length
    · rw [if_pos h2]
      exact ⟨rfl, _, by simp, rfl⟩
    rw [if_neg h2]
    cases hk : pyIndex N atomIndex with
    | none => exact ⟨rfl, _, by simp, rfl⟩
    | some k =>
      dsimp only
      have hzero : storedRow true k (fun i => direction i / norm2 fun i => direction i * 10)
          = (0 : Pos N ℝ) := by
        funext a
        unfold storedRow
        by_cases ha : a = k
        · rw [if_pos ha, if_pos rfl]
          funext j
          rw [truncInt_small]
          · simp
          · rw [abs_div, abs_of_pos hpos, div_lt_one hpos]
            have h2 := norm2_sq3 fun i => direction i * 10
            refine abs_lt_of_sq_lt_sq ?_ hpos.le
            rw [h2]
            have hne : direction 0 ^ 2 + direction 1 ^ 2 + direction 2 ^ 2 ≠ 0 := by
              intro h0
              rw [show (direction 0 * 10) ^ 2 + (direction 1 * 10) ^ 2 + (direction 2 * 10) ^ 2
                = 100 * (direction 0 ^ 2 + direction 1 ^ 2 + direction 2 ^ 2) by ring, h0] at h2
              have := pow_pos hpos 2
              linarith
            have hgt : 0 < direction 0 ^ 2 + direction 1 ^ 2 + direction 2 ^ 2 :=
              lt_of_le_of_ne (by positivity) (Ne.symm hne)
            fin_cases j <;> dsimp <;>
              nlinarith [sq_nonneg (direction 0), sq_nonneg (direction 1), sq_nonneg (direction 2)]
        · rw [if_neg ha]; rfl
      have hpbc : applyPbcDisplacement (0 : Pos N ℝ) = 0 := by
        funext a i
        exact wrap1_zero
      have hmat : ∀ L : Mat3 ℝ, matMulPos (0 : Pos N ℝ) L = 0 := by
        intro L
        funext a i
        simp [matMulPos]
      have hcart : m.ref.getCartDisplacement (0 : Pos N ℝ) = 0 := by
        unfold RefStructure.getCartDisplacement
        rw [hpbc, hmat]
      rw [hzero, hcart]
      have hw : m.ref.getFracDisplacement (0 : Pos N ℝ) = .ok 0 := by
        unfold RefStructure.getFracDisplacement npInv
        rw [if_neg hs]
        dsimp only [bind, Except.bind, pure, Except.pure]
        rw [hmat, hpbc]
      have hl : m.dummy = false → pols.length = amps.length := by
        intro hdum
        rw [hdum] at h2
        push Not at h2
        simpa using h2
      have := C123_zero_displacement spline we m 0 hw amps pols 1 false hl op P ops Ps hops hperms hdet
      dsimp only at this
      obtain ⟨g1, -, g2, -, g3, g4⟩ := this
      refine ⟨g1, ?_⟩
      by_cases hb : m.basis = []
      · by_cases hle : (((if false then 1 else 0) + amps.length : ℕ) : ℤ) ≤ 1
        · exact ⟨_, by simp, g3 hb le_rfl hle⟩
        · exact ⟨_, by simp, g4 hb le_rfl (by omega)⟩
      · exact ⟨_, by simp, g2 hb⟩

/-- C172, concrete: the atom at the origin of the unit cube, stored as integers.  Displaced along
`(1, 1, 0)` it is at NaN, along `(0, 2, 0)` it is displaced as it should be. -/
example (amplitudes : List ℝ) :
    typedAstPositions true cube 0 ![1, 1, 0] amplitudes = .ok (amplitudes.map fun _ => none) ∧
    typedAstPositions true cube 0 ![0, 2, 0] amplitudes
      = getAstDisplacedPositions cube 0 ![0, 2, 0] amplitudes := by
  have hs : cube.lattice.det ≠ 0 := by
    change (1 : Mat3 ℝ).det ≠ 0
    simp
  constructor
  · refine (C172_displaced cube hs 0 0 rfl _ ?_ amplitudes).2.2 ?_
    · intro h
      simpa using congrFun h 0
    · rintro ⟨i, -, hz⟩
      fin_cases i
      · simpa using hz 1 (by decide)
      · simpa using hz 0 (by decide)
      · simpa using hz 0 (by decide)
  · refine (C172_displaced cube hs 0 0 rfl _ ?_ amplitudes).2.1 ⟨1, by simp, ?_⟩
    · intro h
      simpa using congrFun h 1
    · intro j hj
      fin_cases j <;> simp_all

/-- C172, concrete: the same atom; the model of C25 refuses an atomic Raman tensor along `x`. -/
example (spline : SplineFn) : ∃ e ∈ [PyErr.valueError, .indexError, .invalidDOF],
    (twoDof.typedAddArt true spline false 0 ![1 / 4, 0, 0] [1 / 10] [1]).result = .error e := by
  have hdet : twoDof.ref.lattice.det ≠ 0 := by
    change (1 : Mat3 ℝ).det ≠ 0
    simp
  refine (C172_add_art spline false twoDof hdet 0 ![1 / 4, 0, 0] ![1 / 4, 0, 0] ?_ ?_ [1 / 10] [1]
    ⟨1, 0⟩ (fun _ _ => true) [] [] rfl rfl (by simp)).2.2
  · unfold RefStructure.getFracDirection npInv
    rw [if_neg hdet]
    dsimp only [bind, Except.bind, pure, Except.pure]
    congr 1
    funext j
    fin_cases j <;> simp [twoDof, cube, Fin.sum_univ_three, wrap1_zero] <;>
      exact wrap1_of_inHalfBox (by norm_num [InHalfBox])
  · intro h
    simpa using congrFun h 0

/-! ## C173 -/

/-- Reference polarizability plus contributions weighted with one minus the entry of the mask. -/
noncomputable def Spec.weighted (refPol : Mat3 ℝ) (basis : List (Fin N → Fin 3 → ℝ))
    (interps : List (ℝ → Mat3 ℝ)) (mask : List ℝ) (D : Fin N → Fin 3 → ℝ) : Mat3 ℝ :=
  refPol + ((basis.zip (interps.zip mask)).map fun x => (1 - x.2.2) • x.2.1 (inner3 x.1 D)).sum

theorem accumulateWeights_ok (disps : List (Pos N ℝ)) (bs : List (Pos N ℝ))
    (fs : List (ℝ → Mat3 ℝ)) (ks : List ℝ) (acc : Pos N ℝ → Mat3 ℝ) (h1 : fs.length = bs.length)
    (h2 : ks.length = bs.length) :
    accumulateWeights disps bs fs ks (disps.map acc) = .ok (disps.map fun D => acc D +
      ((bs.zip (fs.zip ks)).map fun x => (1 - x.2.2) • x.2.1 (inner3 x.1 D)).sum) := by
  induction bs generalizing fs ks acc with
  | nil =>
    cases List.length_eq_zero_iff.1 h1
    cases List.length_eq_zero_iff.1 h2
    simp [accumulateWeights]
  | cons b bs ih =>
    cases fs with
    | nil => simp at h1
    | cons f fs =>
    cases ks with
    | nil => simp at h2
    | cons k ks =>
      unfold accumulateWeights
      have : List.zipWith (fun D a => a + (1 - k) • f (getAmplitude b D)) disps (disps.map acc)
          = disps.map fun D => acc D + (1 - k) • f (inner3 b D) := by
        rw [List.zipWith_map_right, List.zipWith_self]
        refine List.map_congr_left fun D _ => ?_
        have hA : getAmplitude b D = inner3 b D := by
          unfold getAmplitude dot inner3; rw [Fintype.sum_prod_type]; rfl
        rw [hA]
      rw [this, ih fs ks _ (by simpa using h1) (by simpa using h2)]
      congr 1
      refine List.map_congr_left fun D _ => ?_
      simp only [List.zip_cons_cons, List.map_cons, List.sum_cons]
      rw [add_assoc]

theorem weights_ok (m : WModel N) (h1 : m.base.interps.length = m.base.basis.length)
    (h2 : m.mask.length = m.base.basis.length) (batch : List (Pos N ℝ)) :
    m.calcPolarizabilities batch = .ok (batch.map fun q => weighted m.base.refPol m.base.basis
      m.base.interps m.mask (toCart m.base.ref.lattice (calcDisplacement m.base.ref.positions q))) := by
  unfold WModel.calcPolarizabilities
  dsimp only
  have hd : (batch.map fun _ => (0 : Mat3 ℝ)) = (batch.map fun p =>
      m.base.ref.getCartDisplacement (calcDisplacement m.base.ref.positions p)).map fun _ => 0 := by
    rw [List.map_map]; rfl
  rw [hd, accumulateWeights_ok _ _ _ _ _ h1 h2]
  simp only [List.map_map]
  congr 1
  refine List.map_congr_left fun q _ => ?_
  simp only [Function.comp, weighted, getCart_calc, zero_add]
  rw [add_comm]

/-- C173: the setter accepts every array of numbers with one entry per degree of freedom, and each
degree of freedom then contributes with the weight one minus its entry. -/
theorem C173_weights (m : IModel N) (hi : m.interps.length = m.basis.length)
    (hk : m.mask.length = m.basis.length) (mask : List ℝ) (batch : List (Pos N ℝ)) :
    (mask.length ≠ m.basis.length → m.setWeights mask = .error .valueError) ∧
    (mask.length = m.basis.length → ∃ w r, m.setWeights mask = .ok w ∧
      w.calcPolarizabilities batch = .ok r ∧
      List.Forall₂ (fun q α => ∀ d, NearestImage m.ref.positions q d →
        α = weighted m.refPol m.basis m.interps mask (toCart m.ref.lattice d)) batch r) := by
  unfold IModel.setWeights
  rw [hk]
  refine ⟨fun h => if_pos h, fun h => ⟨⟨m, mask⟩, _, if_neg (not_not.2 h),
    weights_ok ⟨m, mask⟩ hi h batch, ?_⟩⟩
  rw [List.forall₂_map_right_iff]
  refine List.forall₂_same.2 fun q _ d hd => ?_
  rw [hd.unique (calcDisplacement_nearest m.ref.positions q)]

theorem weighted_bool (refPol : Mat3 ℝ) (basis : List (Pos N ℝ)) (interps : List (ℝ → Mat3 ℝ))
    (mask : List Bool) (D : Pos N ℝ) :
    weighted refPol basis interps (mask.map fun b => if b then 1 else 0) D
      = expansion refPol basis interps mask D := by
  unfold weighted expansion
  congr 1
  induction basis generalizing interps mask with
  | nil => rfl
  | cons b bs ih =>
    cases interps with
    | nil => rfl
    | cons f fs =>
      cases mask with
      | nil => rfl
      | cons k ks =>
        simp only [List.map_cons, List.zip_cons_cons, List.sum_cons]
        rw [ih]
        cases k <;> simp

/-- C173: zeros and ones are as good as `False` and `True`; `get_masked_model` and `unmask` replace any
numbers by zeros and ones. -/
theorem C173_zero_one (m : IModel N) (hi : m.interps.length = m.basis.length)
    (hk : m.mask.length = m.basis.length) (batch : List (Pos N ℝ)) :
    (WModel.mk m (m.mask.map fun b => if b then 1 else 0)).calcPolarizabilities batch
      = m.calcPolarizabilities batch ∧
    (∀ mask : List ℝ, mask.length = m.mask.length → ∀ idx : List ℤ,
      (∀ e, m.getMaskedModel idx = .error e → (WModel.mk m mask).getMaskedModel idx = .error e) ∧
      ∀ m', m.getMaskedModel idx = .ok m' → ∃ w, (WModel.mk m mask).getMaskedModel idx = .ok w ∧
        w.mask = m'.mask.map (fun b => if b then 1 else 0) ∧
        w.calcPolarizabilities batch = m'.calcPolarizabilities batch) ∧
    (∀ mask : List ℝ, mask.length = m.mask.length →
      (WModel.mk m mask).unmask.calcPolarizabilities batch = m.unmask.calcPolarizabilities batch) := by
  have key : ∀ m' : IModel N, m'.interps.length = m'.basis.length → m'.mask.length = m'.basis.length →
      ∀ m0 : IModel N, m0.ref = m'.ref → m0.refPol = m'.refPol → m0.basis = m'.basis →
      m0.interps = m'.interps →
      (WModel.mk m0 (m'.mask.map fun b => if b then 1 else 0)).calcPolarizabilities batch
        = m'.calcPolarizabilities batch := by
    intro m' h1 h2 m0 e1 e2 e3 e4
    rw [calc_ok m' h1 h2, weights_ok _ (by rw [e3, e4]; exact h1) (by
      rw [List.length_map, e3]; exact h2)]
    congr 1
    refine List.map_congr_left fun q _ => ?_
    dsimp only
    rw [e1, e2, e3, e4, weighted_bool]
    rfl
  refine ⟨key m hi hk m rfl rfl rfl rfl, fun mask hm idx => ?_, fun mask hm => ?_⟩
  · have hW : ∀ n, mask.length = n → (WModel.mk m mask).getMaskedModel idx
        = match maskIndexes n idx with
          | none => .error .indexError
          | some ks => .ok ⟨m, (List.finRange n).map fun i => if i ∈ ks then 1 else 0⟩ := by
      rintro _ rfl
      unfold WModel.getMaskedModel
      dsimp only
      cases maskIndexes mask.length idx <;> rfl
    rw [hW _ hm]
    unfold IModel.getMaskedModel
    cases hks : maskIndexes m.mask.length idx with
    | none =>
      refine ⟨fun e h => ?_, (fun m' h => by cases h)⟩
      cases h
      rfl
    | some ks =>
      refine ⟨(fun e h => by cases h), fun m' h => ?_⟩
      cases h
      dsimp only
      refine ⟨_, rfl, ?_, ?_⟩
      · dsimp only
        rw [List.map_map]
        refine List.map_congr_left fun i _ => ?_
        simp
      · have := key { m with mask := (List.finRange m.mask.length).map fun i => decide (i ∈ ks) } hi
          (by simpa using hk) m rfl rfl rfl rfl
        rw [← this]
        congr 2
        dsimp only
        rw [List.map_map]
        refine List.map_congr_left fun i _ => ?_
        simp
  · have := key m.unmask hi (by simpa [IModel.unmask] using hk) m rfl rfl rfl rfl
    rw [← this]
    unfold WModel.unmask
    congr 2
    unfold IModel.unmask
    dsimp only
    rw [List.map_map]
    apply List.ext_getElem
    · simpa using hm
    · intro i _ _
      simp

theorem weighted_affine (refPol : Mat3 ℝ) (basis : List (Pos N ℝ)) (interps : List (ℝ → Mat3 ℝ))
    (u v : List ℝ) (h : u.length = v.length) (t : ℝ) (D : Pos N ℝ) :
    weighted refPol basis interps (List.zipWith (fun a b => t * a + (1 - t) * b) u v) D
      = t • weighted refPol basis interps u D + (1 - t) • weighted refPol basis interps v D := by
  have hsum : ((basis.zip (interps.zip (List.zipWith (fun a b => t * a + (1 - t) * b) u v))).map
      fun x => (1 - x.2.2) • x.2.1 (inner3 x.1 D)).sum
      = t • ((basis.zip (interps.zip u)).map fun x => (1 - x.2.2) • x.2.1 (inner3 x.1 D)).sum
        + (1 - t) • ((basis.zip (interps.zip v)).map
            fun x => (1 - x.2.2) • x.2.1 (inner3 x.1 D)).sum := by
    induction basis generalizing interps u v with
    | nil => simp
    | cons b bs ih =>
      cases interps with
      | nil => simp
      | cons f fs =>
        cases u with
        | nil =>
          cases v with
          | nil => simp
          | cons _ _ => simp at h
        | cons a u =>
          cases v with
          | nil => simp at h
          | cons c v =>
            simp only [List.zipWith_cons_cons, List.zip_cons_cons, List.map_cons, List.sum_cons]
            rw [ih fs u v (by simpa using h)]
            module
  unfold weighted
  rw [hsum]
  module

/-- C173: predictions are affine in the mask.  So half masks give the mean of the masked and the
unmasked prediction. -/
theorem C173_affine (m : IModel N) (hi : m.interps.length = m.basis.length) (u v : List ℝ)
    (hu : u.length = m.basis.length) (hv : v.length = m.basis.length) (t : ℝ) (q : Pos N ℝ) :
    ∃ α β, (WModel.mk m u).calcPolarizabilities [q] = .ok [α] ∧
      (WModel.mk m v).calcPolarizabilities [q] = .ok [β] ∧
      (WModel.mk m (List.zipWith (fun a b => t * a + (1 - t) * b) u v)).calcPolarizabilities [q]
        = .ok [t • α + (1 - t) • β] := by
  refine ⟨_, _, weights_ok ⟨m, u⟩ hi hu [q], weights_ok ⟨m, v⟩ hi hv [q], ?_⟩
  rw [weights_ok _ hi (by simp [hu, hv])]
  dsimp only [List.map]
  rw [weighted_affine _ _ _ _ _ (hu.trans hv.symm)]

/-- C173: the text of a model is silent about entries of both signs: the mask `[1, -1]` removes one
degree of freedom and doubles another, but is not mentioned. -/
theorem C173_unmentioned : ∃ w, twoDof.setWeights [1, -1] = .ok w ∧ ¬ w.mentionsMask ∧
    ∃ q, w.calcPolarizabilities [q] ≠ twoDof.unmask.calcPolarizabilities [q] := by
  refine ⟨⟨twoDof, [1, -1]⟩, rfl, ?_, fun _ => ![1 / 4, 0, 0], ?_⟩
  · unfold WModel.mentionsMask
    norm_num
  · have hu := (C173_zero_one twoDof rfl rfl [fun _ => ![1 / 4, 0, 0]]).2.2 [0, 0] rfl
    rw [← hu, weights_ok _ rfl rfl, weights_ok _ rfl rfl]
    have hd : calcDisplacement twoDof.ref.positions (fun _ => ![1 / 4, 0, 0])
        = fun _ => ![1 / 4, 0, 0] := by
      refine (NearestImage.unique (p := twoDof.ref.positions) ?_ (calcDisplacement_nearest _ _)).symm
      intro a i
      refine ⟨?_, 0, ?_⟩
      · fin_cases i <;> norm_num [InHalfBox]
      · fin_cases i <;> norm_num [twoDof, cube]
    intro h
    have h := Except.ok.inj h
    simp only [List.map] at h
    have h := congrFun (congrFun (List.cons.inj h).1 0) 0
    change weighted twoDof.refPol twoDof.basis twoDof.interps [1, -1] (toCart twoDof.ref.lattice
        (calcDisplacement twoDof.ref.positions fun _ => ![1 / 4, 0, 0])) 0 0
      = weighted twoDof.refPol twoDof.basis twoDof.interps [0, 0] (toCart twoDof.ref.lattice
        (calcDisplacement twoDof.ref.positions fun _ => ![1 / 4, 0, 0])) 0 0 at h
    rw [hd] at h
    simp [weighted, twoDof, cube, toCart, inner3, Fin.sum_univ_three] at h

theorem sum_nonpos_of {l : List ℝ} (h : ∀ x ∈ l, x ≤ 0) : l.sum ≤ 0 := by
  induction l with
  | nil => simp
  | cons a l ih =>
    rw [List.sum_cons]
    have h1 := h a (by simp)
    have h2 := ih fun x hx => h x (by simp [hx])
    linarith

/-- C173: which masks the text of a model mentions, for entries of one sign: positive ones always,
negative ones (which amplify degrees of freedom) never. -/
theorem C173_mentions (w : WModel N) :
    ((∀ x ∈ w.mask, 0 ≤ x) → (w.mentionsMask ↔ ∃ x ∈ w.mask, 0 < x)) ∧
    ((∀ x ∈ w.mask, x ≤ 0) → ¬ w.mentionsMask) := by
  unfold WModel.mentionsMask
  constructor
  · intro h
    constructor
    · intro hs
      by_contra hc
      push Not at hc
      have := sum_nonpos_of hc
      linarith
    · rintro ⟨x, hx, hp⟩
      have := List.single_le_sum h x hx
      linarith
  · intro h
    have := sum_nonpos_of h
    linarith

/-- C173: dummy models with degrees of freedom refuse predictions with a `UserError`, whatever the
mask. -/
theorem C173_dummy (m : IModel N) (hd : m.dummy = true) (hi : m.interps = []) (hb : m.basis ≠ [])
    (mask : List ℝ) (batch : List (Pos N ℝ)) :
    (WModel.mk m mask).calcPolarizabilities batch = .error .userError := by
  unfold WModel.calcPolarizabilities
  dsimp only
  rw [hi]
  obtain ⟨b, bs, hbs⟩ := List.exists_cons_of_ne_nil hb
  rw [hbs]
  have : ∀ acc, accumulateWeights (batch.map fun p =>
      m.ref.getCartDisplacement (calcDisplacement m.ref.positions p)) (b :: bs) [] mask acc
      = .error .valueError := by
    intro acc
    cases mask <;> rfl
  rw [this]
  dsimp only
  rw [if_pos hd]

/-- C173, concrete: the mask `[1/2, 0]` halves the first degree of freedom. -/
example : ∃ α β, (WModel.mk twoDof [0, 0]).calcPolarizabilities [fun _ => ![1 / 4, 1 / 4, 0]] = .ok [α] ∧
    (WModel.mk twoDof [1, 0]).calcPolarizabilities [fun _ => ![1 / 4, 1 / 4, 0]] = .ok [β] ∧
    (WModel.mk twoDof [1 / 2, 0]).calcPolarizabilities [fun _ => ![1 / 4, 1 / 4, 0]]
      = .ok [(1 / 2 : ℝ) • α + (1 - 1 / 2 : ℝ) • β] := by
  obtain ⟨α, β, h1, h2, h3⟩ := C173_affine twoDof rfl [0, 0] [1, 0] rfl rfl (1 / 2)
    (fun _ => ![1 / 4, 1 / 4, 0])
  refine ⟨α, β, h1, h2, ?_⟩
  rw [← h3]
  norm_num

end Verif
