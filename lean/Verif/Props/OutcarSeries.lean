import Verif.Props.OutcarFile
import Verif.Props.OutcarSteps
import Verif.Proofs.Batch
import Verif.Proofs.Chars
import Verif.Spec.OutcarSeries

/-!
# Properties C136, C137: exactly which OUTCAR files hold trajectories and phonons
-/

namespace Verif

open Spec

/-! ## C136: trajectories -/

theorem readTimestep_iff (f g : List (List Char)) (t : Num) :
    readTimestep f = .ok (t, g) ↔ TimestepIn f t g := by
  unfold readTimestep TimestepIn
  rw [bind_ok_iff]
  constructor
  · rintro ⟨⟨line, f1⟩, h1, h⟩
    dsimp only at h
    cases hw : (splitWs line)[2]? with
    | none => rw [hw] at h; cases h
    | some w =>
      rw [hw] at h
      dsimp only at h
      cases hp : parseFloat w with
      | none => rw [hp] at h; cases h
      | some x =>
        rw [hp] at h
        obtain ⟨rfl, rfl⟩ := Prod.mk.inj (Except.ok.inj h)
        exact ⟨line, w, (titled_iff _ _ _ _).1 h1, hw, hp⟩
  · rintro ⟨line, w, h1, hw, hp⟩
    refine ⟨(line, g), (titled_iff _ _ _ _).2 h1, ?_⟩
    dsimp only
    rw [hw]
    dsimp only
    rw [hp]
    rfl

theorem rows_of_mapM {m : List (List Num)} {vs : List NumVec} (h : m.mapM toVec = some vs) :
    m = rowsList vs := by
  have h2 := (mapM_option_iff _ _ _).1 h
  clear h
  induction h2 with
  | nil => rfl
  | cons h1 _ ih => rw [ih, toVec_eq_some h1]; rfl

theorem cartToFrac_iff (ext : NumMat → Py NumMat) (lattice cart : List (List Num))
    (p : List NumVec) : cartToFrac ext lattice cart = .ok p ↔
      ∃ inv vs, arrayInv ext lattice = .ok inv ∧ cart = rowsList vs ∧ vs ≠ [] ∧
        p = vs.map (numVecMul · inv) := by
  unfold cartToFrac
  rw [bind_ok_iff]
  constructor
  · rintro ⟨inv, hi, h⟩
    cases hv : cart.mapM toVec with
    | none => rw [hv] at h; cases h
    | some vs =>
      rw [hv] at h
      dsimp only at h
      split_ifs at h with hne
      exact ⟨inv, vs, hi, rows_of_mapM hv, hne, (Except.ok.inj h).symm⟩
  · rintro ⟨inv, vs, hi, rfl, hne, rfl⟩
    refine ⟨inv, hi, ?_⟩
    have : (rowsList vs).mapM toVec = some vs := mapM_toVec_rows vs
    rw [this]
    dsimp only
    rw [if_neg hne]
    rfl

theorem titled_skip_iff (title : String) (f : List (List Char)) (l : List Char)
    (g : List (List Char)) : skipUntil title.toList f = .ok (l, g) ↔ Titled title f l g := by
  rw [skipUntil_ok]
  constructor
  · rintro ⟨pre, h1, h2, h3⟩; exact ⟨pre, h1, h3, h2⟩
  · rintro ⟨pre, h1, h3, h2⟩; exact ⟨pre, h1, h2, h3⟩

theorem rows_length {f g : List (List Char)} {vs : List NumVec} (h : Rows f vs g) :
    g.length ≤ f.length := by
  obtain ⟨block, rfl, -⟩ := h
  simp

theorem titled_length {title : String} {f g : List (List Char)} {l : List Char}
    (h : Titled title f l g) : g.length < f.length := by
  obtain ⟨pre, rfl, -, -⟩ := h
  simp
  omega

/-- The ionic steps read by the loop. -/
theorem stepLoop_sound (ext : NumMat → Py NumMat) (lattice : List (List Num)) (n : ℕ) (fuel : ℕ)
    (prev : Bool) (f : List (List Char)) (ps : List (List NumVec))
    (h : stepLoop ext lattice n fuel prev f = .ok ps) :
    ∃ frames, StepsIn n prev f frames ∧
      List.Forall₂ (fun vs p => vs ≠ [] ∧ ∃ inv, arrayInv ext lattice = .ok inv ∧
        p = vs.map (numVecMul · inv)) frames ps := by
  induction fuel generalizing prev f ps with
  | zero => cases h
  | succ fuel ih =>
    rw [stepLoop] at h
    rcases skipUntil_cases stepHeader f with ⟨e, hn⟩ | ⟨l, g, e, hg⟩
    · rw [e] at h
      obtain rfl := Except.ok.inj h
      exact ⟨[], .none hn, .nil⟩
    · rw [e] at h
      have ht : Titled stepTitle f l g := (titled_skip_iff stepTitle f l g).1 e
      dsimp only at h
      split_ifs at h with hs
      · obtain ⟨rfl, hs⟩ := hs
        have hml : contains "(ML)".toList l = false := Bool.eq_false_of_not_eq_true hs
        rw [hml] at h
        obtain ⟨frames, h1, h2⟩ := ih _ _ _ h
        exact ⟨frames, .skip ht (fun hc => hs ((contains_iff _ _).2 hc)) h1, h2⟩
      · obtain ⟨⟨cart, f1⟩, hc, h⟩ := (bind_ok_iff _ _ _).1 h
        obtain ⟨p, hp, h⟩ := (bind_ok_iff _ _ _).1 h
        obtain ⟨ps', hps, h⟩ := (bind_ok_iff _ _ _).1 h
        obtain rfl := Except.ok.inj h
        obtain ⟨inv, vs, hi, rfl, hne, rfl⟩ := (cartToFrac_iff _ _ _ _).1 hp
        obtain ⟨hlen, hrows⟩ := (readArray_rows_iff _ _ _ _).1 hc
        obtain ⟨frames, h1, h2⟩ := ih _ _ _ hps
        refine ⟨vs :: frames, ?_, .cons ⟨hne, inv, hi, rfl⟩ h2⟩
        cases g with
        | nil =>
          obtain ⟨block, hb, hr⟩ := hrows
          have : block = [] := (List.append_eq_nil_iff.1 hb.symm).1
          rw [this] at hr
          cases hr
          exact absurd rfl hne
        | cons sep g =>
          cases hml : contains "(ML)".toList l with
          | true =>
            rw [hml] at h1
            exact .ml ht ((contains_iff _ _).1 hml) hlen hrows h1
          | false =>
            rw [hml] at h1
            have hno : ¬ "(ML)".toList <:+: l := fun hc => by
              rw [(contains_iff _ _).2 hc] at hml; cases hml
            cases prev with
            | true => exact absurd ⟨rfl, by rw [hml]; simp⟩ hs
            | false => exact .plain ht hno hlen hrows h1

theorem stepLoop_complete (ext : NumMat → Py NumMat) (lattice : List (List Num)) (inv : NumMat)
    (hinv : arrayInv ext lattice = .ok inv) (n : ℕ) (hn : n ≠ 0) (prev : Bool)
    (f : List (List Char)) (frames : List (List NumVec)) (h : StepsIn n prev f frames) (fuel : ℕ)
    (hf : f.length < fuel) :
    stepLoop ext lattice n fuel prev f = .ok (frames.map fun vs => vs.map (numVecMul · inv)) := by
  have hread : ∀ {fuel : ℕ} {f g h : List (List Char)} {header sep : List Char} {vs : List NumVec}
      {frames : List (List NumVec)} {prev : Bool}, Titled stepTitle f header (sep :: g) →
      (prev = true → "(ML)".toList <:+: header) → vs.length = n → Rows g vs h →
      stepLoop ext lattice n fuel (contains "(ML)".toList header) h =
        .ok (frames.map fun vs => vs.map (numVecMul · inv)) →
      stepLoop ext lattice n (fuel + 1) prev f =
        .ok ((vs :: frames).map fun vs => vs.map (numVecMul · inv)) := by
    intro fuel f g h header sep vs frames prev ht hml hlen hrows hrest
    rw [stepLoop]
    have e : skipUntil stepHeader f = .ok (header, sep :: g) := (titled_skip_iff stepTitle _ _ _).2 ht
    rw [e]
    dsimp only
    rw [if_neg (fun hc => hc.2 ((contains_iff _ _).2 (hml hc.1)))]
    refine (bind_ok_iff _ _ _).2 ⟨(rowsList vs, h), (readArray_rows_iff _ _ _ _).2 ⟨hlen, hrows⟩, ?_⟩
    refine (bind_ok_iff _ _ _).2 ⟨vs.map (numVecMul · inv), (cartToFrac_iff _ _ _ _).2
      ⟨inv, vs, hinv, rfl, ?_, rfl⟩, (bind_ok_iff _ _ _).2 ⟨_, hrest, rfl⟩⟩
    rintro rfl
    exact hn hlen.symm
  induction h generalizing fuel with
  | none hno =>
    obtain ⟨fuel, rfl⟩ : ∃ k, fuel = k + 1 := ⟨fuel - 1, by omega⟩
    rw [stepLoop]
    have := skipUntil_none (c := stepHeader) hno
    rw [this]
    rfl
  | skip ht hno _ ih =>
    obtain ⟨fuel, rfl⟩ : ∃ k, fuel = k + 1 := ⟨fuel - 1, by omega⟩
    have hl := titled_length ht
    have hml : ¬ contains "(ML)".toList _ = true := fun hc => hno ((contains_iff _ _).1 hc)
    rw [stepLoop]
    have e := (titled_skip_iff stepTitle _ _ _).2 ht
    change skipUntil stepHeader _ = _ at e
    rw [e]
    dsimp only
    rw [if_pos ⟨rfl, hml⟩, Bool.eq_false_of_not_eq_true hml]
    exact ih fuel (by omega)
  | ml ht hml hlen hrows _ ih =>
    obtain ⟨fuel, rfl⟩ : ∃ k, fuel = k + 1 := ⟨fuel - 1, by omega⟩
    have hl := titled_length ht
    have hl2 := rows_length hrows
    simp only [List.length_cons] at hl
    refine hread ht (fun _ => hml) hlen hrows ?_
    rw [(contains_iff _ _).2 hml]
    exact ih fuel (by omega)
  | plain ht hno hlen hrows _ ih =>
    obtain ⟨fuel, rfl⟩ : ∃ k, fuel = k + 1 := ⟨fuel - 1, by omega⟩
    have hl := titled_length ht
    have hl2 := rows_length hrows
    simp only [List.length_cons] at hl
    refine hread ht (fun hc => by cases hc) hlen hrows ?_
    rw [Bool.eq_false_of_not_eq_true (fun hc => hno ((contains_iff _ _).1 hc))]
    exact ih fuel (by omega)

/-- The rows of a finite lattice. -/
def latticeRows (a : Matrix (Fin 3) (Fin 3) ℚ) : List NumVec :=
  [fun j => some (a 0 j), fun j => some (a 1 j), fun j => some (a 2 j)]

theorem rowsList_latticeRows (a : Matrix (Fin 3) (Fin 3) ℚ) :
    rowsList (latticeRows a) = List.ofFn fun i => List.ofFn fun j => some (a i j) := rfl

theorem toMat_rowsList (vs : List NumVec) : toMat (rowsList vs) =
    (match vs with | [v0, v1, v2] => some ![v0, v1, v2] | _ => none) := by
  unfold toMat
  have : (rowsList vs).mapM toVec = some vs := mapM_toVec_rows vs
  rw [this]
  rcases vs with _ | ⟨v0, _ | ⟨v1, _ | ⟨v2, _ | ⟨v3, vs⟩⟩⟩⟩ <;> rfl

theorem toMat_latticeRows (a : Matrix (Fin 3) (Fin 3) ℚ) :
    toMat (rowsList (latticeRows a)) = some fun i j => some (a i j) := by
  rw [toMat_rowsList]
  change some _ = some _
  congr 1
  funext i j
  fin_cases i <;> rfl

theorem arrayInv_cases (ext : NumMat → Py NumMat) (a : Matrix (Fin 3) (Fin 3) ℚ) :
    (a.det = 0 ∧ arrayInv ext (rowsList (latticeRows a)) = .error .linAlgError) ∨
    (a.det ≠ 0 ∧ ∃ b : Matrix (Fin 3) (Fin 3) ℚ, b * a = 1 ∧
      arrayInv ext (rowsList (latticeRows a)) = .ok fun i j => some (b i j)) := by
  unfold arrayInv
  rw [toMat_latticeRows]
  rcases numInv_finite ext a with h | ⟨h1, b, h2, h3⟩
  · exact Or.inl h
  · exact Or.inr ⟨h1, b, h3, h2⟩

theorem numVecMul_none {v : NumVec} (h : ∃ i, v i = none) (b : Matrix (Fin 3) (Fin 3) ℚ) :
    numVecMul v (fun i j => some (b i j)) = fun _ => none := by
  obtain ⟨i, hi⟩ := h
  funext j
  unfold numVecMul
  fin_cases i <;> simp only [Fin.zero_eta, Fin.mk_one, Fin.reduceFinMk, Fin.isValue] at hi <;>
    rw [hi] <;> simp only [numAdd, numMul] <;>
    first
      | rfl
      | (cases v 0 <;> first | rfl | (cases v 1 <;> rfl))

theorem finite_or_none (v : NumVec) : (∃ x : Fin 3 → ℚ, v = fun i => some (x i)) ∨ ∃ i, v i = none := by
  by_cases h : ∃ i, v i = none
  · exact Or.inr h
  · push Not at h
    left
    have : ∀ i, ∃ x, v i = some x := fun i => Option.ne_none_iff_exists'.1 (h i)
    choose x hx using this
    exact ⟨x, funext hx⟩

theorem inCellOf_iff {a b : Matrix (Fin 3) (Fin 3) ℚ} (hba : b * a = 1) (v p : NumVec) :
    InCellOf a v p ↔ p = fun i => (numVecMul v (fun i j => some (b i j)) i).map pbc1 := by
  have hab : a * b = 1 := mul_eq_one_comm.1 hba
  rcases finite_or_none v with ⟨x, rfl⟩ | hn
  · have hfin := numVecMul_finite x b
    constructor
    · rintro (⟨x', y, k, hx, rfl, hy, hk⟩ | ⟨⟨i, hi⟩, -⟩)
      · have hxx : x = x' := by
          funext i
          exact Option.some.inj (congrFun hx i)
        subst hxx
        rw [hfin]
        funext i
        refine congrArg some (pbc1_unique ?_ (hy i))
        have hv : Matrix.vecMul (fun i => y i + k i) a = x := by
          funext j
          simpa [Matrix.vecMul, dotProduct] using hk j
        have hv2 : Matrix.vecMul x b = fun i => y i + k i := by
          rw [← hv, Matrix.vecMul_vecMul, hab, Matrix.vecMul_one]
        have := congrFun hv2 i
        simp only [Matrix.vecMul, dotProduct] at this
        rw [this]
        exact ⟨-k i, by push_cast; ring⟩
      · cases hi
    · rintro rfl
      left
      have hk : ∀ i, ∃ k : ℤ, pbc1 (∑ j, x j * b j i) + k = ∑ j, x j * b j i := by
        intro i
        obtain ⟨k, hk⟩ := pbc1_sameImage (∑ j, x j * b j i)
        exact ⟨-k, by rw [hk]; push_cast; ring⟩
      choose k hk using hk
      refine ⟨x, fun i => pbc1 (∑ j, x j * b j i), k, rfl, ?_, fun i => pbc1_inCell _, fun j => ?_⟩
      · rw [hfin]; rfl
      · rw [← vecMul_inv hba x j]
        exact Finset.sum_congr rfl fun i _ => by rw [hk i]
  · rw [numVecMul_none hn]
    constructor
    · rintro (⟨x', y, k, rfl, -⟩ | ⟨-, rfl⟩)
      · obtain ⟨i, hi⟩ := hn; cases hi
      · rfl
    · rintro rfl
      exact Or.inr ⟨hn, rfl⟩

theorem forall₂_eq_map {α β : Type} {g : α → β} {l : List α} {r : List β} :
    List.Forall₂ (fun a b => b = g a) l r ↔ r = l.map g := by
  constructor
  · intro h
    induction h with
    | nil => rfl
    | cons h _ ih => rw [h, ih]; rfl
  · rintro rfl
    rw [List.forall₂_map_right_iff]
    exact List.forall₂_same.2 fun _ _ => rfl

theorem elements_symbols {f g : List (List Char)} {numbers : List ℕ}
    (h : ElementsIn IsNumber f numbers g) :
    ∃ symbols, outcarSymbols f = .ok (symbols, g) ∧ List.Forall₂ IsNumber symbols numbers := by
  obtain ⟨symbols, h1, h2⟩ := (outcarElements_iff f g numbers).2 h
  exact ⟨symbols, h1, ((mapM_except_ok _ _ _).1 h2).imp fun _ _ h => numberOf_eq_ok.1 h⟩

/-- C136: given the elements, the time step and a finite lattice, `read_trajectory` returns `tr` iff
there are atoms and ionic steps, the lattice is invertible, the time step is positive, and the frames
of `tr` are the positions of the steps that are kept, in order, as fractional coordinates in the
cell. -/
theorem C136_trajectory (ext : NumMat → Py NumMat) (content : List Char) (numbers : List ℕ) (t : Num)
    (a : Matrix (Fin 3) (Fin 3) ℚ) (f1 f2 f3 : List (List Char))
    (he : ElementsIn IsNumber (fileLines content) numbers f1) (ht : TimestepIn f1 t f2)
    (hl : LatticeIn f2 [fun j => some (a 0 j), fun j => some (a 1 j), fun j => some (a 2 j)] f3)
    (tr : OutcarTrajectory) :
    outcarReadTrajectory ext content = .ok tr ↔
      numbers ≠ [] ∧ a.det ≠ 0 ∧ t = some tr.timestep ∧ 0 < tr.timestep ∧
      ∃ frames, frames ≠ [] ∧ StepsIn numbers.length false f3 frames ∧
        List.Forall₂ (List.Forall₂ (InCellOf a)) frames tr.positionsTs := by
  obtain ⟨symbols, hs, hsn⟩ := elements_symbols he
  have hlen := hsn.length_eq
  have hl' : outcarReadLattice f2 = .ok (rowsList (latticeRows a), f3) :=
    (outcarReadLattice_iff _ _ _).2 hl
  have hrun : outcarReadTrajectory ext content =
      (stepLoop ext (rowsList (latticeRows a)) numbers.length (f3.length + 1) false f3 >>= fun ps =>
        if ps = [] then .error .invalidFile else makeTrajectory ps t) := by
    unfold outcarReadTrajectory
    rw [hs]
    change (readTimestep f1 >>= _) = _
    rw [(readTimestep_iff _ _ _).2 ht]
    change (outcarReadLattice f2 >>= _) = _
    rw [hl', ← hlen]
    rfl
  rw [hrun, bind_ok_iff]
  constructor
  · rintro ⟨ps, hps, h⟩
    split_ifs at h with hne
    obtain ⟨frames, h1, h2⟩ := stepLoop_sound _ _ _ _ _ _ _ hps
    unfold makeTrajectory at h
    cases t with
    | none => cases h
    | some t =>
      dsimp only at h
      split_ifs at h with ht0
      obtain rfl := Except.ok.inj h
      cases h2 with
      | nil => exact absurd rfl hne
      | @cons vs p frames ps hvs h2 =>
        obtain ⟨hvne, inv, hinv, rfl⟩ := hvs
        rcases arrayInv_cases ext a with ⟨-, h3⟩ | ⟨hdet, b, hba, h3⟩
        · rw [h3] at hinv; cases hinv
        refine ⟨?_, hdet, rfl, not_le.1 ht0, vs :: frames, by simp, h1, ?_⟩
        · rintro rfl
          cases h1 with
          | ml _ _ hv => exact hvne (List.length_eq_zero_iff.1 hv)
          | plain _ _ hv => exact hvne (List.length_eq_zero_iff.1 hv)
        · dsimp only
          rw [List.forall₂_map_right_iff]
          refine (List.Forall₂.cons ⟨hvne, inv, hinv, rfl⟩ h2 :
            List.Forall₂ (fun (vs : List NumVec) p => vs ≠ [] ∧ ∃ inv,
              arrayInv ext (rowsList (latticeRows a)) = .ok inv ∧
              p = vs.map (numVecMul · inv)) _ _).imp ?_
          rintro vs' p' ⟨-, inv', hinv', rfl⟩
          rw [h3] at hinv'
          obtain rfl := Except.ok.inj hinv'
          rw [List.map_map, List.forall₂_map_right_iff]
          exact List.forall₂_same.2 fun v _ => (inCellOf_iff hba v _).2 rfl
  · rintro ⟨hn, hdet, rfl, hpos, frames, hfr, hsteps, hall⟩
    rcases arrayInv_cases ext a with ⟨h, -⟩ | ⟨-, b, hba, hinv⟩
    · exact absurd h hdet
    refine ⟨_, stepLoop_complete ext _ _ hinv _ (by simpa using hn) _ _ _ hsteps _
      (Nat.lt_succ_self _), ?_⟩
    rw [if_neg (by simpa using hfr)]
    unfold makeTrajectory
    dsimp only
    rw [if_neg (not_le.2 hpos)]
    have : tr.positionsTs = frames.map fun vs => vs.map fun v i =>
        (numVecMul v (fun i j => some (b i j)) i).map pbc1 := by
      refine forall₂_eq_map.1 (hall.imp fun vs p h => ?_)
      exact forall₂_eq_map.1 (h.imp fun v q h => (inCellOf_iff hba v q).1 h)
    obtain ⟨ps, t⟩ := tr
    dsimp only at this ⊢
    rw [this, List.map_map]
    congr 2
    refine List.map_congr_left fun vs _ => ?_
    dsimp only [Function.comp]
    rw [List.map_map]
    rfl

theorem toMat_some {m : List (List Num)} {x : NumMat} (h : toMat m = some x) :
    ∃ v0 v1 v2 : NumVec, m = rowsList [v0, v1, v2] := by
  unfold toMat at h
  cases hv : m.mapM toVec with
  | none => rw [hv] at h; cases h
  | some vs =>
    rw [hv] at h
    have hm : m = rowsList vs := rows_of_mapM hv
    rcases vs with _ | ⟨v0, _ | ⟨v1, _ | ⟨v2, _ | ⟨v3, vs⟩⟩⟩⟩
    · cases h
    · cases h
    · cases h
    · exact ⟨v0, v1, v2, hm⟩
    · cases h

theorem arrayInv_rows {ext : NumMat → Py NumMat} {m : List (List Num)} {inv : NumMat}
    (h : arrayInv ext m = .ok inv) : ∃ v0 v1 v2 : NumVec, m = rowsList [v0, v1, v2] := by
  unfold arrayInv at h
  cases hm : toMat m with
  | none => rw [hm] at h; cases h
  | some x => exact toMat_some hm

/-- C136: a trajectory is only read from a file with elements, time step, lattice and at least one
ionic step below them. -/
theorem C136_parts (ext : NumMat → Py NumMat) (content : List Char) (tr : OutcarTrajectory)
    (h : outcarReadTrajectory ext content = .ok tr) :
    ∃ numbers f1 f2 v0 v1 v2 f3 vs frames,
      ElementsIn IsNumber (fileLines content) numbers f1 ∧
      TimestepIn f1 (some tr.timestep) f2 ∧ 0 < tr.timestep ∧ LatticeIn f2 [v0, v1, v2] f3 ∧
      StepsIn numbers.length false f3 (vs :: frames) ∧
      tr.positionsTs.length = (vs :: frames).length := by
  unfold outcarReadTrajectory at h
  obtain ⟨⟨symbols, f1⟩, hs, h⟩ := (bind_ok_iff _ _ _).1 h
  obtain ⟨⟨t, f2⟩, ht, h⟩ := (bind_ok_iff _ _ _).1 h
  obtain ⟨⟨lattice, f3⟩, hl, h⟩ := (bind_ok_iff _ _ _).1 h
  obtain ⟨ps, hps, h⟩ := (bind_ok_iff _ _ _).1 h
  obtain ⟨numbers, hnum, hlen⟩ := outcarSymbols_number hs
  split_ifs at h with hne
  unfold makeTrajectory at h
  cases t with
  | none => cases h
  | some t =>
    dsimp only at h
    split_ifs at h with ht0
    obtain rfl := Except.ok.inj h
    obtain ⟨frames, h1, h2⟩ := stepLoop_sound _ _ _ _ _ _ _ hps
    have h2len := h2.length_eq
    cases h2 with
    | nil => exact absurd rfl hne
    | @cons vs p frames ps hvs h2 =>
      obtain ⟨-, inv, hinv, -⟩ := hvs
      obtain ⟨v0, v1, v2, rfl⟩ := arrayInv_rows hinv
      refine ⟨numbers, f1, f2, v0, v1, v2, f3, vs, frames, (outcarElements_iff _ _ _).1
        ⟨symbols, hs, hnum⟩, (readTimestep_iff _ _ _).1 ht, not_le.1 ht0,
        (outcarReadLattice_iff _ _ _).1 hl, by rw [hlen]; exact h1, ?_⟩
      dsimp only
      rw [List.length_map, h2len]

/-! ## C137: phonons -/

theorem eigenvalue_iff (line : List Char) (w : Num) :
    eigenvalue line = .ok w ↔ WavenumberIn line w := by
  unfold eigenvalue WavenumberIn
  by_cases hc : "f/i".toList <:+: line
  · rw [if_pos ((contains_iff _ _).2 hc)]
    constructor
    · intro h
      cases hx : (splitWs line)[6]? with
      | none => rw [hx] at h; cases h
      | some x =>
        rw [hx] at h
        dsimp only at h
        cases hp : parseFloat x with
        | none => rw [hp] at h; cases h
        | some v =>
          rw [hp] at h
          exact Or.inr ⟨hc, x, v, rfl, hp, (Except.ok.inj h).symm⟩
    · rintro (⟨h, -⟩ | ⟨-, x, v, hx, hp, rfl⟩)
      · exact absurd hc h
      · rw [hx]; dsimp only; rw [hp]; rfl
  · rw [if_neg (fun h => hc ((contains_iff _ _).1 h))]
    constructor
    · intro h
      cases hx : (splitWs line)[7]? with
      | none => rw [hx] at h; cases h
      | some x =>
        rw [hx] at h
        dsimp only at h
        cases hp : parseFloat x with
        | none => rw [hp] at h; cases h
        | some v =>
          rw [hp] at h
          exact Or.inl ⟨hc, x, rfl, by rw [hp, Except.ok.inj h]⟩
    · rintro (⟨-, x, hx, hp⟩ | ⟨h, -⟩)
      · rw [hx]; dsimp only; rw [hp]
      · exact absurd h hc

theorem valueAsInvalid_ok {α : Type} (b : Bool) (r : Py α) (x : α) :
    valueAsInvalid b r = .ok x ↔ r = .ok x := by
  cases r with
  | ok y => rfl
  | error e =>
    constructor
    · intro h
      cases e <;> simp only [valueAsInvalid] at h <;> first | cases h | (split_ifs at h)
    · intro h; cases h

theorem drop_three_words {ws : List Word} {a b c : Word} (h : ws.drop 3 = [a, b, c]) :
    ∃ p q r, ws = [p, q, r, a, b, c] := by
  rcases ws with _ | ⟨p, _ | ⟨q, _ | ⟨r, ws⟩⟩⟩
  · cases h
  · cases h
  · cases h
  · exact ⟨p, q, r, by rw [show ws = [a, b, c] from h]⟩

theorem eigenRow_iff (ext : NumMat → Py NumMat) (lattice : List (List Num)) (line : List Char)
    (p : NumVec) : eigenRow ext lattice line = .ok p ↔
      ∃ inv v, arrayInv ext lattice = .ok inv ∧ VectorRow line v ∧ p = numVecMul v inv := by
  unfold eigenRow
  constructor
  · intro h
    cases hx : parseFloats ((splitWs line).drop 3) with
    | none => rw [hx] at h; cases h
    | some xs =>
      rw [hx] at h
      obtain ⟨inv, hi, h'⟩ := (bind_ok_iff _ _ _).1 h
      clear h
      cases hv : toVec xs with
      | none => rw [hv] at h'; cases h'
      | some v =>
        rw [hv] at h'
        have h3 := toVec_eq_some hv
        subst h3
        unfold parseFloats at hx
        have h4 := (mapM_option_iff _ _ _).1 hx
        have hlen := h4.length_eq
        clear h4
        obtain ⟨a, b, c, habc⟩ : ∃ a b c, (splitWs line).drop 3 = [a, b, c] := by
          generalize (splitWs line).drop 3 = ws at hlen
          rcases ws with _ | ⟨a, _ | ⟨b, _ | ⟨c, _ | ⟨d, l⟩⟩⟩⟩ <;>
            simp at hlen
          exact ⟨a, b, c, rfl⟩
        obtain ⟨p', q, r, hw⟩ := drop_three_words habc
        rw [habc] at hx
        have h5 := (mapM_option_iff _ _ _).1 hx
        cases h5 with
        | cons h6 h5 =>
          cases h5 with
          | cons h7 h5 =>
            cases h5 with
            | cons h8 _ =>
              exact ⟨inv, v, hi, ⟨p', q, r, a, b, c, hw, h6, h7, h8⟩, (Except.ok.inj h').symm⟩
  · rintro ⟨inv, v, hi, ⟨p', q, r, a, b, c, hw, h6, h7, h8⟩, rfl⟩
    have hx : parseFloats ((splitWs line).drop 3) = some [v 0, v 1, v 2] := by
      unfold parseFloats
      rw [mapM_option_iff, hw]
      exact .cons h6 (.cons h7 (.cons h8 .nil))
    rw [hx]
    refine (bind_ok_iff _ _ _).2 ⟨inv, hi, ?_⟩
    rw [toVec_row]
    rfl

theorem readEigenvector_sound (b : Bool) (ext : NumMat → Py NumMat) (lattice : List (List Num))
    (n : ℕ) (f g : List (List Char)) (ps : List NumVec) (hlen : ps.length = n)
    (h : readEigenvector b ext lattice n f = .ok (ps, g)) :
    ∃ vs, VectorsIn n f vs g ∧ List.Forall₂ (fun v p => ∃ inv, arrayInv ext lattice = .ok inv ∧
      p = numVecMul v inv) vs ps := by
  induction f generalizing n ps with
  | nil =>
    rw [readEigenvector] at h
    obtain ⟨rfl, rfl⟩ := Prod.mk.inj (Except.ok.inj h)
    obtain rfl : 0 = n := hlen
    exact ⟨[], VectorsIn.done (f := []), .nil⟩
  | cons l f ih =>
    cases n with
    | zero =>
      rw [readEigenvector] at h
      obtain ⟨rfl, rfl⟩ := Prod.mk.inj (Except.ok.inj h)
      exact ⟨[], VectorsIn.done (f := l :: f), .nil⟩
    | succ n =>
      rw [readEigenvector] at h
      split_ifs at h with hX
      · obtain ⟨vs, h1, h2⟩ := ih _ _ hlen h
        exact ⟨vs, .heading ((contains_iff _ _).1 hX) h1, h2⟩
      · obtain ⟨p, hp, h⟩ := (bind_ok_iff _ _ _).1 h
        obtain ⟨⟨ps', g'⟩, hps, h⟩ := (bind_ok_iff _ _ _).1 h
        obtain ⟨rfl, rfl⟩ := Prod.mk.inj (Except.ok.inj h)
        obtain ⟨inv, v, hi, hv, rfl⟩ := (eigenRow_iff _ _ _ _).1 ((valueAsInvalid_ok _ _ _).1 hp)
        obtain ⟨vs, h1, h2⟩ := ih _ _ (by simpa using hlen) hps
        exact ⟨v :: vs, .row (fun hc => hX ((contains_iff _ _).2 hc)) hv h1, .cons ⟨inv, hi, rfl⟩ h2⟩

theorem readEigenvector_complete (b : Bool) (ext : NumMat → Py NumMat) (lattice : List (List Num))
    (inv : NumMat) (hinv : arrayInv ext lattice = .ok inv) (n : ℕ) (f g : List (List Char))
    (vs : List NumVec) (h : VectorsIn n f vs g) :
    readEigenvector b ext lattice n f = .ok (vs.map (numVecMul · inv), g) := by
  induction h with
  | @done f => cases f <;> rfl
  | heading hX _ ih => rw [readEigenvector, if_pos ((contains_iff _ _).2 hX), ih]
  | row hX hv _ ih =>
    rw [readEigenvector, if_neg (fun hc => hX ((contains_iff _ _).1 hc))]
    refine (bind_ok_iff _ _ _).2 ⟨_, (valueAsInvalid_ok _ _ _).2 ((eigenRow_iff _ _ _ _).2
      ⟨inv, _, hinv, hv, rfl⟩), ?_⟩
    refine (bind_ok_iff _ _ _).2 ⟨_, ih, rfl⟩

theorem vectorsIn_length {n : ℕ} {f g : List (List Char)} {vs : List NumVec}
    (h : VectorsIn n f vs g) : vs.length = n := by
  induction h with
  | done => rfl
  | heading _ _ ih => exact ih
  | row _ _ _ ih => rw [List.length_cons, ih]

theorem readModes_sound (b : Bool) (ext : NumMat → Py NumMat) (lattice : List (List Num)) (n k : ℕ)
    (f : List (List Char)) (ms : List (Num × List NumVec))
    (hlen : ∀ m ∈ ms, m.2.length = n) (h : readModes b ext lattice n k f = .ok ms) :
    ∃ modes, ModesIn n k f modes ∧ List.Forall₂ (fun (x : Num × List NumVec) m => m.1 = x.1 ∧
      List.Forall₂ (fun v p => ∃ inv, arrayInv ext lattice = .ok inv ∧ p = numVecMul v inv)
        x.2 m.2) modes ms := by
  induction k generalizing f ms with
  | zero =>
    obtain rfl := Except.ok.inj h
    exact ⟨[], .done, .nil⟩
  | succ k ih =>
    rw [readModes] at h
    obtain ⟨⟨line, f1⟩, h1, h⟩ := (bind_ok_iff _ _ _).1 h
    obtain ⟨w, h2, h⟩ := (bind_ok_iff _ _ _).1 h
    obtain ⟨⟨e, f2⟩, h3, h⟩ := (bind_ok_iff _ _ _).1 h
    obtain ⟨ms', h4, h⟩ := (bind_ok_iff _ _ _).1 h
    obtain rfl := Except.ok.inj h
    obtain ⟨vs, h5, h6⟩ := readEigenvector_sound b ext lattice n f1 f2 e (hlen (w, e) (List.mem_cons_self ..)) h3
    obtain ⟨modes, h7, h8⟩ := ih _ _ (fun m hm => hlen m (by simp [hm])) h4
    exact ⟨(w, vs) :: modes, .mode ((titled_iff _ _ _ _).1 h1) ((eigenvalue_iff _ _).1 h2) h5 h7,
      .cons ⟨rfl, h6⟩ h8⟩

theorem readModes_complete (b : Bool) (ext : NumMat → Py NumMat) (lattice : List (List Num))
    (inv : NumMat) (hinv : arrayInv ext lattice = .ok inv) (n k : ℕ) (f : List (List Char))
    (modes : List (Num × List NumVec)) (h : ModesIn n k f modes) :
    readModes b ext lattice n k f =
      .ok (modes.map fun m => (m.1, m.2.map (numVecMul · inv))) := by
  induction h with
  | done => rfl
  | @mode k f line g w vs h ms h1 h2 h3 _ ih =>
    rw [readModes]
    refine (bind_ok_iff _ _ _).2 ⟨(line, g), (titled_iff _ _ _ _).2 h1, ?_⟩
    refine (bind_ok_iff _ _ _).2 ⟨w, (eigenvalue_iff _ _).2 h2, ?_⟩
    refine (bind_ok_iff _ _ _).2 ⟨_, readEigenvector_complete b ext lattice inv hinv _ _ _ _ h3, ?_⟩
    exact (bind_ok_iff _ _ _).2 ⟨_, ih, rfl⟩

theorem modesIn_lengths {n k : ℕ} {f : List (List Char)} {modes : List (Num × List NumVec)}
    (h : ModesIn n k f modes) : modes.length = k ∧ ∀ m ∈ modes, m.2.length = n := by
  induction h with
  | done => exact ⟨rfl, by simp⟩
  | mode _ _ h3 _ ih =>
    refine ⟨by rw [List.length_cons, ih.1], ?_⟩
    intro m hm
    rcases List.mem_cons.1 hm with rfl | hm
    · exact vectorsIn_length h3
    · exact ih.2 m hm

/-- The atomic weight of an element given by its number. -/
def IsWeight (z : ℕ) (w : ℚ) : Prop := ∃ s, IsNumber s z ∧ dictGet atomicWeights s = some w

theorem massScaled_iff {a b : Matrix (Fin 3) (Fin 3) ℚ} (hba : b * a = 1) {w : ℚ} (hw : 0 < w)
    (v : NumVec) (d : Fin 3 → Option ℝ) : MassScaled a w v d ↔
      d = fun i => (numVecMul v (fun i j => some (b i j)) i).map
        fun q : ℚ => (q : ℝ) / Real.sqrt (w : ℝ) := by
  have hab : a * b = 1 := mul_eq_one_comm.1 hba
  have hs : Real.sqrt (w : ℝ) ≠ 0 := by
    rw [Real.sqrt_ne_zero']
    exact_mod_cast hw
  rcases finite_or_none v with ⟨x, rfl⟩ | hn
  · rw [numVecMul_finite x b]
    constructor
    · rintro (⟨x', y, hx, rfl, hy⟩ | ⟨⟨i, hi⟩, -⟩)
      · have hxx : x = x' := by
          funext i
          exact Option.some.inj (congrFun hx i)
        subst hxx
        funext i
        refine congrArg some ?_
        rw [eq_div_iff hs]
        push_cast
        have h1 : ∀ j, (x j : ℝ) * (b j i : ℝ) = ∑ k, (y k * Real.sqrt w) * ((a k j : ℝ) * b j i) := by
          intro j
          rw [← hy j, Finset.sum_mul]
          exact Finset.sum_congr rfl fun k _ => by ring
        rw [Finset.sum_congr rfl fun j _ => h1 j, Finset.sum_comm]
        have h2 : ∀ k, ∑ j, (y k * Real.sqrt w) * ((a k j : ℝ) * b j i) =
            (y k * Real.sqrt w) * ((1 : Matrix (Fin 3) (Fin 3) ℚ) k i : ℚ) := by
          intro k
          rw [← Finset.mul_sum, ← hab, Matrix.mul_apply]
          push_cast
          rfl
        rw [Finset.sum_congr rfl fun k _ => h2 k, Finset.sum_eq_single i]
        · simp
        · intro k _ hk
          rw [Matrix.one_apply_ne hk]
          simp
        · simp
      · cases hi
    · rintro rfl
      left
      refine ⟨x, fun i => ((∑ j, x j * b j i : ℚ) : ℝ) / Real.sqrt w, rfl, rfl, fun k => ?_⟩
      rw [← vecMul_inv hba x k]
      push_cast
      refine Finset.sum_congr rfl fun i _ => ?_
      rw [div_mul_cancel₀ _ hs]
  · rw [numVecMul_none hn]
    constructor
    · rintro (⟨x', y, rfl, -⟩ | ⟨-, rfl⟩)
      · obtain ⟨i, hi⟩ := hn; cases hi
      · rfl
    · rintro rfl
      exact Or.inr ⟨hn, rfl⟩

theorem firsts_eq {α β : Type} {l r : List (α × β)}
    (h : List.Forall₂ (fun x m => m.1 = x.1) l r) : r.map (·.1) = l.map (·.1) := by
  induction h with
  | nil => rfl
  | cons hx _ ih => rw [List.map_cons, List.map_cons, ih, hx]

theorem isWeight_unique {z : ℕ} {w w' : ℚ} (h : IsWeight z w) (h' : IsWeight z w') : w = w' := by
  obtain ⟨s, h1, h2⟩ := h
  obtain ⟨s', h1', h2'⟩ := h'
  have e := ((C90_tables_inverse s z).1 h1).symm.trans ((C90_tables_inverse s' z).1 h1')
  obtain rfl := Option.some.inj e
  exact Option.some.inj (h2.symm.trans h2')

theorem weights_of_numbers {symbols : List Word} {numbers : List ℕ}
    (h : List.Forall₂ IsNumber symbols numbers) :
    ∃ ws : List ℚ, symbols.mapM weightOf = .ok ws ∧
      List.Forall₂ (fun z w => IsWeight z w ∧ 0 < w) numbers ws := by
  obtain ⟨ws, h1, h2⟩ := weights_of_symbols (symbols := symbols) (by
    intro s hs
    obtain ⟨z, -, hz⟩ := forall₂_mem_left h s hs
    exact ⟨z, hz⟩)
  refine ⟨ws, h1, ?_⟩
  clear h1
  induction h generalizing ws with
  | nil => cases h2; exact .nil
  | cons hs _ ih =>
    cases h2 with
    | cons hw h2 => exact .cons ⟨⟨_, hs, hw.1⟩, hw.2⟩ (ih _ h2)

theorem massScale_iff {a b : Matrix (Fin 3) (Fin 3) ℚ} (hba : b * a = 1) {numbers : List ℕ}
    {ws : List ℚ} (hws : List.Forall₂ (fun z w => IsWeight z w ∧ 0 < w) numbers ws)
    (vs : List NumVec) (ds : List (Fin 3 → Option ℝ)) :
    List.Forall₂ (fun (x : NumVec × ℕ) d => ∃ w, IsWeight x.2 w ∧ MassScaled a w x.1 d)
      (vs.zip numbers) ds ↔
    ds = massScale ws (vs.map (numVecMul · fun i j => some (b i j))) := by
  unfold massScale
  induction hws generalizing vs ds with
  | nil => simp
  | @cons z w zs ws hz _ ih =>
    cases vs with
    | nil => simp
    | cons v vs =>
      rw [List.zip_cons_cons, List.forall₂_cons_left_iff, List.map_cons, List.zip_cons_cons,
        List.map_cons]
      constructor
      · rintro ⟨d, ds', ⟨w', hw', hd⟩, h, rfl⟩
        obtain rfl := isWeight_unique hw' hz.1
        rw [← (ih vs ds').1 h, (massScaled_iff hba hz.2 v d).1 hd]
      · rintro rfl
        exact ⟨_, _, ⟨w, hz.1, (massScaled_iff hba hz.2 v _).2 rfl⟩, (ih vs _).2 rfl, rfl⟩

/-- C137: given the elements, a finite lattice, the positions and the title of the eigenvectors,
`read_phonons` returns `ph` iff there are atoms, the lattice is invertible and `3 N` complete modes
follow; then `ph` holds the positions, the wavenumbers in order, negative for unstable modes, and the
eigenvectors in fractional coordinates divided by the square roots of the masses. -/
theorem C137_phonons (linAlgIsValue : Bool) (ext : NumMat → Py NumMat) (content : List Char)
    (numbers : List ℕ) (a : Matrix (Fin 3) (Fin 3) ℚ) (ps : List NumVec)
    (f1 f2 f3 f4 : List (List Char)) (header : List Char)
    (he : ElementsIn IsNumber (fileLines content) numbers f1)
    (hl : LatticeIn f1 [fun j => some (a 0 j), fun j => some (a 1 j), fun j => some (a 2 j)] f2)
    (hp : PositionsIn numbers.length f2 ps f3)
    (hh : Titled "Eigenvectors and eigenvalues of the dynamical matrix" f3 header f4)
    (ph : OutcarPhonons) :
    outcarReadPhonons linAlgIsValue ext content = .ok ph ↔
      numbers ≠ [] ∧ a.det ≠ 0 ∧ ph.refPositions = ps ∧
      ∃ modes, ModesIn numbers.length (3 * numbers.length) f4 modes ∧
        ph.wavenumbers = modes.map (·.1) ∧
        List.Forall₂ (fun (m : Num × List NumVec) ds =>
          List.Forall₂ (fun x d => ∃ w, IsWeight x.2 w ∧ MassScaled a w x.1 d)
            (m.2.zip numbers) ds) modes ph.displacements := by
  obtain ⟨symbols, hs, hsn⟩ := elements_symbols he
  have hlen := hsn.length_eq
  obtain ⟨ws, hws, hwn⟩ := weights_of_numbers hsn
  have hl' : outcarReadLattice f1 = .ok (rowsList (latticeRows a), f2) :=
    (outcarReadLattice_iff _ _ _).2 hl
  have hpl : ps.length = numbers.length := by
    obtain ⟨_, _, _, h, _⟩ := hp
    exact h
  have hrun : outcarReadPhonons linAlgIsValue ext content =
      (readModes linAlgIsValue ext (rowsList (latticeRows a)) numbers.length (3 * numbers.length) f4
        >>= fun modes => makePhonons ws (rowsList ps) modes) := by
    unfold outcarReadPhonons
    rw [hs]
    change (symbols.mapM weightOf >>= _) = _
    rw [hws]
    change (outcarReadLattice f1 >>= _) = _
    rw [hl']
    change (outcarReadPositions f2 symbols.length >>= _) = _
    rw [hlen, (outcarReadPositions_iff _ _ _ _).2 hp]
    change (orInvalid (skipUntil _ f3) >>= _) = _
    rw [(titled_iff _ _ _ _).2 hh, Nat.mul_comm 3]
    rfl
  have hmake : ∀ ms, makePhonons ws (rowsList ps) ms =
      if ps = [] ∨ ms.any (fun m => m.2.length ≠ ps.length) then .error .valueError
      else .ok ⟨ps, ms.map (·.1), ms.map fun m => massScale ws m.2⟩ := by
    intro ms
    unfold makePhonons
    have : (rowsList ps).mapM toVec = some ps := mapM_toVec_rows ps
    rw [this]
  rw [hrun, bind_ok_iff]
  constructor
  · rintro ⟨ms, hms, h⟩
    rw [hmake] at h
    split_ifs at h with hc
    push Not at hc
    obtain rfl := Except.ok.inj h
    have hml : ∀ m ∈ ms, m.2.length = numbers.length := by
      intro m hm
      rw [← hpl]
      by_contra hcon
      exact hc.2 (List.any_eq_true.2 ⟨m, hm, by simpa using hcon⟩)
    obtain ⟨modes, h1, h2⟩ := readModes_sound _ _ _ _ _ _ _ hml hms
    have hn : numbers ≠ [] := by
      rintro rfl
      exact hc.1 (List.length_eq_zero_iff.1 hpl)
    obtain ⟨hk, hmo⟩ := modesIn_lengths h1
    have hpos : 0 < numbers.length := List.length_pos_iff.2 hn
    have hinv : ∃ inv, arrayInv ext (rowsList (latticeRows a)) = .ok inv := by
      obtain ⟨m, hm⟩ : ∃ m, m ∈ modes := by
        refine List.exists_mem_of_length_pos ?_
        omega
      obtain ⟨m', -, -, h3⟩ := forall₂_mem_left h2 m hm
      obtain ⟨v, hv⟩ : ∃ v, v ∈ m.2 := by
        refine List.exists_mem_of_length_pos ?_
        rw [hmo m hm]
        exact hpos
      obtain ⟨p, -, inv, hi, -⟩ := forall₂_mem_left h3 v hv
      exact ⟨inv, hi⟩
    obtain ⟨inv, hinv⟩ := hinv
    rcases arrayInv_cases ext a with ⟨-, h3⟩ | ⟨hdet, b, hba, h3⟩
    · rw [h3] at hinv; cases hinv
    refine ⟨hn, hdet, rfl, modes, h1, ?_, ?_⟩
    · exact firsts_eq (h2.imp fun _ _ h => h.1)
    · dsimp only
      rw [List.forall₂_map_right_iff]
      refine h2.imp ?_
      rintro x m ⟨-, hx⟩
      rw [massScale_iff hba hwn]
      congr 1
      refine forall₂_eq_map.1 (hx.imp ?_)
      rintro v p ⟨inv', hi', rfl⟩
      rw [h3] at hi'
      rw [← Except.ok.inj hi']
  · rintro ⟨hn, hdet, hpe, modes, h1, hw, hd⟩
    rcases arrayInv_cases ext a with ⟨h, -⟩ | ⟨-, b, hba, hinv⟩
    · exact absurd h hdet
    refine ⟨_, readModes_complete linAlgIsValue ext _ _ hinv _ _ _ _ h1, ?_⟩
    rw [hmake, if_neg]
    · obtain ⟨rp, wn, ds⟩ := ph
      dsimp only at hpe hw hd
      subst hpe
      subst hw
      have hds : ds = modes.map fun m =>
          massScale ws (m.2.map (numVecMul · fun i j => some (b i j))) :=
        forall₂_eq_map.1 (hd.imp fun m d h => (massScale_iff hba hwn m.2 d).1 h)
      rw [hds, List.map_map, List.map_map]
      rfl
    · rintro (h | h)
      · rw [h] at hpl
        exact hn (List.length_eq_zero_iff.1 hpl.symm)
      · obtain ⟨m, hm, hne⟩ := List.any_eq_true.1 h
        obtain ⟨x, hx, rfl⟩ := List.mem_map.1 hm
        have := (modesIn_lengths h1).2 x hx
        simp [this, hpl] at hne

/-- C137: phonons are only read from a file with elements, lattice, positions and the title of the
eigenvectors. -/
theorem C137_parts (linAlgIsValue : Bool) (ext : NumMat → Py NumMat) (content : List Char)
    (ph : OutcarPhonons) (h : outcarReadPhonons linAlgIsValue ext content = .ok ph) :
    ∃ numbers f1 v0 v1 v2 f2 f3 header f4,
      ElementsIn IsNumber (fileLines content) numbers f1 ∧ LatticeIn f1 [v0, v1, v2] f2 ∧
      PositionsIn numbers.length f2 ph.refPositions f3 ∧
      Titled "Eigenvectors and eigenvalues of the dynamical matrix" f3 header f4 ∧
      ∃ modes, ModesIn numbers.length (3 * numbers.length) f4 modes ∧
        ph.wavenumbers = modes.map (·.1) := by
  unfold outcarReadPhonons at h
  obtain ⟨⟨symbols, f1⟩, hs, h⟩ := (bind_ok_iff _ _ _).1 h
  obtain ⟨ws, hws, h⟩ := (bind_ok_iff _ _ _).1 h
  obtain ⟨⟨lattice, f2⟩, hl, h⟩ := (bind_ok_iff _ _ _).1 h
  obtain ⟨⟨positions, f3⟩, hp, h⟩ := (bind_ok_iff _ _ _).1 h
  obtain ⟨⟨header, f4⟩, hh, h⟩ := (bind_ok_iff _ _ _).1 h
  obtain ⟨ms, hms, h⟩ := (bind_ok_iff _ _ _).1 h
  obtain ⟨numbers, hnum, hlen⟩ := outcarSymbols_number hs
  unfold makePhonons at h
  cases hv : positions.mapM toVec with
  | none => rw [hv] at h; cases h
  | some ps =>
    rw [hv] at h
    dsimp only at h
    split_ifs at h with hc
    push Not at hc
    obtain rfl := Except.ok.inj h
    have hpos : positions = rowsList ps := rows_of_mapM hv
    subst hpos
    have hpi := (outcarReadPositions_iff _ _ _ _).1 hp
    have hpl : ps.length = symbols.length := by
      obtain ⟨_, _, _, h, _⟩ := hpi
      exact h
    have hml : ∀ m ∈ ms, m.2.length = symbols.length := by
      intro m hm
      rw [← hpl]
      by_contra hcon
      exact hc.2 (List.any_eq_true.2 ⟨m, hm, by simpa using hcon⟩)
    obtain ⟨modes, h1, h2⟩ := readModes_sound _ _ _ _ _ _ _ hml hms
    obtain ⟨hk, hmo⟩ := modesIn_lengths h1
    have hn : 0 < symbols.length := by
      rw [← hpl]
      exact List.length_pos_iff.2 hc.1
    have hinv : ∃ inv, arrayInv ext lattice = .ok inv := by
      obtain ⟨m, hm⟩ : ∃ m, m ∈ modes := by
        refine List.exists_mem_of_length_pos ?_
        omega
      obtain ⟨m', -, -, h3⟩ := forall₂_mem_left h2 m hm
      obtain ⟨v, hv⟩ : ∃ v, v ∈ m.2 := by
        refine List.exists_mem_of_length_pos ?_
        rw [hmo m hm]
        exact hn
      obtain ⟨p, -, inv, hi, -⟩ := forall₂_mem_left h3 v hv
      exact ⟨inv, hi⟩
    obtain ⟨inv, hinv⟩ := hinv
    obtain ⟨v0, v1, v2, rfl⟩ := arrayInv_rows hinv
    refine ⟨numbers, f1, v0, v1, v2, f2, f3, header, f4, (outcarElements_iff _ _ _).1
      ⟨symbols, hs, hnum⟩, (outcarReadLattice_iff _ _ _).1 hl, by rw [hlen]; exact hpi,
      (titled_iff _ _ _ _).1 hh, modes, by rw [hlen, Nat.mul_comm]; exact h1, ?_⟩
    exact firsts_eq (h2.imp fun _ _ h => h.1)

/-! ## Concrete files -/

/-- A molecular dynamics run of a hydrogen atom in a cell of length 2, reduced to what is read: a
machine-learned step, an ab initio step after it, which is left out, and another step. -/
def mdOutcar : List Char := chars! " POTCAR:    PAW_PBE H 15Jun2001\n POTCAR:    PAW_PBE H 15Jun2001\n\n" ++
  chars! "   VRHFIN =H: ultrasoft test\n   ions per type =    1\n   POTIM  = 0.5 time-step for ionic-motion\n" ++
  chars! " Write flags\n direct lattice vectors                 reciprocal lattice vectors\n" ++
  chars! " 2 0 0 0.5 0 0\n 0 2 0 0 0.5 0\n 0 0 2 0 0 0.5\n" ++
  chars! " POSITION                                       TOTAL-FORCE (eV/Angst) (ML)\n --\n 1 0 0 0 0 0\n" ++
  chars! " POSITION                                       TOTAL-FORCE (eV/Angst)\n --\n 1.5 0 0 0 0 0\n" ++
  chars! " POSITION                                       TOTAL-FORCE (eV/Angst)\n --\n 3 0 0 0 0 0\n"

theorem md_elements : ∃ r, outcarSymbols (fileLines mdOutcar) = .ok r ∧
    r = (["H".toList], (fileLines mdOutcar).drop 5) := by
  refine projOr_ok id ([], []) _ ?_ (by simp)
  decide +kernel

theorem md_timestep : ∃ r, readTimestep ((fileLines mdOutcar).drop 5) = .ok r ∧
    r = (some (1 / 2), (fileLines mdOutcar).drop 6) := by
  refine projOr_ok id (none, []) _ ?_ (by simp)
  decide +kernel

theorem md_lattice : ∃ r, outcarReadLattice ((fileLines mdOutcar).drop 6) = .ok r ∧
    r = ([[some 2, some 0, some 0], [some 0, some 2, some 0], [some 0, some 0, some 2]],
      (fileLines mdOutcar).drop 11) := by
  refine projOr_ok id ([], []) _ ?_ (by simp)
  decide +kernel

theorem md_frames : ∃ tr, outcarReadTrajectory (fun _ => .error .unmodelled) mdOutcar = .ok tr ∧
    tr.positionsTs.map (fun ps => ps.map fun p => [p 0, p 1, p 2]) =
      [[[some (1 / 2), some 0, some 0]], [[some (1 / 2), some 0, some 0]]] := by
  refine projOr_ok (fun tr : OutcarTrajectory =>
    tr.positionsTs.map fun ps => ps.map fun p => [p 0, p 1, p 2]) [] _ ?_ ?_
  · decide +kernel
  · simp

/-- C136, concrete: the hypotheses hold for the file above with the lattice `2`, and the trajectory
read has two frames; the right-hand side of the equivalence follows. -/
example : ∃ f1 f2 f3 frames, ElementsIn IsNumber (fileLines mdOutcar) [1] f1 ∧
    TimestepIn f1 (some (1 / 2)) f2 ∧
    LatticeIn f2 [fun j => some ((Matrix.diagonal fun _ => 2 : Matrix (Fin 3) (Fin 3) ℚ) 0 j),
      fun j => some ((Matrix.diagonal fun _ => 2 : Matrix (Fin 3) (Fin 3) ℚ) 1 j),
      fun j => some ((Matrix.diagonal fun _ => 2 : Matrix (Fin 3) (Fin 3) ℚ) 2 j)] f3 ∧
    StepsIn 1 false f3 frames ∧ frames.length = 2 := by
  obtain ⟨r1, h1, e1⟩ := md_elements
  obtain ⟨r2, h2, e2⟩ := md_timestep
  obtain ⟨r3, h3, e3⟩ := md_lattice
  obtain ⟨tr, h4, e4⟩ := md_frames
  rw [e1] at h1
  rw [e2] at h2
  rw [e3] at h3
  have he : ElementsIn IsNumber (fileLines mdOutcar) [1] ((fileLines mdOutcar).drop 5) :=
    (outcarElements_iff _ _ _).1 ⟨_, h1, by decide +kernel⟩
  have ht := (readTimestep_iff _ _ _).1 h2
  have hl : LatticeIn ((fileLines mdOutcar).drop 6)
      [fun j => some ((Matrix.diagonal fun _ => 2 : Matrix (Fin 3) (Fin 3) ℚ) 0 j),
      fun j => some ((Matrix.diagonal fun _ => 2 : Matrix (Fin 3) (Fin 3) ℚ) 1 j),
      fun j => some ((Matrix.diagonal fun _ => 2 : Matrix (Fin 3) (Fin 3) ℚ) 2 j)]
      ((fileLines mdOutcar).drop 11) := by
    refine (outcarReadLattice_iff _ _ _).1 ?_
    rw [h3]
    simp [rowsList, Matrix.diagonal]
  obtain ⟨-, -, -, -, frames, -, hf, hall⟩ := (C136_trajectory _ _ _ _ _ _ _ _ he ht hl tr).1 h4
  refine ⟨_, _, _, frames, he, ht, hl, hf, ?_⟩
  rw [hall.length_eq]
  have := congrArg List.length e4
  simpa using this

/-- C136, concrete: the third step at `x = 3` is wrapped to `1/2`, the same as the first at `x = 1`. -/
example : InCellOf (Matrix.diagonal fun _ => 2) (fun i => some (![3, 0, 0] i))
    (fun i => some (![1 / 2, 0, 0] i)) := by
  refine Or.inl ⟨![3, 0, 0], ![1 / 2, 0, 0], ![1, 0, 0], rfl, rfl, ?_, ?_⟩
  · intro i; fin_cases i <;> norm_num
  · intro j; fin_cases j <;> simp [Matrix.diagonal]; norm_num

/-- Phonons of a hydrogen atom in a cell of length 2, reduced to what is read. -/
def phononOutcar : List Char :=
  chars! " POTCAR:    PAW_PBE H 15Jun2001\n\n\n ions per type =    1\n Write flags\n" ++
  chars! " direct lattice vectors      \n 2 0 0\n 0 2 0\n 0 0 2\n" ++
  chars! " position of ions in fractional coordinates (direct lattice)\n 0 0.5 0\n" ++
  chars! " Eigenvectors and eigenvalues of the dynamical matrix\n" ++
  chars! " 1 f = 1.5 THz 9.4 2PiTHz 50.25 cm-1 6.2 meV\n  X Y Z dx dy dz\n 0 0 0 1 0 0\n\n" ++
  chars! " 2 f = 1.5 THz 9.4 2PiTHz 50 cm-1 6.2 meV\n  X Y Z dx dy dz\n 0 0 0 0 1 0\n\n" ++
  chars! " 3 f/i= 1.5 THz 9.4 2PiTHz 7 cm-1 6.2 meV\n  X Y Z dx dy dz\n 0 0 0 0 0 1\n"

theorem phonon_elements : ∃ r, outcarSymbols (fileLines phononOutcar) = .ok r ∧
    r = (["H".toList], (fileLines phononOutcar).drop 4) := by
  refine projOr_ok id ([], []) _ ?_ (by simp)
  decide +kernel

theorem phonon_lattice : ∃ r, outcarReadLattice ((fileLines phononOutcar).drop 4) = .ok r ∧
    r = ([[some 2, some 0, some 0], [some 0, some 2, some 0], [some 0, some 0, some 2]],
      (fileLines phononOutcar).drop 9) := by
  refine projOr_ok id ([], []) _ ?_ (by simp)
  decide +kernel

theorem phonon_positions : ∃ r, outcarReadPositions ((fileLines phononOutcar).drop 9) 1 = .ok r ∧
    r = ([[some 0, some (1 / 2), some 0]], (fileLines phononOutcar).drop 11) := by
  refine projOr_ok id ([], []) _ ?_ (by simp)
  decide +kernel

theorem phonon_title : ∃ r, skipUntil
    "Eigenvectors and eigenvalues of the dynamical matrix".toList
      ((fileLines phononOutcar).drop 11) = .ok r ∧
    r = (chars! " Eigenvectors and eigenvalues of the dynamical matrix\n",
      (fileLines phononOutcar).drop 12) := by
  refine projOr_ok id ([], []) _ ?_ (by simp)
  decide +kernel

/-- The modes of the file: the last one, at the end of the file, is unstable. -/
def hydrogenModes : List (Num × List NumVec) := [(some (201 / 4), [![some 1, some 0, some 0]]),
    (some 50, [![some 0, some 1, some 0]]), (some (-7), [![some 0, some 0, some 1]])]

theorem phonon_modes : ModesIn 1 3 ((fileLines phononOutcar).drop 12) hydrogenModes := by
  have hlines : (fileLines phononOutcar).drop 12 =
      [chars! " 1 f = 1.5 THz 9.4 2PiTHz 50.25 cm-1 6.2 meV\n", chars! "  X Y Z dx dy dz\n",
      chars! " 0 0 0 1 0 0\n", ['\n'], chars! " 2 f = 1.5 THz 9.4 2PiTHz 50 cm-1 6.2 meV\n",
      chars! "  X Y Z dx dy dz\n", chars! " 0 0 0 0 1 0\n", ['\n'],
      chars! " 3 f/i= 1.5 THz 9.4 2PiTHz 7 cm-1 6.2 meV\n", chars! "  X Y Z dx dy dz\n",
      chars! " 0 0 0 0 0 1\n"] := by decide +kernel
  have row : ∀ {l : List Char} {v : NumVec} {f : List (List Char)}, ¬ ['X'] <:+: l → VectorRow l v →
      VectorsIn 1 (chars! "  X Y Z dx dy dz\n" :: l :: f) [v] f.tail := fun h1 h2 =>
    .heading (by decide +kernel) (.row h1 h2 .done)
  rw [hlines]
  refine .mode ⟨[], rfl, by simp, by decide +kernel⟩
    (Or.inl ⟨by decide +kernel, chars! "50.25", by decide +kernel, by decide +kernel⟩)
    (row (by decide +kernel) ⟨['0'], ['0'], ['0'], ['1'], ['0'], ['0'],
      by decide +kernel, by decide +kernel, by decide +kernel, by decide +kernel⟩) ?_
  refine .mode ⟨[], rfl, by simp, by decide +kernel⟩
    (Or.inl ⟨by decide +kernel, ['5', '0'], by decide +kernel, by decide +kernel⟩)
    (row (by decide +kernel) ⟨['0'], ['0'], ['0'], ['0'], ['1'], ['0'],
      by decide +kernel, by decide +kernel, by decide +kernel, by decide +kernel⟩) ?_
  exact .mode ⟨[], rfl, by simp, by decide +kernel⟩
    (Or.inr ⟨by decide +kernel, ['7'], some 7, by decide +kernel, by decide +kernel, rfl⟩)
    (row (by decide +kernel) ⟨['0'], ['0'], ['0'], ['0'], ['0'], ['1'],
      by decide +kernel, by decide +kernel, by decide +kernel, by decide +kernel⟩) .done

/-- C137, concrete: the phonons of this file are read, with one unstable mode. -/
example (linAlgIsValue : Bool) (ext : NumMat → Py NumMat) :
    ∃ ph, outcarReadPhonons linAlgIsValue ext phononOutcar = .ok ph ∧
      ph.refPositions = [![some 0, some (1 / 2), some 0]] ∧
      ph.wavenumbers = [some (201 / 4), some 50, some (-7)] := by
  obtain ⟨r1, h1, e1⟩ := phonon_elements
  obtain ⟨r2, h2, e2⟩ := phonon_lattice
  obtain ⟨r3, h3, e3⟩ := phonon_positions
  obtain ⟨r4, h4, e4⟩ := phonon_title
  rw [e1] at h1
  rw [e2] at h2
  rw [e3] at h3
  rw [e4] at h4
  have he : ElementsIn IsNumber (fileLines phononOutcar) [1] ((fileLines phononOutcar).drop 4) :=
    (outcarElements_iff _ _ _).1 ⟨_, h1, by decide +kernel⟩
  have hl : LatticeIn ((fileLines phononOutcar).drop 4)
      [fun j => some ((Matrix.diagonal fun _ => 2 : Matrix (Fin 3) (Fin 3) ℚ) 0 j),
      fun j => some ((Matrix.diagonal fun _ => 2 : Matrix (Fin 3) (Fin 3) ℚ) 1 j),
      fun j => some ((Matrix.diagonal fun _ => 2 : Matrix (Fin 3) (Fin 3) ℚ) 2 j)]
      ((fileLines phononOutcar).drop 9) := by
    refine (outcarReadLattice_iff _ _ _).1 ?_
    rw [h2]
    simp [rowsList, Matrix.diagonal]
  have hp : PositionsIn 1 ((fileLines phononOutcar).drop 9) [![some 0, some (1 / 2), some 0]]
      ((fileLines phononOutcar).drop 11) := (outcarReadPositions_iff _ _ _ _).1 h3
  have ht := (titled_skip_iff _ _ _ _).1 h4
  have hdet : (Matrix.diagonal fun _ => 2 : Matrix (Fin 3) (Fin 3) ℚ).det ≠ 0 := by
    simp [Matrix.det_diagonal]
  obtain ⟨symbols, -, hsn⟩ := elements_symbols he
  obtain ⟨ws, -, hws⟩ := weights_of_numbers hsn
  rcases arrayInv_cases ext (Matrix.diagonal fun _ => 2) with ⟨h, -⟩ | ⟨-, b, hba, -⟩
  · exact absurd h hdet
  refine ⟨⟨[![some 0, some (1 / 2), some 0]], [some (201 / 4), some 50, some (-7)],
    hydrogenModes.map fun m => massScale ws (m.2.map (numVecMul · fun i j => some (b i j)))⟩,
    (C137_phonons linAlgIsValue ext _ _ _ _ _ _ _ _ _ he hl hp ht _).2
      ⟨by simp, hdet, rfl, hydrogenModes, phonon_modes, rfl, ?_⟩, rfl, rfl⟩
  dsimp only
  rw [List.forall₂_map_right_iff]
  exact List.forall₂_same.2 fun m _ => (massScale_iff hba hws m.2 _).2 rfl

end Verif
