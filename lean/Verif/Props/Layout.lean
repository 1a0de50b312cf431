import Verif.Proofs.ReaderLayout
import Verif.Proofs.Batch

/-!
# Properties C113, C114, C115: lines, words and numbers; exact characterisation of the POSCAR reader
-/

namespace Verif

open Spec

/-! ## C113 -/

/-- C113, lines: every text is decomposed into lines in exactly one way, for all three newline
conventions, and reading line by line gives these lines, up to a line feed at the end, and empty lines
after the end. -/
theorem C113_lines (t : List Char) : ∃ ls, IsText ls t ∧ (∀ ls', IsText ls' t → ls' = ls) ∧
    ∀ k, let line := (readline ((fun g => (readline g).2)^[k] (universalNewlines t))).1
      line = ls.getD k [] ∨ line = ls.getD k [] ++ ['\n'] := by
  obtain ⟨ls, h⟩ := isText_exists t
  refine ⟨ls, h, ?_, ?_⟩
  · intro ls' h'
    obtain ⟨h1, h2⟩ := isText_newlines h
    obtain ⟨h3, h4⟩ := isText_newlines h'
    exact unlines_injective h4 h2 (isText_ne h') (isText_ne h) (by rw [← h1, ← h3])
  · intro k
    have := (restAfter_after (after_zero h) k).readline.1
    rwa [zero_add] at this

/-- C113, words. -/
theorem C113_words (line : List Char) (ws : List (List Char)) :
    splitWs line = ws ↔ Words line ws := splitWs_iff line ws

/-- C113, decimal numbers: `float` accepts exactly the decimal literals and the names of non-finite
values, surrounded by white space, and returns their value. -/
theorem C113_float (s : List Char) (x : Option ℚ) : parseFloat s = some x ↔ NumberLine s x :=
  parseFloat_iff s x

/-- C113, integers. -/
theorem C113_int (s : List Char) (n : ℤ) : parseInt s = some n ↔
    ∃ g w g', s = g ++ w ++ g' ∧ (∀ c ∈ g, Blank c) ∧ (∀ c ∈ g', Blank c) ∧ IntLiteral w n :=
  parseInt_iff s n

/-- C113, concrete. -/
example : IsText ["a b".toList, [], "c".toList] "a b\r\n\rc".toList ∧
    Words " a  b\t".toList ["a".toList, "b".toList] ∧
    NumberLine " -1_2.5e1 ".toList (some (-125)) ∧ NumberLine "NaN".toList none ∧
    ¬ (∃ x, NumberLine "1__2".toList x) ∧ parseInt "+07".toList = some 7 := by
  refine ⟨?_, ?_, ?_, ?_, ?_, by decide +kernel⟩
  · exact .cons "a b".toList ['\r', '\n'] _ "\rc".toList (by decide) (by decide) (Or.inr (Or.inl rfl))
      (.cons [] ['\r'] _ ['c'] (by decide) (by decide) (Or.inr (Or.inr ⟨rfl, by decide⟩))
        (.last ['c'] (by decide) (by decide)))
  · rw [← splitWs_iff]; decide +kernel
  · rw [← parseFloat_iff]; decide +kernel
  · rw [← parseFloat_iff]; decide +kernel
  · rintro ⟨x, hx⟩
    rw [← parseFloat_iff] at hx
    have : parseFloat "1__2".toList = none := by decide +kernel
    rw [this] at hx
    cases hx

/-! ## C114 -/

theorem expand_forall₂ {symbols : List Word} {zs : List ℕ} (counts : List ℤ)
    (h : List.Forall₂ (fun s z => dictGet atomicNumbers s = some z) symbols zs) :
    List.Forall₂ (fun s z => numberOf s = .ok z) (expandSymbols symbols counts)
      ((zs.zip counts).flatMap fun x => List.replicate x.2.toNat x.1) := by
  unfold expandSymbols
  induction h generalizing counts with
  | nil => simp
  | @cons s z ss zs hsz h ih =>
    cases counts with
    | nil => simp
    | cons n ns =>
      simp only [List.zip_cons_cons, List.flatMap_cons]
      refine List.rel_append ?_ (ih ns)
      generalize n.toNat = k
      induction k with
      | zero => exact .nil
      | succ k ihk =>
        rw [List.replicate_succ, List.replicate_succ]
        exact .cons (numberOf_eq_ok.2 hsz) ihk

theorem known_forall₂ {symbols : List Word} (h : ∀ s ∈ symbols, knownSymbol s = true) :
    ∃ zs, List.Forall₂ (fun s z => dictGet atomicNumbers s = some z) symbols zs := by
  induction symbols with
  | nil => exact ⟨[], .nil⟩
  | cons s ss ih =>
    obtain ⟨zs, hz⟩ := ih fun x hx => h x (by simp [hx])
    obtain ⟨z, hz'⟩ := Option.isSome_iff_exists.1 (h s (by simp))
    exact ⟨z :: zs, .cons hz' hz⟩

theorem converted_iff (ext : NumMat → Py NumMat) (a : Matrix (Fin 3) (Fin 3) ℚ)
    (raw ps : List NumVec) : Converted ext true (fun i j => some (a i j)) raw ps ↔
      raw ≠ [] ∧ a.det ≠ 0 ∧ List.Forall₂ (CartesianRow a) raw ps := by
  have key : ∀ b : Matrix (Fin 3) (Fin 3) ℚ, b * a = 1 → ∀ row p : NumVec,
      p = numVecMul row (fun i j => some (b i j)) ↔ CartesianRow a row p := by
    intro b hba row p
    have hab : a * b = 1 := mul_eq_one_comm.1 hba
    unfold CartesianRow
    by_cases hrow : ∃ i, row i = none
    · have hnone : numVecMul row (fun i j => some (b i j)) = fun _ => none := by
        obtain ⟨i, hi⟩ := hrow
        funext j
        unfold numVecMul numMul numAdd
        fin_cases i
        · have : row 0 = none := hi
          simp [this]
        · have : row 1 = none := hi
          simp [this]
        · have : row 2 = none := hi
          simp [this]
      rw [hnone]
      constructor
      · rintro rfl
        refine ⟨?_, fun _ => rfl⟩
        rintro x rfl
        obtain ⟨i, hi⟩ := hrow
        cases hi
      · intro h; exact h.2 hrow
    · have hx : ∃ x : Fin 3 → ℚ, row = fun i => some (x i) := by
        push Not at hrow
        refine ⟨fun i => (row i).get (Option.ne_none_iff_isSome.1 (hrow i)), ?_⟩
        funext i
        simp
      obtain ⟨x, rfl⟩ := hx
      rw [numVecMul_finite]
      constructor
      · rintro rfl
        refine ⟨?_, fun h => absurd h hrow⟩
        intro x' hx'
        have : x' = x := by
          funext i
          exact (Option.some.inj (congrFun hx' i)).symm
        subst this
        refine ⟨_, rfl, fun k => ?_⟩
        have := congrFun (congrArg (fun M : Matrix (Fin 3) (Fin 3) ℚ => Matrix.vecMul x' M) hba) k
        simp only [← Matrix.vecMul_vecMul, Matrix.vecMul_one] at this
        rw [← this]
        simp [Matrix.vecMul, dotProduct]
      · rintro ⟨h, -⟩
        obtain ⟨y, rfl, hy⟩ := h x rfl
        funext k
        congr 1
        have hyx : Matrix.vecMul y a = x := by
          funext k
          rw [← hy k]
          simp [Matrix.vecMul, dotProduct]
        have : Matrix.vecMul x b = y := by
          rw [← hyx, Matrix.vecMul_vecMul, hab, Matrix.vecMul_one]
        rw [← this]
        simp [Matrix.vecMul, dotProduct]
  unfold Converted
  rw [if_pos rfl]
  refine and_congr_right fun hraw => ?_
  clear hraw
  rcases numInv_finite ext a with ⟨h0, hi⟩ | ⟨h0, b, hi, hba⟩
  · rw [hi]
    constructor
    · rintro ⟨inv, h, -⟩; cases h
    · rintro ⟨h, -⟩; exact absurd h0 h
  · rw [hi]
    have hmap : ps = raw.map (numVecMul · fun i j => some (b i j)) ↔
        List.Forall₂ (CartesianRow a) raw ps := by
      induction raw generalizing ps with
      | nil => simp
      | cons r raw ih =>
        cases ps with
        | nil => simp
        | cons p ps =>
          rw [List.map_cons, List.cons.injEq, List.forall₂_cons, ih, key b hba]
    constructor
    · rintro ⟨inv, h, e⟩
      obtain rfl := Except.ok.inj h
      exact ⟨h0, hmap.1 e⟩
    · rintro ⟨-, e⟩
      exact ⟨_, rfl, hmap.2 e⟩

/-- C114: `read_structure` returns a structure with a finite lattice exactly for the texts laid out as
a POSCAR with this content. -/
theorem C114_poscar (ext : NumMat → Py NumMat) (content : List Char) (ls : List (List Char))
    (hls : IsText ls content) (a : Matrix (Fin 3) (Fin 3) ℚ) (numbers : List ℕ)
    (positions : List (Fin 3 → Option ℚ)) :
    readStructure ext content = .ok ⟨fun i j => some (a i j), numbers, positions⟩ ↔
      IsPoscar (fun s z => dictGet atomicNumbers s = some z) ls a numbers positions := by
  have h0 := after_zero hls
  unfold readStructure IsPoscar Header ConfigAt
  dsimp only
  generalize universalNewlines content = f at h0
  have h5 := restAfter_after h0 5
  have h7 := restAfter_after h0 7
  rw [zero_add] at h5 h7
  rw [bind_ok_iff]
  constructor
  · rintro ⟨⟨m, g5⟩, hl, e⟩
    obtain ⟨scale, rows, hscale, hrows, rfl, rfl⟩ := (readLattice_iff h0 m g5).1 hl
    rw [bind_ok_iff] at e
    obtain ⟨⟨l, g7⟩, hs, e⟩ := e
    obtain ⟨symbols, cwords, counts, w1, w2, w3, w4, w5, w6, rfl, rfl⟩ :=
      (readAtomicSymbols_iff h5 l g7).1 hs
    rw [bind_ok_iff] at e
    obtain ⟨ns, hns, e⟩ := e
    rw [bind_ok_iff] at e
    obtain ⟨⟨ps, g⟩, hp, e⟩ := e
    have e := Except.ok.inj e
    injection e with e1 e2 e3
    subst e2 e3
    obtain ⟨zs, hz⟩ := known_forall₂ w3
    have hnum : ns = (zs.zip counts).flatMap fun x => List.replicate x.2.toNat x.1 := by
      have := (mapM_except_ok _ _ _).2 (expand_forall₂ counts hz)
      rw [hns] at this
      exact Except.ok.inj this
    have hlen : (expandSymbols symbols counts).length = ns.length := by
      rw [hnum, (expand_forall₂ counts hz).length_eq]
    have hpos : readPositions ext (restAfter (restAfter f 5) 2) (fun i j => some (a i j)) ns.length
        = .ok (ps, g) := by
      have e1' : (fun i j => numMul (rows i j) scale) = fun i j => some (a i j) := e1
      rw [← e1', ← hlen]
      revert hp
      generalize readPositions ext _ _ _ = r
      intro hp
      cases r with
      | error r => cases hp
      | ok y => exact congrArg _ (Except.ok.inj hp)
    rw [restAfter_add] at hpos
    have hfin : ∀ i j, ∃ r s : ℚ, rows i j = some r ∧ scale = some s ∧ a i j = r * s := by
      intro i j
      have := congrFun (congrFun e1 i) j
      simp only [numMul] at this
      obtain ⟨r, hr, h'⟩ := Option.bind_eq_some_iff.1 this
      obtain ⟨s, hs, h''⟩ := Option.map_eq_some_iff.1 h'
      exact ⟨r, s, hr, hs, h''.symm⟩
    choose r s hr hs' ha using hfin
    refine ⟨⟨⟨s 0 0, r, ?_, ?_, ?_⟩, ⟨symbols, cwords, zs, counts, w1, w2, w4, hz, w6, ?_, hnum⟩⟩, ?_⟩
    · rw [← hs' 0 0]; exact hscale
    · intro i
      have : (fun j => some (r i j)) = rows i := by funext j; exact (hr i j).symm
      rw [this]; exact hrows i
    · intro i j
      rw [ha i j, Option.some.inj ((hs' i j).symm.trans (hs' 0 0))]
    · rw [← w6.length_eq, w5, hz.length_eq]
    · obtain ⟨j, ⟨mm, hm, -, raw, r1, r2, cart, hc, hconv⟩, -⟩ := (readPositions_iff h7 _ _ _ _).1 hpos
      refine ⟨_, mm, hm, rfl, raw, r1, r2, ?_⟩
      rcases hc with ⟨rfl, hc⟩ | ⟨rfl, hc⟩
      · exact Or.inr ⟨hc, (converted_iff ext a raw ps).1 hconv⟩
      · exact Or.inl ⟨hc, hconv⟩
  · rintro ⟨⟨⟨scale, rows, hscale, hrows, ha⟩, ⟨symbols, cwords, zs, counts, w1, w2, w4, hz, w6, w5,
      hnum⟩⟩, next, mm, hm, -, raw, r1, r2, hform⟩
    refine ⟨(fun i j => some (a i j), restAfter f 5), (readLattice_iff h0 _ _).2
      ⟨some scale, fun i j => some (rows i j), hscale, hrows, ?_, rfl⟩, ?_⟩
    · funext i j
      rw [ha i j]; rfl
    rw [bind_ok_iff]
    refine ⟨(expandSymbols symbols counts, restAfter (restAfter f 5) 2),
      (readAtomicSymbols_iff h5 _ _).2 ⟨symbols, cwords, counts, w1, w2, ?_, w4, ?_, w6, rfl, rfl⟩, ?_⟩
    · intro s hs
      obtain ⟨z, -, hz'⟩ := forall₂_mem_left hz s hs
      unfold knownSymbol
      rw [hz']; rfl
    · rw [w6.length_eq, w5, hz.length_eq]
    rw [bind_ok_iff]
    refine ⟨numbers, ?_, ?_⟩
    · rw [hnum]
      exact (mapM_except_ok _ _ _).2 (expand_forall₂ counts hz)
    rw [bind_ok_iff]
    have hlen : (expandSymbols symbols counts).length = numbers.length := by
      rw [hnum, (expand_forall₂ counts hz).length_eq]
    have hpos : ∃ g, readPositions ext (restAfter (restAfter f 5) 2) (fun i j => some (a i j))
        numbers.length = .ok (positions, g) := by
      rw [restAfter_add]
      have h7m : mm + 1 + numbers.length = 7 + (mm + 1 + numbers.length - 7) := by
        have : 7 ≤ mm := by rcases hm with ⟨-, rfl⟩ | ⟨-, rfl⟩ <;> omega
        omega
      refine ⟨_, (readPositions_iff h7 _ _ _ _).2 ⟨mm + 1 + numbers.length - 7,
        ⟨mm, hm, h7m.symm, raw, r1, r2, ?_⟩, rfl⟩⟩
      rcases hform with ⟨hd, rfl⟩ | ⟨hc, hconv⟩
      · exact ⟨false, Or.inr ⟨rfl, hd⟩, rfl⟩
      · exact ⟨true, Or.inl ⟨rfl, hc⟩, (converted_iff ext a raw positions).2 hconv⟩
    obtain ⟨g, hg⟩ := hpos
    refine ⟨(positions, g), ?_, rfl⟩
    dsimp only
    rw [hlen, hg]
    rfl

theorem vectorLine_of {l : List Char} {a b c : Num} (h : readRow l = some [a, b, c]) :
    VectorLine l ![a, b, c] := by
  rw [← readVec_iff]
  unfold readVec
  rw [h]
  rfl

/-- C114, concrete: a POSCAR with a scale factor, selective dynamics, Cartesian coordinates and mixed
newlines. -/
example : readStructure (fun _ => .error .linAlgError)
    "cell\r\n 2.0\n1 0 0\n0 1 0\n0 0 1 # c\n O H\n1 2\nSel\nCart\n1 1 1 T T T\n0 0 0\n2 0 -1e0".toList
    = .ok ⟨fun i j => some ((2 : Matrix (Fin 3) (Fin 3) ℚ) i j), [8, 1, 1],
        [fun _ => some (1 / 2), fun _ => some 0, ![some 1, some 0, some (-(1 / 2))]]⟩ := by
  obtain ⟨ls, hls, hu, -⟩ := C113_lines
    "cell\r\n 2.0\n1 0 0\n0 1 0\n0 0 1 # c\n O H\n1 2\nSel\nCart\n1 1 1 T T T\n0 0 0\n2 0 -1e0".toList
  have hls' : IsText ["cell".toList, " 2.0".toList, "1 0 0".toList, "0 1 0".toList, "0 0 1 # c".toList,
      " O H".toList, "1 2".toList, "Sel".toList, "Cart".toList, "1 1 1 T T T".toList, "0 0 0".toList,
      "2 0 -1e0".toList] "cell\r\n 2.0\n1 0 0\n0 1 0\n0 0 1 # c\n O H\n1 2\nSel\nCart\n1 1 1 T T T\n0 0 0\n2 0 -1e0".toList := by
    have step : ∀ (l : List Char) (ls : List (List Char)) (rest : List Char), '\n' ∉ l → '\r' ∉ l →
        IsText ls rest → IsText (l :: ls) (l ++ ['\n'] ++ rest) :=
      fun l ls rest h h' ht => .cons l ['\n'] ls rest h h' (Or.inl rfl) ht
    refine .cons "cell".toList ['\r', '\n'] _ _ (by decide) (by decide) (Or.inr (Or.inl rfl)) ?_
    refine step " 2.0".toList _ _ (by decide) (by decide) ?_
    refine step "1 0 0".toList _ _ (by decide) (by decide) ?_
    refine step "0 1 0".toList _ _ (by decide) (by decide) ?_
    refine step "0 0 1 # c".toList _ _ (by decide) (by decide) ?_
    refine step " O H".toList _ _ (by decide) (by decide) ?_
    refine step "1 2".toList _ _ (by decide) (by decide) ?_
    refine step "Sel".toList _ _ (by decide) (by decide) ?_
    refine step "Cart".toList _ _ (by decide) (by decide) ?_
    refine step "1 1 1 T T T".toList _ _ (by decide) (by decide) ?_
    refine step "0 0 0".toList _ _ (by decide) (by decide) ?_
    exact .last "2 0 -1e0".toList (by decide) (by decide)
  rw [C114_poscar _ _ _ hls']
  have v1 : VectorLine "1 0 0".toList ![some 1, some 0, some 0] := vectorLine_of (by decide +kernel)
  have v2 : VectorLine "0 1 0".toList ![some 0, some 1, some 0] := vectorLine_of (by decide +kernel)
  have v3 : VectorLine "0 0 1 # c".toList ![some 0, some 0, some 1] :=
    vectorLine_of (by decide +kernel)
  have p1 : VectorLine "1 1 1 T T T".toList ![some 1, some 1, some 1] :=
    vectorLine_of (by decide +kernel)
  have p2 : VectorLine "0 0 0".toList ![some 0, some 0, some 0] := vectorLine_of (by decide +kernel)
  have p3 : VectorLine "2 0 -1e0".toList ![some 2, some 0, some (-1)] :=
    vectorLine_of (by decide +kernel)
  refine ⟨⟨⟨2, fun i j => (1 : Matrix (Fin 3) (Fin 3) ℚ) i j, ?_, ?_, ?_⟩,
    ⟨["O".toList, "H".toList], ["1".toList, "2".toList], [8, 1], [1, 2], ?_, by simp, ?_, ?_, ?_, rfl,
      rfl⟩⟩, _, 8, ?_, rfl, [![some 1, some 1, some 1], ![some 0, some 0, some 0], ![some 2, some 0, some (-1)]],
    rfl, ?_, Or.inr ⟨Or.inr rfl, by simp, ?_, ?_⟩⟩
  · rw [← parseFloat_iff]; decide +kernel
  · intro i
    fin_cases i
    · convert v1 using 1 <;> first | rfl | (funext j; fin_cases j <;> rfl)
    · convert v2 using 1 <;> first | rfl | (funext j; fin_cases j <;> rfl)
    · convert v3 using 1 <;> first | rfl | (funext j; fin_cases j <;> rfl)
  · intro i j
    fin_cases i <;> fin_cases j <;> norm_num [Matrix.one_apply, Matrix.ofNat_apply]
  · rw [← splitWs_iff]; decide +kernel
  · rw [← splitWs_iff]; decide +kernel
  · exact .cons (by decide +kernel) (.cons (by decide +kernel) .nil)
  · refine .cons ?_ (.cons ?_ .nil)
    · exact (parseInt_word (by unfold NoSpace; decide) 1).1 (by decide +kernel)
    · exact (parseInt_word (by unfold NoSpace; decide) 2).1 (by decide +kernel)
  · exact Or.inl ⟨Or.inr rfl, rfl⟩
  · intro i hi
    match i, hi with
    | 0, _ => exact p1
    | 1, _ => exact p2
    | 2, _ => exact p3
  · rw [Matrix.det_fin_three]
    norm_num [Matrix.ofNat_apply]
  · have hrow : ∀ x y : Fin 3 → ℚ, (∀ i, 2 * y i = x i) → CartesianRow 2 (fun i => some (x i))
        (fun i => some (y i)) := by
      intro x y hxy
      refine ⟨?_, ?_⟩
      · intro x' hx'
        refine ⟨y, rfl, fun k => ?_⟩
        have : x' k = x k := (Option.some.inj (congrFun hx' k)).symm
        rw [this, ← hxy k, Fin.sum_univ_three]
        fin_cases k <;> simp [Matrix.ofNat_apply, mul_comm]
      · rintro ⟨i, hi⟩; cases hi
    refine .cons ?_ (.cons ?_ (.cons ?_ .nil))
    · convert hrow (fun _ => 1) (fun _ => 1 / 2) (fun i => by norm_num) using 1
      funext i; fin_cases i <;> rfl
    · convert hrow (fun _ => 0) (fun _ => 0) (fun i => by norm_num) using 1
      funext i; fin_cases i <;> rfl
    · convert hrow ![2, 0, -1] ![1, 0, -(1 / 2)] (fun i => by fin_cases i <;> norm_num) using 1
      · funext i; fin_cases i <;> rfl
      · funext i; fin_cases i <;> rfl

/-! ## C115 -/

/-- C115: `read_positions` returns the positions of the structure that `read_structure` returns, and
raises the same exception otherwise. -/
theorem C115_positions (ext : NumMat → Py NumMat) (content : List Char) :
    (∀ s, readStructure ext content = .ok s → readPoscarPositions ext content = .ok s.positions) ∧
    (∀ e, readStructure ext content = .error e → readPoscarPositions ext content = .error e) := by
  unfold readStructure readPoscarPositions
  dsimp only
  cases readLattice (universalNewlines content) with
  | error e =>
    refine ⟨fun s h => ?_, fun e' h => ?_⟩
    · cases h
    · cases h; rfl
  | ok x =>
    obtain ⟨m, f1⟩ := x
    rcases readAtomicSymbols_cases f1 with h | ⟨l, f2, h, -, hk⟩
    · constructor
      · intro s e
        change (readAtomicSymbols f1 >>= _) = _ at e
        rw [h] at e; cases e
      · intro e' e
        change (readAtomicSymbols f1 >>= _) = _ at e
        change (readAtomicSymbols f1 >>= _) = _
        rw [h] at e ⊢
        cases e; rfl
    · obtain ⟨ns, hns, -⟩ := mapM_numberOf hk
      have h1 : ∀ r, readPositions ext f2 m l.length = r →
          (((Except.ok (m, f1) : Py _) >>= fun x => do
            let (lattice, f) := x
            let (symbols, f) ← readAtomicSymbols f
            let numbers ← symbols.mapM numberOf
            let (positions, _) ← dropMsg (readPositions ext f lattice symbols.length)
            return (⟨lattice, numbers, positions⟩ : ReadStructure)) =
            (dropMsg r >>= fun y => .ok ⟨m, ns, y.1⟩)) ∧
          (((Except.ok (m, f1) : Py _) >>= fun x => do
            let (lattice, f) := x
            let (symbols, f) ← readAtomicSymbols f
            let (positions, _) ← dropMsg (readPositions ext f lattice symbols.length)
            return positions) = (dropMsg r >>= fun y => .ok y.1)) := by
        intro r hr
        constructor
        · change (readAtomicSymbols f1 >>= _) = _
          rw [h]
          change (l.mapM numberOf >>= _) = _
          rw [hns]
          change (dropMsg (readPositions ext f2 m l.length) >>= _) = _
          rw [hr]; rfl
        · change (readAtomicSymbols f1 >>= _) = _
          rw [h]
          change (dropMsg (readPositions ext f2 m l.length) >>= _) = _
          rw [hr]; rfl
      obtain ⟨k1, k2⟩ := h1 _ rfl
      constructor
      · intro s e
        rw [k1] at e
        rw [k2]
        revert e
        cases readPositions ext f2 m l.length with
        | error r => intro e; cases e
        | ok y => intro e; cases e; rfl
      · intro e' e
        rw [k1] at e
        rw [k2]
        revert e
        cases readPositions ext f2 m l.length with
        | error r => intro e; cases e; rfl
        | ok y => intro e; cases e

end Verif
