import Verif.Proofs.Poscar
import Verif.Spec.Text
import Mathlib.Data.List.Infix

/-!
# Helper lemmas: reading truncated files
-/

namespace Verif

theorem prefix_append {α : Type} {p a b : List α} (h : p <+: a ++ b) :
    p <+: a ∨ ∃ q, p = a ++ q ∧ q <+: b := by
  obtain ⟨t, ht⟩ := h
  rcases List.append_eq_append_iff.1 ht with ⟨u, hu, -⟩ | ⟨u, hu, hv⟩
  · exact Or.inl ⟨u, hu.symm⟩
  · exact Or.inr ⟨u, hu, t, hv.symm⟩

theorem prefix_line {p l rest : List Char} (h : p <+: (l ++ ['\n']) ++ rest) :
    p <+: l ∨ ∃ q, p = l ++ '\n' :: q ∧ q <+: rest := by
  rcases prefix_append h with h | ⟨q, rfl, hq⟩
  · rcases prefix_append h with h | ⟨q, rfl, hq⟩
    · exact Or.inl h
    · cases q with
      | nil => exact Or.inl (by simp)
      | cons c q =>
        obtain ⟨rfl, hq'⟩ := List.cons_prefix_cons.1 hq
        rw [List.prefix_nil] at hq'
        subst hq'
        exact Or.inr ⟨[], rfl, List.nil_prefix⟩
  · exact Or.inr ⟨q, by simp, hq⟩

theorem readline_prefix {p l rest : List Char} (hl : '\n' ∉ l) (h : p <+: (l ++ ['\n']) ++ rest) :
    (p <+: l ∧ readline p = (p, [])) ∨
      ∃ q, q <+: rest ∧ readline p = (l ++ ['\n'], q) ∧ p = l ++ '\n' :: q := by
  rcases prefix_line h with h | ⟨q, rfl, hq⟩
  · exact Or.inl ⟨h, readline_last fun hn => hl (h.subset hn)⟩
  · exact Or.inr ⟨q, hq, readline_line hl q, rfl⟩

theorem splitAux_length_mono {p s : List Char} (cur : Word) (h : p <+: s) :
    (splitAux cur p).length ≤ (splitAux cur s).length := by
  induction s generalizing cur p with
  | nil => rw [List.prefix_nil] at h; subst h; exact le_refl _
  | cons c s ih =>
    cases p with
    | nil =>
      rw [splitAux]
      split
      · simp
      · rename_i hne
        rw [splitAux]
        split
        · simp
        · have h1 := ih (cur ++ [c]) (List.nil_prefix (l := s))
          rw [splitAux_end (by simp)] at h1
          exact h1
    | cons c' p =>
      obtain ⟨rfl, hp⟩ := List.cons_prefix_cons.1 h
      rw [splitAux, splitAux]
      split
      · split
        · exact ih _ hp
        · have := ih [] hp
          simpa using this
      · exact ih _ hp

theorem mapM_length {α β : Type} (f : α → Option β) (l : List α) (r : List β)
    (h : l.mapM f = some r) : r.length = l.length := by
  induction l generalizing r with
  | nil =>
    rw [List.mapM_nil] at h
    cases h
    rfl
  | cons a l ih =>
    rw [List.mapM_cons] at h
    cases hf : f a with
    | none => rw [hf] at h; cases h
    | some b =>
      rw [hf] at h
      cases hl : l.mapM f with
      | none =>
        rw [hl] at h
        cases h
      | some bs =>
        rw [hl] at h
        cases h
        simp [ih bs hl]

theorem toVec_length {l : List Num} {v : NumVec} (h : toVec l = some v) : l.length = 3 := by
  match l, h with
  | [_, _, _], _ => rfl

theorem readVec_length {line : List Char} {v : NumVec} (h : readVec line = some v) :
    3 ≤ (splitWs line).length := by
  unfold readVec readRow at h
  cases hp : parseFloats ((splitWs line).take 3) with
  | none => rw [hp] at h; cases h
  | some r =>
    rw [hp] at h
    have h1 := mapM_length _ _ _ hp
    have h2 := toVec_length h
    rw [List.length_take] at h1
    omega

section
variable {K : Type} [Field K] [LinearOrder K] [IsStrictOrderedRing K] [FloorRing K]

theorem rounded_readBack (x : Option K) : Spec.Rounded x (readBack x) := by
  cases x with
  | none => trivial
  | some x =>
    change Spec.RoundedTo x (round16 x)
    have h := units_close x
    refine ⟨units x, rfl, ?_, fun h => units_tie h⟩
    generalize |x * 10 ^ 16 - ↑(units x)| = a at h ⊢
    linarith

/-- A vector line cut anywhere: if a vector can still be read, its first two entries are
right. -/
theorem readVec_cut (n : ℕ) (v : Fin 3 → Option K) {p : List Char} {w : NumVec}
    (hp : p <+: vectorBody (List.replicate n ' ') v) (h : readVec p = some w) :
    w 0 = readBack (v 0) ∧ w 1 = readBack (v 1) := by
  have h3 : "   ".toList = [' ', ' ', ' '] := by decide
  have split2 : ∀ q, splitAux [] (((List.replicate n ' ' ++ fmt916 (v 0) ++ "   ".toList) ++
      fmt916 (v 1) ++ "   ".toList) ++ q) = fmtWord (v 0) :: fmtWord (v 1) :: splitAux [] q := by
    intro q
    rw [h3]
    simp only [List.append_assoc]
    rw [splitAux_blanks, List.cons_append, splitAux_fmt _ (by decide)]
    simp only [List.cons_append, List.nil_append]
    rw [splitAux_skip (by decide), splitAux_skip (by decide), splitAux_fmt _ (by decide),
      splitAux_skip (by decide), splitAux_skip (by decide)]
  unfold vectorBody at hp
  rcases prefix_append hp with hp | ⟨q, rfl, hq⟩
  · exfalso
    have h1 := splitAux_length_mono [] hp
    have h2 := split2 []
    rw [List.append_nil] at h2
    rw [h2] at h1
    have h4 := readVec_length h
    unfold splitWs at h4
    simp [splitAux] at h1
    omega
  · unfold readVec readRow splitWs at h
    rw [split2] at h
    simp only [List.take_succ_cons, parseFloats, List.mapM_cons, parseFloat_fmtWord] at h
    generalize hr : List.mapM parseFloat (List.take 1 (splitAux [] q)) = r at h
    cases r with
    | none => cases h
    | some r =>
      change toVec (_ :: _ :: r) = some w at h
      match r, h with
      | [c], h =>
        rw [toVec] at h
        have := Option.some.inj h
        rw [← this]
        exact ⟨rfl, rfl⟩

theorem readVec_nil : readVec [] = none := rfl

theorem readVectors_nil (n : ℕ) : ∃ r : Raised, r.err = .invalidFile ∧
    readVectors (n + 1) [] = .error r := ⟨_, rfl, rfl⟩

/-- Position rows of a truncated file. -/
theorem readVectors_cut (ps : List (Fin 3 → Option K)) {p rest : List Char}
    (hp : p <+: getPositionsStr ps ++ rest) :
    (∃ r : Raised, r.err = .invalidFile ∧ readVectors ps.length p = .error r) ∨
    (∃ q, q <+: rest ∧ p = getPositionsStr ps ++ q ∧
      readVectors ps.length p = .ok (ps.map fun p i => readBack (p i), q)) ∨
    ∃ c₁ v w, ps = c₁ ++ [v] ∧ w 0 = readBack (v 0) ∧ w 1 = readBack (v 1) ∧
      readVectors ps.length p = .ok ((c₁.map fun p i => readBack (p i)) ++ [w], []) := by
  induction ps generalizing p with
  | nil => exact Or.inr (Or.inl ⟨p, hp, rfl, rfl⟩)
  | cons v ps ih =>
    have hs : getPositionsStr (v :: ps) = (vectorBody (List.replicate 2 ' ') v ++ ['\n']) ++
        getPositionsStr ps := by
      unfold getPositionsStr
      rw [List.flatMap_cons, blanks2, vectorLine_eq]
    rw [hs, List.append_assoc] at hp
    rw [List.length_cons, readVectors]
    rcases readline_prefix (newline_vectorBody 2 v) hp with ⟨hp', hr⟩ | ⟨q, hq, hr, hpq⟩
    · rw [hr]
      dsimp only
      cases hv : readVec p with
      | none => exact Or.inl ⟨_, rfl, rfl⟩
      | some w =>
        dsimp only
        cases ps with
        | nil =>
          have := readVec_cut 2 v hp' hv
          exact Or.inr (Or.inr ⟨[], v, w, rfl, this.1, this.2, rfl⟩)
        | cons u ps =>
          obtain ⟨r, hr1, hr2⟩ := readVectors_nil ps.length
          refine Or.inl ⟨r, hr1, ?_⟩
          rw [List.length_cons, hr2]
          rfl
    · rw [hr, ← vectorLine_eq]
      dsimp only
      rw [readVec_vectorLine]
      dsimp only
      rcases ih hq with ⟨r, hr1, hr2⟩ | ⟨q', hq', hqe, hok⟩ | ⟨c₁, u, w, h1, h2, h3, h4⟩
      · exact Or.inl ⟨r, hr1, by rw [hr2]; rfl⟩
      · refine Or.inr (Or.inl ⟨q', hq', ?_, by rw [hok]; rfl⟩)
        rw [hs, hpq, hqe]
        simp
      · refine Or.inr (Or.inr ⟨v :: c₁, u, w, by rw [h1]; rfl, h2, h3, ?_⟩)
        rw [h4]
        rfl

/-- Lattice of a truncated file. -/
theorem latticeRow_cut (n : ℕ) (v : Fin 3 → Option K) {p rest : List Char}
    (hp : p <+: vectorLine (List.replicate n ' ') v ++ rest) :
    latticeRow p = .error .invalidFile ∨
      ∃ w q, q <+: rest ∧ latticeRow p = .ok (w, q) := by
  rw [vectorLine_eq] at hp
  unfold latticeRow
  rcases readline_prefix (newline_vectorBody n v) hp with ⟨hp', hr⟩ | ⟨q, hq, hr, hpq⟩
  · rw [hr]
    dsimp only
    cases readVec p with
    | none => exact Or.inl rfl
    | some w => exact Or.inr ⟨w, [], List.nil_prefix, rfl⟩
  · rw [hr, ← vectorLine_eq]
    dsimp only
    rw [readVec_vectorLine]
    exact Or.inr ⟨_, q, hq, rfl⟩

theorem readLattice_cut (printable : Char → Bool) (label : List Char)
    (lattice : Fin 3 → Fin 3 → Option K) {p rest : List Char}
    (hp : p <+: headerStr printable label ++ (getLatticeStr lattice ++ rest)) :
    readLattice p = .error .invalidFile ∨
      ∃ m q, q <+: rest ∧ readLattice p = .ok (m, q) := by
  unfold headerStr at hp
  rw [List.append_assoc] at hp
  unfold readLattice
  have main : ∀ f : List Char, f <+: getLatticeStr lattice ++ rest → ∀ scale,
      ((do
        let (v0, f) ← latticeRow f
        let (v1, f) ← latticeRow f
        let (v2, f) ← latticeRow f
        return ((fun i j => numMul (![v0, v1, v2] i j) scale : NumMat), f) : Py _) =
          .error .invalidFile ∨
      ∃ m q, q <+: rest ∧ (do
        let (v0, f) ← latticeRow f
        let (v1, f) ← latticeRow f
        let (v2, f) ← latticeRow f
        return ((fun i j => numMul (![v0, v1, v2] i j) scale : NumMat), f) : Py _) = .ok (m, q)) := by
    intro f hf scale
    unfold getLatticeStr at hf
    rw [blanks5, List.append_assoc, List.append_assoc] at hf
    rcases latticeRow_cut 5 (lattice 0) hf with h | ⟨w0, f1, hf1, h⟩
    · rw [h]; exact Or.inl rfl
    · rw [h]
      rcases latticeRow_cut 5 (lattice 1) hf1 with h | ⟨w1, f2, hf2, h⟩
      · left
        change (latticeRow f1 >>= _) = _
        rw [h]; rfl
      · rcases latticeRow_cut 5 (lattice 2) hf2 with h' | ⟨w2, f3, hf3, h'⟩
        · left
          change (latticeRow f1 >>= _) = _
          rw [h]
          change (latticeRow f2 >>= _) = _
          rw [h']
          rfl
        · right
          refine ⟨fun i j => numMul (![w0, w1, w2] i j) scale, f3, hf3, ?_⟩
          change (latticeRow f1 >>= _) = _
          rw [h]
          change (latticeRow f2 >>= _) = _
          rw [h']
          rfl
  rcases readline_prefix (label_newline printable label).1 hp with ⟨hp', hr⟩ | ⟨q, hq, hr, hpq⟩
  · rw [hr]
    exact Or.inl rfl
  · rw [hr]
    dsimp only
    rcases readline_prefix (by decide) hq with ⟨hq', hr⟩ | ⟨q', hq', hr, hpq'⟩
    · rw [hr]
      dsimp only
      cases parseFloat q with
      | none => exact Or.inl rfl
      | some s => exact main [] List.nil_prefix s
    · rw [hr]
      dsimp only
      rw [parse_scale]
      exact main q' hq' _

theorem readAtomicSymbols_nil : readAtomicSymbols [] = .error .invalidFile := rfl

/-- Element lines of a truncated file. -/
theorem readAtomicSymbols_cut {us : List ℕ} {syms : List Word} (cs : List ℕ)
    (h : List.Forall₂ (fun u s => dictGet atomSymbols u = some s) us syms) (hne : us ≠ [])
    (hlen : cs.length = us.length) {p rest : List Char}
    (hp : p <+: (symBody syms ++ ['\n']) ++ ((cntBody cs ++ ['\n']) ++ rest)) :
    readAtomicSymbols p = .error .invalidFile ∨ (∃ l, readAtomicSymbols p = .ok (l, [])) ∨
      ∃ q, q <+: rest ∧ readAtomicSymbols p =
        .ok (expandSymbols syms (cs.map fun c => (c : ℤ)), q) := by
  rcases readline_prefix (symBody_newline (syms_words h)) hp with ⟨hp', hr⟩ | ⟨q, hq, hr, hpq⟩
  · left
    unfold readAtomicSymbols
    rw [hr]
    dsimp only
    split
    · rfl
    · split
      · rfl
      · rename_i h1 h2
        rw [if_pos]
        intro h3
        exact h1 h3.symm
  · rcases readline_prefix (cntBody_newline cs) hq with ⟨hq', hr'⟩ | ⟨q', hq', hr', hpq'⟩
    · unfold readAtomicSymbols
      rw [hr]
      dsimp only
      rw [hr']
      dsimp only
      split
      · exact Or.inl rfl
      · split
        · exact Or.inl rfl
        · split
          · exact Or.inl rfl
          · split
            · exact Or.inl rfl
            · exact Or.inr (Or.inl ⟨_, rfl⟩)
    · right; right
      refine ⟨q', hq', ?_⟩
      rw [hpq, hpq', ← readAtomicSymbols_written cs h hne hlen q']
      simp

theorem readPositions_nil (ext : NumMat → Py NumMat) (lattice : NumMat) (n : ℕ) :
    ∃ r : Raised, readPositions ext [] lattice n = .error r ∧ r.err = .invalidFile ∧
      contains missingMsg r.msg = true := by
  refine ⟨_, rfl, rfl, ?_⟩
  unfold contains
  rw [decide_eq_true_iff, List.append_assoc, List.append_assoc]
  exact (List.prefix_append _ _).isInfix

theorem readTsLoop_nil (ext : NumMat → Py NumMat) (lattice : NumMat) (n fuel : ℕ) :
    readTsLoop ext lattice n (fuel + 1) [] = .ok [] := by
  obtain ⟨r, h1, h2, h3⟩ := readPositions_nil ext lattice n
  rw [readTsLoop, h1]
  dsimp only
  rw [if_pos ⟨h2, h3⟩]

/-- A coordinate format line cut anywhere. -/
theorem readPositions_cut (ext : NumMat → Py NumMat) (lattice : NumMat) {l p rest : List Char}
    (hl : '\n' ∉ l) (ps : List (Fin 3 → Option K))
    (hp : p <+: ('D' :: l ++ ['\n']) ++ (getPositionsStr ps ++ rest)) :
    (∃ q, q <+: getPositionsStr ps ++ rest ∧ ∀ n, readPositions ext p lattice n =
      (readVectors n q >>= fun x => .ok (x.1, x.2)) ∧ p ≠ [] ∧ q.length < p.length) ∨ p = [] := by
  cases p with
  | nil => exact Or.inr rfl
  | cons c p =>
    left
    have hstrip : ∀ l', strip ('D' :: l') ≠ [] := by
      intro l'
      unfold strip
      rw [List.dropWhile_cons, if_neg (by decide)]
      intro h
      rw [List.reverse_eq_nil_iff, List.dropWhile_eq_nil_iff] at h
      have := h 'D' (by simp)
      revert this; decide
    have hD : ∀ l', ¬ (strip ('D' :: l') = [] ∨ isSpace 'D' = true) := by
      rintro l' (h | h)
      · exact hstrip _ h
      · exact absurd h (by decide)
    have body : ∀ l' q n, (∃ f, readline f = ('D' :: l', q) ∧ f = c :: p) →
        readPositions ext (c :: p) lattice n = (readVectors n q >>= fun x => .ok (x.1, x.2)) := by
      rintro l' q n ⟨f, hf, rfl⟩
      unfold readPositions
      rw [hf]
      dsimp only [List.head?_cons]
      rw [if_neg (hD l'), if_neg (by decide)]
      unfold readFormat
      dsimp only [List.head?_cons]
      rw [if_neg (by decide), if_neg (by decide)]
      unfold readCoordinates
      rfl
    rcases readline_prefix (by simp [hl]) hp with ⟨hp', hr⟩ | ⟨q, hq, hr, hpq⟩
    · refine ⟨[], List.nil_prefix, fun n => ?_⟩
      have hc := (List.cons_prefix_cons.1 hp').1
      rw [hc] at hr ⊢
      exact ⟨hc ▸ body p [] n ⟨_, hr, by rw [hc]⟩, by simp, by simp⟩
    · refine ⟨q, hq, fun n => ⟨body (l ++ ['\n']) q n ⟨_, hr, rfl⟩, by simp, ?_⟩⟩
      rw [hpq]
      simp
      omega

theorem configsStr_nil (i : ℕ) : configsStr (K := K) i [] = [] := rfl

theorem configsStr_succ (i : ℕ) (ps : List (Fin 3 → Option K))
    (rest : List (List (Fin 3 → Option K))) : configsStr i (ps :: rest) =
      "Direct configuration= ".toList ++ padLeft 6 (natStr (i + 1)) ++ ['\n'] ++
      getPositionsStr ps ++ configsStr (i + 1) rest := rfl

theorem configsStr_cons (i : ℕ) (ps : List (Fin 3 → Option K))
    (rest : List (List (Fin 3 → Option K))) :
    ∃ l, '\n' ∉ l ∧ '\r' ∉ l ∧ configsStr i (ps :: rest) = ('D' :: l ++ ['\n']) ++
      (getPositionsStr ps ++ configsStr (i + 1) rest) := by
  have hD : "Direct configuration= ".toList = 'D' :: "irect configuration= ".toList := by decide
  refine ⟨"irect configuration= ".toList ++ padLeft 6 (natStr (i + 1)), ?_, ?_, ?_⟩
  · have := noSpace_newline (noSpace_natStr (i + 1))
    unfold padLeft
    simp [this, List.mem_replicate]
  · have : '\r' ∉ natStr (i + 1) := fun h => absurd (noSpace_natStr (i + 1) _ h) (by decide)
    unfold padLeft
    simp [this, List.mem_replicate]
  · rw [configsStr_succ, hD]
    simp only [List.append_assoc, List.cons_append]

/-- Configurations of a truncated file. -/
theorem readTsLoop_cut (ext : NumMat → Py NumMat) (lattice : NumMat) (n : ℕ) (hn : 0 < n)
    (w : List (List (Fin 3 → Option K))) (hw : ∀ ps ∈ w, ps.length = n) (i : ℕ) {p : List Char}
    (hp : p <+: configsStr i w) (fuel : ℕ) (hf : p.length < fuel) :
    readTsLoop ext lattice n fuel p = .error .invalidFile ∨
    ∃ r, readTsLoop ext lattice n fuel p = .ok r ∧ Spec.TruncatedTo w r := by
  induction w generalizing i p fuel with
  | nil =>
    rw [configsStr_nil, List.prefix_nil] at hp
    subst hp
    obtain ⟨fuel, rfl⟩ : ∃ k, fuel = k + 1 := ⟨fuel - 1, by omega⟩
    exact Or.inr ⟨[], readTsLoop_nil ext lattice n fuel, Or.inl ⟨0, by simp⟩⟩
  | cons ps w ih =>
    obtain ⟨fuel, rfl⟩ : ∃ k, fuel = k + 1 := ⟨fuel - 1, by omega⟩
    obtain ⟨l, hl, -, hc⟩ := configsStr_cons i ps w
    rw [hc] at hp
    have hps : ps.length = n := hw ps (by simp)
    rcases readPositions_cut ext lattice hl ps hp with ⟨q, hq, hr⟩ | rfl
    · obtain ⟨hr, -, hlt⟩ := hr n
      rw [readTsLoop, hr]
      rcases readVectors_cut ps hq with ⟨r, hr1, hr2⟩ | ⟨q', hq', hqe, hok⟩ |
        ⟨c₁, u, v, h1, h2, h3, h4⟩
      · rw [← hps, hr2]
        change (if r.err = _ ∧ _ then _ else _) = _ ∨ ∃ _, (if r.err = _ ∧ _ then _ else _) = _ ∧ _
        by_cases hcnt : contains missingMsg r.msg = true
        · rw [if_pos ⟨hr1, hcnt⟩]
          exact Or.inr ⟨[], rfl, Or.inl ⟨0, by simp⟩⟩
        · rw [if_neg (fun h => hcnt h.2), hr1]
          exact Or.inl rfl
      · rw [← hps, hok]
        change (readTsLoop ext lattice ps.length fuel q' >>= _) = _ ∨
          ∃ _, (readTsLoop ext lattice ps.length fuel q' >>= _) = _ ∧ _
        have hlen : q'.length ≤ q.length := by rw [hqe]; simp
        rcases ih (fun x hx => hw x (by simp [hx])) (i + 1) hq' fuel (by omega) with h | ⟨r, h, ht⟩
        · rw [hps, h]
          exact Or.inl rfl
        · rw [hps, h]
          right
          refine ⟨(ps.map fun p i => readBack (p i)) :: r, rfl, ?_⟩
          have hhead : List.Forall₂ Spec.RoundedVec ps (ps.map fun p i => readBack (p i)) := by
            rw [List.forall₂_map_right_iff, List.forall₂_same]
            exact fun x _ i => rounded_readBack (x i)
          rcases ht with ⟨k, hk⟩ | ⟨w₁, c, w₂, r₁, d, e1, e2, e3, e4⟩
          · exact Or.inl ⟨k + 1, by rw [List.take_succ_cons]; exact List.Forall₂.cons hhead hk⟩
          · refine Or.inr ⟨ps :: w₁, c, w₂, (ps.map fun p i => readBack (p i)) :: r₁, d, ?_, ?_,
              List.Forall₂.cons hhead e3, e4⟩
            · rw [e1]; rfl
            · rw [e2]; rfl
      · rw [← hps, h4]
        right
        refine ⟨[(c₁.map fun p i => readBack (p i)) ++ [v]], ?_, ?_⟩
        · change (readTsLoop ext lattice ps.length fuel [] >>= _) = _
          obtain ⟨fuel', rfl⟩ : ∃ k, fuel = k + 1 := ⟨fuel - 1, by omega⟩
          rw [readTsLoop_nil]
          rfl
        · refine Or.inr ⟨[], ps, w, [], _, rfl, rfl, List.Forall₂.nil, c₁, u, _, v, h1, rfl, ?_, ?_, ?_⟩
          · rw [List.forall₂_map_right_iff, List.forall₂_same]
            exact fun x _ i => rounded_readBack (x i)
          · rw [h2]; exact rounded_readBack _
          · rw [h3]; exact rounded_readBack _
    · exact Or.inr ⟨[], readTsLoop_nil ext lattice n fuel, Or.inl ⟨0, by simp⟩⟩

end

end Verif
