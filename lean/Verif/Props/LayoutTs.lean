import Verif.Props.Layout
import Verif.Proofs.Outcar

/-!
# Property C116: XDATCAR files on arbitrary text
-/

namespace Verif

open Spec

theorem after_unique {ls : List (List Char)} {k : ℕ} {f g : List Char} (hf : After ls k f)
    (hg : After ls k g) : f = g := by
  obtain ⟨-, ⟨h1, rfl⟩ | ⟨h1, rfl⟩⟩ := hf <;> obtain ⟨-, ⟨h2, rfl⟩ | ⟨h2, rfl⟩⟩ := hg
  · rfl
  · omega
  · omega
  · rfl

theorem restAfter_length (f : List Char) (j : ℕ) : (restAfter f j).length ≤ f.length := by
  induction j with
  | zero => exact le_rfl
  | succ j ih =>
    rw [restAfter_succ]
    have := congrArg List.length (readline_append (restAfter f j))
    rw [List.length_append] at this
    omega

theorem block_config {ext : NumMat → Py NumMat} {ls : List (List Char)} {k n next : ℕ}
    {a : Matrix (Fin 3) (Fin 3) ℚ} {ps : List NumVec} :
    Block ext ls k (fun i j => some (a i j)) n ps next ↔ ConfigAt ls a n k ps next := by
  unfold Block ConfigAt
  constructor
  · rintro ⟨m, hm, hn, raw, r1, r2, cart, (⟨rfl, hc⟩ | ⟨rfl, hc⟩), hconv⟩
    · exact ⟨m, hm, hn, raw, r1, r2, Or.inr ⟨hc, (converted_iff ext a raw ps).1 hconv⟩⟩
    · exact ⟨m, hm, hn, raw, r1, r2, Or.inl ⟨hc, hconv⟩⟩
  · rintro ⟨m, hm, hn, raw, r1, r2, (⟨hd, rfl⟩ | ⟨hc, hconv⟩)⟩
    · exact ⟨m, hm, hn, _, r1, r2, false, Or.inr ⟨rfl, hd⟩, rfl⟩
    · exact ⟨m, hm, hn, raw, r1, r2, true, Or.inl ⟨rfl, hc⟩, (converted_iff ext a raw ps).2 hconv⟩

theorem configAt_next {ls : List (List Char)} {k n next : ℕ} {a : Matrix (Fin 3) (Fin 3) ℚ}
    {ps : List NumVec} (h : ConfigAt ls a n k ps next) : k < next ∧ (ls.getD k []) ≠ [] := by
  obtain ⟨m, hm, rfl, raw, -, -, hf⟩ := h
  have hne : ∀ (l : List Char) (c d : Char), Begins l c d → l ≠ [] := by
    rintro l c d (h | h) rfl <;> cases h
  rcases hm with ⟨hs, rfl⟩ | ⟨-, rfl⟩
  · exact ⟨by omega, hne _ _ _ hs⟩
  · refine ⟨by omega, ?_⟩
    rcases hf with ⟨hd, -⟩ | ⟨hc, -⟩
    · exact hne _ _ _ hd
    · exact hne _ _ _ hc

/-- The reader stops without an exception at this point of the file. -/
def StopsAt (ext : NumMat → Py NumMat) (lattice : NumMat) (n : ℕ) (g : List Char) : Prop :=
  ∃ r, readPositions ext g lattice n = .error r ∧ r.err = .invalidFile ∧
    contains missingMsg r.msg = true

theorem loop_iff (ext : NumMat → Py NumMat) (ls : List (List Char)) (a : Matrix (Fin 3) (Fin 3) ℚ)
    (n fuel k : ℕ) (f : List Char) (h : After ls k f) (hf : f.length < fuel)
    (cs : List (List NumVec)) :
    readTsLoop ext (fun i j => some (a i j)) n fuel f = .ok cs ↔
      ∃ e g, Configs ls a n k cs e ∧ After ls e g ∧ StopsAt ext (fun i j => some (a i j)) n g := by
  induction fuel generalizing k f cs with
  | zero => omega
  | succ fuel ih =>
    rw [readTsLoop]
    cases hr : readPositions ext f (fun i j => some (a i j)) n with
    | error r =>
      dsimp only
      constructor
      · intro e
        split at e
        · rename_i hc
          cases e
          exact ⟨k, f, .nil k, h, r, hr, hc⟩
        · cases e
      · rintro ⟨e, g, hc, hg, r', hr', hs⟩
        cases hc with
        | nil =>
          obtain rfl := after_unique h hg
          rw [hr] at hr'
          cases hr'
          rw [if_pos hs]
        | @cons _ next _ p ps hp hps =>
          obtain ⟨j, rfl⟩ : ∃ j, next = k + j :=
            ⟨next - k, by have := (configAt_next hp).1; omega⟩
          have := (readPositions_iff (ext := ext) h (fun i j => some (a i j)) n p
            (restAfter f j)).2 ⟨j, block_config.2 hp, rfl⟩
          rw [hr] at this
          cases this
    | ok x =>
      obtain ⟨p, g⟩ := x
      obtain ⟨j, hb, rfl⟩ := (readPositions_iff h _ _ _ _).1 hr
      have hcfg := block_config.1 hb
      have hlt : (restAfter f j).length < fuel := by
        obtain ⟨h1, h2⟩ := configAt_next hcfg
        obtain ⟨j, rfl⟩ : ∃ i, j = 1 + i := ⟨j - 1, by omega⟩
        rw [← restAfter_add]
        have h3 := restAfter_length (restAfter f 1) j
        have h4 : (restAfter f 1).length < f.length := by
          have h5 := congrArg List.length (readline_append f)
          rw [List.length_append] at h5
          change (readline f).2.length < _
          have : 0 < (readline f).1.length := by
            apply List.length_pos_iff.2
            rcases h.readline.1 with e | e
            · rw [e]; exact h2
            · rw [e]; simp
          omega
        omega
      dsimp only
      rw [bind_ok_iff]
      constructor
      · rintro ⟨rest, hrest, e⟩
        cases e
        obtain ⟨e, g, hc, hg, hs⟩ := (ih _ _ (restAfter_after h j) hlt rest).1 hrest
        exact ⟨e, g, .cons hcfg hc, hg, hs⟩
      · rintro ⟨e, g, hc, hg, hs⟩
        cases hc with
        | nil =>
          obtain rfl := after_unique h hg
          obtain ⟨r, hr', -⟩ := hs
          rw [hr] at hr'
          cases hr'
        | @cons _ next _ p' ps hp hps =>
          obtain ⟨i, rfl⟩ : ∃ i, next = k + i :=
            ⟨next - k, by have := (configAt_next hp).1; omega⟩
          have h' := (readPositions_iff (ext := ext) h (fun i j => some (a i j)) n p'
            (restAfter f i)).2 ⟨i, block_config.2 hp, rfl⟩
          rw [hr] at h'
          have h'' := Except.ok.inj h'
          injection h'' with e1 e2
          subst e1
          refine ⟨ps, ?_, rfl⟩
          have hA := restAfter_after h i
          rw [← e2] at hA
          exact (ih _ _ hA hlt ps).2 ⟨e, g, hps, hg, hs⟩

theorem header_read {ls : List (List Char)} {f : List Char} (h0 : After ls 0 f)
    {a : Matrix (Fin 3) (Fin 3) ℚ} {numbers : List ℕ}
    (h : Header (fun s z => dictGet atomicNumbers s = some z) ls a numbers) :
    readLattice f = .ok (fun i j => some (a i j), restAfter f 5) ∧
    ∃ symbols, symbols.length = numbers.length ∧
      readAtomicSymbols (restAfter f 5) = .ok (symbols, restAfter f 7) := by
  have h5 := restAfter_after h0 5
  rw [zero_add] at h5
  obtain ⟨⟨scale, rows, hscale, hrows, ha⟩, ⟨symbols, cwords, zs, counts, w1, w2, w4, hz, w6, w5,
      hnum⟩⟩ := h
  refine ⟨(readLattice_iff h0 _ _).2
      ⟨some scale, fun i j => some (rows i j), hscale, hrows, ?_, rfl⟩,
    expandSymbols symbols counts, ?_, (readAtomicSymbols_iff h5 _ _).2
      ⟨symbols, cwords, counts, w1, w2, ?_, w4, ?_, w6, rfl, (restAfter_add f 5 2).symm⟩⟩
  · funext i j
    rw [ha i j]; rfl
  · rw [hnum, (expand_forall₂ counts hz).length_eq]
  · intro s hs
    obtain ⟨z, -, hz'⟩ := forall₂_mem_left hz s hs
    unfold knownSymbol
    rw [hz']; rfl
  · rw [w6.length_eq, w5, hz.length_eq]

theorem blankStart_stops {ext : NumMat → Py NumMat} {lattice : NumMat} {n : ℕ}
    {ls : List (List Char)} {e : ℕ} {g : List Char} (hg : After ls e g) (hb : BlankStart ls e) :
    StopsAt ext lattice n g := by
  unfold StopsAt readPositions
  dsimp only
  have hmsg : ∀ l : List Char, contains missingMsg (missingMsg ++ " '".toList ++ l ++ ['\'']) = true :=
    fun l => (contains_iff _ _).2 ⟨[], " '".toList ++ l ++ ['\''], by simp [List.append_assoc]⟩
  cases hh : (readline g).1.head? with
  | none => exact ⟨_, rfl, rfl, hmsg _⟩
  | some c =>
    have hc : isSpace c = true := by
      rcases hg.readline.1 with h | h
      · rw [h] at hh
        exact (isSpace_iff c).2 (hb c hh)
      · cases hl : ls.getD e [] with
        | nil =>
          rw [h, hl] at hh
          have : '\n' = c := Option.some.inj hh
          subst this; decide
        | cons d l =>
          rw [h, hl] at hh
          have : d = c := Option.some.inj hh
          subst this
          exact (isSpace_iff d).2 (hb d (by rw [hl]; rfl))
    dsimp only
    rw [if_pos (Or.inr hc)]
    exact ⟨_, rfl, rfl, hmsg _⟩

/-- A prefix that shares no boundary with the text searched. -/
theorem infix_append {needle pre l : List Char}
    (hpre : ∀ x ∈ pre.tails, x ≠ [] → ¬ x <+: needle ∧ ¬ needle <+: x) (h : needle <:+: pre ++ l) :
    needle <:+: l := by
  obtain ⟨s, t, e⟩ := h
  rw [List.append_assoc, List.append_eq_append_iff] at e
  rcases e with ⟨x, rfl, e⟩ | ⟨x, rfl, e⟩
  · by_cases hx : x = []
    · subst hx
      exact ⟨[], t, by simpa using e⟩
    · exfalso
      obtain ⟨h1, h2⟩ := hpre x (by rw [List.mem_tails]; exact List.suffix_append s x) hx
      rcases List.append_eq_append_iff.1 e with ⟨y, e1, -⟩ | ⟨y, e1, -⟩
      · exact h2 ⟨y, e1.symm⟩
      · exact h1 ⟨y, e1.symm⟩
  · exact ⟨x, t, by rw [e, List.append_assoc]⟩

theorem infix_line {needle l : List Char} (hn : '\n' ∉ needle) (h : needle <:+: l ++ ['\n']) :
    needle <:+: l := by
  obtain ⟨s, t, e⟩ := h
  by_cases ht : t = []
  · subst ht
    rw [List.append_nil] at e
    by_cases hne : needle = []
    · subst hne; exact List.nil_infix
    · exfalso
      apply hn
      have h1 : (s ++ needle).getLast? = needle.getLast? := by
        rw [List.getLast?_append]
        cases h : needle.getLast? with
        | none => exact absurd (List.getLast?_eq_none_iff.1 h) hne
        | some c => rfl
      rw [e] at h1
      have h2 : needle.getLast? = some '\n' := by rw [← h1]; simp
      exact List.mem_of_getLast? h2
  · refine ⟨s, t.dropLast, ?_⟩
    have := congrArg List.dropLast e
    rw [List.dropLast_append_of_ne_nil ht] at this
    simpa using this

theorem getD_infix {needle : List Char} (hn : needle ≠ []) {ls : List (List Char)} {k : ℕ}
    (h : needle <:+: ls.getD k []) : ∃ l ∈ ls, needle <:+: l := by
  by_cases hk : k < ls.length
  · refine ⟨ls[k], List.getElem_mem hk, ?_⟩
    simpa [List.getD, hk] using h
  · exfalso
    have : ls.getD k [] = [] := by simp [List.getD, hk]
    rw [this] at h
    exact hn (List.eq_nil_of_infix_nil h)

theorem stops_cases {ext : NumMat → Py NumMat} {lattice : NumMat} {n : ℕ}
    {ls : List (List Char)} {e : ℕ} {g : List Char} (hg : After ls e g)
    (h : StopsAt ext lattice n g) : BlankStart ls e ∨ ∃ l ∈ ls, missingMsg <:+: l := by
  have hline : ∀ {k : ℕ} {f : List Char}, After ls k f → missingMsg <:+: (readline f).1 →
      ∃ l ∈ ls, missingMsg <:+: l := by
    intro k f hk hi
    apply getD_infix (k := k) (by decide)
    rcases hk.readline.1 with h | h
    · rwa [h] at hi
    · rw [h] at hi
      exact infix_line (by decide) hi
  have hvec : ∀ (m k : ℕ) (f : List Char), After ls k f → ∀ r, readVectors m f = .error r →
      missingMsg <:+: r.msg → ∃ l ∈ ls, missingMsg <:+: l := by
    intro m
    induction m with
    | zero => intro k f _ r hr; cases hr
    | succ m ih =>
      intro k f hk r hr hm
      rw [readVectors] at hr
      dsimp only at hr
      split at hr
      · cases hr
        exact hline hk (infix_append (by decide) hm)
      · cases h1 : readVectors m (readline f).2 with
        | error r' =>
          rw [h1] at hr
          cases hr
          exact ih _ _ hk.readline.2 _ h1 hm
        | ok x => rw [h1] at hr; cases hr
  have hcoord : ∀ (cart : Bool) (k : ℕ) (f : List Char), After ls k f → ∀ r,
      readCoordinates ext cart f lattice n = .error r →
      missingMsg <:+: r.msg → ∃ l ∈ ls, missingMsg <:+: l := by
    intro cart k f hk r hr hm
    unfold readCoordinates at hr
    cases h1 : readVectors n f with
    | error r' =>
      rw [h1] at hr
      cases hr
      exact hvec _ _ _ hk _ h1 hm
    | ok x =>
      rw [h1] at hr
      cases cart with
      | false => cases hr
      | true =>
        exfalso
        have hr : toFractional ext lattice x.1 x.2 = .error r := hr
        unfold toFractional at hr
        split at hr
        · cases hr
          exact absurd (List.eq_nil_of_infix_nil hm) (by decide)
        · split at hr
          · cases hr
            exact absurd (List.eq_nil_of_infix_nil hm) (by decide)
          · cases hr
  have hform : ∀ (k : ℕ) (f : List Char), After ls k f → ∀ r,
      readFormat ext (readline f).1 (readline f).2 lattice n = .error r →
      missingMsg <:+: r.msg → ∃ l ∈ ls, missingMsg <:+: l := by
    intro k f hk r hr hm
    unfold readFormat at hr
    split at hr
    · cases hr
      exact absurd (List.eq_nil_of_infix_nil hm) (by decide)
    · split at hr
      · exact hcoord _ _ _ hk.readline.2 _ hr hm
      · split at hr
        · cases hr
          exact hline hk (infix_append (by decide) hm)
        · exact hcoord _ _ _ hk.readline.2 _ hr hm
  obtain ⟨r, hr, -, hm⟩ := h
  rw [contains_iff] at hm
  unfold readPositions at hr
  dsimp only at hr
  have hhead : ∀ c, (ls.getD e []).head? = some c → (readline g).1.head? = some c := by
    intro c hc
    rcases hg.readline.1 with h | h
    · rw [h]; exact hc
    · rw [h]
      cases hl : ls.getD e [] with
      | nil => rw [hl] at hc; cases hc
      | cons d l => rw [hl] at hc; exact hc
  split at hr
  · rename_i h0
    left
    intro c hc
    rw [hhead c hc] at h0
    cases h0
  · rename_i c h0
    split at hr
    · rename_i hb
      left
      intro c' hc'
      have hcc : c' = c := by
        have := hhead c' hc'
        rw [h0] at this
        exact (Option.some.inj this).symm
      subst hcc
      rw [← isSpace_iff]
      rcases hb with hb | hb
      · by_contra hs
        have hs : isSpace c' = false := by simpa using hs
        cases hl : (readline g).1 with
        | nil => rw [hl] at h0; cases h0
        | cons d l =>
          rw [hl] at h0 hb
          have : d = c' := Option.some.inj h0
          subst this
          exact strip_ne hs hb
      · exact hb
    · right
      split at hr
      · exact hform _ _ hg.readline.2 _ hr hm
      · exact hform _ _ hg _ hr hm

/-- C116: a header followed by configurations up to a line that does not exist, is empty or begins with a
blank is read as exactly these configurations, whatever comes after that line. -/
theorem C116_reads (ext : NumMat → Py NumMat) (content : List Char) (ls : List (List Char))
    (hls : IsText ls content) (a : Matrix (Fin 3) (Fin 3) ℚ) (numbers : List ℕ)
    (hhead : Header (fun s z => dictGet atomicNumbers s = some z) ls a numbers)
    (configs : List (List (Fin 3 → Option ℚ))) (last : ℕ)
    (hc : Configs ls a numbers.length 7 configs last) (hb : BlankStart ls last) :
    readPositionsTs ext content = .ok configs := by
  have h0 := after_zero hls
  unfold readPositionsTs
  dsimp only
  generalize universalNewlines content = f at h0
  obtain ⟨h1, symbols, h2, h3⟩ := header_read h0 hhead
  rw [h1]
  change (readAtomicSymbols (restAfter f 5) >>= _) = _
  rw [h3]
  change readTsLoop ext _ symbols.length _ (restAfter f 7) = _
  have h7 := restAfter_after h0 7
  rw [zero_add] at h7
  rw [h2, loop_iff ext ls a _ _ 7 _ h7 (Nat.lt_succ_self _)]
  have hlast := restAfter_after h0 last
  rw [zero_add] at hlast
  exact ⟨last, _, hc, hlast, blankStart_stops hlast hb⟩

/-- C116: below a header nothing else is read as a trajectory, unless a line of the file contains the
sentence the reader looks for in its own error messages. -/
theorem C116_only (ext : NumMat → Py NumMat) (content : List Char) (ls : List (List Char))
    (hls : IsText ls content) (a : Matrix (Fin 3) (Fin 3) ℚ) (numbers : List ℕ)
    (hhead : Header (fun s z => dictGet atomicNumbers s = some z) ls a numbers)
    (configs : List (List (Fin 3 → Option ℚ))) (h : readPositionsTs ext content = .ok configs) :
    ∃ last, Configs ls a numbers.length 7 configs last ∧ (BlankStart ls last ∨
      ∃ l ∈ ls, "missing first character in coordinate format:".toList <:+: l) := by
  have h0 := after_zero hls
  unfold readPositionsTs at h
  dsimp only at h
  generalize universalNewlines content = f at h0 h
  obtain ⟨h1, symbols, h2, h3⟩ := header_read h0 hhead
  rw [h1] at h
  change (readAtomicSymbols (restAfter f 5) >>= _) = _ at h
  rw [h3] at h
  change readTsLoop ext _ symbols.length _ (restAfter f 7) = _ at h
  have h7 := restAfter_after h0 7
  rw [zero_add] at h7
  rw [h2, loop_iff ext ls a _ _ 7 _ h7 (Nat.lt_succ_self _)] at h
  obtain ⟨e, g, hc, hg, hs⟩ := h
  exact ⟨e, hc, stops_cases hg hs⟩

/-- C116, concrete: two configurations, one of them Cartesian, an empty line and text that is not
read. -/
example : readPositionsTs (fun _ => .error .linAlgError)
    "l\n1.0\n1 0 0\n0 1 0\n0 0 1\nC\n1\nDirect\n0 0 0\ncart\n.5 0 0\n\nrubbish".toList
    = .ok [[![some 0, some 0, some 0]], [![some (1 / 2), some 0, some 0]]] := by
  have step : ∀ (l : List Char) (ls : List (List Char)) (rest : List Char), '\n' ∉ l → '\r' ∉ l →
      IsText ls rest → IsText (l :: ls) (l ++ ['\n'] ++ rest) :=
    fun l ls rest h h' ht => .cons l ['\n'] ls rest h h' (Or.inl rfl) ht
  have hls : IsText ["l".toList, "1.0".toList, "1 0 0".toList, "0 1 0".toList, "0 0 1".toList,
      "C".toList, "1".toList, "Direct".toList, "0 0 0".toList, "cart".toList, ".5 0 0".toList,
      "".toList, "rubbish".toList]
      "l\n1.0\n1 0 0\n0 1 0\n0 0 1\nC\n1\nDirect\n0 0 0\ncart\n.5 0 0\n\nrubbish".toList := by
    refine step "l".toList _ _ (by decide) (by decide) ?_
    refine step "1.0".toList _ _ (by decide) (by decide) ?_
    refine step "1 0 0".toList _ _ (by decide) (by decide) ?_
    refine step "0 1 0".toList _ _ (by decide) (by decide) ?_
    refine step "0 0 1".toList _ _ (by decide) (by decide) ?_
    refine step "C".toList _ _ (by decide) (by decide) ?_
    refine step "1".toList _ _ (by decide) (by decide) ?_
    refine step "Direct".toList _ _ (by decide) (by decide) ?_
    refine step "0 0 0".toList _ _ (by decide) (by decide) ?_
    refine step "cart".toList _ _ (by decide) (by decide) ?_
    refine step ".5 0 0".toList _ _ (by decide) (by decide) ?_
    refine step "".toList _ _ (by decide) (by decide) ?_
    exact .last "rubbish".toList (by decide) (by decide)
  have v1 : VectorLine "1 0 0".toList ![some 1, some 0, some 0] := vectorLine_of (by decide +kernel)
  have v2 : VectorLine "0 1 0".toList ![some 0, some 1, some 0] := vectorLine_of (by decide +kernel)
  have v3 : VectorLine "0 0 1".toList ![some 0, some 0, some 1] := vectorLine_of (by decide +kernel)
  have p1 : VectorLine "0 0 0".toList ![some 0, some 0, some 0] := vectorLine_of (by decide +kernel)
  have p2 : VectorLine ".5 0 0".toList ![some (1 / 2), some 0, some 0] :=
    vectorLine_of (by decide +kernel)
  refine C116_reads _ _ _ hls 1 [6] ⟨⟨1, fun i j => (1 : Matrix (Fin 3) (Fin 3) ℚ) i j, ?_, ?_, ?_⟩,
    ⟨["C".toList], ["1".toList], [6], [1], ?_, by simp, ?_, ?_, ?_, rfl, rfl⟩⟩ _ 11
    (.cons (next := 9) ⟨7, Or.inr ⟨?_, rfl⟩, rfl, [![some 0, some 0, some 0]], rfl, ?_,
      Or.inl ⟨Or.inr rfl, rfl⟩⟩
      (.cons (next := 11) ⟨9, Or.inr ⟨?_, rfl⟩, rfl, [![some (1 / 2), some 0, some 0]], rfl, ?_,
        Or.inr ⟨Or.inl rfl, by simp, by simp, ?_⟩⟩ (.nil 11))) ?_
  · rw [← parseFloat_iff]; decide +kernel
  · intro i
    fin_cases i
    · convert v1 using 1 <;> first | rfl | (funext j; fin_cases j <;> rfl)
    · convert v2 using 1 <;> first | rfl | (funext j; fin_cases j <;> rfl)
    · convert v3 using 1 <;> first | rfl | (funext j; fin_cases j <;> rfl)
  · intro i j
    rw [mul_one]
  · rw [← splitWs_iff]; decide +kernel
  · rw [← splitWs_iff]; decide +kernel
  · exact .cons (by decide +kernel) .nil
  · exact .cons ((parseInt_word (by unfold NoSpace; decide) 1).1 (by decide +kernel)) .nil
  · rintro (h | h) <;> exact absurd h (by decide)
  · intro i hi
    match i, hi with
    | 0, _ => exact p1
  · rintro (h | h) <;> exact absurd h (by decide)
  · intro i hi
    match i, hi with
    | 0, _ => exact p2
  · refine .cons ⟨?_, ?_⟩ .nil
    · intro x hx
      refine ⟨x, ?_, fun k => ?_⟩
      · rw [hx]
      · rw [Fin.sum_univ_three]
        fin_cases k <;> simp [Matrix.one_apply]
    · rintro ⟨i, hi⟩
      fin_cases i <;> cases hi
  · intro c hc; cases hc

end Verif
