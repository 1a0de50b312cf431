import Verif.Proofs.Layout
import Verif.Proofs.Poscar
import Verif.Props.PoscarErrors
import Verif.Props.Xdatcar

/-!
# Helper lemmas: the POSCAR and XDATCAR readers in terms of lines, words and numbers
-/

namespace Verif

open Spec

theorem unlines_injective {ls ls' : List (List Char)} (h : ∀ l ∈ ls, '\n' ∉ l)
    (h' : ∀ l ∈ ls', '\n' ∉ l) (hne : ls ≠ []) (hne' : ls' ≠ []) (he : unlines ls = unlines ls') :
    ls = ls' := by
  induction ls generalizing ls' with
  | nil => exact absurd rfl hne
  | cons l ls ih =>
    obtain ⟨l', ls', rfl⟩ := List.exists_cons_of_ne_nil hne'
    have e := congrArg readline he
    have hl := h l (by simp)
    have hl' := h' l' (by simp)
    by_cases h0 : ls = []
    · subst h0
      by_cases h1 : ls' = []
      · subst h1
        rw [show l = l' from he]
      · rw [unlines_cons h1] at he
        change l = _ at he
        exact absurd (he ▸ by simp : '\n' ∈ l) hl
    · by_cases h1 : ls' = []
      · subst h1
        rw [unlines_cons h0] at he
        change _ = l' at he
        exact absurd (he ▸ by simp : '\n' ∈ l') hl'
      · rw [unlines_cons h0, unlines_cons h1, readline_line hl, readline_line hl'] at e
        obtain ⟨e1, e2⟩ := Prod.mk.inj e
        rw [ih (fun x hx => h x (by simp [hx])) (fun x hx => h' x (by simp [hx])) h0 h1 e2,
          List.append_cancel_right e1]

/-- The rest of the file after `k` lines. -/
def restAfter (f : List Char) (k : ℕ) : List Char := (fun g => (readline g).2)^[k] f

theorem restAfter_succ (f : List Char) (k : ℕ) :
    restAfter f (k + 1) = (readline (restAfter f k)).2 := Function.iterate_succ_apply' _ _ _

theorem restAfter_after {ls : List (List Char)} {j : ℕ} {f : List Char} (h : After ls j f) (k : ℕ) :
    After ls (j + k) (restAfter f k) := by
  induction k with
  | zero => exact h
  | succ k ih => rw [restAfter_succ]; exact ih.readline.2

/-! ## Readers -/

theorem option_mapM_iff {α β : Type} {f : α → Option β} {l : List α} {r : List β} :
    l.mapM f = some r ↔ List.Forall₂ (fun a b => f a = some b) l r := by
  induction l generalizing r with
  | nil =>
    rw [List.mapM_nil, List.forall₂_nil_left_iff]
    constructor
    · intro h; exact (Option.some.inj h).symm
    · rintro rfl; rfl
  | cons a l ih =>
    rw [List.mapM_cons]
    constructor
    · intro h
      obtain ⟨b, hb, h⟩ := Option.bind_eq_some_iff.1 h
      obtain ⟨r', hr, h⟩ := Option.bind_eq_some_iff.1 h
      rw [← Option.some.inj h]
      exact .cons hb (ih.1 hr)
    · rintro (_ | ⟨hb, hr⟩)
      rw [hb, ih.2 hr]
      rfl

theorem readVec_iff (line : List Char) (v : NumVec) : readVec line = some v ↔ VectorLine line v := by
  unfold VectorLine
  obtain ⟨ws, hws⟩ := words_exists line
  have hs := words_split hws
  have hns := words_noSpace hws
  unfold readVec readRow parseFloats
  rw [hs]
  have hval : ∀ w ∈ ws, ∀ x, parseFloat w = some x ↔ NumberWord w x := fun w hw x => by
    rw [parseFloat_iff, numberLine_word (hns w hw)]
  constructor
  · intro h
    obtain ⟨l, hl, hv⟩ := Option.bind_eq_some_iff.1 h
    have h2 : ∃ a b c, l = [a, b, c] ∧ v = ![a, b, c] := by
      unfold toVec at hv
      split at hv
      · exact ⟨_, _, _, rfl, (Option.some.inj hv).symm⟩
      · cases hv
    obtain ⟨a, b, c, rfl, rfl⟩ := h2
    have h3 : List.Forall₂ (fun w x => parseFloat w = some x) (ws.take 3) [a, b, c] :=
      option_mapM_iff.1 hl
    match ws, h3 with
    | [], h3 => simp at h3
    | [_], h3 => simp at h3
    | [_, _], h3 => simp at h3
    | x :: y :: z :: r, h3 =>
      simp only [List.take_succ_cons, List.take_zero, List.forall₂_cons] at h3
      exact ⟨x, y, z, r, hws, (hval x (by simp) a).1 h3.1, (hval y (by simp) b).1 h3.2.1,
        (hval z (by simp) c).1 h3.2.2.1⟩
  · rintro ⟨a, b, c, r, hw, ha, hb, hc⟩
    have := words_split hw
    rw [hs] at this
    subst this
    have h3 : List.mapM parseFloat ((a :: b :: c :: r).take 3) = some [v 0, v 1, v 2] := by
      rw [option_mapM_iff]
      simp only [List.take_succ_cons, List.take_zero, List.forall₂_cons]
      exact ⟨(hval a (by simp) _).2 ha, (hval b (by simp) _).2 hb, (hval c (by simp) _).2 hc, .nil⟩
    rw [h3]
    rw [Option.bind_some]
    unfold toVec
    dsimp only
    congr 1
    funext i
    fin_cases i <;> rfl

theorem strip_newline (l : List Char) : strip (l ++ ['\n']) = strip l := by
  unfold strip
  by_cases h : ∀ c ∈ l, Blank c
  · rw [dropWhile_gap h]
    have := dropWhile_gap (r := []) h
    rw [List.append_nil] at this
    rw [this]
    decide
  · have hne : l.dropWhile isSpace ≠ [] := by
      intro h0
      apply h
      intro c hc
      rw [← List.takeWhile_append_dropWhile (p := isSpace) (l := l), h0, List.append_nil] at hc
      exact (isSpace_iff c).1 (mem_takeWhile hc)
    rw [List.dropWhile_append, if_neg (by simpa using hne), List.reverse_append]
    rfl

theorem splitWs_of {ls : List (List Char)} {k : ℕ} {f : List Char} (h : After ls k f) :
    splitWs (readline f).1 = splitWs (ls.getD k []) := by
  rcases h.readline.1 with h | h <;> rw [h]
  exact splitWs_newline _

theorem parseFloat_of {ls : List (List Char)} {k : ℕ} {f : List Char} (h : After ls k f) :
    parseFloat (readline f).1 = parseFloat (ls.getD k []) := by
  rcases h.readline.1 with h | h <;> rw [h]
  unfold parseFloat
  rw [strip_newline]

theorem readVec_of {ls : List (List Char)} {k : ℕ} {f : List Char} (h : After ls k f) :
    readVec (readline f).1 = readVec (ls.getD k []) := by
  unfold readVec readRow
  rw [splitWs_of h]

theorem latticeRow_iff {ls : List (List Char)} {k : ℕ} {f g : List Char} (h : After ls k f)
    (v : NumVec) : latticeRow f = .ok (v, g) ↔ VectorLine (ls.getD k []) v ∧ g = (readline f).2 := by
  unfold latticeRow
  dsimp only
  rw [readVec_of h, ← readVec_iff]
  cases readVec (ls.getD k []) with
  | none => simp
  | some w =>
    constructor
    · intro e
      obtain ⟨rfl, rfl⟩ := Prod.mk.inj (Except.ok.inj e)
      exact ⟨rfl, rfl⟩
    · rintro ⟨e, rfl⟩
      rw [Option.some.inj e]

theorem bind_ok_iff {α β : Type} (x : Py α) (k : α → Py β) (b : β) :
    (x >>= k) = .ok b ↔ ∃ a, x = .ok a ∧ k a = .ok b := by
  cases x with
  | error e => constructor <;> intro h <;> [cases h; (obtain ⟨a, h, -⟩ := h; cases h)]
  | ok a =>
    constructor
    · intro h; exact ⟨a, rfl, h⟩
    · rintro ⟨a', h, h'⟩; obtain rfl := Except.ok.inj h; exact h'

theorem readLattice_iff {ls : List (List Char)} {f : List Char} (h : After ls 0 f) (m : NumMat)
    (g : List Char) : readLattice f = .ok (m, g) ↔ ∃ (scale : Num) (rows : Fin 3 → NumVec),
      NumberLine (ls.getD 1 []) scale ∧ (∀ i : Fin 3, VectorLine (ls.getD (2 + i) []) (rows i)) ∧
      (m = fun i j => numMul (rows i j) scale) ∧ g = restAfter f 5 := by
  have a1 := restAfter_after h 1
  have a2 := restAfter_after h 2
  have a3 := restAfter_after h 3
  have a4 := restAfter_after h 4
  unfold readLattice
  dsimp only
  change (match parseFloat (readline (restAfter f 1)).1 with
    | none => _
    | some scale => _) = _ ↔ _
  rw [parseFloat_of a1]
  simp only [← parseFloat_iff]
  cases hp : parseFloat (ls.getD 1 []) with
  | none => simp only [zero_add, hp]; constructor <;> intro h <;> [cases h; (obtain ⟨_, _, h, -⟩ := h; cases h)]
  | some scale =>
    simp only [zero_add, hp]
    change (latticeRow (restAfter f 2) >>= _) = _ ↔ _
    rw [bind_ok_iff]
    constructor
    · rintro ⟨⟨v0, g0⟩, h0, e⟩
      obtain ⟨k0, rfl⟩ := (latticeRow_iff a2 v0).1 h0
      rw [bind_ok_iff] at e
      obtain ⟨⟨v1, g1⟩, h1, e⟩ := e
      obtain ⟨k1, rfl⟩ := (latticeRow_iff a3 v1).1 h1
      rw [bind_ok_iff] at e
      obtain ⟨⟨v2, g2⟩, h2, e⟩ := e
      obtain ⟨k2, rfl⟩ := (latticeRow_iff a4 v2).1 h2
      obtain ⟨rfl, rfl⟩ := Prod.mk.inj (Except.ok.inj e)
      refine ⟨scale, ![v0, v1, v2], rfl, ?_, rfl, rfl⟩
      intro i
      fin_cases i
      · exact k0
      · exact k1
      · exact k2
    · rintro ⟨scale', rows, hs, hr, rfl, rfl⟩
      obtain rfl := Option.some.inj hs
      refine ⟨(rows 0, restAfter f 3), (latticeRow_iff a2 _).2 ⟨hr 0, rfl⟩, ?_⟩
      rw [bind_ok_iff]
      refine ⟨(rows 1, restAfter f 4), (latticeRow_iff a3 _).2 ⟨hr 1, rfl⟩, ?_⟩
      rw [bind_ok_iff]
      refine ⟨(rows 2, restAfter f 5), (latticeRow_iff a4 _).2 ⟨hr 2, rfl⟩, ?_⟩
      have : (![rows 0, rows 1, rows 2] : Fin 3 → NumVec) = rows := by
        funext i; fin_cases i <;> rfl
      change Except.ok _ = _
      dsimp only
      rw [this]

theorem readAtomicSymbols_iff {ls : List (List Char)} {k : ℕ} {f : List Char} (h : After ls k f)
    (l : List Word) (g : List Char) : readAtomicSymbols f = .ok (l, g) ↔
      ∃ symbols cwords counts, Words (ls.getD k []) symbols ∧ symbols ≠ [] ∧
        (∀ s ∈ symbols, knownSymbol s = true) ∧ Words (ls.getD (k + 1) []) cwords ∧
        cwords.length = symbols.length ∧ List.Forall₂ IntLiteral cwords counts ∧
        l = expandSymbols symbols counts ∧ g = restAfter f 2 := by
  have a1 := h.readline.2
  unfold readAtomicSymbols
  dsimp only
  rw [splitWs_of h, splitWs_of a1]
  obtain ⟨ws, hws⟩ := words_exists (ls.getD k [])
  obtain ⟨cs, hcs⟩ := words_exists (ls.getD (k + 1) [])
  rw [words_split hws, words_split hcs]
  have hint : ∀ counts : List ℤ, cs.mapM parseInt = some counts ↔ List.Forall₂ IntLiteral cs counts := by
    intro counts
    rw [option_mapM_iff]
    have hns := words_noSpace hcs
    clear hcs
    induction cs generalizing counts with
    | nil => simp
    | cons c cs ih =>
      cases counts with
      | nil => simp
      | cons n ns =>
        have hi := ih ns fun x hx => hns x (by simp [hx])
        rw [List.forall₂_cons, List.forall₂_cons]
        exact and_congr (parseInt_word (hns c (by simp)) n) hi
  constructor
  · intro e
    split at e
    · cases e
    · rename_i hne
      split at e
      · cases e
      · rename_i hk
        split at e
        · cases e
        · rename_i hl
          split at e
          · cases e
          · rename_i counts hc
            obtain ⟨rfl, rfl⟩ := Prod.mk.inj (Except.ok.inj e)
            exact ⟨ws, cs, counts, hws, fun h0 => hne (by rw [h0]; rfl),
              fun s hs => List.all_eq_true.1 (not_not.1 hk) s hs, hcs, not_not.1 hl,
              (hint counts).1 hc, rfl, rfl⟩
  · rintro ⟨symbols, cwords, counts, h1, h2, h3, h4, h5, h6, rfl, rfl⟩
    obtain rfl := (words_split hws).symm.trans (words_split h1)
    obtain rfl := (words_split hcs).symm.trans (words_split h4)
    rw [if_neg (by simpa using h2), if_neg (not_not.2 (List.all_eq_true.2 h3)), if_neg (not_not.2 h5),
      (hint counts).2 h6]
    rfl

theorem readVectors_iff {ls : List (List Char)} {k : ℕ} {f : List Char} (h : After ls k f) (n : ℕ)
    (vs : List NumVec) (g : List Char) : readVectors n f = .ok (vs, g) ↔
      vs.length = n ∧ (∀ (i : ℕ) (hi : i < vs.length), VectorLine (ls.getD (k + i) []) vs[i]) ∧
        g = restAfter f n := by
  induction n generalizing k f vs with
  | zero =>
    rw [readVectors]
    constructor
    · intro e
      obtain ⟨rfl, rfl⟩ := Prod.mk.inj (Except.ok.inj e)
      exact ⟨rfl, fun i hi => absurd hi (by simp), rfl⟩
    · rintro ⟨h1, -, rfl⟩
      rw [List.length_eq_zero_iff.1 h1]
  | succ n ih =>
    have a1 := h.readline.2
    rw [readVectors]
    dsimp only
    rw [readVec_of h]
    have hrest : restAfter f (n + 1) = restAfter (readline f).2 n := rfl
    cases hv : readVec (ls.getD k []) with
    | none =>
      constructor
      · intro e; cases e
      · rintro ⟨h1, h2, -⟩
        have := (readVec_iff _ _).2 (h2 0 (by omega))
        rw [Nat.add_zero, hv] at this
        cases this
    | some v =>
      dsimp only
      constructor
      · intro e
        cases hr : readVectors n (readline f).2 with
        | error r => rw [hr] at e; cases e
        | ok y =>
          obtain ⟨ws, g'⟩ := y
          rw [hr] at e
          obtain ⟨rfl, rfl⟩ := Prod.mk.inj (Except.ok.inj e)
          obtain ⟨h1, h2, h3⟩ := (ih a1 ws).1 hr
          refine ⟨by simp [h1], ?_, by rw [hrest]; exact h3⟩
          intro i hi
          cases i with
          | zero => exact (readVec_iff _ _).1 hv
          | succ i =>
            have := h2 i (by simpa using hi)
            rw [show k + (i + 1) = k + 1 + i by omega]
            exact this
      · rintro ⟨h1, h2, h3⟩
        obtain ⟨w, ws, rfl⟩ := List.exists_cons_of_ne_nil (l := vs) (by
          intro h0; rw [h0] at h1; simp at h1)
        have hw := (readVec_iff _ _).2 (h2 0 (by simp))
        rw [Nat.add_zero, hv] at hw
        obtain rfl : v = w := Option.some.inj hw
        have hr := (ih a1 ws).2 ⟨by simpa using h1, fun i hi => by
          have := h2 (i + 1) (by simpa using hi)
          rw [show k + (i + 1) = k + 1 + i by omega] at this
          exact this, h3.trans hrest⟩
        rw [hr]
        rfl

/-- How the positions follow from the rows of the file. -/
def Converted (ext : NumMat → Py NumMat) (cart : Bool) (lattice : NumMat) (raw ps : List NumVec) :
    Prop :=
  if cart then raw ≠ [] ∧ ∃ inv, numInv ext lattice = .ok inv ∧ ps = raw.map (numVecMul · inv)
  else ps = raw

theorem readCoordinates_iff {ext : NumMat → Py NumMat} {ls : List (List Char)} {k : ℕ}
    {f : List Char} (h : After ls k f) (cart : Bool) (lattice : NumMat) (n : ℕ) (ps : List NumVec)
    (g : List Char) : readCoordinates ext cart f lattice n = .ok (ps, g) ↔
      ∃ raw : List NumVec, raw.length = n ∧
        (∀ (i : ℕ) (hi : i < raw.length), VectorLine (ls.getD (k + i) []) raw[i]) ∧
        g = restAfter f n ∧ Converted ext cart lattice raw ps := by
  unfold readCoordinates
  cases hr : readVectors n f with
  | error r =>
    constructor
    · intro e; cases e
    · rintro ⟨raw, h1, h2, rfl, -⟩
      rw [(readVectors_iff h n raw _).2 ⟨h1, h2, rfl⟩] at hr
      cases hr
  | ok y =>
    obtain ⟨raw, g'⟩ := y
    obtain ⟨h1, h2, rfl⟩ := (readVectors_iff h n raw g').1 hr
    have huniq : ∀ raw' : List NumVec, raw'.length = n →
        (∀ (i : ℕ) (hi : i < raw'.length), VectorLine (ls.getD (k + i) []) raw'[i]) → raw' = raw := by
      intro raw' h1' h2'
      have := (readVectors_iff h n raw' _).2 ⟨h1', h2', rfl⟩
      rw [hr] at this
      exact ((Prod.mk.inj (Except.ok.inj this)).1).symm
    cases cart with
    | false =>
      constructor
      · intro e
        obtain ⟨rfl, rfl⟩ := Prod.mk.inj (Except.ok.inj e)
        exact ⟨raw, h1, h2, rfl, rfl⟩
      · rintro ⟨raw', h1', h2', rfl, hc⟩
        obtain rfl : ps = raw' := hc
        rw [huniq ps h1' h2']
        rfl
    | true =>
      change toFractional ext lattice raw (restAfter f n) = _ ↔ _
      unfold toFractional
      constructor
      · intro e
        split at e
        · cases e
        · rename_i inv hi
          split at e
          · cases e
          · rename_i hne
            obtain ⟨rfl, rfl⟩ := Prod.mk.inj (Except.ok.inj e)
            exact ⟨raw, h1, h2, rfl, hne, inv, hi, rfl⟩
      · rintro ⟨raw', h1', h2', rfl, hne, inv, hi, rfl⟩
        obtain rfl := huniq raw' h1' h2'
        rw [hi]
        dsimp only
        rw [if_neg hne]

theorem lower_iff (c l u : Char) (hl : l.val.toNat = u.val.toNat + 32) (hu : 65 ≤ u.val.toNat ∧ u.val.toNat ≤ 90) :
    c.toLower = l ↔ c = l ∨ c = u := by
  have hext : ∀ a b : Char, a.val.toNat = b.val.toNat → a = b := fun a b h =>
    Char.ext (UInt32.toNat_inj.1 h)
  unfold Char.toLower
  split
  · rename_i h
    have h1 : 65 ≤ c.val.toNat := h.1
    have h2 : c.val.toNat ≤ 90 := h.2
    have hv : (c.val + 32).toNat = c.val.toNat + 32 := by
      rw [UInt32.toNat_add]
      have : (32 : UInt32).toNat = 32 := rfl
      rw [this]
      omega
    constructor
    · intro e
      right
      apply hext
      have := congrArg (fun x : Char => x.val.toNat) e
      change (c.val + 32).toNat = _ at this
      omega
    · rintro (rfl | rfl)
      · omega
      · apply hext
        change (c.val + 32).toNat = _
        omega
  · rename_i h
    constructor
    · intro e; exact Or.inl e
    · rintro (rfl | rfl)
      · rfl
      · exact absurd ⟨(by exact hu.1 : (65 : UInt32) ≤ c.val), (by exact hu.2 : c.val ≤ 90)⟩ h

theorem label_head {ls : List (List Char)} {k : ℕ} {f : List Char} (h : After ls k f) {c : Char}
    (hc : c ≠ '\n') : (readline f).1.head? = some c ↔ (ls.getD k []).head? = some c := by
  rcases h.readline.1 with h | h <;> rw [h]
  cases ls.getD k [] with
  | nil => simp [Ne.symm hc]
  | cons a l => simp

theorem begins_of {ls : List (List Char)} {k : ℕ} {f : List Char} (h : After ls k f) {l u : Char}
    (hl : l ≠ '\n') (hu : u ≠ '\n') : Begins (readline f).1 l u ↔ Begins (ls.getD k []) l u := by
  unfold Begins
  rw [label_head h hl, label_head h hu]

theorem readFormat_iff {ext : NumMat → Py NumMat} {ls : List (List Char)} {k : ℕ} {f : List Char}
    (h : After ls k f) (lattice : NumMat) (n : ℕ) (ps : List NumVec) (g : List Char) :
    readFormat ext (readline f).1 (readline f).2 lattice n = .ok (ps, g) ↔
      ∃ cart, (cart = true ∧ Begins (ls.getD k []) 'c' 'C' ∨
          cart = false ∧ Begins (ls.getD k []) 'd' 'D') ∧
        readCoordinates ext cart (readline f).2 lattice n = .ok (ps, g) := by
  rw [← begins_of h (by decide) (by decide), ← begins_of h (by decide) (by decide)]
  generalize (readline f).1 = label
  unfold readFormat Begins
  cases hh : label.head? with
  | none =>
    constructor
    · intro e; cases e
    · rintro ⟨_, (⟨-, h | h⟩ | ⟨-, h | h⟩), -⟩ <;> cases h
  | some c =>
    dsimp only
    have hc := lower_iff c 'c' 'C' (by decide) (by decide)
    have hd := lower_iff c 'd' 'D' (by decide) (by decide)
    simp only [Option.some.injEq]
    by_cases h1 : c.toLower = 'c'
    · rw [if_pos h1]
      constructor
      · intro e; exact ⟨true, Or.inl ⟨rfl, hc.1 h1⟩, e⟩
      · rintro ⟨cart, (⟨rfl, -⟩ | ⟨rfl, h2⟩), e⟩
        · exact e
        · rw [hd.2 h2] at h1; exact absurd h1 (by decide)
    · rw [if_neg h1]
      by_cases h2 : c.toLower = 'd'
      · rw [if_neg (not_not.2 h2)]
        constructor
        · intro e; exact ⟨false, Or.inr ⟨rfl, hd.1 h2⟩, e⟩
        · rintro ⟨cart, (⟨rfl, h3⟩ | ⟨rfl, h3⟩), e⟩
          · exact absurd (hc.2 h3) h1
          · exact e
      · rw [if_pos h2]
        constructor
        · intro e; cases e
        · rintro ⟨cart, (⟨rfl, h3⟩ | ⟨rfl, h3⟩), e⟩
          · exact absurd (hc.2 h3) h1
          · exact absurd (hd.2 h3) h2

theorem strip_ne {c : Char} {l : List Char} (h : isSpace c = false) : strip (c :: l) ≠ [] := by
  unfold strip
  rw [List.dropWhile_cons, if_neg (by rw [h]; simp)]
  intro e
  have e' := List.reverse_eq_nil_iff.1 e
  have : c ∈ (c :: l).reverse := by simp
  rw [List.dropWhile_eq_nil_iff] at e'
  have := e' c this
  rw [h] at this
  cases this

/-- A block of positions that starts at line `k`: format, rows. -/
def Block (ext : NumMat → Py NumMat) (ls : List (List Char)) (k : ℕ) (lattice : NumMat) (n : ℕ)
    (ps : List NumVec) (next : ℕ) : Prop :=
  ∃ m, FormatLine ls k m ∧ next = m + 1 + n ∧ ∃ raw : List NumVec, raw.length = n ∧
    (∀ (i : ℕ) (hi : i < raw.length), VectorLine (ls.getD (m + 1 + i) []) raw[i]) ∧
    ∃ cart, (cart = true ∧ Begins (ls.getD m []) 'c' 'C' ∨
      cart = false ∧ Begins (ls.getD m []) 'd' 'D') ∧ Converted ext cart lattice raw ps

theorem restAfter_add (f : List Char) (j k : ℕ) : restAfter (restAfter f j) k = restAfter f (j + k) := by
  unfold restAfter
  rw [← Function.iterate_add_apply, Nat.add_comm]

theorem readPositions_iff {ext : NumMat → Py NumMat} {ls : List (List Char)} {k : ℕ} {f : List Char}
    (h : After ls k f) (lattice : NumMat) (n : ℕ) (ps : List NumVec) (g : List Char) :
    readPositions ext f lattice n = .ok (ps, g) ↔
      ∃ j, Block ext ls k lattice n ps (k + j) ∧ g = restAfter f j := by
  have a1 := h.readline.2
  have hS := begins_of h (l := 's') (u := 'S') (by decide) (by decide)
  -- the first line is not blank
  have hblank : ∀ c, (c = 's' ∨ c = 'S' ∨ c = 'c' ∨ c = 'C' ∨ c = 'd' ∨ c = 'D') →
      (readline f).1.head? = some c → ¬ (strip (readline f).1 = [] ∨ isSpace c = true) := by
    intro c hc hh
    have hs : isSpace c = false := by
      rcases hc with rfl | rfl | rfl | rfl | rfl | rfl <;> decide
    obtain ⟨l, hl⟩ : ∃ l, (readline f).1 = c :: l := by
      cases hr : (readline f).1 with
      | nil => rw [hr] at hh; cases hh
      | cons a l => rw [hr] at hh; exact ⟨l, by rw [Option.some.inj hh]⟩
    rw [hl]
    rintro (h0 | h0)
    · exact strip_ne hs h0
    · rw [hs] at h0; cases h0
  have hform : ∀ {j : ℕ} {e : List Char}, After ls j e → ∀ g, (∃ cart, (cart = true ∧
      Begins (ls.getD j []) 'c' 'C' ∨ cart = false ∧ Begins (ls.getD j []) 'd' 'D') ∧
        readCoordinates ext cart (readline e).2 lattice n = .ok (ps, g)) ↔
      ((∃ raw : List NumVec, raw.length = n ∧
        (∀ (i : ℕ) (hi : i < raw.length), VectorLine (ls.getD (j + 1 + i) []) raw[i]) ∧
        ∃ cart, (cart = true ∧ Begins (ls.getD j []) 'c' 'C' ∨
          cart = false ∧ Begins (ls.getD j []) 'd' 'D') ∧ Converted ext cart lattice raw ps) ∧
        g = restAfter e (1 + n)) := by
    intro j e he g
    have hrest : restAfter e (1 + n) = restAfter (readline e).2 n := (restAfter_add e 1 n).symm
    constructor
    · rintro ⟨cart, hc, hr⟩
      obtain ⟨raw, h1, h2, h3, h4⟩ := (readCoordinates_iff he.readline.2 cart lattice n ps g).1 hr
      exact ⟨⟨raw, h1, h2, cart, hc, h4⟩, h3.trans hrest.symm⟩
    · rintro ⟨⟨raw, h1, h2, cart, hc, h4⟩, h3⟩
      exact ⟨cart, hc, (readCoordinates_iff he.readline.2 cart lattice n ps g).2
        ⟨raw, h1, h2, h3.trans hrest, h4⟩⟩
  unfold readPositions Block FormatLine
  dsimp only
  rw [← hS]
  by_cases hs : Begins (readline f).1 's' 'S'
  · -- selective dynamics
    have hsel : ∃ c, (readline f).1.head? = some c ∧ c.toLower = 's' ∧
        ¬ (strip (readline f).1 = [] ∨ isSpace c = true) := by
      rcases hs with hs | hs
      · exact ⟨'s', hs, by decide, hblank _ (by simp) hs⟩
      · exact ⟨'S', hs, by decide, hblank _ (by simp) hs⟩
    obtain ⟨c, hc, hlow, hb⟩ := hsel
    rw [hc]
    dsimp only
    rw [if_neg hb, if_pos hlow, readFormat_iff a1, hform a1]
    constructor
    · rintro ⟨h1, rfl⟩
      refine ⟨1 + (1 + n), ⟨k + 1, Or.inl ⟨hs, rfl⟩, by omega, h1⟩, ?_⟩
      exact restAfter_add f 1 (1 + n)
    · rintro ⟨j, ⟨m, (⟨-, rfl⟩ | ⟨h0, -⟩), hj, h1⟩, rfl⟩
      · obtain rfl : j = 1 + (1 + n) := by omega
        exact ⟨h1, (restAfter_add f 1 (1 + n)).symm⟩
      · exact absurd hs h0
  · have hfin : ∀ c, (readline f).1.head? = some c →
        ¬ (strip (readline f).1 = [] ∨ isSpace c = true) → c.toLower ≠ 's' := by
      intro c hc _ hlow
      rcases (lower_iff c 's' 'S' (by decide) (by decide)).1 hlow with rfl | rfl
      · exact hs (Or.inl hc)
      · exact hs (Or.inr hc)
    have hmain : (∃ cart, (cart = true ∧ Begins (ls.getD k []) 'c' 'C' ∨
        cart = false ∧ Begins (ls.getD k []) 'd' 'D') ∧
        readCoordinates ext cart (readline f).2 lattice n = .ok (ps, g)) ↔ _ := hform h g
    have hR : (∃ j, (∃ m, (Begins (readline f).1 's' 'S' ∧ m = k + 1 ∨
        ¬ Begins (readline f).1 's' 'S' ∧ m = k) ∧ k + j = m + 1 + n ∧ ∃ raw : List NumVec,
        raw.length = n ∧
        (∀ (i : ℕ) (hi : i < raw.length), VectorLine (ls.getD (m + 1 + i) []) raw[i]) ∧
        ∃ cart, (cart = true ∧ Begins (ls.getD m []) 'c' 'C' ∨
          cart = false ∧ Begins (ls.getD m []) 'd' 'D') ∧ Converted ext cart lattice raw ps) ∧
        g = restAfter f j) ↔ ∃ cart, (cart = true ∧ Begins (ls.getD k []) 'c' 'C' ∨
        cart = false ∧ Begins (ls.getD k []) 'd' 'D') ∧
        readCoordinates ext cart (readline f).2 lattice n = .ok (ps, g) := by
      rw [hmain]
      constructor
      · rintro ⟨j, ⟨m, (⟨h0, -⟩ | ⟨-, rfl⟩), hj, h1⟩, rfl⟩
        · exact absurd h0 hs
        · obtain rfl : j = 1 + n := by omega
          exact ⟨h1, rfl⟩
      · rintro ⟨h1, rfl⟩
        exact ⟨1 + n, ⟨k, Or.inr ⟨hs, rfl⟩, by omega, h1⟩, rfl⟩
    rw [hR, ← readFormat_iff h]
    cases hh : (readline f).1.head? with
    | none =>
      constructor
      · intro e; cases e
      · intro e; unfold readFormat at e; rw [hh] at e; cases e
    | some c =>
      dsimp only
      by_cases hb : strip (readline f).1 = [] ∨ isSpace c = true
      · rw [if_pos hb]
        constructor
        · intro e; cases e
        · intro e
          exfalso
          rw [readFormat_iff h] at e
          obtain ⟨cart, hcd, -⟩ := e
          rw [← begins_of h (by decide) (by decide), ← begins_of h (by decide) (by decide)] at hcd
          unfold Begins at hcd
          rw [hh] at hcd
          refine hblank c ?_ hh hb
          simp only [Option.some.injEq] at hcd
          rcases hcd with ⟨-, rfl | rfl⟩ | ⟨-, rfl | rfl⟩ <;> simp
      · rw [if_neg hb, if_neg (hfin c hh hb)]

end Verif
