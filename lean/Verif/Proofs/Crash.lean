import Verif.Proofs.Truncate

/-!
# Helper lemmas: numbers and lines cut short
-/

namespace Verif

theorem digitsVal_le_append (a b : List ℕ) : digitsVal a * 10 ^ b.length ≤ digitsVal (a ++ b) := by
  rw [digitsVal_append]
  omega

theorem digitPart_all (ds : List ℕ) (h : ∀ d ∈ ds, d < 10) :
    digitPart (ds.map digitChar) = (ds, []) := by
  by_cases hne : ds = []
  · subst hne; rfl
  · have := digitPart_digits ds h hne (rest := []) rfl
    simpa using this

theorem unsignedFloat_digits (ds : List ℕ) (h : ∀ d ∈ ds, d < 10) (hne : ds ≠ []) :
    unsignedFloat (ds.map digitChar) = some (digitsVal ds : ℚ) := by
  unfold unsignedFloat
  rw [digitPart_all ds h]
  simp [fracPart, hne, expPart]

theorem unsignedFloat_point (ip fp : List ℕ) (hi : ∀ d ∈ ip, d < 10) (hne : ip ≠ [])
    (hf : ∀ d ∈ fp, d < 10) :
    unsignedFloat (ip.map digitChar ++ '.' :: fp.map digitChar) =
      some ((digitsVal (ip ++ fp) : ℚ) / 10 ^ fp.length) := by
  by_cases hfne : fp = []
  · subst hfne
    rw [List.map_nil]
    unfold unsignedFloat
    rw [digitPart_digits ip hi hne (rest := ['.']) rfl]
    simp [fracPart, digitPart, hne, expPart]
  · exact unsignedFloat_fixed ip fp hi hne hf hfne

theorem parseFloat_digit {s : List Char} {d : ℕ} {cs : List Char} (hd : d < 10) (hs : NoSpace s)
    (he : s = digitChar d :: cs) : parseFloat s = (unsignedFloat s).map some := by
  unfold parseFloat
  rw [strip_noSpace hs, he, signPart_digit hd]
  dsimp only
  rw [nonFinite_digit hd]
  simp

theorem NoSpace.prefix {p s : List Char} (hs : NoSpace s) (h : p <+: s) : NoSpace p :=
  fun c hc => hs c (h.subset hc)

theorem map_prefix {ds : List ℕ} {p : List Char} (h : p <+: ds.map digitChar) :
    ∃ a b, ds = a ++ b ∧ p = a.map digitChar := by
  obtain ⟨t, ht⟩ := h
  obtain ⟨a, b, rfl, rfl, -⟩ := List.map_eq_append_iff.1 ht.symm
  exact ⟨a, b, rfl, rfl⟩

section
variable {K : Type} [Field K] [LinearOrder K] [IsStrictOrderedRing K] [FloorRing K]

/-- A number that is not negative, cut anywhere: if it can still be read, it has become smaller. -/
theorem number_cut {x : K} (hx : 0 ≤ x) {p : List Char} (hp : p <+: fixed16 x) {r : Num}
    (hr : parseFloat p = some r) : ∃ y, r = some y ∧ 0 ≤ y ∧ y ≤ round16 x := by
  have hns : NoSpace p := (noSpace_fixed16 x).prefix hp
  have hfull := parseFloat_fixed16 x
  have hpne : p ≠ [] := by
    rintro rfl
    revert hr
    simp [parseFloat, strip, signPart, nonFinite, unsignedFloat, digitPart, fracPart]
  unfold fixed16 at hp hfull
  dsimp only at hp hfull
  rw [if_neg (not_lt.2 hx), List.nil_append, natStr_eq, fixedDigits_eq] at hp hfull
  generalize hm : (roundEven (|x| * 10 ^ 16)).toNat = m at hp hfull
  generalize hip : natDigs (m / 10 ^ 16) = ip at hp hfull
  generalize hfp : fixedDigs 16 (m % 10 ^ 16) = fp at hp hfull
  have hi : ∀ d ∈ ip, d < 10 := hip ▸ natDigs_lt _
  have hf : ∀ d ∈ fp, d < 10 := hfp ▸ fixedDigs_lt _ _
  have hine : ip ≠ [] := hip ▸ natDigs_ne_nil _
  have hround : (digitsVal (ip ++ fp) : ℚ) / 10 ^ fp.length = round16 x := by
    obtain ⟨d, ds, hd⟩ := List.exists_cons_of_ne_nil hine
    have hd10 : d < 10 := hi d (by rw [hd]; simp)
    rw [parseFloat_digit hd10 (NoSpace.append (noSpace_digits hi) (by
      intro c hc
      rcases List.mem_cons.1 hc with rfl | hc
      · decide
      · exact noSpace_digits hf c hc)) (by rw [hd]; rfl), unsignedFloat_point ip fp hi hine hf] at hfull
    simpa using hfull
  have hpow : ∀ n : ℕ, (0 : ℚ) < 10 ^ n := fun n => by positivity
  rcases prefix_append hp with hp | ⟨q, hq, hqp⟩
  · obtain ⟨a, b, hab, rfl⟩ := map_prefix hp
    have hane : a ≠ [] := by rintro rfl; exact hpne rfl
    have ha : ∀ d ∈ a, d < 10 := fun d hd => hi d (by rw [hab]; simp [hd])
    obtain ⟨d, ds, hd⟩ := List.exists_cons_of_ne_nil hane
    rw [parseFloat_digit (ha d (by rw [hd]; simp)) hns (by rw [hd]; rfl),
      unsignedFloat_digits a ha hane] at hr
    refine ⟨digitsVal a, by simpa using hr.symm, by positivity, ?_⟩
    rw [← hround, le_div_iff₀ (hpow _)]
    have h1 := digitsVal_le_append ip fp
    have h2 := digitsVal_le_append a b
    rw [← hab] at h2
    have h3 : digitsVal a ≤ digitsVal ip :=
      le_trans (Nat.le_mul_of_pos_right _ (by positivity)) h2
    have h4 : digitsVal a * 10 ^ fp.length ≤ digitsVal (ip ++ fp) :=
      le_trans (Nat.mul_le_mul_right _ h3) h1
    exact_mod_cast h4
  · cases q with
    | nil =>
      rw [List.append_nil] at hq
      subst hq
      obtain ⟨d, ds, hd⟩ := List.exists_cons_of_ne_nil hine
      rw [parseFloat_digit (hi d (by rw [hd]; simp)) hns (by rw [hd]; rfl),
        unsignedFloat_digits ip hi hine] at hr
      refine ⟨digitsVal ip, by simpa using hr.symm, by positivity, ?_⟩
      rw [← hround, le_div_iff₀ (hpow _)]
      exact_mod_cast digitsVal_le_append ip fp
    | cons c q =>
      obtain ⟨rfl, hqs⟩ := List.cons_prefix_cons.1 hqp
      obtain ⟨a, b, hab, rfl⟩ := map_prefix hqs
      have ha : ∀ d ∈ a, d < 10 := fun d hd => hf d (by rw [hab]; simp [hd])
      obtain ⟨d, ds, hd⟩ := List.exists_cons_of_ne_nil hine
      rw [parseFloat_digit (hi d (by rw [hd]; simp)) hns (by rw [hq, hd]; rfl), hq,
        unsignedFloat_point ip a hi hine ha] at hr
      refine ⟨_, by simpa using hr.symm, by positivity, ?_⟩
      rw [← hround, hab, le_div_iff₀ (hpow _), div_mul_eq_mul_div, div_le_iff₀ (hpow _),
        List.length_append, pow_add]
      have h1 := digitsVal_le_append (ip ++ a) b
      rw [List.append_assoc] at h1
      have h2 : (digitsVal (ip ++ a) : ℚ) * 10 ^ b.length ≤ digitsVal (ip ++ (a ++ b)) := by
        exact_mod_cast h1
      nlinarith [hpow a.length, mul_le_mul_of_nonneg_right h2 (hpow a.length).le]

theorem nan_cut {p : List Char} (hp : p <+: ['n', 'a', 'n']) {r : Num}
    (hr : parseFloat p = some r) : r = none ∧ p = ['n', 'a', 'n'] := by
  have h : ∀ q ∈ [[], ['n'], ['n', 'a']], parseFloat q = none := by decide
  have hq : p = [] ∨ p = ['n'] ∨ p = ['n', 'a'] ∨ p = ['n', 'a', 'n'] := by
    have := (List.mem_inits _ _).2 hp
    simpa using this
  rcases hq with rfl | rfl | rfl | rfl
  · rw [h _ (by simp)] at hr; cases hr
  · rw [h _ (by simp)] at hr; cases hr
  · rw [h _ (by simp)] at hr; cases hr
  · have h1 : parseFloat ['n', 'a', 'n'] = some none := by decide
    rw [h1] at hr
    exact ⟨(Option.some.inj hr).symm, rfl⟩

theorem fixed16_length {x : K} (h0 : 0 ≤ x) (h1 : x ≤ 1) : (fixed16 x).length = 18 := by
  unfold fixed16
  dsimp only
  rw [if_neg (not_lt.2 h0), List.nil_append, fixedDigits_eq]
  have hm : (roundEven (|x| * 10 ^ 16)).toNat / 10 ^ 16 < 10 := by
    have h := roundEven_close (|x| * 10 ^ 16)
    rw [abs_of_nonneg h0] at h ⊢
    have h2 : ((roundEven (x * 10 ^ 16) : ℤ) : K) < 10 ^ 16 + 1 := by
      have h5 := (abs_le.1 h).1
      have h6 : x * 10 ^ 16 ≤ 1 * 10 ^ 16 := mul_le_mul_of_nonneg_right h1 (by positivity)
      rw [one_mul] at h6
      have h7 : ((roundEven (x * 10 ^ 16) : ℤ) : K) ≤ x * 10 ^ 16 + 1 / 2 := by linarith only [h5]
      calc ((roundEven (x * 10 ^ 16) : ℤ) : K) ≤ x * 10 ^ 16 + 1 / 2 := h7
        _ ≤ 10 ^ 16 + 1 / 2 := by gcongr
        _ < 10 ^ 16 + 1 := by gcongr; norm_num
    have h3 : roundEven (x * 10 ^ 16) < 10 ^ 16 + 1 := by exact_mod_cast h2
    omega
  have h4 : (natStr ((roundEven (|x| * 10 ^ 16)).toNat / 10 ^ 16)).length = 1 := by
    generalize (roundEven (|x| * 10 ^ 16)).toNat / 10 ^ 16 = k at hm
    interval_cases k <;> decide
  rw [List.length_append, List.length_cons, h4, List.length_map, fixedDigs_length]

theorem word_cut {x : Option K} (hx : ∀ y, x = some y → 0 ≤ y ∧ y ≤ 1) {p : List Char}
    (hp : p <+: fmtWord x) {r : Num} (hr : parseFloat p = some r) :
    Spec.Shortened x r ∧ (fmtWord x).length ≤ p.length + 17 := by
  cases x with
  | none =>
    obtain ⟨rfl, rfl⟩ := nan_cut hp hr
    exact ⟨trivial, by simp [fmtWord]⟩
  | some x =>
    obtain ⟨h0, h1⟩ := hx x rfl
    obtain ⟨y, rfl, hy0, hy1⟩ := number_cut h0 hp hr
    refine ⟨⟨round16 x, rounded_readBack (some x), hy0, hy1⟩, ?_⟩
    have : p ≠ [] := by
      rintro rfl
      have h2 : parseFloat [] = none := by decide
      rw [h2] at hr
      cases hr
    have := List.length_pos_iff.2 this
    have h3 := fixed16_length h0 h1
    change (fixed16 x).length ≤ _
    omega

theorem round16_nonneg {x : K} (h : 0 ≤ x) : 0 ≤ round16 x := by
  obtain ⟨y, hy, h0, -⟩ := number_cut h List.prefix_rfl (parseFloat_fixed16 x)
  rw [Option.some.inj hy]
  exact h0

theorem shortened_readBack {x : Option K} (hx : ∀ y, x = some y → 0 ≤ y ∧ y ≤ 1) :
    Spec.Shortened x (readBack x) := by
  cases x with
  | none => trivial
  | some x =>
    exact ⟨round16 x, rounded_readBack (some x), round16_nonneg (hx x rfl).1, le_refl _⟩

theorem blanks_cut {n : ℕ} {w p : List Char} (h : p <+: List.replicate n ' ' ++ w) :
    (∃ k, p = List.replicate k ' ') ∨ ∃ q, p = List.replicate n ' ' ++ q ∧ q <+: w := by
  rcases prefix_append h with h | h
  · left
    exact ⟨p.length, List.eq_replicate_iff.2 ⟨rfl, fun c hc =>
      List.eq_of_mem_replicate (h.subset hc)⟩⟩
  · exact Or.inr h

/-- Words of a vector line whose first two numbers are complete. -/
theorem split_two (n : ℕ) (a b : Option K) (q : List Char) :
    splitAux [] (((List.replicate n ' ' ++ fmt916 a ++ "   ".toList) ++
      fmt916 b ++ "   ".toList) ++ q) = fmtWord a :: fmtWord b :: splitAux [] q := by
  have h3 : "   ".toList = [' ', ' ', ' '] := by decide
  rw [h3]
  simp only [List.append_assoc]
  rw [splitAux_blanks, List.cons_append, splitAux_fmt _ (by decide)]
  simp only [List.cons_append, List.nil_append]
  rw [splitAux_skip (by decide), splitAux_skip (by decide), splitAux_fmt _ (by decide),
    splitAux_skip (by decide), splitAux_skip (by decide)]

/-- A vector read from a line that ends within the third number. -/
theorem readVec_third (n : ℕ) (v : Fin 3 → Option K) {q : List Char} (hq : q <+: fmtWord (v 2))
    (k : ℕ) : readVec (((List.replicate n ' ' ++ fmt916 (v 0) ++ "   ".toList) ++
      fmt916 (v 1) ++ "   ".toList) ++ (List.replicate k ' ' ++ q)) =
      (parseFloat q).map fun r => ![readBack (v 0), readBack (v 1), r] := by
  unfold readVec readRow splitWs
  rw [split_two, splitAux_blanks]
  by_cases hne : q = []
  · subst hne
    have : parseFloat [] = none := by decide
    rw [this]
    simp only [splitAux, parseFloats, List.take_succ_cons, List.mapM_cons, parseFloat_fmtWord]
    rfl
  · have hns : NoSpace q := (noSpace_fmtWord (v 2)).prefix hq
    have hw : splitAux [] q = [q] := by
      have := splitAux_word hns (cur := []) (rest := [])
      rw [List.append_nil, List.nil_append] at this
      rw [this, splitAux_end hne]
    rw [hw]
    simp only [parseFloats, List.take_succ_cons, List.take_zero, List.mapM_cons, List.mapM_nil,
      parseFloat_fmtWord]
    cases parseFloat q with
    | none => rfl
    | some r => rfl

/-- A vector line cut anywhere: if a vector can still be read, only its last entry can be wrong,
and little is missing. -/
theorem readVec_shortened (n : ℕ) (v : Fin 3 → Option K)
    (hv : ∀ y, v 2 = some y → 0 ≤ y ∧ y ≤ 1) {p : List Char} {w : NumVec}
    (hp : p <+: vectorBody (List.replicate n ' ') v) (h : readVec p = some w) :
    w 0 = readBack (v 0) ∧ w 1 = readBack (v 1) ∧ Spec.Shortened (v 2) (w 2) ∧
      (vectorBody (List.replicate n ' ') v).length ≤ p.length + 17 := by
  obtain ⟨e0, e1⟩ := readVec_cut n v hp h
  refine ⟨e0, e1, ?_⟩
  obtain ⟨k, hk⟩ := fmt916_eq (v 2)
  unfold vectorBody at hp ⊢
  rcases prefix_append hp with hp | ⟨q, rfl, hq⟩
  · exfalso
    have h1 := splitAux_length_mono [] hp
    have h2 := split_two n (v 0) (v 1) []
    rw [List.append_nil] at h2
    rw [h2] at h1
    have h4 := readVec_length h
    unfold splitWs at h4
    simp [splitAux] at h1
    omega
  · rw [hk] at hq
    rcases blanks_cut hq with ⟨j, rfl⟩ | ⟨u, rfl, hu⟩
    · exfalso
      have h1 := readVec_third n v (q := []) List.nil_prefix j
      rw [List.append_nil] at h1
      rw [h1] at h
      have : parseFloat [] = none := by decide
      rw [this] at h
      cases h
    · rw [readVec_third n v hu k] at h
      cases hr : parseFloat u with
      | none => rw [hr] at h; cases h
      | some r =>
        rw [hr] at h
        obtain ⟨g1, g2⟩ := word_cut hv hu hr
        refine ⟨?_, ?_⟩
        · rw [← Option.some.inj h]
          exact g1
        · rw [hk]
          simp only [List.length_append]
          omega

/-- Rows of a truncated file. -/
theorem readVectors_shortened (ps : List (Fin 3 → Option K))
    (hv : ∀ v ∈ ps, ∀ i y, v i = some y → 0 ≤ y ∧ y ≤ 1) {p : List Char}
    (hp : p <+: getPositionsStr ps) (hne : ps ≠ []) :
    (∃ r : Raised, r.err = .invalidFile ∧ readVectors ps.length p = .error r) ∨
    ∃ r q, readVectors ps.length p = .ok (r, q) ∧ Spec.LastShortened ps r ∧
      (getPositionsStr ps).length ≤ p.length + 18 := by
  induction ps generalizing p with
  | nil => exact absurd rfl hne
  | cons v ps ih =>
    have hs : getPositionsStr (v :: ps) = (vectorBody (List.replicate 2 ' ') v ++ ['\n']) ++
        getPositionsStr ps := by
      unfold getPositionsStr
      rw [List.flatMap_cons, blanks2, vectorLine_eq]
    rw [hs] at hp
    rw [List.length_cons, readVectors]
    rcases readline_prefix (newline_vectorBody 2 v) hp with ⟨hp', hr⟩ | ⟨q, hq, hr, hpq⟩
    · rw [hr]
      dsimp only
      cases hw : readVec p with
      | none => exact Or.inl ⟨_, rfl, rfl⟩
      | some w =>
        dsimp only
        cases ps with
        | nil =>
          obtain ⟨h0, h1, h2, h3⟩ := readVec_shortened 2 v (hv v (by simp) 2) hp' hw
          refine Or.inr ⟨[w], [], rfl, ⟨[], v, [], w, rfl, rfl, .nil, ?_, ?_, h2⟩, ?_⟩
          · rw [h0]; exact rounded_readBack _
          · rw [h1]; exact rounded_readBack _
          · rw [hs]
            simp only [List.length_append, List.length_singleton]
            have : (getPositionsStr ([] : List (Fin 3 → Option K))).length = 0 := rfl
            omega
        | cons u ps =>
          obtain ⟨r, hr1, hr2⟩ := readVectors_nil ps.length
          refine Or.inl ⟨r, hr1, ?_⟩
          rw [List.length_cons, hr2]
          rfl
    · rw [hr, ← vectorLine_eq]
      dsimp only
      rw [readVec_vectorLine]
      dsimp only
      cases ps with
      | nil =>
        refine Or.inr ⟨[fun i => readBack (v i)], q, rfl,
          ⟨[], v, [], _, rfl, rfl, .nil, rounded_readBack _, rounded_readBack _, ?_⟩, ?_⟩
        · exact shortened_readBack (hv v (by simp) 2)
        · rw [hs, hpq]
          have : (getPositionsStr ([] : List (Fin 3 → Option K))).length = 0 := rfl
          simp only [List.length_append, List.length_cons, List.length_nil]
          omega
      | cons u ps =>
        rcases ih (fun v' h' => hv v' (by simp [h'])) hq (by simp) with
          ⟨r, hr1, hr2⟩ | ⟨r, q', hok, ⟨w₁, p', r₁, q'', e1, e2, e3, e4⟩, hl⟩
        · exact Or.inl ⟨r, hr1, by rw [hr2]; rfl⟩
        · refine Or.inr ⟨(fun i => readBack (v i)) :: r, q', by rw [hok]; rfl,
            ⟨v :: w₁, p', (fun i => readBack (v i)) :: r₁, q'', by rw [e1]; rfl, by rw [e2]; rfl,
              .cons (fun i => rounded_readBack _) e3, e4⟩, ?_⟩
          rw [hs, hpq]
          simp only [List.length_append, List.length_cons, List.length_nil]
          omega

theorem small_natStr {k : ℕ} (h : k < 10) :
    natStr k = [digitChar k] ∧ parseFloat [digitChar k] = some (some (k : ℚ)) := by
  have h1 : natStr k = [digitChar k] := by interval_cases k <;> decide
  refine ⟨h1, ?_⟩
  have hd : ∀ d ∈ [k], d < 10 := by simpa using h
  have hns : NoSpace [digitChar k] := by
    have := noSpace_digits hd
    simpa using this
  rw [parseFloat_digit h hns rfl]
  have := unsignedFloat_digits [k] hd (by simp)
  rw [show [digitChar k] = [k].map digitChar from rfl, this]
  simp [digitsVal]

/-- Text of a number in the unit interval: one digit, a point and sixteen digits; the digit alone
is the integer part. -/
theorem fixed16_head {x : K} (h0 : 0 ≤ x) (h1 : x ≤ 1) : ∃ c t, fixed16 x = c :: t ∧
    t.length = 17 ∧ parseFloat [c] = some (some ((⌊round16 x⌋ : ℤ) : ℚ)) := by
  have hlen := fixed16_length h0 h1
  have hm : (roundEven (|x| * 10 ^ 16)).toNat / 10 ^ 16 < 10 := by
    have h := roundEven_close (|x| * 10 ^ 16)
    rw [abs_of_nonneg h0] at h ⊢
    have h2 : ((roundEven (x * 10 ^ 16) : ℤ) : K) < 10 ^ 16 + 1 := by
      have h5 := (abs_le.1 h).1
      have h6 : x * 10 ^ 16 ≤ 1 * 10 ^ 16 := mul_le_mul_of_nonneg_right h1 (by positivity)
      rw [one_mul] at h6
      have h7 : ((roundEven (x * 10 ^ 16) : ℤ) : K) ≤ x * 10 ^ 16 + 1 / 2 := by linarith only [h5]
      calc ((roundEven (x * 10 ^ 16) : ℤ) : K) ≤ x * 10 ^ 16 + 1 / 2 := h7
        _ ≤ 10 ^ 16 + 1 / 2 := by gcongr
        _ < 10 ^ 16 + 1 := by gcongr; norm_num
    have h3 : roundEven (x * 10 ^ 16) < 10 ^ 16 + 1 := by exact_mod_cast h2
    omega
  have hr : 0 ≤ round16 x := round16_nonneg h0
  unfold fixed16 at hlen ⊢
  dsimp only at hlen ⊢
  rw [if_neg (not_lt.2 h0), List.nil_append] at hlen ⊢
  obtain ⟨e1, e2⟩ := small_natStr hm
  rw [e1] at hlen ⊢
  refine ⟨_, _, rfl, by simpa using hlen, ?_⟩
  rw [e2]
  congr 2
  unfold round16 units at hr ⊢
  rw [if_neg (not_lt.2 h0)] at hr ⊢
  generalize roundEven (|x| * 10 ^ 16) = u at hr ⊢
  have hu : 0 ≤ u := by
    by_contra hneg
    have : (u : ℚ) < 0 := by exact_mod_cast not_le.1 hneg
    have : (u : ℚ) / 10 ^ 16 < 0 := div_neg_of_neg_of_pos this (by positivity)
    linarith
  lift u to ℕ using hu
  have hf : ⌊((u : ℤ) : ℚ) / 10 ^ 16⌋ = ((u / 10 ^ 16 : ℕ) : ℤ) := by
    rw [Int.floor_eq_iff]
    have hd : u / 10 ^ 16 * 10 ^ 16 ≤ u := Nat.div_mul_le_self _ _
    have hd2 : u < (u / 10 ^ 16 + 1) * 10 ^ 16 := by omega
    constructor
    · rw [le_div_iff₀ (by positivity)]
      exact_mod_cast hd
    · rw [div_lt_iff₀ (by positivity)]
      exact_mod_cast hd2
  rw [hf, Int.toNat_natCast, Int.cast_natCast]

theorem readVectors_then (ps : List (Fin 3 → Option K)) {t : List Char} (ht : '\n' ∉ t) {w : NumVec}
    (hw : readVec t = some w) : readVectors (ps.length + 1) (getPositionsStr ps ++ t) =
      .ok ((ps.map fun p i => readBack (p i)) ++ [w], []) := by
  induction ps with
  | nil =>
    change readVectors 1 t = _
    rw [readVectors, readline_last ht]
    dsimp only
    rw [hw]
    rfl
  | cons v ps ih =>
    have hs : getPositionsStr (v :: ps) ++ t = vectorLine (List.replicate 2 ' ') v ++
        (getPositionsStr ps ++ t) := by
      unfold getPositionsStr
      rw [List.flatMap_cons, blanks2, List.append_assoc]
    rw [hs, List.length_cons, readVectors, readline_vectorLine]
    dsimp only
    rw [readVec_vectorLine]
    dsimp only
    rw [ih]
    rfl

theorem readPositions_line (ext : NumMat → Py NumMat) (lattice : NumMat) {l : List Char}
    (hl : '\n' ∉ l) (t : List Char) (n : ℕ) :
    readPositions ext (('D' :: l ++ ['\n']) ++ t) lattice n =
      (readVectors n t >>= fun x => .ok (x.1, x.2)) := by
  have hstrip : strip ('D' :: (l ++ ['\n'])) ≠ [] := by
    unfold strip
    rw [List.dropWhile_cons, if_neg (by decide)]
    intro h
    rw [List.reverse_eq_nil_iff, List.dropWhile_eq_nil_iff] at h
    have := h 'D' (by simp)
    revert this; decide
  have hr : readline (('D' :: l ++ ['\n']) ++ t) = ('D' :: (l ++ ['\n']), t) := by
    rw [List.append_assoc, List.singleton_append, readline_line (by simp [hl])]
    rfl
  unfold readPositions
  rw [hr]
  dsimp only [List.head?_cons]
  rw [if_neg (by rintro (h | h); exacts [hstrip h, absurd h (by decide)]), if_neg (by decide)]
  unfold readFormat
  dsimp only [List.head?_cons]
  rw [if_neg (by decide), if_neg (by decide)]
  rfl

end

end Verif
