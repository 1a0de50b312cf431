import Verif.Props.Poscar
import Verif.Spec.Literal

/-!
# Property C158: labels can be recovered from the files
-/

namespace Verif

/-- A text denotes at most one string. -/
theorem denotes_unique {t s s' : List Char} (h : Spec.Denotes t s) (h' : Spec.Denotes t s') :
    s = s' := by
  have hdisj : ∀ e c k, (e, c) ∈ Spec.shortEscapes → (e, k) ∉ Spec.codeEscapes := by
    intro e c k h1 h2
    simp only [Spec.shortEscapes, Spec.codeEscapes, List.mem_cons, Prod.mk.injEq,
      List.not_mem_nil, or_false] at h1 h2
    rcases h1 with ⟨rfl, -⟩ | ⟨rfl, -⟩ | ⟨rfl, -⟩ | ⟨rfl, -⟩ | ⟨rfl, -⟩ | ⟨rfl, -⟩ <;> simp at h2
  have hshort : ∀ e c c', (e, c) ∈ Spec.shortEscapes → (e, c') ∈ Spec.shortEscapes → c = c' := by
    intro e c c' h1 h2
    simp only [Spec.shortEscapes, List.mem_cons, Prod.mk.injEq, List.not_mem_nil, or_false]
      at h1 h2
    rcases h1 with ⟨rfl, rfl⟩ | ⟨rfl, rfl⟩ | ⟨rfl, rfl⟩ | ⟨rfl, rfl⟩ | ⟨rfl, rfl⟩ | ⟨rfl, rfl⟩ <;>
      simp at h2 <;> exact h2.symm
  have hcode : ∀ e k k', (e, k) ∈ Spec.codeEscapes → (e, k') ∈ Spec.codeEscapes → k = k' := by
    intro e c c' h1 h2
    simp only [Spec.codeEscapes, List.mem_cons, Prod.mk.injEq, List.not_mem_nil, or_false]
      at h1 h2
    rcases h1 with ⟨rfl, rfl⟩ | ⟨rfl, rfl⟩ | ⟨rfl, rfl⟩ <;> simp at h2 <;> exact h2.symm
  induction h generalizing s' with
  | nil => cases h'; rfl
  | plain c t s hc _ ih =>
    generalize he : c :: t = u at h'
    cases h' with
    | nil => cases he
    | plain c' t' s'' hc' h'' =>
      obtain ⟨rfl, rfl⟩ := List.cons_eq_cons.1 he
      rw [ih h'']
    | short e c' t' s'' h1 h'' => exact absurd (List.cons_eq_cons.1 he).1 hc
    | code e c' k ds t' s'' h1 hk hd hv h'' => exact absurd (List.cons_eq_cons.1 he).1 hc
  | short e c t s h1 _ ih =>
    generalize he : '\\' :: e :: t = u at h'
    cases h' with
    | nil => cases he
    | plain c' t' s'' hc' h'' => exact absurd (List.cons_eq_cons.1 he).1.symm hc'
    | short e' c' t' s'' h2 h'' =>
      obtain ⟨rfl, rfl⟩ := List.cons_eq_cons.1 (List.cons_eq_cons.1 he).2
      rw [ih h'', hshort _ _ _ h1 h2]
    | code e' c' k ds t' s'' h2 hk hd hv h'' =>
      obtain ⟨rfl, -⟩ := List.cons_eq_cons.1 (List.cons_eq_cons.1 he).2
      exact absurd h2 (hdisj _ _ _ h1)
  | code e c k ds t s h1 hk hd hv _ ih =>
    generalize he : '\\' :: e :: (ds ++ t) = u at h'
    cases h' with
    | nil => cases he
    | plain c' t' s'' hc' h'' => exact absurd (List.cons_eq_cons.1 he).1.symm hc'
    | short e' c' t' s'' h2 h'' =>
      obtain ⟨rfl, -⟩ := List.cons_eq_cons.1 (List.cons_eq_cons.1 he).2
      exact absurd h1 (hdisj _ _ _ h2)
    | code e' c' k' ds' t' s'' h2 hk' hd' hv' h'' =>
      obtain ⟨rfl, he2⟩ := List.cons_eq_cons.1 (List.cons_eq_cons.1 he).2
      obtain rfl := hcode _ _ _ h1 h2
      obtain ⟨rfl, rfl⟩ := List.append_inj he2 (hk.trans hk'.symm)
      rw [ih h'']
      congr 1
      exact Char.toNat_inj.1 (hv.symm.trans hv')

theorem hexDigit_spec {d : ℕ} (h : d < 16) :
    hexDigit d ∈ Spec.hexAlphabet ∧ Spec.hexAlphabet.idxOf (hexDigit d) = d := by
  interval_cases d <;> decide

theorem hexDigits_spec (k n : ℕ) (h : n < 16 ^ k) : (hexDigits k n).length = k ∧
    (∀ d ∈ hexDigits k n, d ∈ Spec.hexAlphabet) ∧ Spec.hexValue (hexDigits k n) = n := by
  induction k generalizing n with
  | zero =>
    rw [pow_zero] at h
    obtain rfl : n = 0 := by omega
    exact ⟨rfl, by simp [hexDigits], rfl⟩
  | succ k ih =>
    obtain ⟨h1, h2, h3⟩ := ih (n / 16) (by rw [pow_succ] at h; omega)
    obtain ⟨g1, g2⟩ := hexDigit_spec (Nat.mod_lt n (by norm_num : 0 < 16))
    rw [hexDigits]
    refine ⟨by simp [h1], ?_, ?_⟩
    · intro d hd
      rcases List.mem_append.1 hd with hd | hd
      · exact h2 d hd
      · rw [List.mem_singleton.1 hd]; exact g1
    · unfold Spec.hexValue at h3 ⊢
      rw [List.foldl_append, h3]
      simp only [List.foldl_cons, List.foldl_nil, g2]
      omega

theorem denotes_code {e : Char} {k : ℕ} (he : (e, k) ∈ Spec.codeEscapes) {c : Char}
    (hc : c.toNat < 16 ^ k) {t s : List Char} (h : Spec.Denotes t s) :
    Spec.Denotes ('\\' :: e :: hexDigits k c.toNat ++ t) (c :: s) := by
  obtain ⟨h1, h2, h3⟩ := hexDigits_spec k c.toNat hc
  exact .code e c k _ t s he h1 h2 h3 h

theorem denotes_reprChar (printable : Char → Bool) (quote c : Char)
    (hq : quote = '\'' ∨ quote = '"') {t s : List Char} (h : Spec.Denotes t s) :
    Spec.Denotes (reprChar printable quote c ++ t) (c :: s) := by
  unfold reprChar
  split_ifs with a b d e f g i j k
  · have hm : (c, c) ∈ Spec.shortEscapes := by
      rcases a with rfl | rfl
      · rcases hq with rfl | rfl <;> decide
      · decide
    exact .short c c t s hm h
  · rw [b]; exact .short 't' '\t' t s (by decide) h
  · rw [d]; exact .short 'n' '\n' t s (by decide) h
  · rw [e]; exact .short 'r' '\r' t s (by decide) h
  · exact denotes_code (by decide) (by norm_num; omega) h
  · exact .plain c t s (fun hc => a (Or.inr hc)) h
  · exact .plain c t s (fun hc => a (Or.inr hc)) h
  · exact denotes_code (by decide) (by norm_num; omega) h
  · exact denotes_code (by decide) (by norm_num; omega) h
  · refine denotes_code (by decide) ?_ h
    have := c.valid
    have hlt : c.toNat < 0x110000 := by
      rcases this with h | h
      · have : c.toNat < 0xd800 := h
        omega
      · exact h.2
    norm_num
    omega

/-- C158: the label line denotes the label, as the text of a Python string literal. -/
theorem C158_denotes (printable : Char → Bool) (label : List Char) :
    Spec.Denotes (innerSlice (pyRepr printable label)) label := by
  have hrepr : ∃ quote : Char, (quote = '\'' ∨ quote = '"') ∧
      innerSlice (pyRepr printable label) = label.flatMap (reprChar printable quote) := by
    unfold pyRepr innerSlice
    dsimp only
    refine ⟨if '\'' ∈ label ∧ ¬ '"' ∈ label then '"' else '\'', ?_, by simp⟩
    split_ifs
    · exact Or.inr rfl
    · exact Or.inl rfl
  obtain ⟨quote, hq, h⟩ := hrepr
  rw [h]
  clear h
  induction label with
  | nil => exact .nil
  | cons c cs ih =>
    rw [List.flatMap_cons]
    exact denotes_reprChar printable quote c hq ih

section
variable {K : Type} [Field K] [LinearOrder K] [IsStrictOrderedRing K] [FloorRing K]

/-- C158: the first line of a POSCAR denotes the label. -/
theorem C158_poscar (printable : Char → Bool) (lattice : Fin 3 → Fin 3 → Option K)
    (numbers : List ℕ) (positions : List (Fin 3 → Option K)) (label content : List Char)
    (h : poscarContent printable lattice numbers positions label = .ok content) :
    ∃ line rest, content = line ++ '\n' :: rest ∧ '\n' ∉ line ∧ '\r' ∉ line ∧
      Spec.Denotes line label := by
  unfold poscarContent at h
  cases hv : verifyStructure numbers positions with
  | error e => rw [hv] at h; cases h
  | ok u =>
    rw [hv] at h
    change (getSymbolsStr numbers >>= _) = _ at h
    cases hs : getSymbolsStr numbers with
    | error e => rw [hs] at h; cases h
    | ok str =>
      rw [hs] at h
      obtain ⟨h1, h2⟩ := label_newline printable label
      refine ⟨_, "   1.00000000000000".toList ++ ['\n'] ++ getLatticeStr lattice ++ str ++
        "Direct\n".toList ++ getPositionsStr positions,
        (Except.ok.inj h).symm.trans ?_, h1, h2, C158_denotes printable label⟩
      unfold headerStr
      simp only [List.append_assoc, List.cons_append, List.nil_append]

/-- C158: the first line of an XDATCAR denotes the label. -/
theorem C158_xdatcar (printable : Char → Bool) (lattice : Fin 3 → Fin 3 → Option K)
    (numbers : List ℕ) (n : ℕ) (positionsTs : List (Fin n → Fin 3 → Option K))
    (label content : List Char)
    (h : xdatcarContent printable lattice numbers n positionsTs label = .ok content) :
    ∃ line rest, content = line ++ '\n' :: rest ∧ '\n' ∉ line ∧ '\r' ∉ line ∧
      Spec.Denotes line label := by
  unfold xdatcarContent at h
  cases hv : verifyTrajectory numbers n positionsTs with
  | error e => rw [hv] at h; cases h
  | ok u =>
    rw [hv] at h
    change (getSymbolsStr numbers >>= _) = _ at h
    cases hs : getSymbolsStr numbers with
    | error e => rw [hs] at h; cases h
    | ok str =>
      rw [hs] at h
      obtain ⟨h1, h2⟩ := label_newline printable label
      refine ⟨_, "   1.00000000000000".toList ++ ['\n'] ++ getLatticeStr lattice ++ str ++
        configsStr 0 (positionsTs.map List.ofFn),
        (Except.ok.inj h).symm.trans ?_, h1, h2, C158_denotes printable label⟩
      unfold headerStr
      simp only [List.append_assoc, List.cons_append, List.nil_append]

end

/-- C158: different labels have different label lines, whichever characters the two Python
versions call printable. -/
theorem C158_injective (printable printable' : Char → Bool) (label label' : List Char)
    (h : innerSlice (pyRepr printable label) = innerSlice (pyRepr printable' label')) :
    label = label' :=
  denotes_unique (C158_denotes printable label) (h ▸ C158_denotes printable' label')

/-- C158, concrete: a newline, both quotes, a backslash and an escape character. -/
example : innerSlice (pyRepr (fun _ => true) ['\n', '\'', '"', '\\', Char.ofNat 27]) =
    ['\\', 'n', '\\', '\'', '"', '\\', '\\', '\\', 'x', '1', 'b'] := by decide

/-- C158, concrete: the text `\x1b` denotes the escape character. -/
example : Spec.Denotes ['\\', 'x', '1', 'b'] [Char.ofNat 27] :=
  .code 'x' (Char.ofNat 27) 2 ['1', 'b'] [] [] (by decide) rfl (by decide) (by decide) .nil

end Verif
