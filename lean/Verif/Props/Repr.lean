import Verif.Model.Repr
import Verif.Proofs.Text
import Verif.Props.ArtSpec
import Verif.Props.Interpolation

/-!
# Property C111: string representations
-/

namespace Verif
open Spec

variable {N : ℕ}

theorem natStr_injective {a b : ℕ} (h : natStr a = natStr b) : a = b := by
  have := parseInt_natStr a
  rw [h, parseInt_natStr b] at this
  exact_mod_cast (Option.some.inj this).symm

theorem natStr_digits (n : ℕ) : ∀ c ∈ natStr n, isDigit c = true := by
  rw [natStr_eq]
  intro c hc
  obtain ⟨d, hd, rfl⟩ := List.mem_map.1 hc
  exact isDigit_digitChar (natDigs_lt n d hd)

/-- A number followed by a character that is no digit can be read off. -/
theorem natStr_split {a b : ℕ} {c c' : Char} {r r' : List Char} (hc : isDigit c = false)
    (hc' : isDigit c' = false) (h : natStr a ++ c :: r = natStr b ++ c' :: r') :
    a = b ∧ c :: r = c' :: r' := by
  have key : ∀ (x y : List Char), (∀ d ∈ x, isDigit d = true) → (∀ d ∈ y, isDigit d = true) →
      x ++ c :: r = y ++ c' :: r' → x = y ∧ c :: r = c' :: r' := by
    intro x
    induction x with
    | nil =>
      intro y _ hy e
      cases y with
      | nil => exact ⟨rfl, e⟩
      | cons d y =>
        have : c = d := (List.cons.inj e).1
        rw [this, hy d List.mem_cons_self] at hc
        cases hc
    | cons d x ih =>
      intro y hx hy e
      cases y with
      | nil =>
        have : d = c' := (List.cons.inj e).1
        rw [← this, hx d List.mem_cons_self] at hc'
        cases hc'
      | cons d' y =>
        obtain ⟨e1, e2⟩ := List.cons.inj e
        obtain ⟨h1, h2⟩ := ih y (fun z hz => hx z (List.mem_cons_of_mem _ hz))
          (fun z hz => hy z (List.mem_cons_of_mem _ hz)) e2
        exact ⟨by rw [e1, h1], h2⟩
  obtain ⟨h1, h2⟩ := key _ _ (natStr_digits a) (natStr_digits b) h
  exact ⟨natStr_injective h1, h2⟩

/-- Colour of the count. -/
def countColor (specified total : ℕ) : Word :=
  if specified = total then okGreen
  else if 1 ≤ specified ∧ specified < total then warningYellow else errorRed

theorem countColor_length (s t : ℕ) : (countColor s t).length = 10 := by
  unfold countColor
  split_ifs <;> decide

theorem repr_eq (m : IModel N) : m.repr = "InterpolationModel with ".toList ++
    (countColor m.basis.length (3 * N) ++ (natStr m.basis.length ++ '/' ::
      (natStr (3 * N) ++ '\x1b' :: ("[0m degrees of freedom specified.".toList ++
        reprWarnings "degrees of freedom".toList m)))) := by
  have h1 : endColor = '\x1b' :: "[0m".toList := rfl
  have h2 : "[0m degrees of freedom specified.".toList
      = "[0m".toList ++ " degrees of freedom specified.".toList := by decide
  unfold IModel.repr countColor
  dsimp only
  split_ifs <;> simp only [h1, h2, List.append_assoc, List.cons_append, List.nil_append]

theorem warnings_eq (what : Word) (m : IModel N) : reprWarnings what m =
    (if m.mask.count true > 0 then "\n \x1b[1;33;49m ATTENTION: ".toList ++
      (natStr (m.mask.count true) ++ '/' :: (natStr m.basis.length ++ ' ' ::
        (what ++ " are masked. \x1b[0m".toList))) else []) ++
    (if m.dummy = true then "\n \x1b[1;33;49m ATTENTION: ".toList ++
      ("this is a dummy model. \x1b[0m".toList) else []) := by
  have h1 : "\n \x1b[1;33;49m ATTENTION: ".toList
      = "\n ".toList ++ (warningYellow ++ ' ' :: "ATTENTION: ".toList) := by decide
  have h2 : " are masked. \x1b[0m".toList = " are masked.".toList ++ ' ' :: endColor := by decide
  have h3 : "this is a dummy model. \x1b[0m".toList
      = "this is a dummy model.".toList ++ ' ' :: endColor := by decide
  have h4 : "ATTENTION: this is a dummy model.".toList
      = "ATTENTION: ".toList ++ "this is a dummy model.".toList := by decide
  unfold reprWarnings attention numMasked
  rw [h1, h2, h3, h4]
  simp only [List.append_assoc, List.cons_append, List.nil_append]

theorem warnings_determine (what : Word) {N' : ℕ} (m : IModel N) (m' : IModel N')
    (h : reprWarnings what m = reprWarnings what m') :
    m.mask.count true = m'.mask.count true ∧ m.dummy = m'.dummy := by
  have ht : "this is a dummy model. \x1b[0m".toList
      = 't' :: "his is a dummy model. \x1b[0m".toList := by decide
  have hne : ∀ (n : ℕ) (x y : List Char), natStr n ++ x ≠ 't' :: y := fun n x y e => by
    cases hn : natStr n with
    | nil => exact natStr_ne_nil n hn
    | cons c cs =>
      rw [hn] at e
      have hc := natStr_digits n c (by rw [hn]; exact List.mem_cons_self)
      rw [(List.cons.inj e).1] at hc
      revert hc
      decide
  have hpre : "\n \x1b[1;33;49m ATTENTION: ".toList ≠ [] := by decide
  have hd : ∀ b b' : Bool, (if b = true then "\n \x1b[1;33;49m ATTENTION: ".toList ++
      ("this is a dummy model. \x1b[0m".toList) else []) = (if b' = true then
      "\n \x1b[1;33;49m ATTENTION: ".toList ++ ("this is a dummy model. \x1b[0m".toList) else []) →
      b = b' := by decide
  rw [warnings_eq, warnings_eq] at h
  by_cases h1 : m.mask.count true > 0 <;> by_cases h2 : m'.mask.count true > 0
  · rw [if_pos h1, if_pos h2] at h
    simp only [List.append_assoc, List.cons_append] at h
    have h := List.append_cancel_left h
    obtain ⟨e1, e2⟩ := natStr_split (by decide) (by decide) h
    obtain ⟨e3, e4⟩ := natStr_split (by decide) (by decide) (List.cons.inj e2).2
    have e5 := List.append_cancel_left (List.append_cancel_left (List.cons.inj e4).2)
    exact ⟨e1, hd _ _ e5⟩
  · rw [if_pos h1, if_neg h2] at h
    exfalso
    by_cases hb : m'.dummy = true
    · rw [if_pos hb] at h
      simp only [List.append_assoc, List.cons_append, List.nil_append] at h
      have h := List.append_cancel_left h
      rw [ht] at h
      exact hne _ _ _ h
    · rw [if_neg hb] at h
      simp only [List.append_assoc, List.append_nil] at h
      exact hpre (List.append_eq_nil_iff.1 h).1
  · rw [if_neg h1, if_pos h2] at h
    exfalso
    by_cases hb : m.dummy = true
    · rw [if_pos hb] at h
      simp only [List.append_assoc, List.cons_append, List.nil_append] at h
      have h := List.append_cancel_left h
      rw [ht] at h
      exact hne _ _ _ h.symm
    · rw [if_neg hb] at h
      simp only [List.append_assoc, List.append_nil] at h
      exact hpre (List.append_eq_nil_iff.1 h.symm).1
  · rw [if_neg h1, if_neg h2] at h
    exact ⟨by omega, hd _ _ (by simpa only [List.nil_append] using h)⟩

theorem warnings_nil (what : Word) (m : IModel N) :
    reprWarnings what m = [] ↔ (∀ b ∈ m.mask, b = false) ∧ m.dummy = false := by
  rw [warnings_eq, List.append_eq_nil_iff]
  have h0 : m.mask.count true > 0 ↔ ¬ ∀ b ∈ m.mask, b = false := by
    rw [gt_iff_lt, List.count_pos_iff]
    push Not
    constructor
    · intro h; exact ⟨true, h, by decide⟩
    · rintro ⟨b, hb, hb'⟩
      cases b
      · exact absurd rfl hb'
      · exact hb
  have hpre : "\n \x1b[1;33;49m ATTENTION: ".toList ≠ [] := by decide
  refine and_congr ?_ ?_
  · by_cases h : m.mask.count true > 0
    · rw [if_pos h]
      constructor
      · intro e; exact absurd (List.append_eq_nil_iff.1 e).1 hpre
      · intro e; exact absurd e (h0.1 h)
    · rw [if_neg h]
      constructor
      · intro _; by_contra hc; exact h (h0.2 hc)
      · intro _; rfl
  · cases hb : m.dummy
    · simp
    · rw [if_pos rfl]
      constructor
      · intro e; exact absurd (List.append_eq_nil_iff.1 e).1 hpre
      · intro e; cases e

/-- C111: the text shows the number of specified and of all `3N` degrees of freedom, in green if
they agree, in red if nothing or too much is specified and in yellow otherwise; nothing follows
exactly if nothing is masked and the model is no dummy. -/
theorem C111_text (m : IModel N) : ∃ color rest, m.repr = "InterpolationModel with ".toList ++ color ++
      natStr m.basis.length ++ ['/'] ++ natStr (3 * N) ++
      "\x1b[0m degrees of freedom specified.".toList ++ rest ∧
    (color = okGreen ↔ m.basis.length = 3 * N) ∧
    (color = warningYellow ↔ 0 < m.basis.length ∧ m.basis.length < 3 * N) ∧
    (color = errorRed ↔ (m.basis.length = 0 ∧ N ≠ 0) ∨ 3 * N < m.basis.length) ∧
    (rest = [] ↔ (∀ b ∈ m.mask, b = false) ∧ m.dummy = false) := by
  have gy : okGreen ≠ warningYellow := by decide
  have gr : okGreen ≠ errorRed := by decide
  have yr : warningYellow ≠ errorRed := by decide
  refine ⟨countColor m.basis.length (3 * N), reprWarnings "degrees of freedom".toList m, ?_, ?_, ?_,
    ?_, ?_⟩
  · have : "\x1b[0m degrees of freedom specified.".toList
      = '\x1b' :: "[0m degrees of freedom specified.".toList := by decide
    rw [repr_eq, this]
    simp only [List.append_assoc, List.cons_append, List.nil_append]
  · unfold countColor
    split_ifs with h1 h2 <;> simp [h1, gy.symm, gr.symm]
  · unfold countColor
    split_ifs with h1 h2
    · simp [gy, h1]
    · simp; omega
    · simp [yr.symm]; omega
  · unfold countColor
    split_ifs with h1 h2
    · exact iff_of_false gr (by omega)
    · exact iff_of_false yr (by omega)
    · exact iff_of_true rfl (by omega)
  · exact warnings_nil _ m

/-- C111: the text tells the number of atoms, of specified and of masked degrees of freedom and
whether the model is a dummy. -/
theorem C111_determines {N' : ℕ} (m : IModel N) (m' : IModel N') (h : m.repr = m'.repr) :
    N = N' ∧ m.basis.length = m'.basis.length ∧
      m.mask.count true = m'.mask.count true ∧ m.dummy = m'.dummy := by
  rw [repr_eq, repr_eq] at h
  have h := List.append_cancel_left h
  have h := (List.append_inj h (by rw [countColor_length, countColor_length])).2
  obtain ⟨e1, e2⟩ := natStr_split (by decide) (by decide) h
  obtain ⟨e3, e4⟩ := natStr_split (by decide) (by decide) (List.cons.inj e2).2
  have e5 := List.append_cancel_left (List.cons.inj e4).2
  obtain ⟨e6, e7⟩ := warnings_determine _ m m' e5
  exact ⟨by omega, e1, e6, e7⟩

theorem specified_eq (n : ℕ) : ∃ color, specifiedStr n = color ++ natStr n ++ "/3\x1b[0m".toList ∧
    (color = okGreen ↔ n = 3) ∧ (color = warningYellow ↔ n = 1 ∨ n = 2) ∧
    (color = errorRed ↔ n = 0 ∨ 3 < n) := by
  have gy : okGreen ≠ warningYellow := by decide
  have gr : okGreen ≠ errorRed := by decide
  have yr : warningYellow ≠ errorRed := by decide
  have h : "/3\x1b[0m".toList = "/3".toList ++ endColor := by decide
  rw [h]
  unfold specifiedStr
  dsimp only
  split_ifs with h1 h2
  · exact ⟨okGreen, by simp only [List.append_assoc], iff_of_true rfl h1,
      iff_of_false gy (by omega), iff_of_false gr (by omega)⟩
  · exact ⟨warningYellow, by simp only [List.append_assoc], iff_of_false gy.symm h1,
      iff_of_true rfl (by omega), iff_of_false yr (by omega)⟩
  · exact ⟨errorRed, by simp only [List.append_assoc], iff_of_false gr.symm h1,
      iff_of_false yr.symm (by omega), iff_of_true rfl (by omega)⟩

open Classical in
/-- C111, atomic Raman tensors: for valid equivalence labels the table has a header and one row for
every inequivalent atom, in order: atom, directions, their number (green for three, yellow for one or
two, red otherwise) and the number of equivalent atoms.  Nothing follows the table exactly if nothing
is masked and the model is no dummy. -/
theorem C111_art (array2string : Vec3 → Word) (tabulate : List (List Word) → Word) (m : IModel N)
    (hlen : m.ref.equivAtoms.length = N)
    (hv : ∀ (i : ℕ) (hi : i < m.ref.equivAtoms.length), m.ref.equivAtoms[i] = i ∨
      (m.ref.equivAtoms[i] < i ∧
        m.ref.equivAtoms[m.ref.equivAtoms[i]]? = some m.ref.equivAtoms[i])) :
    ∃ header rows rest, m.artRepr array2string tabulate = .ok (tabulate (header :: rows) ++ rest) ∧
      (rest = [] ↔ (∀ b ∈ m.mask, b = false) ∧ m.dummy = false) ∧
      List.Forall₂ (fun (i : ℕ) (row : List Word) =>
        ∃ (a : Fin N) (dirs : List Vec3) (color : Word), i = a ∧
          dirs = (m.basis.filter fun b => decide (Touches b a)).map (fun b => b a) ∧
          row = [natStr i, joinWords ", ".toList (dirs.map array2string),
            color ++ natStr dirs.length ++ "/3\x1b[0m".toList,
            natStr ((List.range N).filter fun j : ℕ => j ≠ (a : ℕ) ∧
              m.ref.equivAtoms[j]? = some (a : ℕ)).length] ∧
          (color = okGreen ↔ dirs.length = 3) ∧
          (color = warningYellow ↔ dirs.length = 1 ∨ dirs.length = 2) ∧
          (color = errorRed ↔ dirs.length = 0 ∨ 3 < dirs.length))
        ((List.range N).filter fun i => m.ref.equivAtoms[i]? = some i) rows := by
  obtain ⟨ts, h1, h2, h3⟩ := C106_specification_tuples m hlen hv
  unfold IModel.artRepr
  rw [h1]
  refine ⟨_, _, reprWarnings "atomic Raman tensors".toList m, rfl, warnings_nil _ m, ?_⟩
  rw [← h2, List.forall₂_map_left_iff, List.forall₂_map_right_iff, List.forall₂_same]
  intro t ht
  obtain ⟨a, ha, hb, hc⟩ := h3 t ht
  obtain ⟨color, hs, c1, c2, c3⟩ := specified_eq t.2.2.length
  refine ⟨a, t.2.2, color, ha, hc, ?_, c1, c2, c3⟩
  rw [hs, hb]
  rfl

/-- C111: invalid labels raise `KeyError`. -/
theorem C111_key_error (array2string : Vec3 → Word) (tabulate : List (List Word) → Word)
    (m : IModel N)
    (hv : ¬ ∀ (i : ℕ) (hi : i < m.ref.equivAtoms.length), m.ref.equivAtoms[i] = i ∨
      (m.ref.equivAtoms[i] < i ∧
        m.ref.equivAtoms[m.ref.equivAtoms[i]]? = some m.ref.equivAtoms[i])) :
    m.artRepr array2string tabulate = .error .keyError := by
  unfold IModel.artRepr
  rw [C106_key_error m hv]
  rfl

/-- C111, concrete: the two-mode model of one atom with one mode masked. -/
example : twoDof.repr = ("InterpolationModel with \x1b[1;33;49m2/3\x1b[0m degrees of freedom " ++
    "specified.\n \x1b[1;33;49m ATTENTION: 1/2 degrees of freedom are masked. \x1b[0m").toList := by
  rw [repr_eq, warnings_eq]
  have h2 : natStr 2 = ['2'] := by unfold natStr; simp [digitChar]
  have h3 : natStr 3 = ['3'] := by unfold natStr; simp [digitChar]
  have h1 : natStr 1 = ['1'] := by unfold natStr; simp [digitChar]
  change _ ++ (countColor 2 3 ++ (natStr 2 ++ '/' :: (natStr 3 ++ _ :: (_ ++
    ((if 1 > 0 then _ ++ (natStr 1 ++ '/' :: (natStr 2 ++ _)) else _) ++ _))))) = _
  rw [h1, h2, h3]
  decide +kernel

end Verif
