import Verif.Props.DynamicArgs
import Verif.Proofs.Layout

/-!
# C169: a time step given as text
-/

namespace Verif

open Spec

/-- The words "inf" and "infinity" in any case. -/
def Spec.InfinityWord (v : List Char) : Prop :=
  v.map Char.toLower = ['i', 'n', 'f'] ∨
    v.map Char.toLower = ['i', 'n', 'f', 'i', 'n', 'i', 't', 'y']

/-- The word stands for the number; the sign of NaN does not matter. -/
inductive Spec.SignedWord : List Char → Flt → Prop
  | finite (w : List Char) (q : ℚ) (h : Decimal w q) : SignedWord w (.fin q)
  | nan (sg v : List Char) (hs : sg = [] ∨ sg = ['+'] ∨ sg = ['-'])
      (h : v.map Char.toLower = ['n', 'a', 'n']) : SignedWord (sg ++ v) .nan
  | infinity (sg v : List Char) (hs : sg = [] ∨ sg = ['+']) (h : InfinityWord v) :
      SignedWord (sg ++ v) .posInf
  | minusInfinity (v : List Char) (h : InfinityWord v) : SignedWord ('-' :: v) .negInf

/-- The text, without the white space around it, stands for the number. -/
def Spec.TextNumber (s : List Char) (x : Flt) : Prop :=
  ∃ g w g', s = g ++ w ++ g' ∧ (∀ c ∈ g, Blank c) ∧ (∀ c ∈ g', Blank c) ∧ SignedWord w x

theorem signPart_nonFinite {sg v : List Char} {s : ℤ} (h1 : Sign sg s)
    (h2 : v.map Char.toLower = ['n', 'a', 'n'] ∨ InfinityWord v) :
    ∃ neg, signPart (sg ++ v) = (neg, v) ∧ s = signOf neg := by
  refine signPart_sign h1 ?_
  intro c hc
  obtain ⟨l, rfl⟩ : ∃ l, v = c :: l := by
    cases v with
    | nil => simp at hc
    | cons a l => exact ⟨l, by simpa using hc⟩
  have hh : c.toLower = 'n' ∨ c.toLower = 'i' := by
    rcases h2 with h2 | h2 | h2 <;> rw [List.map_cons] at h2
    · exact Or.inl (List.cons.inj h2).1
    · exact Or.inr (List.cons.inj h2).1
    · exact Or.inr (List.cons.inj h2).1
  constructor <;> rintro rfl <;> revert hh <;> decide

theorem infinity_not_nan {v : List Char} (h : InfinityWord v) :
    v.map Char.toLower ≠ ['n', 'a', 'n'] := by
  rcases h with h | h <;> rw [h] <;> decide

theorem noSpace_signed {w : List Char} {x : Flt} (h : SignedWord w x) : NoSpace w := by
  cases h with
  | finite w q h => exact noSpace_decimal h
  | nan sg v hs h =>
    rcases hs with rfl | rfl | rfl
    · exact noSpace_nonFinite ⟨[], 1, v, rfl, .inl ⟨rfl, rfl⟩, .inl h⟩
    · exact noSpace_nonFinite ⟨['+'], 1, v, rfl, .inr (.inl ⟨rfl, rfl⟩), .inl h⟩
    · exact noSpace_nonFinite ⟨['-'], -1, v, rfl, .inr (.inr ⟨rfl, rfl⟩), .inl h⟩
  | infinity sg v hs h =>
    rcases hs with rfl | rfl
    · exact noSpace_nonFinite ⟨[], 1, v, rfl, .inl ⟨rfl, rfl⟩, .inr h⟩
    · exact noSpace_nonFinite ⟨['+'], 1, v, rfl, .inr (.inl ⟨rfl, rfl⟩), .inr h⟩
  | minusInfinity v h =>
    exact noSpace_nonFinite ⟨['-'], -1, v, rfl, .inr (.inr ⟨rfl, rfl⟩), .inr h⟩

/-- Reading a text as a number. -/
theorem floatText_iff (s : List Char) (x : Flt) : floatAny (.str s) = .ok x ↔ TextNumber s x := by
  constructor
  · intro h
    cases hp : parseFloat s with
    | none =>
      unfold floatAny at h
      simp only [hp] at h
      cases h
    | some o =>
      obtain ⟨g, w, g', rfl, hg, hg', hw⟩ := (parseFloat_iff s o).1 hp
      refine ⟨g, w, g', rfl, hg, hg', ?_⟩
      cases o with
      | some q =>
        unfold floatAny at h
        simp only [hp] at h
        obtain rfl := Except.ok.inj h
        rcases hw with ⟨q', hq, hd⟩ | ⟨h0, -⟩
        · obtain rfl := Option.some.inj hq
          exact .finite w q hd
        · cases h0
      | none =>
        unfold floatAny at h
        simp only [hp] at h
        obtain rfl := Except.ok.inj h
        have hw' := noSpace_number hw
        rcases hw with ⟨q', hq, -⟩ | ⟨-, sg, sv, v, rfl, hs, hv⟩
        · cases hq
        · unfold nonFiniteValue
          rw [strip_gaps hg hg' hw']
          obtain ⟨neg, hneg, rfl⟩ := signPart_nonFinite hs hv
          rw [hneg]
          dsimp only
          rcases hv with hv | hv
          · rw [if_pos hv]
            refine .nan sg v ?_ hv
            rcases hs with ⟨h, -⟩ | ⟨h, -⟩ | ⟨h, -⟩ <;> simp [h]
          · rw [if_neg (infinity_not_nan hv)]
            rcases hs with ⟨rfl, hs⟩ | ⟨rfl, hs⟩ | ⟨rfl, hs⟩
            · cases neg with
              | false => exact .infinity [] v (.inl rfl) hv
              | true => simp [signOf] at hs
            · cases neg with
              | false => exact .infinity ['+'] v (.inr rfl) hv
              | true => simp [signOf] at hs
            · cases neg with
              | false => simp [signOf] at hs
              | true => exact .minusInfinity v hv
  · rintro ⟨g, w, g', rfl, hg, hg', hw⟩
    have hn := noSpace_signed hw
    have nonfin : ∀ (sg v : List Char) (sn : ℤ), Sign sg sn →
        (v.map Char.toLower = ['n', 'a', 'n'] ∨ InfinityWord v) → w = sg ++ v →
        ∃ neg, sn = signOf neg ∧ floatAny (.str (g ++ w ++ g')) = .ok
          (if v.map Char.toLower = ['n', 'a', 'n'] then .nan
            else if neg then .negInf else .posInf) := by
      rintro sg v sn hs hv rfl
      obtain ⟨neg, hneg, rfl⟩ := signPart_nonFinite hs hv
      refine ⟨neg, rfl, ?_⟩
      have hp : parseFloat (g ++ (sg ++ v) ++ g') = some none :=
        (parseFloat_iff _ none).2 ⟨g, sg ++ v, g', rfl, hg, hg', .inr ⟨rfl, sg, _, v, rfl, hs, hv⟩⟩
      unfold floatAny
      simp only [hp]
      unfold nonFiniteValue
      rw [strip_gaps hg hg' hn, hneg]
    cases hw with
    | finite w q h =>
      have hp : parseFloat (g ++ w ++ g') = some (some q) :=
        (parseFloat_iff _ _).2 ⟨g, w, g', rfl, hg, hg', .inl ⟨q, rfl, h⟩⟩
      unfold floatAny
      simp only [hp]
    | nan sg v hs h =>
      have : ∃ sn, Sign sg sn := by
        rcases hs with h | h | h
        · exact ⟨1, .inl ⟨h, rfl⟩⟩
        · exact ⟨1, .inr (.inl ⟨h, rfl⟩)⟩
        · exact ⟨-1, .inr (.inr ⟨h, rfl⟩)⟩
      obtain ⟨sn, hsn⟩ := this
      obtain ⟨neg, -, he⟩ := nonfin sg v sn hsn (.inl h) rfl
      rw [he, if_pos h]
    | infinity sg v hs h =>
      have hsn : Sign sg 1 := by
        rcases hs with h | h
        · exact .inl ⟨h, rfl⟩
        · exact .inr (.inl ⟨h, rfl⟩)
      obtain ⟨neg, hneg, he⟩ := nonfin sg v 1 hsn (.inr h) rfl
      rw [he, if_neg (infinity_not_nan h)]
      cases neg with
      | false => rfl
      | true => simp [signOf] at hneg
    | minusInfinity v h =>
      obtain ⟨neg, hneg, he⟩ := nonfin ['-'] v (-1) (.inr (.inr ⟨rfl, rfl⟩)) (.inr h) rfl
      rw [he, if_neg (infinity_not_nan h)]
      cases neg with
      | false => simp [signOf] at hneg
      | true => rfl

/-- C169: a time step given as text, for all texts.  Texts of positive numbers, of infinity and of NaN
are accepted and stand for these numbers; texts of other numbers, "-inf" among them, give a
`ValueError` that names the time step; all other texts give one that does not. -/
theorem C169_text_timestep_all (p : PyVal) (S N : ℕ) (hp : IsArr p [S, N, 3]) (s : List Char) :
    (∀ x, TextNumber s x → NotNonpositive x → trajectoryArgs p (.str s) = .ok x) ∧
    (∀ x, TextNumber s x → ¬ NotNonpositive x → ∃ e, trajectoryArgs p (.str s) = .error e ∧
      e.cls = .valueError ∧ complainsAbout e = some "timestep") ∧
    ((∀ x, ¬ TextNumber s x) → ∃ e, trajectoryArgs p (.str s) = .error e ∧
      e.cls = .valueError ∧ complainsAbout e = none) := by
  have h1 := (C169_shape_ok "positions_ts" p [none, none, some 3]).2
    ((arr_pattern3 p 3).1 ⟨S, N, hp⟩)
  refine ⟨?_, ?_, ?_⟩
  · intro x hx hpos
    unfold trajectoryArgs
    rw [h1]
    dsimp only [bind, Except.bind]
    rw [(floatText_iff s x).2 hx]
    dsimp only
    rw [(leFin_zero x).2 hpos]
    rfl
  · intro x hx hpos
    refine ⟨.notPositive "timestep", ?_, rfl, rfl⟩
    unfold trajectoryArgs
    rw [h1]
    dsimp only [bind, Except.bind]
    rw [(floatText_iff s x).2 hx]
    dsimp only
    have : x.leFin 0 = true := by
      rw [← Bool.not_eq_false, leFin_zero]
      exact hpos
    rw [this]
    rfl
  · intro hx
    refine (C169_text_timestep p S N hp s).2 ?_
    cases hq : parseFloat s with
    | none => rfl
    | some o =>
      exfalso
      cases o with
      | some q => exact hx (.fin q) ((floatText_iff s _).1 (by unfold floatAny; simp only [hq]))
      | none =>
        exact hx (nonFiniteValue s) ((floatText_iff s _).1 (by unfold floatAny; simp only [hq]))

/-- C169: a text stands for at most one number, so the three cases exclude each other. -/
theorem C169_text_unique {s : List Char} {x y : Flt} (hx : TextNumber s x) (hy : TextNumber s y) :
    x = y := by
  rw [← floatText_iff] at hx hy
  rw [hx] at hy
  exact Except.ok.inj hy

/-- C169, concrete: " -Inf" is refused, "+infinity" is accepted. -/
example (p : PyVal) (hp : IsArr p [5, 2, 3]) :
    (∃ e, trajectoryArgs p (.str [' ', '-', 'I', 'n', 'f']) = .error e ∧
      complainsAbout e = some "timestep") ∧
    trajectoryArgs p (.str "+infinity".toList) = .ok .posInf := by
  constructor
  · obtain ⟨e, h1, -, h2⟩ := (C169_text_timestep_all p 5 2 hp [' ', '-', 'I', 'n', 'f']).2.1 .negInf
      ⟨[' '], ['-', 'I', 'n', 'f'], [], rfl, by unfold Blank; decide, by simp,
        .minusInfinity ['I', 'n', 'f'] (.inl (by decide))⟩
      (by rw [← leFin_zero]; decide)
    exact ⟨e, h1, h2⟩
  · exact (C169_text_timestep_all p 5 2 hp _).1 .posInf
      ⟨[], "+infinity".toList, [], rfl, by simp, by simp,
        .infinity ['+'] "infinity".toList (.inr rfl) (.inr (by decide))⟩
      ((leFin_zero _).1 (by decide))

end Verif
