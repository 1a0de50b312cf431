import Verif.Spec.Arguments
import Verif.Props.Messages
import Verif.Props.Constants

/-!
# C169: arguments of a wrong type or shape
-/

namespace Verif

open Spec

/-! ## Arrays -/

theorem isArr_iff (v : PyVal) (s : List ℕ) : IsArr v s ↔ v.shape? = some s := by
  unfold IsArr PyVal.shape?
  cases v <;> simp

theorem isArr_unique {v : PyVal} {s t : List ℕ} (h : IsArr v s) (h' : IsArr v t) : s = t := by
  rw [isArr_iff] at h h'
  exact Option.some.inj (h.symm.trans h')

/-- The entries of the pattern that are given agree with the shape. -/
def Spec.Matches (s : List ℕ) (pattern : List (Option ℕ)) : Prop :=
  List.Forall₂ (fun d p => ∀ n, p = some n → d = n) s pattern

theorem dims_iff (s : List ℕ) (pattern : List (Option ℕ)) (h : pattern.length = s.length) :
    dimsDiffer s pattern = false ↔ Matches s pattern := by
  unfold Matches
  induction s generalizing pattern with
  | nil =>
    cases pattern with
    | nil => simp [dimsDiffer]
    | cons _ _ => simp at h
  | cons d ds ih =>
    cases pattern with
    | nil => simp at h
    | cons p ps =>
      rw [List.forall₂_cons, dimsDiffer, Bool.or_eq_false_iff, ih ps (by simpa using h)]
      refine and_congr_left fun _ => ?_
      cases p with
      | none => simp
      | some n =>
        constructor
        · intro hd m hm
          injection hm with hm
          subst hm
          by_contra hne
          have : (some n != some d) = true := by
            rw [bne_iff_ne]
            exact fun e => hne (Option.some.inj e).symm
          simp [this] at hd
        · intro hd
          have := hd n rfl
          simp [this]

/-- C169: an argument passes exactly if it is an array whose shape agrees with the pattern. -/
theorem C169_shape_ok (name : String) (v : PyVal) (pattern : List (Option ℕ)) :
    verifyShapeAny name v pattern = .ok () ↔ ∃ s, IsArr v s ∧ Matches s pattern := by
  unfold verifyShapeAny
  cases hs : v.shape? with
  | none => simp [isArr_iff, hs]
  | some s =>
    simp only [isArr_iff, hs, Option.some.injEq, exists_eq_left']
    by_cases h : pattern.length = s.length
    · rw [if_neg (by simpa using h), ← dims_iff s pattern h]
      cases dimsDiffer s pattern <;> simp
    · rw [if_pos h]
      simp only [reduceCtorEq, false_iff]
      intro hm
      exact h hm.length_eq.symm

theorem typeName_of {v : PyVal} {w : String} (h : TypeWord v w) : v.typeName = w := by
  cases h <;> rfl

/-- C169: a value that is no array gives a `TypeError` that names the argument and the type of the
value. -/
theorem C169_not_array (name : String) (v : PyVal) (pattern : List (Option ℕ))
    (h : ∀ s, ¬ IsArr v s) (w : String) (hw : TypeWord v w) :
    (∃ e, verifyShapeAny name v pattern = .error e ∧ e.cls = .typeError ∧
      e.text = some (name.toList ++ " should have type ndarray, not ".toList ++ w.toList)) ∧
    ∃ e, verifyNdarrayAny name v = .error e ∧ e.cls = .typeError ∧
      e.text = some (name.toList ++ " should have type ndarray, not ".toList ++ w.toList) := by
  have hs : v.shape? = none := by
    cases hs : v.shape? with
    | none => rfl
    | some s => exact absurd ((isArr_iff v s).2 hs) (h s)
  have key : (getTypeError name v "ndarray").text =
      some (name.toList ++ " should have type ndarray, not ".toList ++ w.toList) := by
    show some (name.toList ++ " should have type ".toList ++ "ndarray".toList ++ ", not ".toList ++
      v.typeName.toList) = _
    have : " should have type ndarray, not ".toList
        = " should have type ".toList ++ ("ndarray".toList ++ ", not ".toList) := by decide
    rw [this, typeName_of hw]
    simp only [List.append_assoc]
  exact ⟨⟨_, by unfold verifyShapeAny; rw [hs], rfl, key⟩, ⟨_, by unfold verifyNdarrayAny; rw [hs], rfl, key⟩⟩

/-- C169: every value has exactly one type. -/
theorem C169_type_word (v : PyVal) : ∃! w, TypeWord v w := by
  cases v <;> exact ⟨_, by constructor, fun _ h => by cases h; rfl⟩

/-- C169: `verify_list_len` accepts every list if no length is asked for.  If one is asked for, it accepts
exactly the lists of that length with at most `smallInt` elements (256 in CPython, lengths are compared
with `is`).  Otherwise the message names the argument; it shows the length found and, instead of the
length asked for, the word "length". -/
theorem C169_list_length (smallInt : ℕ) (name : String) (v : PyVal) :
    (∀ l, v = .list l → verifyListLenAny smallInt name v none = .ok ()) ∧
    (∀ l n, v = .list l → (verifyListLenAny smallInt name v (some n) = .ok () ↔
      l.length = n ∧ l.length ≤ smallInt)) ∧
    (∀ l n, v = .list l → ¬ (l.length = n ∧ l.length ≤ smallInt) →
      ∃ e, verifyListLenAny smallInt name v (some n) = .error e ∧ e.cls = .valueError ∧
        e.text = some (name.toList ++ " has wrong length: ".toList ++ natStr l.length ++
          " != length".toList)) ∧
    (∀ w n, TypeWord v w → (∀ l, v ≠ .list l) →
      ∃ e, verifyListLenAny smallInt name v n = .error e ∧ e.cls = .typeError ∧
        e.text = some (name.toList ++ " should have type list, not ".toList ++ w.toList)) := by
  refine ⟨?_, ?_, ?_, ?_⟩
  · rintro l rfl
    rfl
  · rintro l n rfl
    unfold verifyListLenAny
    dsimp only
    split_ifs with h
    · exact iff_of_true rfl h
    · exact iff_of_false (fun h' => by cases h') h
  · rintro l n rfl h
    unfold verifyListLenAny
    dsimp only
    rw [if_neg h]
    exact ⟨_, rfl, rfl, rfl⟩
  · intro w n hw h
    have key : verifyListLenAny smallInt name v n = .error (getTypeError name v "list") := by
      cases v <;> first | rfl | exact absurd rfl (h _)
    refine ⟨_, key, rfl, ?_⟩
    show some (name.toList ++ " should have type ".toList ++ "list".toList ++ ", not ".toList ++
      v.typeName.toList) = _
    have : " should have type list, not ".toList
        = " should have type ".toList ++ ("list".toList ++ ", not ".toList) := by decide
    rw [this, typeName_of hw]
    simp only [List.append_assoc]

/-- C169: an array of another shape gives a `ValueError` that shows both shapes. -/
theorem C169_wrong_shape (name : String) (v : PyVal) (pattern : List (Option ℕ)) (s : List ℕ)
    (h : IsArr v s) (hm : ¬ Matches s pattern) (hs : s ≠ []) (hp : pattern ≠ []) :
    ∃ e, verifyShapeAny name v pattern = .error e ∧ e.cls = .valueError ∧
      e.text = some (name.toList ++ " has wrong shape: ".toList ++ tupleText '(' ')' (s.map some) ++
        " != ".toList ++ tupleText '(' ')' pattern) := by
  have hv := (isArr_iff v s).1 h
  refine ⟨.shape name s pattern, ?_, rfl, ?_⟩
  · unfold verifyShapeAny
    rw [hv]
    by_cases hl : pattern.length = s.length
    · have hd : dimsDiffer s pattern = true := by
        rw [← Bool.not_eq_false]
        exact fun hf => hm ((dims_iff s pattern hl).1 hf)
      simp only [hl, ne_eq, not_true_eq_false, if_false, hd, if_true]
    · exact if_pos hl
  · show some (shapeErrorText "shape".toList '(' ')' name.toList s (shapeString '(' ')' pattern)) = _
    rw [shapeErrorText, C152_string _ _ _ hp, C152_string _ _ _ (by simpa using hs)]
    have : " has wrong shape: ".toList
        = " has wrong ".toList ++ ("shape".toList ++ ": ".toList) := by decide
    rw [this]
    simp only [List.append_assoc]

/-! ## Reports are composed -/

/-- A check followed by the rest of the function. -/
theorem reports_cons {α : Type} {p : Param} {ps : List Param} {check : Except ArgErr Unit}
    {rest : Unit → Except ArgErr α}
    (hgood : p.fine → check = .ok ())
    (hbad : ¬ p.fine → ∃ e, check = .error e ∧ complainsAbout e = some p.name ∧
        (e.cls = .typeError ∧ ¬ OfKind p.kind p.value ∨ e.cls = .valueError ∧ OfKind p.kind p.value))
    (hrest : p.fine → Reports ps (rest ())) : Reports (p :: ps) (check >>= rest) := by
  refine ⟨fun h => ?_, fun h => ?_⟩
  · rw [hgood h]
    exact hrest h
  · obtain ⟨e, he, h1, h2⟩ := hbad h
    exact ⟨e, by rw [he]; rfl, h1, h2⟩

theorem shape_bad (name : String) (v : PyVal) (pattern : List (Option ℕ))
    (h : ¬ ∃ s, IsArr v s ∧ Matches s pattern) :
    ∃ e, verifyShapeAny name v pattern = .error e ∧ complainsAbout e = some name ∧
        (e.cls = .typeError ∧ ¬ OfKind .array v ∨ e.cls = .valueError ∧ OfKind .array v) := by
  unfold verifyShapeAny
  cases hs : v.shape? with
  | none =>
    refine ⟨_, rfl, rfl, .inl ⟨rfl, ?_⟩⟩
    rintro ⟨s, h'⟩
    rw [isArr_iff, hs] at h'
    exact absurd h' (by simp)
  | some s =>
    have hv : IsArr v s := (isArr_iff v s).2 hs
    dsimp only
    by_cases hl : pattern.length = s.length
    · have hd : dimsDiffer s pattern = true := by
        rw [← Bool.not_eq_false]
        exact fun hf => h ⟨s, hv, (dims_iff s pattern hl).1 hf⟩
      refine ⟨.shape name s pattern, ?_, rfl, .inr ⟨rfl, s, hv⟩⟩
      simp only [hl, ne_eq, not_true_eq_false, if_false, hd, if_true]
    · exact ⟨.shape name s pattern, if_pos hl, rfl, .inr ⟨rfl, s, hv⟩⟩

/-- A shape check followed by the rest of the function. -/
theorem reports_shape {α : Type} (name : String) (v : PyVal) (pattern : List (Option ℕ)) (fine : Prop)
    {ps : List Param} {rest : Unit → Except ArgErr α}
    (hfine : fine ↔ ∃ s, IsArr v s ∧ Matches s pattern) (hrest : fine → Reports ps (rest ())) :
    Reports (⟨name, v, .array, fine⟩ :: ps) (verifyShapeAny name v pattern >>= rest) :=
  reports_cons (fun h => (C169_shape_ok _ _ _).2 (hfine.1 h))
    (fun h => shape_bad _ _ _ fun h' => h (hfine.2 h')) hrest

/-- A final shape check. -/
theorem reports_shape_last (name : String) (v : PyVal) (pattern : List (Option ℕ)) (fine : Prop)
    (hfine : fine ↔ ∃ s, IsArr v s ∧ Matches s pattern) :
    Reports [⟨name, v, .array, fine⟩] (verifyShapeAny name v pattern) :=
  ⟨fun h => ⟨(), (C169_shape_ok _ _ _).2 (hfine.1 h)⟩,
    fun h => shape_bad _ _ _ fun h' => h (hfine.2 h')⟩

/-- A list check followed by the rest of the function. -/
theorem reports_list {α : Type} (name : String) (v : PyVal) {ps : List Param}
    {rest : Unit → Except ArgErr α} (hrest : (∃ l, v = .list l) → Reports ps (rest ())) :
    Reports (⟨name, v, .list, ∃ l, v = .list l⟩ :: ps) (verifyListLenAny 256 name v none >>= rest) := by
  refine reports_cons ?_ ?_ hrest
  · rintro ⟨l, rfl⟩
    rfl
  · intro h
    refine ⟨getTypeError name v "list", ?_, rfl, .inl ⟨rfl, h⟩⟩
    cases v <;> first | rfl | exact absurd ⟨_, rfl⟩ h

/-- C169: what a report says about success: the call succeeds exactly if all arguments are as
documented. -/
theorem C169_success {α : Type} (ps : List Param) (r : Except ArgErr α) (h : Reports ps r) :
    (∃ a, r = .ok a) ↔ ∀ p ∈ ps, p.fine := by
  induction ps with
  | nil => exact ⟨fun _ p hp => absurd hp (by simp), fun _ => h⟩
  | cons p ps ih =>
    by_cases hp : p.fine
    · rw [ih (h.1 hp)]
      simp [hp]
    · obtain ⟨e, he, -⟩ := h.2 hp
      constructor
      · rintro ⟨a, ha⟩
        rw [he] at ha
        cases ha
      · intro hall
        exact absurd (hall p (by simp)) hp

/-! ## Constructors and setters -/

theorem arr_pattern1 (v : PyVal) : (∃ M, IsArr v [M]) ↔ ∃ s, IsArr v s ∧ Matches s [none] := by
  constructor
  · rintro ⟨M, h⟩
    exact ⟨_, h, by simp [Matches]⟩
  · rintro ⟨s, h, hm⟩
    unfold Matches at hm
    match s, hm with
    | [M], _ => exact ⟨M, h⟩

theorem arr_pattern1' (v : PyVal) (M : ℕ) : IsArr v [M] ↔ ∃ s, IsArr v s ∧ Matches s [some M] := by
  constructor
  · exact fun h => ⟨_, h, by simp [Matches]⟩
  · rintro ⟨s, h, hm⟩
    unfold Matches at hm
    match s, hm with
    | [d], .cons h1 _ => exact h1 M rfl ▸ h

theorem arr_pattern2 (v : PyVal) (b : ℕ) :
    (∃ a, IsArr v [a, b]) ↔ ∃ s, IsArr v s ∧ Matches s [none, some b] := by
  constructor
  · rintro ⟨M, h⟩
    exact ⟨_, h, by simp [Matches]⟩
  · rintro ⟨s, h, hm⟩
    unfold Matches at hm
    match s, hm with
    | [a, d], .cons _ (.cons h1 _) => exact ⟨a, h1 b rfl ▸ h⟩

theorem arr_pattern2' (v : PyVal) (a b : ℕ) :
    IsArr v [a, b] ↔ ∃ s, IsArr v s ∧ Matches s [some a, some b] := by
  constructor
  · exact fun h => ⟨_, h, by simp [Matches]⟩
  · rintro ⟨s, h, hm⟩
    unfold Matches at hm
    match s, hm with
    | [c, d], .cons h0 (.cons h1 _) => exact h1 b rfl ▸ h0 a rfl ▸ h

theorem arr_pattern3 (v : PyVal) (c : ℕ) :
    (∃ a b, IsArr v [a, b, c]) ↔ ∃ s, IsArr v s ∧ Matches s [none, none, some c] := by
  constructor
  · rintro ⟨a, b, h⟩
    exact ⟨_, h, by simp [Matches]⟩
  · rintro ⟨s, h, hm⟩
    unfold Matches at hm
    match s, hm with
    | [a, b, d], .cons _ (.cons _ (.cons h1 _)) => exact ⟨a, b, h1 c rfl ▸ h⟩

theorem arr_pattern3' (v : PyVal) (b c : ℕ) :
    (∃ a, IsArr v [a, b, c]) ↔ ∃ s, IsArr v s ∧ Matches s [none, some b, some c] := by
  constructor
  · rintro ⟨a, h⟩
    exact ⟨_, h, by simp [Matches]⟩
  · rintro ⟨s, h, hm⟩
    unfold Matches at hm
    match s, hm with
    | [a, d, e], .cons _ (.cons h0 (.cons h1 _)) => exact ⟨a, h1 c rfl ▸ h0 b rfl ▸ h⟩

theorem arr_pattern3'' (v : PyVal) (a b c : ℕ) :
    IsArr v [a, b, c] ↔ ∃ s, IsArr v s ∧ Matches s [some a, some b, some c] := by
  constructor
  · exact fun h => ⟨_, h, by simp [Matches]⟩
  · rintro ⟨s, h, hm⟩
    unfold Matches at hm
    match s, hm with
    | [x, d, e], .cons hx (.cons h0 (.cons h1 _)) => exact h1 c rfl ▸ h0 b rfl ▸ hx a rfl ▸ h

/-- Documented arguments of `Phonons`. -/
def Spec.phononsParams (r w d : PyVal) : List Param :=
  [⟨"ref_positions", r, .array, ∃ N, IsArr r [N, 3]⟩,
    ⟨"wavenumbers", w, .array, ∃ M, IsArr w [M]⟩,
    ⟨"displacements", d, .array, ∀ N M, IsArr r [N, 3] → IsArr w [M] → IsArr d [M, N, 3]⟩]

/-- C169: `Phonons`. -/
theorem C169_phonons (r w d : PyVal) : Reports (phononsParams r w d) (phononsArgs r w d) := by
  refine reports_shape _ _ _ _ (arr_pattern2 r 3) ?_
  rintro ⟨N, hN⟩
  refine reports_shape _ _ _ _ (arr_pattern1 w) ?_
  rintro ⟨M, hM⟩
  rw [(isArr_iff _ _).1 hN, (isArr_iff _ _).1 hM]
  refine reports_shape_last _ _ _ _ (Iff.trans ?_ (arr_pattern3'' d _ _ 3))
  have e1 : ((some [M] : Option (List ℕ)).getD []).prod = M := by simp
  rw [e1]
  constructor
  · exact fun h => h N M hN hM
  · intro h N' M' hN' hM'
    have a := isArr_unique hN hN'
    have b := isArr_unique hM hM'
    simp only [List.cons.injEq, and_true] at a b
    exact a ▸ b ▸ h

/-- Documented arguments of `PhononRamanSpectrum`. -/
def Spec.phononSpectrumParams (w t : PyVal) : List Param :=
  [⟨"phonon_wavenumbers", w, .array, ∃ M, IsArr w [M]⟩,
    ⟨"raman_tensors", t, .array, ∀ M, IsArr w [M] → IsArr t [M, 3, 3]⟩]

/-- C169: `PhononRamanSpectrum`. -/
theorem C169_phonon_spectrum (w t : PyVal) :
    Reports (phononSpectrumParams w t) (phononSpectrumArgs w t) := by
  refine reports_shape _ _ _ _ (arr_pattern1 w) ?_
  rintro ⟨M, hM⟩
  rw [(isArr_iff _ _).1 hM]
  refine reports_shape_last _ _ _ _ (Iff.trans ?_ (arr_pattern3'' t M 3 3))
  constructor
  · exact fun h => h M hM
  · intro h M' hM'
    have b := isArr_unique hM hM'
    simp only [List.cons.injEq, and_true] at b
    exact b ▸ h

/-- Documented arguments of `ReferenceStructure`. -/
def Spec.referenceParams (numbers lattice positions : PyVal) : List Param :=
  [⟨"atomic_numbers", numbers, .list, ∃ l, numbers = .list l⟩,
    ⟨"lattice", lattice, .array, IsArr lattice [3, 3]⟩,
    ⟨"positions", positions, .array, ∀ l, numbers = .list l → IsArr positions [l.length, 3]⟩]

/-- C169: the checks of `ReferenceStructure`. -/
theorem C169_reference (numbers lattice positions : PyVal) :
    Reports (referenceParams numbers lattice positions) (refStructureArgs numbers lattice positions) := by
  refine reports_list _ _ ?_
  rintro ⟨l, rfl⟩
  refine reports_shape _ _ _ _ (arr_pattern2' lattice 3 3) fun _ => ?_
  refine reports_shape_last _ _ _ _ (Iff.trans ?_ (arr_pattern2' positions l.length 3))
  exact ⟨fun h => h l rfl, fun h l' e => by injection e with e; exact e ▸ h⟩

/-- Documented arguments of `PolarizabilityDataset`. -/
def Spec.datasetParams (lattice numbers positions polarizabilities : PyVal) : List Param :=
  [⟨"lattice", lattice, .array, IsArr lattice [3, 3]⟩,
    ⟨"atomic_numbers", numbers, .list, ∃ l, numbers = .list l⟩,
    ⟨"positions", positions, .array, ∀ l, numbers = .list l → ∃ S, IsArr positions [S, l.length, 3]⟩,
    ⟨"polarizabilities", polarizabilities, .array,
      ∀ S N, IsArr positions [S, N, 3] → IsArr polarizabilities [S, 3, 3]⟩]

/-- C169: the checks of `PolarizabilityDataset`. -/
theorem C169_dataset (lattice numbers positions polarizabilities : PyVal) :
    Reports (datasetParams lattice numbers positions polarizabilities)
      (datasetArgs lattice numbers positions polarizabilities) := by
  refine reports_shape _ _ _ _ (arr_pattern2' lattice 3 3) fun _ => ?_
  refine reports_list _ _ ?_
  rintro ⟨l, rfl⟩
  refine reports_shape _ _ _ _ (Iff.trans ?_ (arr_pattern3' positions l.length 3)) ?_
  · exact ⟨fun h => h l rfl, fun h l' e => by injection e with e; exact e ▸ h⟩
  · intro h
    obtain ⟨S, hS⟩ := h l rfl
    rw [(isArr_iff _ _).1 hS]
    refine reports_shape_last _ _ _ _ (Iff.trans ?_ (arr_pattern3'' polarizabilities S 3 3))
    constructor
    · exact fun h => h S _ hS
    · intro h S' N' hS'
      have b := isArr_unique hS hS'
      simp only [List.cons.injEq, and_true] at b
      exact b.1 ▸ h

/-- C169: the checks of `MDRamanSpectrum`; the time step is stored whatever it is. -/
theorem C169_md_spectrum (p timestep : PyVal) :
    Reports [⟨"polarizability_ts", p, .array, ∃ S, IsArr p [S, 3, 3]⟩] (mdSpectrumArgs p timestep) ∧
      ∀ a, mdSpectrumArgs p timestep = .ok a → a = timestep := by
  constructor
  · exact reports_shape _ _ _ _ (arr_pattern3' p 3 3) fun _ => ⟨_, rfl⟩
  · intro a h
    unfold mdSpectrumArgs at h
    cases hc : verifyShapeAny "polarizability_ts" p [none, some 3, some 3] with
    | error e => rw [hc] at h; cases h
    | ok u => rw [hc] at h; cases h; rfl

/-- C169: the mask has to be an array with one entry per degree of freedom; the type of the entries is
not looked at. -/
theorem C169_mask (J : ℕ) (v : PyVal) :
    Reports [⟨"mask", v, .array, IsArr v [J]⟩] (maskArgs J v) :=
  reports_shape_last _ _ _ _ (arr_pattern1' v J)

/-- C169: the reference polarizability of a model that is no dummy. -/
theorem C169_interpolation (p : PyVal) :
    Reports [⟨"ref_polarizability", p, .array, IsArr p [3, 3]⟩] (interpolationArgs p false) ∧
      ∀ a, interpolationArgs p false = .ok a → a = p := by
  constructor
  · exact reports_shape _ _ _ _ (arr_pattern2' p 3 3) fun _ => ⟨_, rfl⟩
  · intro a h
    unfold interpolationArgs at h
    simp only [Bool.false_eq_true, if_false] at h
    cases hc : verifyShapeAny "ref_polarizability" p [some 3, some 3] with
    | error e => rw [hc] at h; cases h
    | ok u => rw [hc] at h; cases h; rfl

/-- C169: a dummy model takes anything for its reference polarizability and stores zeros. -/
theorem C169_dummy (p : PyVal) :
    interpolationArgs p true = .ok (.array [3, 3] (List.replicate 9 (.fin 0))) := rfl

/-- C169 for `scale_polarizabilities`: accepted exactly if both are `(3,3)` arrays … -/
theorem C169_scale (mean stddev : PyVal) :
    scaleArgs mean stddev = .ok () ↔ IsArr mean [3, 3] ∧ IsArr stddev [3, 3] := by
  rw [arr_pattern2' mean, arr_pattern2' stddev, ← C169_shape_ok "mean", ← C169_shape_ok "mean"]
  unfold scaleArgs
  cases verifyShapeAny "mean" mean [some 3, some 3] with
  | error e => exact ⟨fun h => (by cases h), fun h => (by cases h.1)⟩
  | ok u => exact ⟨fun h => ⟨rfl, h⟩, fun h => h.2⟩

/-- … but a wrong standard deviation is reported under the name of the mean. -/
theorem C169_scale_misnamed (mean stddev : PyVal) (hm : IsArr mean [3, 3])
    (hs : ¬ IsArr stddev [3, 3]) :
    ∃ e, scaleArgs mean stddev = .error e ∧ complainsAbout e = some "mean" := by
  have h1 := (C169_shape_ok "mean" mean [some 3, some 3]).2 ((arr_pattern2' mean 3 3).1 hm)
  obtain ⟨e, he, hc, -⟩ := shape_bad "mean" stddev [some 3, some 3]
    fun h => hs ((arr_pattern2' stddev 3 3).2 h)
  refine ⟨e, ?_, hc⟩
  unfold scaleArgs
  rw [h1]
  exact he

/-- Hence `scale_polarizabilities` does not report the first wrong argument. -/
theorem C169_scale_counterexample : ∃ mean stddev : PyVal,
    ¬ Reports [⟨"mean", mean, .array, IsArr mean [3, 3]⟩,
      ⟨"stddev", stddev, .array, IsArr stddev [3, 3]⟩] (scaleArgs mean stddev) := by
  refine ⟨.array [3, 3] (List.replicate 9 (.fin 0)), .none, ?_⟩
  have hm : IsArr (.array [3, 3] (List.replicate 9 (.fin 0))) [3, 3] := ⟨_, rfl⟩
  have hs : ¬ IsArr PyVal.none [3, 3] := by rintro ⟨_, h⟩; cases h
  obtain ⟨e, he, hc⟩ := C169_scale_misnamed _ _ hm hs
  intro h
  obtain ⟨e', he', hc', -⟩ := (h.1 hm).2 hs
  rw [he] at he'
  cases he'
  rw [hc] at hc'
  exact absurd (Option.some.inj hc') (by decide)

/-! ## Numbers -/

theorem leFin_zero (x : Flt) : x.leFin 0 = false ↔ NotNonpositive x := by
  unfold NotNonpositive
  cases x <;> simp [Flt.leFin]

theorem number_unique {v : PyVal} {x y : Flt} (h : Number v x) (h' : Number v y) : x = y := by
  cases h <;> cases h' <;> rfl

theorem floatAny_number (v : PyVal) (h : ∀ s, v ≠ .str s) :
    (∀ x, Number v x → floatAny v = .ok x) ∧ ((∀ x, ¬ Number v x) → floatAny v = .error none) := by
  constructor
  · intro x hx
    cases hx <;> rfl
  · intro hx
    cases v with
    | none => rfl
    | bool b => cases b <;> [exact absurd .no (hx _); exact absurd .yes (hx _)]
    | int n => exact absurd (.int n) (hx _)
    | float x => exact absurd (.float x) (hx _)
    | str s => exact absurd rfl (h s)
    | path s => rfl
    | list l => rfl
    | tuple l => rfl
    | array s d =>
      match d with
      | [] => rfl
      | [x] => exact absurd (.array s x) (hx _)
      | _ :: _ :: _ => rfl

/-- Documented arguments of `Trajectory`. -/
def Spec.trajectoryParams (p timestep : PyVal) : List Param :=
  [⟨"positions_ts", p, .array, ∃ S N, IsArr p [S, N, 3]⟩,
    ⟨"timestep", timestep, .number, ∃ t, Number timestep t ∧ NotNonpositive t⟩]

/-- C169: `Trajectory`, for time steps that are no texts. -/
theorem C169_trajectory (p timestep : PyVal) (h : ∀ s, timestep ≠ .str s) :
    Reports (trajectoryParams p timestep) (trajectoryArgs p timestep) := by
  refine reports_shape _ _ _ _ (arr_pattern3 p 3) fun _ => ?_
  obtain ⟨h1, h2⟩ := floatAny_number timestep h
  by_cases hn : ∃ t, Number timestep t
  · obtain ⟨t, ht⟩ := hn
    rw [h1 t ht]
    dsimp only
    refine ⟨?_, ?_⟩
    · rintro ⟨t', ht', hp⟩
      rw [number_unique ht' ht, ← leFin_zero] at hp
      exact ⟨t, by rw [hp]; rfl⟩
    · intro hbad
      have : t.leFin 0 = true := by
        rw [← Bool.not_eq_false, leFin_zero]
        exact fun hp => hbad ⟨t, ht, hp⟩
      exact ⟨.notPositive "timestep", by rw [this]; rfl, rfl, .inr ⟨rfl, t, ht⟩⟩
  · push Not at hn
    rw [h2 hn]
    dsimp only
    refine ⟨?_, ?_⟩
    · rintro ⟨t, ht, -⟩
      exact absurd ht (hn t)
    · intro _
      exact ⟨_, rfl, rfl, .inl ⟨rfl, fun ⟨t, ht⟩ => hn t ht⟩⟩

/-- C169: a time step given as text is read like a number in a file; a text that is no number gives a
`ValueError` that does not name the argument. -/
theorem C169_text_timestep (p : PyVal) (S N : ℕ) (hp : IsArr p [S, N, 3]) (s : List Char) :
    (∀ q : ℚ, parseFloat s = some (some q) → 0 < q → trajectoryArgs p (.str s) = .ok (.fin q)) ∧
    (parseFloat s = none → ∃ e, trajectoryArgs p (.str s) = .error e ∧ e.cls = .valueError ∧
      complainsAbout e = none) := by
  have h1 := (C169_shape_ok "positions_ts" p [none, none, some 3]).2
    ((arr_pattern3 p 3).1 ⟨S, N, hp⟩)
  constructor
  · intro q hq h0
    unfold trajectoryArgs
    rw [h1]
    dsimp only [bind, Except.bind]
    have : floatAny (.str s) = .ok (.fin q) := by
      unfold floatAny
      simp only [hq]
    rw [this]
    dsimp only
    have : (Flt.fin q).leFin 0 = false := (leFin_zero _).2 (.inr (.inr ⟨q, h0, rfl⟩))
    rw [this]
    rfl
  · intro hq
    refine ⟨.notANumber, ?_, rfl, rfl⟩
    unfold trajectoryArgs
    rw [h1]
    dsimp only [bind, Except.bind]
    have : floatAny (.str s) = .error (some .notANumber) := by
      unfold floatAny
      simp only [hq]
    rw [this]

/-- C169: a time step that is not a number at all passes the check for positive numbers. -/
theorem C169_nan_timestep (p : PyVal) (S N : ℕ) (hp : IsArr p [S, N, 3]) :
    trajectoryArgs p (.float .nan) = .ok .nan ∧
    trajectoryArgs p (.str ['n', 'a', 'n']) = .ok .nan := by
  have h1 := (C169_shape_ok "positions_ts" p [none, none, some 3]).2
    ((arr_pattern3 p 3).1 ⟨S, N, hp⟩)
  constructor
  · unfold trajectoryArgs
    rw [h1]
    rfl
  · unfold trajectoryArgs
    rw [h1]
    dsimp only [bind, Except.bind]
    have : floatAny (.str ['n', 'a', 'n']) = .ok .nan := by
      have h2 : parseFloat ['n', 'a', 'n'] = some none := by decide +kernel
      have h3 : nonFiniteValue ['n', 'a', 'n'] = .nan := by decide +kernel
      unfold floatAny
      simp only [h2, h3]
    rw [this]
    rfl

/-- C169: temperature, laser wavenumber and width (values that are no arrays). -/
theorem C169_positive (name : String) (v : PyVal) (h : ∀ s d, v ≠ .array s d) :
    Reports [⟨name, v, .number, ∃ t, Number v t ∧ NotNonpositive t⟩] (requirePositive name v) := by
  have hty : (∀ x, ¬ Number v x) → leZeroAny v = .error none := by
    intro hx
    cases v with
    | none => rfl
    | bool b => cases b <;> [exact absurd .no (hx _); exact absurd .yes (hx _)]
    | int n => exact absurd (.int n) (hx _)
    | float x => exact absurd (.float x) (hx _)
    | str s => rfl
    | path s => rfl
    | list l => rfl
    | tuple l => rfl
    | array s d => exact absurd rfl (h s d)
  have hle : ∀ x, Number v x → leZeroAny v = .ok (x.leFin 0) := by
    intro x hx
    cases hx with
    | no => rfl
    | yes => simp [leZeroAny, Flt.leFin]
    | int n => simp [leZeroAny, Flt.leFin]
    | float x => rfl
    | array s x => exact absurd rfl (h _ _)
  by_cases hn : ∃ t, Number v t
  · obtain ⟨t, ht⟩ := hn
    refine ⟨?_, ?_⟩
    · rintro ⟨t', ht', hp⟩
      rw [number_unique ht' ht, ← leFin_zero] at hp
      refine ⟨(), ?_⟩
      unfold requirePositive
      rw [hle t ht, hp]
    · intro hbad
      have : t.leFin 0 = true := by
        rw [← Bool.not_eq_false, leFin_zero]
        exact fun hp => hbad ⟨t, ht, hp⟩
      refine ⟨.notPositive name, ?_, rfl, .inr ⟨rfl, t, ht⟩⟩
      unfold requirePositive
      rw [hle t ht, this]
  · push Not at hn
    refine ⟨?_, ?_⟩
    · rintro ⟨t, ht, -⟩
      exact absurd ht (hn t)
    · intro _
      refine ⟨getTypeError name v "float", ?_, rfl, .inl ⟨rfl, fun ⟨t, ht⟩ => hn t ht⟩⟩
      unfold requirePositive
      rw [hty hn]

/-- C169: an array of several temperatures (laser wavenumbers, widths) gives a `ValueError` about truth
values, whatever they are. -/
theorem C169_several (name : String) (s : List ℕ) (x y : Flt) (d : List Flt) :
    requirePositive name (.array s (x :: y :: d)) = .error .ambiguousTruth := rfl

/-- Documented arguments of `convolve_spectrum`. -/
def Spec.convolveParams (out w i width : PyVal) : List Param :=
  [⟨"out_wavenumbers", out, .array, ∃ L, IsArr out [L]⟩,
    ⟨"wavenumbers", w, .array, ∃ M, IsArr w [M]⟩,
    ⟨"intensities", i, .array, ∀ M, IsArr w [M] → IsArr i [M]⟩,
    ⟨"width", width, .number, ∃ t, Number width t ∧ NotNonpositive t⟩]

/-- C169: `convolve_spectrum`, for widths that are no arrays. -/
theorem C169_convolve (out w i width : PyVal) (h : ∀ s d, width ≠ .array s d) :
    Reports (convolveParams out w i width) (convolveArgs out w i width) := by
  refine reports_shape _ _ _ _ (arr_pattern1 out) ?_
  rintro ⟨L, hL⟩
  refine reports_shape _ _ _ _ (arr_pattern1 w) ?_
  rintro ⟨M, hM⟩
  rw [(isArr_iff _ _).1 hM]
  refine reports_shape _ _ _ _ (Iff.trans ?_ (arr_pattern1' i M)) fun _ => ?_
  · constructor
    · exact fun h => h M hM
    · intro h M' hM'
      have b := isArr_unique hM hM'
      simp only [List.cons.injEq, and_true] at b
      exact b ▸ h
  · obtain ⟨h1, h2⟩ := C169_positive "width" width h
    refine reports_cons (fun hf => ?_) h2 fun _ => ⟨(), ?_⟩
    · obtain ⟨u, hu⟩ := h1 hf
      exact hu
    · unfold verifyNdarrayAny
      rw [(isArr_iff _ _).1 hL]

/-! ## Structures to be written -/

theorem atom_known (v : PyVal) :
    (inAtomSymbols v = .ok true ↔ ∃ n, Atom v n ∧ 1 ≤ n ∧ n ≤ 118) := by
  have key : ∀ n : ℕ, (dictGet atomSymbols n).isSome = true ↔ 1 ≤ n ∧ n ≤ 118 := by
    intro n
    rw [← C90_atomic_numbers_range, Option.isSome_iff_exists]
  have hno : ∀ u : PyVal, u.asNat? = none → inAtomSymbols u ≠ .ok true := by
    intro u hu h
    unfold inAtomSymbols at h
    rw [hu] at h
    split at h <;> simp at h
  cases v with
  | none => exact ⟨fun h => absurd h (hno _ rfl), fun ⟨n, h, _⟩ => by cases h⟩
  | str s => exact ⟨fun h => absurd h (hno _ rfl), fun ⟨n, h, _⟩ => by cases h⟩
  | path s => exact ⟨fun h => absurd h (hno _ rfl), fun ⟨n, h, _⟩ => by cases h⟩
  | list s => exact ⟨fun h => absurd h (hno _ rfl), fun ⟨n, h, _⟩ => by cases h⟩
  | tuple s => exact ⟨fun h => absurd h (hno _ rfl), fun ⟨n, h, _⟩ => by cases h⟩
  | array s d => exact ⟨fun h => absurd h (hno _ rfl), fun ⟨n, h, _⟩ => by cases h⟩
  | bool b =>
    cases b with
    | false =>
      constructor
      · intro h
        have : inAtomSymbols (.bool false) = .ok false := rfl
        rw [this] at h
        cases h
      · rintro ⟨n, h, -⟩
        cases h
    | true => exact ⟨fun _ => ⟨1, .true, by omega, by omega⟩, fun _ => rfl⟩
  | int n =>
    by_cases h0 : 0 ≤ n
    · obtain ⟨m, rfl⟩ := Int.eq_ofNat_of_zero_le h0
      have : inAtomSymbols (.int m) = .ok (dictGet atomSymbols m).isSome := by
        simp [inAtomSymbols, PyVal.hashable, PyVal.asNat?]
      rw [this, Except.ok.injEq, key]
      constructor
      · exact fun h => ⟨m, .int m, h⟩
      · rintro ⟨n, h, hn⟩
        generalize hv : PyVal.int (m : ℤ) = v at h
        cases h with
        | int k =>
          injection hv with hv
          have : m = n := by exact_mod_cast hv
          rw [this]; exact hn
        | float k => cases hv
        | true => cases hv
    · refine ⟨fun h => absurd h (hno _ (by simp [PyVal.asNat?, h0])), ?_⟩
      rintro ⟨k, h, -⟩
      generalize hv : PyVal.int n = v at h
      cases h with
      | int k => injection hv with hv; omega
      | float k => cases hv
      | true => cases hv
  | float x =>
    by_cases hx : ∃ m : ℕ, x = .fin m
    · obtain ⟨m, rfl⟩ := hx
      have : inAtomSymbols (.float (.fin m)) = .ok (dictGet atomSymbols m).isSome := by
        simp [inAtomSymbols, PyVal.hashable, PyVal.asNat?]
      rw [this, Except.ok.injEq, key]
      constructor
      · exact fun h => ⟨m, .float m, h⟩
      · rintro ⟨n, h, hn⟩
        generalize hv : PyVal.float (.fin (m : ℚ)) = v at h
        cases h with
        | float k =>
          injection hv with hv
          injection hv with hv
          have : m = n := by exact_mod_cast hv
          rw [this]; exact hn
        | int k => cases hv
        | true => cases hv
    · refine ⟨fun h => absurd h (hno _ ?_), ?_⟩
      · cases x with
        | fin q =>
          unfold PyVal.asNat?
          refine if_neg ?_
          rintro ⟨h0, h1⟩
          refine hx ⟨q.num.toNat, ?_⟩
          congr 1
          have hnum : 0 ≤ q.num := Rat.num_nonneg.2 h0
          have e : (q.num.toNat : ℤ) = q.num := Int.toNat_of_nonneg hnum
          have : q = (q.num : ℚ) := (Rat.den_eq_one_iff q).1 h1 |>.symm
          rw [this]
          simp only [Rat.num_intCast]
          exact_mod_cast e.symm
        | posInf => rfl
        | negInf => rfl
        | nan => rfl
      · rintro ⟨k, h, -⟩
        generalize hv : PyVal.float x = v at h
        cases h with
        | float k => injection hv with hv; exact absurd ⟨_, hv⟩ hx
        | int k => cases hv
        | true => cases hv

theorem atoms_ok (l : List PyVal) :
    verifyAtomicNumbers l = .ok () ↔ ∀ v ∈ l, ∃ n, Atom v n ∧ 1 ≤ n ∧ n ≤ 118 := by
  induction l with
  | nil => simp [verifyAtomicNumbers]
  | cons v l ih =>
    rw [verifyAtomicNumbers]
    cases h : inAtomSymbols v with
    | error e =>
      simp only [bind, Except.bind, reduceCtorEq, List.mem_cons, forall_eq_or_imp, false_iff, not_and]
      intro h'
      rw [← atom_known, h] at h'
      cases h'
    | ok b =>
      cases b with
      | true =>
        have := (atom_known v).1 h
        simp only [bind, Except.bind, if_true, List.mem_cons, forall_eq_or_imp, ih, this, true_and]
      | false =>
        simp only [bind, Except.bind, Bool.false_eq_true, if_false, reduceCtorEq, List.mem_cons,
          forall_eq_or_imp, false_iff, not_and]
        intro h'
        rw [← atom_known, h] at h'
        cases h'

theorem range_iff (data : List Flt) : outOfRange data = false ↔ ∀ x ∈ data, Inside x := by
  unfold outOfRange
  rw [Bool.or_eq_false_iff, List.any_eq_false, List.any_eq_false, ← forall₂_and]
  refine forall₂_congr fun x _ => ?_
  unfold Inside
  cases x <;> simp [Flt.ltFin, Flt.gtFin]

/-- C169: `verify_structure` accepts exactly: a `(3,3)` array, a list of values that are taken for
numbers of elements, and an array with one row of three coordinates inside the cell per element. -/
theorem C169_structure (lattice numbers positions : PyVal) :
    verifyStructureAny lattice numbers positions = .ok () ↔
      IsArr lattice [3, 3] ∧ ∃ l data, numbers = .list l ∧
        (∀ v ∈ l, ∃ n, Atom v n ∧ 1 ≤ n ∧ n ≤ 118) ∧
        positions = .array [l.length, 3] data ∧ ∀ x ∈ data, Inside x := by
  unfold verifyStructureAny
  rw [arr_pattern2' lattice, ← C169_shape_ok "lattice"]
  cases verifyShapeAny "lattice" lattice [some 3, some 3] with
  | error e => exact ⟨fun h => (by cases h), fun h => (by cases h.1)⟩
  | ok u =>
    simp only [true_and]
    cases numbers with
    | list l =>
      have e1 : verifyListLenAny 256 "atomic_numbers" (.list l) none = .ok () := rfl
      rw [e1]
      dsimp only [bind, Except.bind, PyVal.elements]
      have hl : (∃ l' data, PyVal.list l = .list l' ∧ (∀ v ∈ l', ∃ n, Atom v n ∧ 1 ≤ n ∧ n ≤ 118) ∧
          positions = .array [l'.length, 3] data ∧ ∀ x ∈ data, Inside x) ↔
          (∀ v ∈ l, ∃ n, Atom v n ∧ 1 ≤ n ∧ n ≤ 118) ∧
            ∃ data, positions = .array [l.length, 3] data ∧ ∀ x ∈ data, Inside x := by
        constructor
        · rintro ⟨l', data, h, h1, h2, h3⟩
          injection h with h
          subst h
          exact ⟨h1, data, h2, h3⟩
        · rintro ⟨h1, data, h2, h3⟩
          exact ⟨l, data, rfl, h1, h2, h3⟩
      rw [hl, ← atoms_ok]
      cases verifyAtomicNumbers l with
      | error e => exact ⟨fun h => (by cases h), fun h => (by cases h.1)⟩
      | ok u =>
        simp only [true_and]
        have hp := C169_shape_ok "positions" positions [some l.length, some 3]
        rw [← arr_pattern2'] at hp
        cases h : verifyShapeAny "positions" positions [some l.length, some 3] with
        | error e =>
          rw [h] at hp
          simp only [reduceCtorEq, false_iff] at hp ⊢
          rintro ⟨data, h2, -⟩
          exact hp ⟨data, h2⟩
        | ok u =>
          rw [h] at hp
          obtain ⟨data, rfl⟩ := hp.1 rfl
          dsimp only
          unfold verifyPositionsAny
          have h2 : verifyShapeAny "positions" (.array [l.length, 3] data) [none, some 3] = .ok () :=
            (C169_shape_ok _ _ _).2 ((arr_pattern2 _ 3).1 ⟨l.length, data, rfl⟩)
          rw [h2]
          dsimp only [bind, Except.bind, PyVal.entries]
          have : (∃ data', PyVal.array [l.length, 3] data = .array [l.length, 3] data' ∧
              ∀ x ∈ data', Inside x) ↔ ∀ x ∈ data, Inside x := by
            constructor
            · rintro ⟨data', h, h'⟩
              injection h with _ h
              exact h ▸ h'
            · exact fun h => ⟨data, rfl, h⟩
          rw [this, ← range_iff]
          by_cases ho : outOfRange data = true
          · simp [ho]
          · simp [ho]
    | _ => exact ⟨fun h => (by cases h), fun ⟨l, data, h, _⟩ => (by cases h)⟩

/-- C169: `verify_trajectory` likewise. -/
theorem C169_trajectory_file (lattice numbers positionsTs : PyVal) :
    verifyTrajectoryAny lattice numbers positionsTs = .ok () ↔
      IsArr lattice [3, 3] ∧ ∃ S l data, numbers = .list l ∧
        (∀ v ∈ l, ∃ n, Atom v n ∧ 1 ≤ n ∧ n ≤ 118) ∧
        positionsTs = .array [S, l.length, 3] data ∧ ∀ x ∈ data, Inside x := by
  unfold verifyTrajectoryAny
  rw [arr_pattern2' lattice, ← C169_shape_ok "lattice"]
  cases verifyShapeAny "lattice" lattice [some 3, some 3] with
  | error e => exact ⟨fun h => (by cases h), fun h => (by cases h.1)⟩
  | ok u =>
    simp only [true_and]
    cases numbers with
    | list l =>
      have e1 : verifyListLenAny 256 "atomic_numbers" (.list l) none = .ok () := rfl
      rw [e1]
      dsimp only [bind, Except.bind, PyVal.elements]
      have hl : (∃ S l' data, PyVal.list l = .list l' ∧ (∀ v ∈ l', ∃ n, Atom v n ∧ 1 ≤ n ∧ n ≤ 118) ∧
          positionsTs = .array [S, l'.length, 3] data ∧ ∀ x ∈ data, Inside x) ↔
          (∀ v ∈ l, ∃ n, Atom v n ∧ 1 ≤ n ∧ n ≤ 118) ∧
            ∃ S data, positionsTs = .array [S, l.length, 3] data ∧ ∀ x ∈ data, Inside x := by
        constructor
        · rintro ⟨S, l', data, h, h1, h2, h3⟩
          injection h with h
          subst h
          exact ⟨h1, S, data, h2, h3⟩
        · rintro ⟨h1, S, data, h2, h3⟩
          exact ⟨S, l, data, rfl, h1, h2, h3⟩
      rw [hl, ← atoms_ok]
      cases verifyAtomicNumbers l with
      | error e => exact ⟨fun h => (by cases h), fun h => (by cases h.1)⟩
      | ok u =>
        simp only [true_and]
        have hp := C169_shape_ok "positions_ts" positionsTs [none, some l.length, some 3]
        rw [← arr_pattern3'] at hp
        cases h : verifyShapeAny "positions_ts" positionsTs [none, some l.length, some 3] with
        | error e =>
          rw [h] at hp
          simp only [reduceCtorEq, false_iff] at hp ⊢
          rintro ⟨S, data, h2, -⟩
          exact hp ⟨S, data, h2⟩
        | ok u =>
          rw [h] at hp
          obtain ⟨S, data, rfl⟩ := hp.1 rfl
          dsimp only [PyVal.entries]
          have : (∃ S' data', PyVal.array [S, l.length, 3] data = .array [S', l.length, 3] data' ∧
              ∀ x ∈ data', Inside x) ↔ ∀ x ∈ data, Inside x := by
            constructor
            · rintro ⟨S', data', h, h'⟩
              injection h with _ h
              exact h ▸ h'
            · exact fun h => ⟨S, data, rfl, h⟩
          rw [this, ← range_iff]
          by_cases ho : outOfRange data = true
          · simp [ho]
          · simp [ho]
    | _ => exact ⟨fun h => (by cases h), fun ⟨S, l, data, h, _⟩ => (by cases h)⟩

/-- Lists and arrays can be changed; so can tuples that hold one of them, at any depth. -/
inductive Spec.Mutable : PyVal → Prop
  | list (x : List PyVal) : Mutable (.list x)
  | array (s : List ℕ) (v : PyVal) (h : IsArr v s) : Mutable v
  | tuple (l : List PyVal) (v : PyVal) (hv : v ∈ l) (h : Mutable v) : Mutable (.tuple l)

theorem mutable_unhashable {v : PyVal} (h : Mutable v) : v.hashable = false := by
  induction h with
  | list x => rw [PyVal.hashable]
  | array s v h => obtain ⟨d, rfl⟩ := h; rw [PyVal.hashable]
  | tuple l v hv _ ih =>
    rw [PyVal.hashable]
    clear * - hv ih
    induction l with
    | nil => cases hv
    | cons u l ihl =>
      rw [allHashable]
      rcases List.mem_cons.1 hv with rfl | hv
      · rw [ih, Bool.false_and]
      · rw [ihl hv, Bool.and_false]

/-- C169: a list, an array or a tuple holding one among the atomic numbers is reported as such if all
numbers before it are fine. -/
theorem C169_unhashable (l : List PyVal) (v : PyVal) (rest : List PyVal)
    (h : ∀ u ∈ l, ∃ n, Atom u n ∧ 1 ≤ n ∧ n ≤ 118) (hv : Mutable v) :
    verifyAtomicNumbers (l ++ v :: rest) = .error .unhashable := by
  induction l with
  | nil =>
    rw [List.nil_append, verifyAtomicNumbers, inAtomSymbols, mutable_unhashable hv]
    rfl
  | cons u l ih =>
    have hu := (atom_known u).2 (h u (by simp))
    rw [List.cons_append, verifyAtomicNumbers, hu]
    exact ih fun w hw => h w (by simp [hw])

/-- C169, concrete: `[6, (1, [2])]`. -/
example : verifyAtomicNumbers [.int 6, .tuple [.int 1, .list [.int 2]]] = .error .unhashable :=
  C169_unhashable [.int 6] _ [] (fun u hu => by
    rw [List.mem_singleton] at hu
    subst hu
    exact (atom_known _).1 rfl) (.tuple _ (.list [.int 2]) (by simp) (.list _))

/-- C169: with everything else as documented, a coordinate outside the cell gives a `ValueError` that
names the positions. -/
theorem C169_outside (lattice : PyVal) (hlat : IsArr lattice [3, 3]) (l : List PyVal)
    (hl : ∀ v ∈ l, ∃ n, Atom v n ∧ 1 ≤ n ∧ n ≤ 118) (data : List Flt) (x : Flt) (hx : x ∈ data)
    (hout : ¬ Inside x) :
    (∃ e, verifyStructureAny lattice (.list l) (.array [l.length, 3] data) = .error e ∧
      e.cls = .valueError ∧
      e.text = some "positions has coordinates that are not between 0 and 1".toList) ∧
    ∀ S, ∃ e, verifyTrajectoryAny lattice (.list l) (.array [S, l.length, 3] data) = .error e ∧
      e.cls = .valueError ∧
      e.text = some "positions_ts has coordinates that are not between 0 and 1".toList := by
  have hr : outOfRange data = true := by
    rw [← Bool.not_eq_false, range_iff]
    exact fun h => hout (h x hx)
  have h1 : verifyShapeAny "lattice" lattice [some 3, some 3] = .ok () :=
    (C169_shape_ok _ _ _).2 ((arr_pattern2' lattice 3 3).1 hlat)
  have h2 : verifyListLenAny 256 "atomic_numbers" (.list l) none = .ok () := rfl
  have h3 := (atoms_ok l).2 hl
  refine ⟨⟨.range "positions", ?_, rfl, by decide⟩, fun S => ⟨.range "positions_ts", ?_, rfl, by decide⟩⟩
  · unfold verifyStructureAny verifyPositionsAny
    have h4 : verifyShapeAny "positions" (.array [l.length, 3] data) [some l.length, some 3] = .ok () :=
      (C169_shape_ok _ _ _).2 ((arr_pattern2' _ _ 3).1 ⟨data, rfl⟩)
    have h5 : verifyShapeAny "positions" (.array [l.length, 3] data) [none, some 3] = .ok () :=
      (C169_shape_ok _ _ _).2 ((arr_pattern2 _ 3).1 ⟨l.length, data, rfl⟩)
    dsimp only [PyVal.elements, PyVal.entries]
    rw [h1, h2, h3, h4, h5]
    exact if_pos hr
  · unfold verifyTrajectoryAny
    have h4 : verifyShapeAny "positions_ts" (.array [S, l.length, 3] data)
        [none, some l.length, some 3] = .ok () :=
      (C169_shape_ok _ _ _).2 ((arr_pattern3' _ _ 3).1 ⟨S, data, rfl⟩)
    dsimp only [PyVal.elements, PyVal.entries]
    rw [h1, h2, h3, h4]
    exact if_pos hr

/-- C169: the first value that is no atomic number is the one reported, with a `ValueError`, whatever
follows it in the list and whatever the positions are. -/
theorem C169_no_element (lattice : PyVal) (hlat : IsArr lattice [3, 3]) (l : List PyVal)
    (hl : ∀ u ∈ l, ∃ n, Atom u n ∧ 1 ≤ n ∧ n ≤ 118) (v : PyVal)
    (hv : (∃ n : ℤ, v = .int n ∧ (n < 1 ∨ 118 < n)) ∨ (∃ s, v = .str s) ∨ v = .none) (rest : List PyVal)
    (positions : PyVal) :
    ∃ e, verifyStructureAny lattice (.list (l ++ v :: rest)) positions = .error e ∧
      verifyTrajectoryAny lattice (.list (l ++ v :: rest)) positions = .error e ∧
      e = .atomicNumber v ∧ e.cls = .valueError := by
  have h1 : verifyShapeAny "lattice" lattice [some 3, some 3] = .ok () :=
    (C169_shape_ok _ _ _).2 ((arr_pattern2' lattice 3 3).1 hlat)
  have h2 : verifyListLenAny 256 "atomic_numbers" (.list (l ++ v :: rest)) none = .ok () := rfl
  have hk : inAtomSymbols v = .ok false := by
    have hb : ∃ b, inAtomSymbols v = .ok b := by
      rcases hv with ⟨n, rfl, -⟩ | ⟨s, rfl⟩ | rfl <;> exact ⟨_, rfl⟩
    obtain ⟨b, hb⟩ := hb
    cases b with
    | false => exact hb
    | true =>
      obtain ⟨n, h, h3, h4⟩ := (atom_known v).1 hb
      rcases hv with ⟨k, rfl, hk⟩ | ⟨s, rfl⟩ | rfl
      · generalize hw : PyVal.int k = w at h
        cases h with
        | int m => injection hw with hw; omega
        | float m => cases hw
        | true => cases hw
      · cases h
      · cases h
  have h3 : verifyAtomicNumbers (l ++ v :: rest) = .error (.atomicNumber v) := by
    induction l with
    | nil => rw [List.nil_append, verifyAtomicNumbers, hk]; rfl
    | cons u l ih =>
      have hu := (atom_known u).2 (hl u (by simp))
      rw [List.cons_append, verifyAtomicNumbers, hu]
      exact ih (fun w hw => hl w (by simp [hw])) rfl
  refine ⟨_, ?_, ?_, rfl, rfl⟩
  · unfold verifyStructureAny
    dsimp only [PyVal.elements]
    rw [h1, h2, h3]
    rfl
  · unfold verifyTrajectoryAny
    dsimp only [PyVal.elements]
    rw [h1, h2, h3]
    rfl

/-! ## Paths -/

theorem pathify_iff (v : PyVal) (p : Path) : pathifyAny v = .ok p ↔ IsPath v p := by
  constructor
  · intro h
    cases v <;> cases h <;> constructor
  · intro h
    cases h <;> rfl

theorem pathify_error (v : PyVal) (e : ArgErr) (h : pathifyAny v = .error e) :
    e.cls = .typeError ∧ ∀ p, ¬ IsPath v p := by
  refine ⟨?_, fun p hp => ?_⟩
  · cases v <;> cases h <;> rfl
  · rw [(pathify_iff v p).2 hp] at h
    cases h

/-- C169: which values are accepted as paths of files: a single path, or a list of at least one. -/
theorem C169_paths (v : PyVal) (ps : List (List Char)) :
    pathifyAsListAny v = .ok ps ↔
      (∃ p, IsPath v p ∧ ps = [p]) ∨ ∃ l, v = .list l ∧ l ≠ [] ∧ List.Forall₂ IsPath l ps := by
  have hmap : ∀ (l : List PyVal) (ps : List (List Char)),
      l.mapM pathifyAny = .ok ps ↔ List.Forall₂ IsPath l ps := by
    intro l
    induction l with
    | nil =>
      intro ps
      rw [List.mapM_nil]
      constructor
      · intro h; cases h; exact .nil
      · intro h; cases h; rfl
    | cons x l ih =>
      intro ps
      rw [List.mapM_cons]
      cases hx : pathifyAny x with
      | error e =>
        constructor
        · intro h; cases h
        · intro h
          cases h with
          | cons h1 _ => exact absurd h1 ((pathify_error x e hx).2 _)
      | ok p =>
        have hp := (pathify_iff x p).1 hx
        cases hl : l.mapM pathifyAny with
        | error e =>
          constructor
          · intro h; cases h
          · intro h
            cases h with
            | cons _ h2 =>
              rw [← ih, hl] at h2
              cases h2
        | ok qs =>
          constructor
          · intro h
            cases h
            exact .cons hp ((ih qs).1 hl)
          · intro h
            cases h with
            | cons h1 h2 =>
              rw [← ih, hl] at h2
              cases h2
              rw [← pathify_iff, hx] at h1
              cases h1
              rfl
  have hone : ∀ u : PyVal, (∀ l, u ≠ .list l) →
      ((pathifyAny u >>= fun p => (.ok [p] : Except ArgErr (List Path))) = .ok ps ↔
        (∃ p, IsPath u p ∧ ps = [p]) ∨ ∃ l, u = .list l ∧ l ≠ [] ∧ List.Forall₂ IsPath l ps) := by
    intro u hu
    constructor
    · intro h
      cases hp : pathifyAny u with
      | error e => rw [hp] at h; cases h
      | ok p =>
        rw [hp] at h
        cases h
        exact .inl ⟨p, (pathify_iff u p).1 hp, rfl⟩
    · rintro (⟨p, hp, rfl⟩ | ⟨l, hl, -⟩)
      · rw [(pathify_iff u p).2 hp]
        rfl
      · exact absurd hl (hu l)
  cases v with
  | list l =>
    unfold pathifyAsListAny
    dsimp only
    by_cases hl : l = []
    · subst hl
      constructor
      · intro h; cases h
      · rintro (⟨p, hp, -⟩ | ⟨l, h, h1, -⟩)
        · cases hp
        · injection h with h
          exact absurd h.symm h1
    · rw [if_neg (by simpa using hl), hmap]
      constructor
      · exact fun h => .inr ⟨l, rfl, hl, h⟩
      · rintro (⟨p, hp, -⟩ | ⟨l', h, -, h2⟩)
        · cases hp
        · injection h with h
          exact h ▸ h2
  | none => exact hone _ fun _ h => by cases h
  | bool b => exact hone _ fun _ h => by cases h
  | int n => exact hone _ fun _ h => by cases h
  | float x => exact hone _ fun _ h => by cases h
  | str s => exact hone _ fun _ h => by cases h
  | path s => exact hone _ fun _ h => by cases h
  | tuple s => exact hone _ fun _ h => by cases h
  | array s d => exact hone _ fun _ h => by cases h

/-- C169: an empty list of paths is a `ValueError`, everything else that is refused a `TypeError`. -/
theorem C169_paths_errors (v : PyVal) (e : ArgErr) (h : pathifyAsListAny v = .error e) :
    (v = .list [] ∧ e.cls = .valueError) ∨ (v ≠ .list [] ∧ e.cls = .typeError) := by
  have hmap : ∀ (l : List PyVal) (e : ArgErr), l.mapM pathifyAny = .error e → e.cls = .typeError := by
    intro l
    induction l with
    | nil => intro e h; rw [List.mapM_nil] at h; cases h
    | cons x l ih =>
      intro e h
      rw [List.mapM_cons] at h
      cases hx : pathifyAny x with
      | error e' =>
        rw [hx] at h
        cases h
        exact (pathify_error x _ hx).1
      | ok p =>
        rw [hx] at h
        cases hl : l.mapM pathifyAny with
        | error e' =>
          rw [hl] at h
          cases h
          exact ih _ hl
        | ok qs =>
          rw [hl] at h
          cases h
  cases v with
  | list l =>
    cases l with
    | nil => cases h; exact .inl ⟨rfl, rfl⟩
    | cons x l => exact .inr ⟨(fun h => by cases h), hmap (x :: l) e h⟩
  | str s => cases h
  | path s => cases h
  | _ => cases h; exact .inr ⟨(fun h => by cases h), rfl⟩

/-! ## Examples -/

section Examples

/-- Array of zeros. -/
def zerosOf (s : List ℕ) : PyVal := .array s (List.replicate s.prod (.fin 0))

example : Reports (phononsParams (zerosOf [2, 3]) (zerosOf [5]) (zerosOf [5, 2, 3]))
    (phononsArgs (zerosOf [2, 3]) (zerosOf [5]) (zerosOf [5, 2, 3])) := C169_phonons _ _ _

example : phononsArgs (zerosOf [2, 3]) (zerosOf [5]) (zerosOf [5, 2, 3]) = .ok () := rfl

/-- A tuple of paths is not a list of paths; a list of 300 paths for 300 structures is refused. -/
example : (∃ e, verifyListLenAny 256 "filepaths" (.tuple []) none = .error e ∧
      e.text = some "filepaths should have type list, not tuple".toList) ∧
    (∃ e, verifyListLenAny 256 "filepaths" (.list (List.replicate 300 (.str ['a']))) (some 300) = .error e ∧
      e.cls = .valueError) := by
  constructor
  · obtain ⟨e, h1, -, h2⟩ := (C169_list_length 256 "filepaths" (.tuple [])).2.2.2 _ none (.tuple [])
      (fun l h => by cases h)
    exact ⟨e, h1, h2.trans (by decide)⟩
  · obtain ⟨e, h1, h2, -⟩ := (C169_list_length 256 "filepaths" (.list (List.replicate 300 (.str ['a'])))).2.2.1
      _ 300 rfl (by rw [List.length_replicate]; omega)
    exact ⟨e, h1, h2⟩

/-- A list in place of the wavenumbers: `TypeError: wavenumbers should have type ndarray, not list`. -/
example : phononsArgs (zerosOf [2, 3]) (.list []) .none = .error (.type "wavenumbers" "ndarray" "list") :=
  rfl

/-- Displacements of another number of phonons. -/
example : phononsArgs (zerosOf [2, 3]) (zerosOf [5]) (zerosOf [4, 2, 3])
    = .error (.shape "displacements" [4, 2, 3] [some 5, some 2, some 3]) := rfl

example : trajectoryArgs (zerosOf [4, 2, 3]) (.int 2) = .ok (.fin 2) := rfl

example : trajectoryArgs (zerosOf [4, 2, 3]) .none = .error (.type "timestep" "float" "NoneType") := rfl

example : trajectoryArgs (zerosOf [4, 2, 3]) (.float (.fin 0)) = .error (.notPositive "timestep") := by
  have h : (Flt.fin 0).leFin 0 = true := by decide +kernel
  have h1 : verifyShapeAny "positions_ts" (zerosOf [4, 2, 3]) [none, none, some 3] = .ok () := rfl
  unfold trajectoryArgs
  rw [h1]
  dsimp only [bind, Except.bind, floatAny]
  rw [if_pos h]

/-- Hydrogen as `True` and carbon as `6.0`. -/
example : verifyAtomicNumbers [.bool true, .float (.fin 6), .int 8] = .ok () := by
  rw [atoms_ok]
  intro v hv
  simp only [List.mem_cons, List.not_mem_nil, or_false] at hv
  rcases hv with rfl | rfl | rfl
  · exact ⟨1, .true, by omega, by omega⟩
  · exact ⟨6, .float 6, by omega, by omega⟩
  · exact ⟨8, .int 8, by omega, by omega⟩

/-- A coordinate above 1 in a cell with one hydrogen atom. -/
example : (∃ e, verifyStructureAny (zerosOf [3, 3]) (.list [.int 1]) (.array [1, 3] [.fin 0, .fin 2, .fin 0])
    = .error e ∧ e.cls = .valueError ∧
      e.text = some "positions has coordinates that are not between 0 and 1".toList) :=
  (C169_outside (zerosOf [3, 3]) ⟨_, rfl⟩ [.int 1] (by
    intro v hv
    rw [List.mem_singleton] at hv
    subst hv
    exact ⟨1, .int 1, le_rfl, by norm_num⟩) [.fin 0, .fin 2, .fin 0] (.fin 2) (by simp) (by
      rintro (h | ⟨q, _, hq, h⟩)
      · cases h
      · injection h with h
        subst h
        norm_num at hq)).1

example : pathifyAsListAny (.list [.str ['a'], .path ['b']]) = .ok [['a'], ['b']] := rfl

end Examples

end Verif
