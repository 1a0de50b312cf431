import Verif.Spec.CutFile
import Verif.Props.OutcarSeries

/-!
# C180: OUTCAR files of molecular dynamics that were cut off

A run that crashed or is still going on leaves an OUTCAR file that ends somewhere.
-/

namespace Verif

open Spec

/-! ## Lines of a file that was cut off -/

/-- The lines `g` are those of a file with lines `f` that was cut off, if `inside` holds possibly inside a
line. -/
inductive Cut (inside : Prop) : List (List Char) → List (List Char) → Prop
  | stop (f : List (List Char)) : Cut inside [] f
  | part (l' l : List Char) (f : List (List Char)) (h : inside) (hp : l' <+: l) : Cut inside [l'] (l :: f)
  | line (l : List Char) (g f : List (List Char)) (h : Cut inside g f) : Cut inside (l :: g) (l :: f)

variable {inside : Prop}

theorem universalNewlines_prefix (a : List Char) :
    ∀ b, a <+: b → universalNewlines a <+: universalNewlines b := by
  induction a using universalNewlines.induct with
  | case1 => intro b _; exact List.nil_prefix
  | case2 cs ih =>
    rintro _ ⟨t, rfl⟩
    simp only [List.cons_append, universalNewlines]
    exact List.cons_prefix_cons.2 ⟨rfl, ih _ (List.prefix_append _ _)⟩
  | case3 cs hcs ih =>
    rintro _ ⟨t, rfl⟩
    rw [universalNewlines.eq_3 _ hcs]
    cases cs with
    | nil =>
      rcases t with _ | ⟨d, t⟩
      · exact List.prefix_rfl
      · by_cases hd : d = '\n'
        · subst hd
          simp [universalNewlines]
        · rw [List.cons_append, List.nil_append, universalNewlines.eq_3 _ (by
            intro cs h; exact hd (List.cons.inj h).1)]
          simp [universalNewlines]
    | cons d cs =>
      have hd : d ≠ '\n' := fun h => hcs cs (by rw [h])
      rw [List.cons_append, List.cons_append, universalNewlines.eq_3 _ (by
        intro cs' h; exact hd (List.cons.inj h).1)]
      exact List.cons_prefix_cons.2 ⟨rfl, by simpa using ih _ (List.prefix_append _ t)⟩
  | case4 c cs h1 h2 ih =>
    rintro _ ⟨t, rfl⟩
    have hc : c ≠ '\r' := fun h => h2 h
    rw [List.cons_append, universalNewlines.eq_4 _ _ (fun _ h _ => hc h) hc,
      universalNewlines.eq_4 _ _ (fun _ h _ => hc h) hc]
    exact List.cons_prefix_cons.2 ⟨rfl, ih _ (List.prefix_append _ _)⟩

theorem universalNewlines_last (x : List Char) :
    (universalNewlines (x ++ ['\n'])).getLast? = some '\n' := by
  induction x using universalNewlines.induct with
  | case1 => simp [universalNewlines]
  | case2 cs ih =>
    simp only [List.cons_append, universalNewlines]
    rw [List.getLast?_cons, ih]
    rfl
  | case3 cs hcs ih =>
    rcases cs with _ | ⟨d, cs⟩
    · simp [universalNewlines]
    · have hd : d ≠ '\n' := fun h => hcs cs (by rw [h])
      rw [List.cons_append, universalNewlines.eq_3 _ (by
        intro cs' h; exact hd (List.cons.inj h).1), List.getLast?_cons, ih]
      rfl
  | case4 c cs h1 h2 ih =>
    have hc : c ≠ '\r' := fun h => h2 h
    rw [List.cons_append, universalNewlines.eq_4 _ _ (fun _ h _ => hc h) hc, List.getLast?_cons, ih]
    rfl

theorem Cut.mono {p q : Prop} (h : p → q) {g f : List (List Char)} (hc : Cut p g f) : Cut q g f := by
  induction hc with
  | stop f => exact .stop f
  | part l' l f hp hl => exact .part l' l f (h hp) hl
  | line l g f _ ih => exact .line l g f ih

theorem linesOf_cut : ∀ a b : List Char, a <+: b →
    Cut (a.getLast? ≠ some '\n') (linesOf a) (linesOf b)
  | [], b, _ => .stop _
  | c :: a, b, h => by
    obtain ⟨t, rfl⟩ := h
    have ih := linesOf_cut a (a ++ t) (List.prefix_append _ _)
    have ih' : Cut ((c :: a).getLast? ≠ some '\n') (linesOf a) (linesOf (a ++ t)) := by
      rcases a with _ | ⟨d, a⟩
      · exact .stop _
      · rw [List.getLast?_cons_cons]
        exact ih
    rw [List.cons_append]
    unfold linesOf
    by_cases hc : c = '\n'
    · rw [if_pos hc, if_pos hc]
      exact .line _ _ _ ih'
    rw [if_neg hc, if_neg hc]
    by_cases ha : a = []
    · subst ha
      have hl : ([c] : List Char).getLast? ≠ some '\n' := by simpa using hc
      rw [List.nil_append]
      cases linesOf t with
      | nil => exact .line _ _ _ (.stop _)
      | cons l ls => exact .part _ _ _ hl (List.cons_prefix_cons.2 ⟨rfl, List.nil_prefix⟩)
    · have hne : linesOf a ≠ [] := fun h0 => ha (by
        have := linesOf_flatten a
        rw [h0] at this
        exact this.symm)
      generalize linesOf a = g at ih' hne ⊢
      generalize linesOf (a ++ t) = f at ih' ⊢
      cases ih' with
      | stop => exact absurd rfl hne
      | part l' l f h hp => exact .part _ _ _ h (List.cons_prefix_cons.2 ⟨rfl, hp⟩)
      | line l g f h => exact .line _ _ _ h

theorem fileLines_cut {a b : List Char} (h : a <+: b) : Cut True (fileLines a) (fileLines b) :=
  (linesOf_cut _ _ (universalNewlines_prefix a b h)).mono fun _ => trivial

theorem fileLines_cut_line {a b : List Char} (h : a <+: b) (ha : ∃ x, a = x ++ ['\n']) :
    Cut False (fileLines a) (fileLines b) := by
  obtain ⟨x, rfl⟩ := ha
  exact (linesOf_cut _ _ (universalNewlines_prefix _ b h)).mono fun hn => hn (universalNewlines_last x)

/-! ## Reading -/

theorem contains_prefix {c l' l : List Char} (h : l' <+: l) (hc : contains c l' = true) :
    contains c l = true := by
  unfold contains at *
  rw [decide_eq_true_eq] at *
  exact hc.trans h.isInfix

theorem Cut.skip {c : List Char} {g f : List (List Char)} (h : Cut inside g f) {x : List Char}
    {g' : List (List Char)} (hs : skipUntil c g = .ok (x, g')) :
    ∃ y f', skipUntil c f = .ok (y, f') ∧ Cut inside g' f' ∧ (x = y ∨ g' = []) := by
  induction h with
  | stop f => cases hs
  | part l' l f hi hp =>
    unfold skipUntil at hs
    by_cases hc : contains c l' = true
    · rw [if_pos hc] at hs
      cases hs
      exact ⟨l, f, by unfold skipUntil; rw [if_pos (contains_prefix hp hc)], .stop _, Or.inr rfl⟩
    · rw [if_neg hc] at hs
      cases hs
  | line l g f h ih =>
    unfold skipUntil at hs ⊢
    by_cases hc : contains c l = true
    · rw [if_pos hc] at hs ⊢
      cases hs
      exact ⟨_, _, rfl, h, Or.inl rfl⟩
    · rw [if_neg hc] at hs ⊢
      exact ih hs

/-- The result of reading the file that was cut off is that of reading the other one, or all lines have
been read. -/
def CutAgree {α : Type} (inside : Prop) (x y : α × List (List Char)) : Prop :=
  x.1 = y.1 ∧ Cut inside x.2 y.2 ∨ x.2 = []

theorem orInvalid_ok {α : Type} {r : Py α} {x : α} : orInvalid r = .ok x ↔ r = .ok x := by
  unfold orInvalid
  cases r with
  | error e => cases e <;> simp
  | ok y => rfl

theorem Cut.skipInvalid {c : List Char} {g f : List (List Char)} (h : Cut inside g f)
    {x y : List Char × List (List Char)} (hs : orInvalid (skipUntil c g) = .ok x)
    (hf : orInvalid (skipUntil c f) = .ok y) : Cut inside x.2 y.2 ∧ (x.1 = y.1 ∨ x.2 = []) := by
  obtain ⟨x1, x2⟩ := x
  obtain ⟨y', f', h1, h2, h3⟩ := h.skip (orInvalid_ok.1 hs)
  cases h1.symm.trans (orInvalid_ok.1 hf)
  exact ⟨h2, h3⟩

theorem skip_nil {c : List Char} {x : List Char × List (List Char)} :
    orInvalid (skipUntil c []) ≠ .ok x := fun h => by
  cases orInvalid_ok.1 h

theorem potcarLoop_nil : potcarLoop [] = .ok ([], []) := rfl

theorem Cut.potcarLoop {g f : List (List Char)} (h : Cut inside g f) :
    ∀ {x y : List Word × List (List Char)}, potcarLoop g = .ok x → potcarLoop f = .ok y →
      CutAgree inside x y := by
  induction h with
  | stop f =>
    intro x y hx _
    cases hx
    exact Or.inr rfl
  | part l' l f hi hp =>
    intro x y hx _
    unfold Verif.potcarLoop at hx
    by_cases hc : ¬ contains "POTCAR".toList l' = true
    · rw [if_pos hc] at hx
      cases hx
      exact Or.inr rfl
    · rw [if_neg hc] at hx
      cases hs : potcarSymbol l' with
      | none => rw [hs] at hx; cases hx
      | some s =>
        rw [hs] at hx
        dsimp only [bind, Except.bind, pure, Except.pure, potcarLoop_nil] at hx
        cases hx
        exact Or.inr rfl
  | line l g f h ih =>
    intro x y hx hy
    unfold Verif.potcarLoop at hx hy
    by_cases hc : ¬ contains "POTCAR".toList l = true
    · rw [if_pos hc] at hx hy
      cases hx
      cases hy
      exact Or.inl ⟨rfl, h⟩
    · rw [if_neg hc] at hx hy
      cases hs : potcarSymbol l with
      | none => rw [hs] at hx; cases hx
      | some s =>
        rw [hs] at hx hy
        dsimp only at hx hy
        obtain ⟨x1, hx1, hx⟩ := (bind_ok_iff _ _ _).1 hx
        obtain ⟨y1, hy1, hy⟩ := (bind_ok_iff _ _ _).1 hy
        cases hx
        cases hy
        rcases ih hx1 hy1 with ⟨h1, h2⟩ | h1
        · exact Or.inl ⟨by rw [h1], h2⟩
        · exact Or.inr h1

theorem Cut.next {g f : List (List Char)} (h : Cut inside g f) :
    Cut inside (nextLine g).2 (nextLine f).2 ∧ ((nextLine g).1 = (nextLine f).1 ∨ (nextLine g).2 = []) := by
  cases h with
  | stop f => exact ⟨.stop _, Or.inr rfl⟩
  | part l' l f hi hp => exact ⟨.stop _, Or.inr rfl⟩
  | line l g f h => exact ⟨h, Or.inl rfl⟩

theorem Cut.readPotcar {g f : List (List Char)} (h : Cut inside g f) {x y : List Word × List (List Char)}
    (hx : readPotcar g = .ok x) (hy : readPotcar f = .ok y) : CutAgree inside x y := by
  unfold Verif.readPotcar at hx hy
  obtain ⟨x1, hx1, hx⟩ := (bind_ok_iff _ _ _).1 hx
  obtain ⟨y1, hy1, hy⟩ := (bind_ok_iff _ _ _).1 hy
  obtain ⟨h1, h2⟩ := h.skipInvalid hx1 hy1
  obtain ⟨xl, xf⟩ := x1
  obtain ⟨yl, yf⟩ := y1
  dsimp only at h1 h2 hx hy
  cases hsx : potcarSymbol xl with
  | none => rw [hsx] at hx; cases hx
  | some s =>
  cases hsy : potcarSymbol yl with
  | none => rw [hsy] at hy; cases hy
  | some t =>
  rw [hsx] at hx
  rw [hsy] at hy
  dsimp only at hx hy
  obtain ⟨x2, hx2, hx⟩ := (bind_ok_iff _ _ _).1 hx
  obtain ⟨y2, hy2, hy⟩ := (bind_ok_iff _ _ _).1 hy
  cases hx
  cases hy
  rcases h2 with rfl | rfl
  · cases hsx.symm.trans hsy
    rcases h1.potcarLoop hx2 hy2 with ⟨h3, h4⟩ | h3
    · obtain ⟨h5, h6⟩ := h4.next
      rcases h6 with h6 | h6
      · exact Or.inl ⟨by dsimp only; rw [h3, h6], h5⟩
      · exact Or.inr h6
    · refine Or.inr ?_
      dsimp only
      rw [h3]
      rfl
  · cases hx2
    exact Or.inr rfl

theorem Cut.outcarSymbols {g f : List (List Char)} (h : Cut inside g f)
    {x y : List Word × List (List Char)} (hx : outcarSymbols g = .ok x) (hy : outcarSymbols f = .ok y) :
    CutAgree inside x y := by
  unfold Verif.outcarSymbols readIonCounts at hx hy
  obtain ⟨x1, hx1, hx⟩ := (bind_ok_iff _ _ _).1 hx
  obtain ⟨y1, hy1, hy⟩ := (bind_ok_iff _ _ _).1 hy
  obtain ⟨x2, hx2, hx⟩ := (bind_ok_iff _ _ _).1 hx
  obtain ⟨y2, hy2, hy⟩ := (bind_ok_iff _ _ _).1 hy
  obtain ⟨x3, hx3, hx2⟩ := (bind_ok_iff _ _ _).1 hx2
  obtain ⟨y3, hy3, hy2⟩ := (bind_ok_iff _ _ _).1 hy2
  cases hx
  cases hy
  rcases h.readPotcar hx1 hy1 with ⟨h1, h2⟩ | h1
  · obtain ⟨h3, h4⟩ := h2.skipInvalid hx3 hy3
    obtain ⟨xl, xf⟩ := x3
    obtain ⟨yl, yf⟩ := y3
    dsimp only at h3 h4 hx2 hy2
    cases hcx : ((splitWs xl).drop 4).mapM parseInt with
    | none => rw [hcx] at hx2; cases hx2
    | some c =>
    cases hcy : ((splitWs yl).drop 4).mapM parseInt with
    | none => rw [hcy] at hy2; cases hy2
    | some d =>
    rw [hcx] at hx2
    rw [hcy] at hy2
    cases hx2
    cases hy2
    rcases h4 with rfl | rfl
    · cases hcx.symm.trans hcy
      exact Or.inl ⟨by dsimp only; rw [h1], h3⟩
    · exact Or.inr rfl
  · rw [h1] at hx3
    exact absurd hx3 skip_nil

theorem Cut.readTimestep {g f : List (List Char)} (h : Cut inside g f) {x y : Num × List (List Char)}
    (hx : readTimestep g = .ok x) (hy : readTimestep f = .ok y) : CutAgree inside x y := by
  unfold Verif.readTimestep at hx hy
  obtain ⟨x1, hx1, hx⟩ := (bind_ok_iff _ _ _).1 hx
  obtain ⟨y1, hy1, hy⟩ := (bind_ok_iff _ _ _).1 hy
  obtain ⟨h1, h2⟩ := h.skipInvalid hx1 hy1
  obtain ⟨xl, xf⟩ := x1
  obtain ⟨yl, yf⟩ := y1
  dsimp only at h1 h2 hx hy
  rcases h2 with rfl | rfl
  · cases hw : (splitWs xl)[2]? with
    | none => rw [hw] at hx; cases hx
    | some w =>
      rw [hw] at hx hy
      dsimp only at hx hy
      cases hp : parseFloat w with
      | none => rw [hp] at hx; cases hx
      | some v =>
        rw [hp] at hx hy
        cases hx
        cases hy
        exact Or.inl ⟨rfl, h1⟩
  · refine Or.inr ?_
    cases hw : (splitWs xl)[2]? with
    | none => rw [hw] at hx; cases hx
    | some w =>
      rw [hw] at hx
      dsimp only at hx
      cases hp : parseFloat w with
      | none => rw [hp] at hx; cases hx
      | some v => rw [hp] at hx; cases hx; rfl

theorem readRow_nil : readRow [] = some [] := rfl

theorem readRows_nil : ∀ n, readRows n [] = .ok (List.replicate n [], [])
  | 0 => rfl
  | n + 1 => by
    unfold readRows
    dsimp only [nextLine]
    rw [readRow_nil]
    dsimp only
    rw [readRows_nil n]
    rfl

theorem Cut.rows {n : ℕ} : ∀ {g f : List (List Char)}, Cut inside g f →
    ∀ {x y : List (List Num) × List (List Char)}, readRows n g = .ok x → readRows n f = .ok y →
      (x.1 = y.1 ∧ Cut inside x.2 y.2) ∨
      x.2 = [] ∧ ((∀ r ∈ x.1, r ≠ []) →
        inside ∧ x.1.length = y.1.length ∧ x.1.dropLast = y.1.dropLast) := by
  induction n with
  | zero =>
    intro g f h x y hx hy
    cases hx
    cases hy
    exact Or.inl ⟨rfl, h⟩
  | succ n ih =>
    intro g f h x y hx hy
    cases h with
    | stop f =>
      rw [readRows_nil] at hx
      cases hx
      refine Or.inr ⟨rfl, fun h3 => ?_⟩
      exact absurd rfl (h3 [] (by simp [List.replicate_succ]))
    | part l' l f hi hp =>
      unfold readRows at hx hy
      dsimp only [nextLine] at hx hy
      cases hr : readRow l' with
      | none => rw [hr] at hx; cases hx
      | some r =>
      cases hs : readRow l with
      | none => rw [hs] at hy; cases hy
      | some s =>
      rw [hr] at hx
      rw [hs] at hy
      dsimp only at hx hy
      rw [readRows_nil] at hx
      obtain ⟨y1, hy1, hy⟩ := (bind_ok_iff _ _ _).1 hy
      cases hx
      cases hy
      refine Or.inr ⟨rfl, fun h3 => ⟨hi, ?_⟩⟩
      cases n with
      | zero =>
        cases hy1
        exact ⟨rfl, rfl⟩
      | succ n =>
        exact absurd rfl (h3 [] (by simp [List.replicate_succ]))
    | line l g f h =>
      unfold readRows at hx hy
      dsimp only [nextLine] at hx hy
      cases hr : readRow l with
      | none => rw [hr] at hx; cases hx
      | some r =>
      rw [hr] at hx hy
      dsimp only at hx hy
      obtain ⟨x1, hx1, hx⟩ := (bind_ok_iff _ _ _).1 hx
      obtain ⟨y1, hy1, hy⟩ := (bind_ok_iff _ _ _).1 hy
      cases hx
      cases hy
      rcases ih h hx1 hy1 with ⟨h1, h2⟩ | ⟨h1, h2⟩
      · exact Or.inl ⟨by rw [h1], h2⟩
      · refine Or.inr ⟨h1, fun h3 => ?_⟩
        obtain ⟨h4, h5, h6⟩ := h2 fun r hr => h3 r (List.mem_cons_of_mem _ hr)
        refine ⟨h4, by simp [h5], ?_⟩
        obtain ⟨xs, xf⟩ := x1
        obtain ⟨ys, yf⟩ := y1
        dsimp only at h5 h6 ⊢
        cases xs with
        | nil => cases ys with
          | nil => rfl
          | cons b ys => cases h5
        | cons a xs => cases ys with
          | nil => cases h5
          | cons b ys => rw [List.dropLast_cons_cons, List.dropLast_cons_cons, h6]

theorem readArray_ok {n : ℕ} {f : List (List Char)} {x : List (List Num) × List (List Char)}
    (h : readArray n f = .ok x) : readRows n f = .ok x := by
  unfold readArray at h
  obtain ⟨x1, h1, h⟩ := (bind_ok_iff _ _ _).1 h
  obtain ⟨a, h2, h⟩ := (bind_ok_iff _ _ _).1 h
  cases h
  rw [h1]
  obtain ⟨rows, f'⟩ := x1
  unfold npArray at h2
  dsimp only at h2 ⊢
  cases rows with
  | nil => cases h2; rfl
  | cons r rs =>
    dsimp only at h2
    by_cases hl : ∀ x ∈ rs, x.length = r.length
    · rw [if_pos hl] at h2; cases h2; rfl
    · rw [if_neg hl] at h2; cases h2

theorem Cut.lattice {g f : List (List Char)} (h : Cut inside g f)
    {x y : List (List Num) × List (List Char)} (hx : outcarReadLattice g = .ok x)
    (hy : outcarReadLattice f = .ok y) : CutAgree inside x y := by
  unfold outcarReadLattice at hx hy
  obtain ⟨x1, hx1, hx⟩ := (bind_ok_iff _ _ _).1 hx
  obtain ⟨y1, hy1, hy⟩ := (bind_ok_iff _ _ _).1 hy
  obtain ⟨x2, hx2, hx⟩ := (bind_ok_iff _ _ _).1 hx
  obtain ⟨y2, hy2, hy⟩ := (bind_ok_iff _ _ _).1 hy
  have h1 := (h.skipInvalid hx1 hy1).1
  have h2 := (h1.skipInvalid hx2 hy2).1
  rcases h2.rows (readArray_ok hx) (readArray_ok hy) with h3 | h3
  · exact Or.inl h3
  · exact Or.inr h3.1

/-! ## Frames -/

theorem cartToFrac_ok {ext : NumMat → Py NumMat} {lattice cart : List (List Num)} {p : List NumVec}
    (h : cartToFrac ext lattice cart = .ok p) : ∃ inv vs, arrayInv ext lattice = .ok inv ∧
      List.Forall₂ (fun r v => toVec r = some v) cart vs ∧ vs ≠ [] ∧ p = vs.map (numVecMul · inv) := by
  unfold cartToFrac at h
  obtain ⟨inv, h1, h⟩ := (bind_ok_iff _ _ _).1 h
  cases hm : cart.mapM toVec with
  | none => rw [hm] at h; cases h
  | some vs =>
    rw [hm] at h
    dsimp only at h
    by_cases hv : vs = []
    · rw [if_pos hv] at h; cases h
    · rw [if_neg hv] at h
      cases h
      exact ⟨inv, vs, h1, (mapM_option_iff _ _ _).1 hm, hv, rfl⟩

theorem toVec_unique {xs : List (List Num)} {vs : List NumVec}
    (h : List.Forall₂ (fun r v => toVec r = some v) xs vs) :
    ∀ {ws : List NumVec}, List.Forall₂ (fun r v => toVec r = some v) xs ws → vs = ws := by
  induction h with
  | nil => intro ws h'; cases h'; rfl
  | cons h _ ih =>
    intro ws h'
    cases h' with
    | cons h1 h2 =>
      cases h.symm.trans h1
      rw [ih h2]

theorem stepLoop_nil {ext : NumMat → Py NumMat} {lattice : List (List Num)} {n k : ℕ} {ml : Bool}
    {ps : List (List NumVec)} (h : stepLoop ext lattice n k ml [] = .ok ps) : ps = [] := by
  cases k with
  | zero => cases h
  | succ k => cases h; rfl

theorem cartToFrac_rows {ext : NumMat → Py NumMat} {lattice xs ys : List (List Num)} {p q : List NumVec}
    (hp : cartToFrac ext lattice xs = .ok p) (hq : cartToFrac ext lattice ys = .ok q)
    (hl : xs.length = ys.length) (hd : xs.dropLast = ys.dropLast) :
    p.length = q.length ∧ p.dropLast = q.dropLast := by
  obtain ⟨inv, vs, h1, h2, -, rfl⟩ := cartToFrac_ok hp
  obtain ⟨inv', ws, h1', h2', -, rfl⟩ := cartToFrac_ok hq
  cases h1.symm.trans h1'
  refine ⟨by rw [List.length_map, List.length_map, ← h2.length_eq, ← h2'.length_eq, hl], ?_⟩
  rw [← List.map_dropLast, ← List.map_dropLast]
  have h3 := forall₂_dropLast h2
  rw [hd] at h3
  rw [toVec_unique h3 (forall₂_dropLast h2')]

theorem Cut.steps {ext : NumMat → Py NumMat} {lattice : List (List Num)} {n : ℕ} (k : ℕ) :
    ∀ (k' : ℕ) (ml : Bool) {g f : List (List Char)}, Cut inside g f → ∀ {ps qs : List (List NumVec)},
      stepLoop ext lattice n k ml g = .ok ps → stepLoop ext lattice n k' ml f = .ok qs →
      FirstFrames inside ps qs := by
  induction k with
  | zero => intro k' ml g f _ ps qs hg _; cases hg
  | succ k ih =>
    intro k' ml g f h ps qs hg hf
    cases k' with
    | zero => cases hf
    | succ k' =>
    unfold stepLoop at hg hf
    cases hs : skipUntil stepHeader g with
    | error e =>
      rw [hs] at hg
      cases hg
      exact .stop _
    | ok x =>
      obtain ⟨line, g1⟩ := x
      obtain ⟨line', f1, hs', h1, h2⟩ := h.skip hs
      rw [hs] at hg
      rw [hs'] at hf
      dsimp only at hg hf
      rcases h2 with rfl | rfl
      · by_cases hml : ml = true ∧ ¬ contains "(ML)".toList line = true
        · rw [if_pos hml] at hg hf
          exact ih _ _ h1 hg hf
        · rw [if_neg hml] at hg hf
          obtain ⟨x1, hx1, hg⟩ := (bind_ok_iff _ _ _).1 hg
          obtain ⟨y1, hy1, hf⟩ := (bind_ok_iff _ _ _).1 hf
          obtain ⟨p, hp, hg⟩ := (bind_ok_iff _ _ _).1 hg
          obtain ⟨q, hq, hf⟩ := (bind_ok_iff _ _ _).1 hf
          obtain ⟨ps', hps, hg⟩ := (bind_ok_iff _ _ _).1 hg
          obtain ⟨qs', hqs, hf⟩ := (bind_ok_iff _ _ _).1 hf
          cases hg
          cases hf
          unfold readNextCart at hx1 hy1
          rcases h1.next.1.rows (readArray_ok hx1) (readArray_ok hy1) with ⟨h3, h4⟩ | ⟨h3, h4⟩
          · rw [h3] at hp
            cases hp.symm.trans hq
            exact .frame _ _ _ (ih _ _ h4 hps hqs)
          · obtain ⟨inv, vs, -, hall, -, -⟩ := cartToFrac_ok hp
            obtain ⟨hi, h5, h6⟩ := h4 fun r hr => by
              obtain ⟨v, -, hv⟩ := forall₂_mem_left hall r hr
              rintro rfl
              cases hv
            rw [h3] at hps
            rw [stepLoop_nil hps]
            obtain ⟨h7, h8⟩ := cartToFrac_rows hp hq h5 h6
            exact .last _ _ _ hi h7 h8
      · by_cases hml : ml = true ∧ ¬ contains "(ML)".toList line = true
        · rw [if_pos hml] at hg
          rw [stepLoop_nil hg]
          exact .stop _
        · rw [if_neg hml] at hg
          exfalso
          obtain ⟨x1, hx1, hg⟩ := (bind_ok_iff _ _ _).1 hg
          obtain ⟨p, hp, -⟩ := (bind_ok_iff _ _ _).1 hg
          unfold readNextCart at hx1
          have h3 := readArray_ok hx1
          dsimp only [nextLine] at h3
          rw [readRows_nil] at h3
          cases h3
          obtain ⟨inv, vs, -, hall, hne, -⟩ := cartToFrac_ok hp
          cases n with
          | zero => cases hall; exact hne rfl
          | succ n =>
            rw [List.replicate_succ] at hall
            cases hall with
            | cons h4 _ => cases h4

theorem firstFrames_map {α β : Type} (F : α → β) {ps qs : List (List α)} (h : FirstFrames inside ps qs) :
    FirstFrames inside (ps.map (List.map F)) (qs.map (List.map F)) := by
  induction h with
  | stop qs => exact .stop _
  | last p q qs hi hl hd =>
    refine .last _ _ _ hi (by simpa using hl) ?_
    rw [← List.map_dropLast, ← List.map_dropLast, hd]
  | frame p ps qs _ ih => exact .frame _ _ _ ih

theorem cut_trajectory {ext : NumMat → Py NumMat} {a b : List Char} (h : Cut inside (fileLines a) (fileLines b))
    {s t : OutcarTrajectory} (hs : outcarReadTrajectory ext a = .ok s)
    (ht : outcarReadTrajectory ext b = .ok t) :
    s.timestep = t.timestep ∧ FirstFrames inside s.positionsTs t.positionsTs := by
  unfold outcarReadTrajectory at hs ht
  obtain ⟨x1, hx1, hs⟩ := (bind_ok_iff _ _ _).1 hs
  obtain ⟨y1, hy1, ht⟩ := (bind_ok_iff _ _ _).1 ht
  obtain ⟨x2, hx2, hs⟩ := (bind_ok_iff _ _ _).1 hs
  obtain ⟨y2, hy2, ht⟩ := (bind_ok_iff _ _ _).1 ht
  obtain ⟨x3, hx3, hs⟩ := (bind_ok_iff _ _ _).1 hs
  obtain ⟨y3, hy3, ht⟩ := (bind_ok_iff _ _ _).1 ht
  obtain ⟨ps, hps, hs⟩ := (bind_ok_iff _ _ _).1 hs
  obtain ⟨qs, hqs, ht⟩ := (bind_ok_iff _ _ _).1 ht
  rcases h.outcarSymbols hx1 hy1 with ⟨e1, h1⟩ | e1
  swap
  · rw [e1] at hx2
    unfold readTimestep at hx2
    obtain ⟨z, hz, -⟩ := (bind_ok_iff _ _ _).1 hx2
    exact absurd hz skip_nil
  rcases h1.readTimestep hx2 hy2 with ⟨e2, h2⟩ | e2
  swap
  · rw [e2] at hx3
    unfold outcarReadLattice at hx3
    obtain ⟨z, hz, -⟩ := (bind_ok_iff _ _ _).1 hx3
    exact absurd hz skip_nil
  by_cases hp : ps = []
  · rw [if_pos hp] at hs
    cases hs
  by_cases hq : qs = []
  · rw [if_pos hq] at ht
    cases ht
  rw [if_neg hp] at hs
  rw [if_neg hq] at ht
  rcases h2.lattice hx3 hy3 with ⟨e3, h3⟩ | e3
  swap
  · rw [e3] at hps
    exact absurd (stepLoop_nil hps) hp
  rw [e1, e3] at hps
  have h4 := h3.steps _ _ _ hps hqs
  rw [e2] at hs
  unfold makeTrajectory at hs ht
  cases hts : y2.1 with
  | none => rw [hts] at hs; cases hs
  | some τ =>
    rw [hts] at hs ht
    dsimp only at hs ht
    by_cases hτ : τ ≤ 0
    · rw [if_pos hτ] at hs; cases hs
    · rw [if_neg hτ] at hs ht
      cases hs
      cases ht
      exact ⟨rfl, firstFrames_map _ h4⟩

/-! ## C180 -/

/-- C180: an OUTCAR file that was cut off anywhere is refused, or it gives the time step and the first frames
of the complete file; only the last atom of the last frame may be elsewhere. -/
theorem C180_cut (ext : NumMat → Py NumMat) (a b : List Char) (h : a <+: b) (s t : OutcarTrajectory)
    (hs : outcarReadTrajectory ext a = .ok s) (ht : outcarReadTrajectory ext b = .ok t) :
    s.timestep = t.timestep ∧ FirstFrames True s.positionsTs t.positionsTs :=
  cut_trajectory (fileLines_cut h) hs ht

/-- C180: if it was cut off at the end of a line, then all frames are those of the complete file. -/
theorem C180_lines (ext : NumMat → Py NumMat) (a b : List Char) (h : a ++ ['\n'] <+: b)
    (s t : OutcarTrajectory) (hs : outcarReadTrajectory ext (a ++ ['\n']) = .ok s)
    (ht : outcarReadTrajectory ext b = .ok t) :
    s.timestep = t.timestep ∧ s.positionsTs <+: t.positionsTs := by
  obtain ⟨h1, h2⟩ := cut_trajectory (fileLines_cut_line h ⟨a, rfl⟩) hs ht
  refine ⟨h1, ?_⟩
  generalize s.positionsTs = ps at h2
  generalize t.positionsTs = qs at h2
  induction h2 with
  | stop qs => exact List.nil_prefix
  | last _ _ _ hi => exact hi.elim
  | frame p ps qs _ ih => exact List.cons_prefix_cons.2 ⟨rfl, ih⟩

/-! ## Concrete files -/

/-- What is left of the run above if it is cut off before its last step, without the last end of a line. -/
def mdCut : List Char := mdOutcar.take 468

/-- A run of a hydrogen atom in a cell of length 2, up to the third coordinate of the atom. -/
def mdBegin : List Char := chars! " POTCAR:    PAW_PBE H 15Jun2001\n POTCAR:    PAW_PBE H 15Jun2001\n\n" ++
  chars! "   VRHFIN =H: ultrasoft test\n   ions per type =    1\n   POTIM  = 0.5 time-step for ionic-motion\n" ++
  chars! " Write flags\n direct lattice vectors                 reciprocal lattice vectors\n" ++
  chars! " 2 0 0 0.5 0 0\n 0 2 0 0 0.5 0\n 0 0 2 0 0 0.5\n" ++
  chars! " POSITION                                       TOTAL-FORCE (eV/Angst)\n --\n 1 0 1"

/-- The rest of the line. -/
def mdRest : List Char := chars! ".5 0 0 0\n"

theorem mdBegin_frames : ∃ tr, outcarReadTrajectory (fun _ => .error .unmodelled) mdBegin = .ok tr ∧
    tr.positionsTs.map (fun ps => ps.map fun p => [p 0, p 1, p 2]) =
      [[[some (1 / 2), some 0, some (1 / 2)]]] := by
  refine projOr_ok (fun tr : OutcarTrajectory =>
    tr.positionsTs.map fun ps => ps.map fun p => [p 0, p 1, p 2]) [] _ ?_ ?_
  · decide +kernel
  · simp

theorem mdWhole_frames : ∃ tr,
    outcarReadTrajectory (fun _ => .error .unmodelled) (mdBegin ++ mdRest) = .ok tr ∧
    tr.positionsTs.map (fun ps => ps.map fun p => [p 0, p 1, p 2]) =
      [[[some (1 / 2), some 0, some (3 / 4)]]] := by
  refine projOr_ok (fun tr : OutcarTrajectory =>
    tr.positionsTs.map fun ps => ps.map fun p => [p 0, p 1, p 2]) [] _ ?_ ?_
  · decide +kernel
  · simp

/-- C180: "the frames of a file that was cut off are frames of the complete file" is false: a file that ends
inside the last coordinate that is read gives an atom at another place, without an exception. -/
theorem C180_moved : ∃ (ext : NumMat → Py NumMat) (a b : List Char) (s t : OutcarTrajectory), a <+: b ∧
    outcarReadTrajectory ext a = .ok s ∧ outcarReadTrajectory ext b = .ok t ∧
    s.positionsTs.length = t.positionsTs.length ∧ s.positionsTs ≠ t.positionsTs := by
  obtain ⟨s, hs, es⟩ := mdBegin_frames
  obtain ⟨t, ht, et⟩ := mdWhole_frames
  refine ⟨_, mdBegin, mdBegin ++ mdRest, s, t, List.prefix_append _ _, hs, ht, ?_, fun h => ?_⟩
  · have h1 := congrArg List.length es
    have h2 := congrArg List.length et
    rw [List.length_map] at h1 h2
    rw [h1, h2]
    rfl
  · rw [h, et] at es
    norm_num at es

/-- C180, concrete: the run above without its last step has the first of its two frames. -/
example : ∃ s t, outcarReadTrajectory (fun _ => .error .unmodelled) mdCut = .ok s ∧
    outcarReadTrajectory (fun _ => .error .unmodelled) mdOutcar = .ok t ∧
    s.timestep = t.timestep ∧ FirstFrames True s.positionsTs t.positionsTs ∧
    s.positionsTs.length = 1 ∧ t.positionsTs.length = 2 := by
  obtain ⟨t, ht, et⟩ := md_frames
  obtain ⟨s, hs, es⟩ : ∃ s, outcarReadTrajectory (fun _ => .error .unmodelled) mdCut = .ok s ∧
      s.positionsTs.map (fun ps => ps.map fun p => [p 0, p 1, p 2]) =
        [[[some (1 / 2), some 0, some 0]]] := by
    refine projOr_ok (fun tr : OutcarTrajectory =>
      tr.positionsTs.map fun ps => ps.map fun p => [p 0, p 1, p 2]) [] _ ?_ ?_
    · decide +kernel
    · simp
  obtain ⟨h1, h2⟩ := C180_cut _ mdCut mdOutcar (List.take_prefix _ _) s t hs ht
  refine ⟨s, t, hs, ht, h1, h2, ?_, ?_⟩
  · simpa using congrArg List.length es
  · simpa using congrArg List.length et

/-- C180, concrete: the same with the end of the line. -/
example : ∃ s t, outcarReadTrajectory (fun _ => .error .unmodelled) (mdCut ++ ['\n']) = .ok s ∧
    outcarReadTrajectory (fun _ => .error .unmodelled) mdOutcar = .ok t ∧
    s.timestep = t.timestep ∧ s.positionsTs <+: t.positionsTs ∧
    s.positionsTs.length = 1 ∧ t.positionsTs.length = 2 := by
  obtain ⟨t, ht, et⟩ := md_frames
  obtain ⟨s, hs, es⟩ : ∃ s, outcarReadTrajectory (fun _ => .error .unmodelled) (mdCut ++ ['\n']) = .ok s ∧
      s.positionsTs.map (fun ps => ps.map fun p => [p 0, p 1, p 2]) =
        [[[some (1 / 2), some 0, some 0]]] := by
    refine projOr_ok (fun tr : OutcarTrajectory =>
      tr.positionsTs.map fun ps => ps.map fun p => [p 0, p 1, p 2]) [] _ ?_ ?_
    · decide +kernel
    · simp
  have hp : mdCut ++ ['\n'] <+: mdOutcar := by
    have he : mdCut ++ ['\n'] = mdOutcar.take 469 := by decide +kernel
    rw [he]
    exact List.take_prefix _ _
  obtain ⟨h1, h2⟩ := C180_lines _ mdCut mdOutcar hp s t hs ht
  refine ⟨s, t, hs, ht, h1, h2, ?_, ?_⟩
  · simpa using congrArg List.length es
  · simpa using congrArg List.length et

end Verif
