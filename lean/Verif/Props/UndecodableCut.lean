import Verif.Props.Undecodable

/-!
# C171: which exception undecodable bytes cause, place by place
-/

namespace Verif
open Spec

/-- What happens to a readable POSCAR when the bytes from line `k` on (counting from zero) cannot be
decoded: the coordinates of the `n` atoms start with line `first`. -/
def Spec.cutPoscar {α : Type} (k first n : ℕ) (r : α) : Except (Option PyErr) α :=
  if k < 2 then .error none
  else if k < 5 then .error (some .invalidFile)
  else if k < first then .error (some .unicodeError)
  else if first + n ≤ k then .ok r
  else if k = first then .error none
  else .error (some .invalidFile)

/-- The line of the first coordinates: one line later with "Selective dynamics". -/
def Spec.firstRow (lines : List (List Char)) : ℕ :=
  if ((lines[7]?).bind List.head?).map Char.toLower = some 's' then 9 else 8

theorem vectors_cut : ∀ (n : ℕ) (prev : Option (List Char)) (rest : List (List Char)) (vs : List NumVec)
    (g : List (List Char)), rdVectors prev n false rest = .ok (vs, g) → ∀ k,
    vs.length = n ∧ n ≤ rest.length ∧
    ((n ≤ k → ∃ g', rdVectors prev n true (rest.take k) = .ok (vs, g')) ∧
     (k < n → ∃ e, rdVectors prev n true (rest.take k) = .error e ∧
        e.cls = if k = 0 ∧ prev = none then none else some .invalidFile)) := by
  intro n
  induction n with
  | zero =>
    intro prev rest vs g h k
    cases h
    exact ⟨rfl, Nat.zero_le _, fun _ => ⟨_, rfl⟩, fun h => absurd h (Nat.not_lt_zero _)⟩
  | succ n ih =>
    intro prev rest vs g h k
    have step : ∀ (bad : Bool) (l : List Char) (ls : List (List Char)),
        rdVectors prev (n + 1) bad (l :: ls) = match readVec l with
          | none => .error (.raised .invalidFile (parsedMsg ++ l))
          | some v => match rdVectors (some l) n bad ls with
            | .error e => .error e
            | .ok (x, f) => .ok (v :: x, f) := by
      intro bad l ls
      rw [rdVectors]
      change (match readVec l with
          | none => Rd.failMsg .invalidFile (parsedMsg ++ l)
          | some v => rdVectors (some l) n >>= fun vs => pure (v :: vs)) bad ls = _
      cases readVec l with
      | none => rfl
      | some v =>
        dsimp only [bind]
        cases rdVectors (some l) n bad ls <;> rfl
    cases rest with
    | nil => cases h
    | cons l ls =>
      rw [step] at h
      cases hv : readVec l with
      | none => rw [hv] at h; cases h
      | some v =>
        rw [hv] at h
        dsimp only at h
        cases hr : rdVectors (some l) n false ls with
        | error e => rw [hr] at h; cases h
        | ok p =>
          obtain ⟨x, f⟩ := p
          rw [hr] at h
          cases h
          cases k with
          | zero =>
            have := ih (some l) ls x g hr 0
            refine ⟨by simp [this.1], by simp [this.2.1], (fun h => by omega), fun _ => ?_⟩
            rw [List.take_zero]
            cases prev with
            | none => exact ⟨_, rfl, rfl⟩
            | some p => exact ⟨_, rfl, rfl⟩
          | succ k =>
            obtain ⟨h1, h2, h3, h4⟩ := ih (some l) ls x g hr k
            refine ⟨by simp [h1], by simp [h2], fun hk => ?_, fun hk => ?_⟩
            · obtain ⟨g', hg⟩ := h3 (by omega)
              rw [List.take_succ_cons, step, hv]
              dsimp only
              rw [hg]
              exact ⟨_, rfl⟩
            · obtain ⟨e, he, hc⟩ := h4 (by omega)
              rw [List.take_succ_cons, step, hv]
              dsimp only
              rw [he]
              refine ⟨_, rfl, ?_⟩
              rw [hc]
              simp

/-- Rows from line `k` of `rest` on cannot be decoded. -/
def RowsCut {α : Type} (rd : Rd α) (n : ℕ) (rest : List (List Char)) (r : α) : Prop :=
  ∀ k, (n ≤ k → ∃ g, rd true (rest.take k) = .ok (r, g)) ∧
    (k < n → ∃ e, rd true (rest.take k) = .error e ∧
      e.cls = if k = 0 then none else some .invalidFile)

theorem coordinates_cut (ext : NumMat → Py NumMat) (cart : Bool) (lattice : NumMat) (n : ℕ)
    (rest : List (List Char)) (ps : List NumVec) (g : List (List Char))
    (h : rdCoordinates ext cart lattice n false rest = .ok (ps, g)) :
    RowsCut (rdCoordinates ext cart lattice n) n rest ps := by
  have step : ∀ bad ls, rdCoordinates ext cart lattice n bad ls = match rdVectors none n bad ls with
      | .error e => .error e
      | .ok (vs, f) => (if cart then
          Rd.ofPy (dropMsg ((toFractional ext lattice vs []).map Prod.fst)) else pure vs) bad f := by
    intro bad ls
    unfold rdCoordinates
    dsimp only [bind]
    cases rdVectors none n bad ls <;> rfl
  rw [step] at h
  intro k
  cases hv : rdVectors none n false rest with
  | error e => rw [hv] at h; cases h
  | ok p =>
    obtain ⟨vs, f⟩ := p
    rw [hv] at h
    dsimp only at h
    obtain ⟨-, -, h3, h4⟩ := vectors_cut n none rest vs f hv k
    constructor
    · intro hk
      obtain ⟨g', hg⟩ := h3 hk
      rw [step, hg]
      dsimp only
      cases cart with
      | false => cases h; exact ⟨_, rfl⟩
      | true =>
        rw [if_pos rfl] at h ⊢
        unfold Rd.ofPy at h ⊢
        cases hp : dropMsg ((toFractional ext lattice vs []).map Prod.fst) with
        | error e => rw [hp] at h; cases h
        | ok y => rw [hp] at h; cases h; exact ⟨_, rfl⟩
    · intro hk
      obtain ⟨e, he, hc⟩ := h4 hk
      rw [step, he]
      exact ⟨e, rfl, by rw [hc]; simp⟩

theorem format_cut (ext : NumMat → Py NumMat) (label : List Char) (lattice : NumMat) (n : ℕ)
    (rest : List (List Char)) (ps : List NumVec) (g : List (List Char))
    (h : rdFormat ext label lattice n false rest = .ok (ps, g)) :
    label ≠ [] ∧ RowsCut (rdFormat ext label lattice n) n rest ps := by
  unfold rdFormat at h
  have e : ∀ rd : Rd (List NumVec), rdFormat ext label lattice n = rd →
      RowsCut rd n rest ps → RowsCut (rdFormat ext label lattice n) n rest ps := by
    rintro _ rfl h
    exact h
  cases label with
  | nil => cases h
  | cons c l =>
    refine ⟨List.cons_ne_nil _ _, ?_⟩
    dsimp only [List.head?] at h
    by_cases hc : c.toLower = 'c'
    · rw [if_pos hc] at h
      exact e _ (if_pos hc) (coordinates_cut _ _ _ _ _ _ _ h)
    · rw [if_neg hc] at h
      by_cases hd : c.toLower ≠ 'd'
      · rw [if_pos hd] at h; cases h
      · rw [if_neg hd] at h
        refine e _ ?_ (coordinates_cut _ _ _ _ _ _ _ h)
        unfold rdFormat
        dsimp only [List.head?]
        rw [if_neg hc, if_neg hd]

/-- The part of a POSCAR after the counts. -/
theorem positions_cut (ext : NumMat → Py NumMat) (lattice : NumMat) (n : ℕ)
    (rest : List (List Char)) (ps : List NumVec) (g : List (List Char))
    (h : rdPoscarPositions ext lattice n false rest = .ok (ps, g)) (k : ℕ) :
    ∃ first, first = (if ((rest[0]?).bind List.head?).map Char.toLower = some 's' then 2 else 1) ∧
      (k < first → rdPoscarPositions ext lattice n true (rest.take k)
        = .error (.raised .unicodeError [])) ∧
      (first + n ≤ k → ∃ g, rdPoscarPositions ext lattice n true (rest.take k) = .ok (ps, g)) ∧
      (first ≤ k → k < first + n → ∃ e, rdPoscarPositions ext lattice n true (rest.take k) = .error e ∧
        e.cls = if k = first then none else some .invalidFile) := by
  have step : ∀ bad c l ls, rdPoscarPositions ext lattice n bad ((c :: l) :: ls) =
      (if strip (c :: l) = [] ∨ isSpace c then
        Rd.failMsg .invalidFile (missingMsg ++ " '".toList ++ (c :: l) ++ ['\''])
      else if c.toLower = 's' then
        (Rd.line >>= fun label => rdFormat ext label lattice n)
      else rdFormat ext (c :: l) lattice n) bad ls := fun _ _ _ _ => rfl
  refine ⟨_, rfl, ?_⟩
  cases rest with
  | nil => cases h
  | cons label ls =>
    cases label with
    | nil => cases h
    | cons c l =>
      rw [step] at h
      have hs : ((((c :: l) :: ls)[0]?).bind List.head?).map Char.toLower = some 's'
          ↔ c.toLower = 's' := by simp
      rw [if_congr hs rfl rfl]
      by_cases hb : strip (c :: l) = [] ∨ isSpace c
      · rw [if_pos hb] at h; cases h
      · rw [if_neg hb] at h
        have step' : ∀ bad ls, rdPoscarPositions ext lattice n bad ((c :: l) :: ls) =
            (if c.toLower = 's' then (Rd.line >>= fun label => rdFormat ext label lattice n)
              else rdFormat ext (c :: l) lattice n) bad ls := fun bad ls => by
          rw [step, if_neg hb]
        by_cases hc : c.toLower = 's'
        · rw [if_pos hc] at h ⊢
          cases ls with
          | nil => 
            exact absurd rfl (format_cut ext [] lattice n [] ps g h).1
          | cons l2 ls =>
            have hf := (format_cut ext l2 lattice n ls ps g h).2
            rcases k with _ | _ | k
            · exact ⟨fun _ => rfl, (fun h => by omega), (fun h => by omega)⟩
            · refine ⟨fun _ => ?_, (fun h => by omega), (fun h => by omega)⟩
              rw [List.take_succ_cons, List.take_zero, step', if_pos hc]
              rfl
            · have e : rdPoscarPositions ext lattice n true (((c :: l) :: l2 :: ls).take (k + 1 + 1))
                  = rdFormat ext l2 lattice n true (ls.take k) := by
                rw [List.take_succ_cons, List.take_succ_cons, step', if_pos hc]
                rfl
              rw [e]
              refine ⟨(fun h => by omega), fun hk => (hf k).1 (by omega), fun _ hk => ?_⟩
              obtain ⟨er, he, hcl⟩ := (hf k).2 (by omega)
              refine ⟨er, he, ?_⟩
              rw [hcl]
              exact if_congr (by omega) rfl rfl
        · rw [if_neg hc] at h ⊢
          have hf := (format_cut ext _ lattice n ls ps g h).2
          rcases k with _ | k
          · exact ⟨fun _ => rfl, (fun h => by omega), (fun h => by omega)⟩
          · have e : rdPoscarPositions ext lattice n true (((c :: l) :: ls).take (k + 1))
                = rdFormat ext (c :: l) lattice n true (ls.take k) := by
              rw [List.take_succ_cons, step', if_neg hc]
            rw [e]
            refine ⟨(fun h => by omega), fun hk => (hf k).1 (by omega), fun _ hk => ?_⟩
            obtain ⟨er, he, hcl⟩ := (hf k).2 (by omega)
            refine ⟨er, he, ?_⟩
            rw [hcl]
            exact if_congr (by omega) rfl rfl

theorem lattice_lines (ls : List (List Char)) (L : NumMat) (g : List (List Char))
    (h : rdPoscarLattice false ls = .ok (L, g)) :
    ∃ l0 l1 l2 l3 l4, ls = l0 :: l1 :: l2 :: l3 :: l4 :: g ∧
      (∀ f, rdPoscarLattice true (l0 :: l1 :: l2 :: l3 :: l4 :: f) = .ok (L, f)) ∧
      rdPoscarLattice true [] = .error .unbound ∧
      rdPoscarLattice true [l0] = .error .unbound ∧
      rdPoscarLattice true [l0, l1] = .error (.raised .invalidFile []) ∧
      rdPoscarLattice true [l0, l1, l2] = .error (.raised .invalidFile []) ∧
      rdPoscarLattice true [l0, l1, l2, l3] = .error (.raised .invalidFile []) := by
  rcases ls with _ | ⟨l0, _ | ⟨l1, ls⟩⟩
  · cases h
  · cases h
  · have row : ∀ bad l (f : List (List Char)), rdLatticeRow bad (l :: f) = match readVec l with
        | none => .error (.raised .invalidFile [])
        | some v => .ok (v, f) := by
      intro bad l f
      unfold rdLatticeRow
      dsimp only [bind, Rd.onError, Rd.line]
      cases readVec l <;> rfl
    have step : ∀ bad f, rdPoscarLattice bad (l0 :: l1 :: f) = match parseFloat l1 with
        | none => .error (.raised .invalidFile [])
        | some scale => (do
            let v0 ← rdLatticeRow
            let v1 ← rdLatticeRow
            let v2 ← rdLatticeRow
            return fun i j => numMul (![v0, v1, v2] i j) scale : Rd NumMat) bad f := by
      intro bad f
      unfold rdPoscarLattice
      dsimp only [bind, Rd.onError, Rd.line]
      cases parseFloat l1 <;> rfl
    rw [step] at h
    cases hp : parseFloat l1 with
    | none => rw [hp] at h; cases h
    | some sc =>
      rw [hp] at h
      dsimp only [bind] at h
      rcases ls with _ | ⟨l2, ls⟩
      · cases h
      rw [row] at h
      cases h2 : readVec l2 with
      | none => rw [h2] at h; cases h
      | some v2 =>
        rw [h2] at h
        dsimp only at h
        rcases ls with _ | ⟨l3, ls⟩
        · cases h
        rw [row] at h
        cases h3 : readVec l3 with
        | none => rw [h3] at h; cases h
        | some v3 =>
          rw [h3] at h
          dsimp only at h
          rcases ls with _ | ⟨l4, ls⟩
          · cases h
          rw [row] at h
          cases h4 : readVec l4 with
          | none => rw [h4] at h; cases h
          | some v4 =>
            rw [h4] at h
            cases h
            refine ⟨l0, l1, l2, l3, l4, rfl, fun f => ?_, rfl, rfl, ?_, ?_, ?_⟩ <;>
              rw [step, hp] <;> dsimp only [bind]
            · rw [row, h2]; dsimp only; rw [row, h3]; dsimp only; rw [row, h4]; rfl
            · rfl
            · rw [row, h2]; rfl
            · rw [row, h2]; dsimp only; rw [row, h3]; rfl

theorem symbols_lines (ls : List (List Char)) (ss : List Word) (g : List (List Char))
    (h : rdPoscarSymbols false ls = .ok (ss, g)) :
    ∃ l0 l1, ls = l0 :: l1 :: g ∧ (∀ f, rdPoscarSymbols true (l0 :: l1 :: f) = .ok (ss, f)) ∧
      rdPoscarSymbols true [] = .error (.raised .unicodeError []) ∧
      rdPoscarSymbols true [l0] = .error (.raised .unicodeError []) := by
  rcases ls with _ | ⟨l0, ls⟩
  · cases h
  · have step : ∀ bad f, rdPoscarSymbols bad (l0 :: f) =
        (if (splitWs l0).length = 0 then Rd.fail .invalidFile
          else if ¬ (splitWs l0).all knownSymbol then Rd.fail .invalidFile
          else do
            let line ← Rd.line
            let strCounts := splitWs line
            if strCounts.length ≠ (splitWs l0).length then Rd.fail .invalidFile
            else
              match strCounts.mapM parseInt with
              | none => Rd.fail .invalidFile
              | some counts => return expandSymbols (splitWs l0) counts : Rd (List Word)) bad f :=
      fun _ _ => rfl
    rw [step] at h
    by_cases h1 : (splitWs l0).length = 0
    · rw [if_pos h1] at h; cases h
    by_cases h2 : ¬ (splitWs l0).all knownSymbol
    · rw [if_neg h1, if_pos h2] at h; cases h
    have step' : ∀ bad f, rdPoscarSymbols bad (l0 :: f) = (do
            let line ← Rd.line
            let strCounts := splitWs line
            if strCounts.length ≠ (splitWs l0).length then Rd.fail .invalidFile
            else
              match strCounts.mapM parseInt with
              | none => Rd.fail .invalidFile
              | some counts => return expandSymbols (splitWs l0) counts : Rd (List Word)) bad f := by
      intro bad f
      rw [step, if_neg h1, if_neg h2]
    rw [if_neg h1, if_neg h2] at h
    rcases ls with _ | ⟨l1, ls⟩
    · change (if (splitWs []).length ≠ (splitWs l0).length then Rd.fail .invalidFile else _)
        false [] = _ at h
      rw [if_pos (by intro h0; exact h1 (by rw [← h0]; rfl))] at h
      cases h
    · have step2 : ∀ bad f, rdPoscarSymbols bad (l0 :: l1 :: f) =
          (if (splitWs l1).length ≠ (splitWs l0).length then Rd.fail .invalidFile
            else
              match (splitWs l1).mapM parseInt with
              | none => Rd.fail .invalidFile
              | some counts => pure (expandSymbols (splitWs l0) counts) : Rd (List Word)) bad f := by
        intro bad f
        rw [step']
        rfl
      have h' : rdPoscarSymbols false (l0 :: l1 :: ls) = .ok (ss, g) := by rw [step']; exact h
      rw [step2] at h'
      by_cases h3 : (splitWs l1).length ≠ (splitWs l0).length
      · rw [if_pos h3] at h'; cases h'
      · rw [if_neg h3] at h'
        cases hm : (splitWs l1).mapM parseInt with
        | none => rw [hm] at h'; cases h'
        | some counts =>
          rw [hm] at h'
          cases h'
          refine ⟨l0, l1, rfl, fun f => ?_, rfl, ?_⟩
          · rw [step2, if_neg h3, hm]; rfl
          · rw [step']; rfl

/-- C171, exactly: a readable POSCAR whose lines from number `k` on are not UTF-8.  `UnboundLocalError` for
the first two lines and in place of the first coordinates, `InvalidFileException` inside the lattice and
the coordinates, `UnicodeDecodeError` between them, and no exception after the last coordinates. -/
theorem C171_poscar_cut (ext : NumMat → Py NumMat) (content : List Char) (r : ReadStructure)
    (h : readStructure ext content = .ok r) (k : ℕ) :
    seenByCaller (rdStructure ext) true ((fileLines content).take k) =
      cutPoscar k (firstRow (fileLines content)) r.atomicNumbers.length r := by
  have hreg := (C171_regular false ext).2.2.2.2.2.2.1 content
  rw [h] at hreg
  dsimp only at hreg
  generalize fileLines content = ls at hreg ⊢
  have hok : ∃ g, rdStructure ext false ls = .ok (r, g) := by
    unfold seenByCaller at hreg
    split at hreg
    · cases hreg; exact ⟨_, by assumption⟩
    · cases hreg
    · cases hreg
  obtain ⟨g, hok⟩ := hok
  have step : ∀ bad ls, rdStructure ext bad ls = match rdPoscarLattice bad ls with
      | .error e => .error e
      | .ok (L, f) => match rdPoscarSymbols bad f with
        | .error e => .error e
        | .ok (ss, f) => match ss.mapM numberOf with
          | .error e => .error (.raised e [])
          | .ok ns => match rdPoscarPositions ext L ss.length bad f with
            | .error e => .error e
            | .ok (ps, f) => .ok (⟨L, ns, ps⟩, f) := by
    intro bad ls
    unfold rdStructure
    dsimp only [bind]
    rcases rdPoscarLattice bad ls with e | ⟨L, f⟩
    · rfl
    dsimp only
    rcases rdPoscarSymbols bad f with e | ⟨ss, f⟩
    · rfl
    dsimp only [Rd.ofPy]
    rcases ss.mapM numberOf with e | ns
    · rfl
    dsimp only
    rcases rdPoscarPositions ext L ss.length bad f with e | ⟨ps, f⟩ <;> rfl
  rw [step] at hok
  cases hL : rdPoscarLattice false ls with
  | error e => rw [hL] at hok; cases hok
  | ok p =>
    obtain ⟨L, f⟩ := p
    rw [hL] at hok
    dsimp only at hok
    cases hS : rdPoscarSymbols false f with
    | error e => rw [hS] at hok; cases hok
    | ok p =>
      obtain ⟨ss, f2⟩ := p
      rw [hS] at hok
      dsimp only at hok
      cases hN : ss.mapM numberOf with
      | error e => rw [hN] at hok; cases hok
      | ok ns =>
        rw [hN] at hok
        dsimp only at hok
        cases hP : rdPoscarPositions ext L ss.length false f2 with
        | error e => rw [hP] at hok; cases hok
        | ok p =>
          obtain ⟨ps, f3⟩ := p
          rw [hP] at hok
          cases hok
          obtain ⟨l0, l1, l2, l3, l4, rfl, a5, a0, a1, a2, a3, a4⟩ := lattice_lines _ _ _ hL
          obtain ⟨l5, l6, rfl, b2, b0, b1⟩ := symbols_lines _ _ _ hS
          have hlen : ns.length = ss.length :=
            ((mapM_except_ok _ _ _).1 hN).length_eq.symm
          dsimp only
          rw [hlen]
          unfold seenByCaller
          rw [step]
          have hfr : firstRow (l0 :: l1 :: l2 :: l3 :: l4 :: l5 :: l6 :: f2) = 7 +
              (if ((f2[0]?).bind List.head?).map Char.toLower = some 's' then 2 else 1) := by
            unfold firstRow
            change (if ((f2[0]?).bind List.head?).map Char.toLower = some 's' then 9 else 8) = _
            split_ifs <;> rfl
          rw [hfr]
          have hge : 1 ≤ (if ((f2[0]?).bind List.head?).map Char.toLower = some 's' then 2 else 1) := by
            split_ifs <;> omega
          rcases k with _ | _ | _ | _ | _ | _ | _ | k
          · rw [List.take_zero, a0]; rfl
          · rw [List.take_succ_cons, List.take_zero, a1]; rfl
          · simp only [List.take_succ_cons, List.take_zero]; rw [a2]; rfl
          · simp only [List.take_succ_cons, List.take_zero]; rw [a3]; rfl
          · simp only [List.take_succ_cons, List.take_zero]; rw [a4]; rfl
          · simp only [List.take_succ_cons, List.take_zero]
            rw [a5]; dsimp only; rw [b0]
            unfold cutPoscar
            rw [if_neg (by omega), if_neg (by omega), if_pos (by omega)]
          · simp only [List.take_succ_cons, List.take_zero]
            rw [a5]; dsimp only; rw [b1]
            unfold cutPoscar
            rw [if_neg (by omega), if_neg (by omega), if_pos (by omega)]
          · simp only [List.take_succ_cons]
            rw [a5]; dsimp only; rw [b2]; dsimp only; rw [hN]; dsimp only
            obtain ⟨first, hf, c1, c2, c3⟩ := positions_cut ext L ss.length f2 ps g hP k
            rw [← hf]
            unfold cutPoscar
            rw [if_neg (by omega), if_neg (by omega)]
            by_cases hk1 : k < first
            · rw [c1 hk1, if_pos (by omega)]
            by_cases hk2 : first + ss.length ≤ k
            · obtain ⟨g', hg⟩ := c2 hk2
              rw [hg, if_neg (by omega), if_pos (by omega)]
            · obtain ⟨e, he, hc⟩ := c3 (by omega) (by omega)
              rw [he, if_neg (by omega), if_neg (by omega)]
              by_cases hk3 : k = first
              · rw [if_pos hk3] at hc
                rw [if_pos (by omega)]
                cases e with
                | raised _ _ => cases hc
                | unbound => rfl
              · rw [if_neg hk3] at hc
                rw [if_neg (by omega)]
                cases e with
                | raised _ _ => cases hc; rfl
                | unbound => cases hc

/-! ### OUTCAR -/

theorem skip_cut (text : List Char) (pre : List (List Char)) (hpre : ∀ l ∈ pre, ¬ text <:+: l) :
    Rd.skip text true pre = .error (.raised .unicodeError []) ∧
    ∀ h rest, text <:+: h → Rd.skip text true (pre ++ h :: rest) = .ok (h, rest) := by
  induction pre with
  | nil =>
    refine ⟨rfl, fun h rest hh => ?_⟩
    rw [List.nil_append, Rd.skip, if_pos (by rw [contains_iff]; exact hh)]
  | cons l ls ih =>
    obtain ⟨i1, i2⟩ := ih fun x hx => hpre x (by simp [hx])
    have hl : ¬ contains text l = true := by rw [contains_iff]; exact hpre l (by simp)
    refine ⟨?_, fun h rest hh => ?_⟩
    · rw [Rd.skip, if_neg hl]; exact i1
    · rw [List.cons_append, Rd.skip, if_neg hl]; exact i2 h rest hh

/-- C171: the dielectric tensor.  `UnicodeDecodeError` before its header and for the line after it,
`UnboundLocalError` for its first row, `InvalidFileException` for the other two. -/
theorem C171_polarizability (pre rows : List (List Char)) (header rule : List Char)
    (hpre : ∀ l ∈ pre,
      ¬ "MACROSCOPIC STATIC DIELECTRIC TENSOR (including local field effects".toList <:+: l)
    (hh : "MACROSCOPIC STATIC DIELECTRIC TENSOR (including local field effects".toList <:+: header)
    (hn : rows.length < 3) (hrows : ∀ l ∈ rows, (readRow l).isSome) :
    rdPolarizability true pre = .error (.raised .unicodeError []) ∧
    rdPolarizability true (pre ++ [header]) = .error (.raised .unicodeError []) ∧
    rdPolarizability true (pre ++ header :: rule :: rows)
      = .error (if rows = [] then .unbound else .raised .invalidFile []) := by
  obtain ⟨h1, h2⟩ := skip_cut _ pre hpre
  refine ⟨?_, ?_, ?_⟩ <;> unfold rdPolarizability <;> dsimp only [bind, Rd.onError]
  · rw [h1]; rfl
  · rw [h2 _ _ hh]; rfl
  · rw [h2 _ _ hh]
    exact C171_rows 3 rows hn hrows

/-- C171: the positions of one step of a trajectory, after its header. -/
theorem C171_step (n : ℕ) (rows : List (List Char)) (rule : List Char) (hn : rows.length < n)
    (hrows : ∀ l ∈ rows, (readRow l).isSome) :
    rdNextCart n true [] = .error (.raised .unicodeError []) ∧
    rdNextCart n true (rule :: rows)
      = .error (if rows = [] then .unbound else .raised .invalidFile []) :=
  ⟨rfl, C171_rows n rows hn hrows⟩

/-- C171: the other searches.  None of the handlers around them catches `ValueError`. -/
theorem C171_other_searches (linAlgIsValue : Bool) (ext : NumMat → Py NumMat)
    (lattice : List (List Num)) (n k : ℕ) (ml : Bool) (lines : List (List Char)) :
    ((∀ l ∈ lines, ¬ "position of ions in cartesian coordinates  (Angst):".toList <:+: l) →
      rdCartPositions n true lines = .error (.raised .unicodeError [])) ∧
    ((∀ l ∈ lines, ¬ "Write flags".toList <:+: l) →
      rdLattice true lines = .error (.raised .unicodeError [])) ∧
    (∀ pre header, (∀ l ∈ pre, ¬ "Write flags".toList <:+: l) → "Write flags".toList <:+: header →
      (∀ l ∈ lines, ¬ "direct lattice vectors      ".toList <:+: l) →
      rdLattice true (pre ++ header :: lines) = .error (.raised .unicodeError [])) ∧
    ((∀ l ∈ lines, ¬ "cm-1".toList <:+: l) →
      rdModes linAlgIsValue ext lattice n (k + 1) true lines = .error (.raised .unicodeError [])) ∧
    ((∀ l ∈ lines, ¬ "time-step for ionic-motion".toList <:+: l) →
      rdTimestep true lines = .error (.raised .unicodeError [])) ∧
    ((∀ l ∈ lines, ¬ stepHeader <:+: l) →
      rdStepLoop ext lattice n (k + 1) ml true lines = .error (.raised .unicodeError [])) := by
  refine ⟨fun h => ?_, fun h => ?_, fun pre header hp hh h => ?_, fun h => ?_, fun h => ?_,
    fun h => ?_⟩
  · unfold rdCartPositions
    dsimp only [bind, Rd.onError]
    rw [(skip_cut _ _ h).1]
    rfl
  · unfold rdLattice
    dsimp only [bind, Rd.onError]
    rw [(skip_cut _ _ h).1]
    rfl
  · unfold rdLattice
    dsimp only [bind, Rd.onError]
    rw [(skip_cut _ _ hp).2 _ _ hh]
    dsimp only
    rw [(skip_cut _ _ h).1]
    rfl
  · rw [rdModes]
    dsimp only [bind, Rd.onError]
    rw [(skip_cut _ _ h).1]
    rfl
  · unfold rdTimestep
    dsimp only [bind, Rd.onError]
    rw [(skip_cut _ _ h).1]
    rfl
  · rw [rdStepLoop]
    dsimp only
    rw [(skip_cut _ _ h).1]

/-- C171: inside the POTCAR block, and for the two lines after it, the exception is
`InvalidFileException`. -/
theorem C171_potcar (pre block : List (List Char)) (header other : List Char)
    (hpre : ∀ l ∈ pre, ¬ "POTCAR:    ".toList <:+: l) (hh : "POTCAR:    ".toList <:+: header)
    (hs : (potcarSymbol header).isSome)
    (hblock : ∀ l ∈ block, "POTCAR".toList <:+: l ∧ (potcarSymbol l).isSome)
    (ho : ¬ "POTCAR".toList <:+: other) :
    rdPotcar true (pre ++ header :: block) = .error (.raised .invalidFile []) ∧
    rdPotcar true (pre ++ header :: (block ++ [other])) = .error (.raised .invalidFile []) := by
  obtain ⟨s, hs⟩ := Option.isSome_iff_exists.1 hs
  have step : ∀ f, rdPotcar true (pre ++ header :: f) = match rdPotcarLoop true f with
      | .error e => .error e
      | .ok (ss, f) => (do
        let line ← Rd.line.onError (catching true)
        return if contains "VRHFIN".toList line then (s :: ss).dropLast else s :: ss
          : Rd (List Word)) true f := by
    intro f
    unfold rdPotcar
    dsimp only [bind, Rd.onError]
    rw [(skip_cut _ _ hpre).2 _ _ hh]
    dsimp only
    rw [hs]
    dsimp only
    cases rdPotcarLoop true f <;> rfl
  have loop : ∀ block : List (List Char),
      (∀ l ∈ block, "POTCAR".toList <:+: l ∧ (potcarSymbol l).isSome) →
      rdPotcarLoop true block = .error (.raised .invalidFile []) ∧
      ∃ ss, rdPotcarLoop true (block ++ [other]) = .ok (ss, []) := by
    intro block
    induction block with
    | nil =>
      intro _
      refine ⟨rfl, [], ?_⟩
      rw [List.nil_append, rdPotcarLoop, if_pos (by rw [contains_iff]; exact ho)]
    | cons l ls ih =>
      intro hb
      obtain ⟨i1, ss, i2⟩ := ih fun x hx => hb x (by simp [hx])
      obtain ⟨hc, hp⟩ := hb l (by simp)
      obtain ⟨w, hw⟩ := Option.isSome_iff_exists.1 hp
      have hc' : ¬ ¬ contains "POTCAR".toList l = true := not_not.2 ((contains_iff _ _).2 hc)
      refine ⟨?_, w :: ss, ?_⟩
      · rw [rdPotcarLoop, if_neg hc', hw]
        dsimp only
        rw [i1]
      · rw [List.cons_append, rdPotcarLoop, if_neg hc', hw]
        dsimp only
        rw [i2]
  obtain ⟨h1, ss, h2⟩ := loop block hblock
  constructor
  · rw [step, h1]
  · rw [step, h2]; rfl

/-- C171: an eigenvector.  `UnboundLocalError` in place of its first line, `InvalidFileException` after
any number of good lines, even after the last one of the mode. -/
theorem C171_eigenvector (linAlgIsValue : Bool) (ext : NumMat → Py NumMat) (lattice : List (List Num))
    (n : ℕ) (lines : List (List Char)) (hn : lines.length ≤ n)
    (hl : ∀ l ∈ lines, 'X' ∈ l ∨ ∃ v, eigenRow ext lattice l = .ok v) :
    rdEigenvector linAlgIsValue ext lattice false n true lines
      = .error (if lines = [] then .unbound else .raised .invalidFile []) := by
  have h : ∀ (lines : List (List Char)) (n : ℕ) (bound : Bool), lines.length ≤ n →
      (∀ l ∈ lines, 'X' ∈ l ∨ ∃ v, eigenRow ext lattice l = .ok v) →
      rdEigenvector linAlgIsValue ext lattice bound n true lines
        = .error (if lines = [] ∧ bound = false then .unbound else .raised .invalidFile []) := by
    intro lines
    induction lines with
    | nil =>
      intro n bound _ _
      cases bound <;> cases n <;> rfl
    | cons l ls ih =>
      intro n bound hn hl
      obtain ⟨m, rfl⟩ : ∃ m, n = m + 1 := ⟨n - 1, by simp at hn; omega⟩
      have hl' : ∀ x ∈ ls, 'X' ∈ x ∨ ∃ v, eigenRow ext lattice x = .ok v :=
        fun x hx => hl x (by simp [hx])
      have hlen : ls.length ≤ m := by simp at hn; omega
      rw [if_neg (by simp), rdEigenvector]
      by_cases hx : contains ['X'] l = true
      · rw [if_pos hx, ih (m + 1) true (by omega) hl', if_neg (by simp)]
      · rw [if_neg hx]
        rcases hl l (by simp) with h0 | ⟨v, hv⟩
        · exact absurd ((contains_iff _ _).2 (List.singleton_infix_iff _ _ |>.2 h0)) hx
        · rw [hv]
          change (match rdEigenvector linAlgIsValue ext lattice true m true ls with
            | .error e => (.error e : Except ReadErr (List NumVec × List (List Char)))
            | .ok (vs, f) => .ok (v :: vs, f)) = _
          rw [ih m true hlen hl', if_neg (by simp)]
  rw [h lines n false hn hl]
  simp

/-- C171, concrete: the exact places for the carbon POSCAR. -/
example (ext : NumMat → Py NumMat) : ∃ s, ∀ k,
    seenByCaller (rdStructure ext) true (undecodableHead.take k) = cutPoscar k 8 1 s := by
  have hf : fileLines undecodableHead.flatten = undecodableHead := by decide +kernel
  obtain ⟨s, hs, hn⟩ : ∃ s, readStructure ext undecodableHead.flatten = .ok s ∧
      s.atomicNumbers.length = 1 := by
    refine ⟨_, rfl, rfl⟩
  refine ⟨s, fun k => ?_⟩
  have h := C171_poscar_cut ext _ s hs k
  rw [hf, hn] at h
  exact h

/-- C171, concrete: a dielectric tensor and an eigenvector cut at several places. -/
example : rdPolarizability true ["x\n".toList] = .error (.raised .unicodeError []) ∧
    rdPolarizability true
      [" MACROSCOPIC STATIC DIELECTRIC TENSOR (including local field effects in DFT)\n".toList,
        " ---\n".toList] = .error .unbound ∧
    rdPolarizability true
      [" MACROSCOPIC STATIC DIELECTRIC TENSOR (including local field effects in DFT)\n".toList,
        " ---\n".toList, "1 0 0\n".toList] = .error (.raised .invalidFile []) :=
  ⟨rfl, rfl, rfl⟩

/-- C171, concrete: a POTCAR block and an eigenvector. -/
example (ext : NumMat → Py NumMat) :
    rdPotcar true ["POTCAR:    PAW_PBE Ti_pv 07Sep2000\n".toList] = .error (.raised .invalidFile []) ∧
    rdPotcar true ["vasp.6.4.2\n".toList] = .error .unbound ∧
    rdEigenvector false ext [] false 2 true [] = .error .unbound ∧
    rdEigenvector false ext [] false 2 true ["      X Y Z  dx dy dz\n".toList]
      = .error (.raised .invalidFile []) :=
  ⟨rfl, rfl, rfl, rfl⟩

end Verif
