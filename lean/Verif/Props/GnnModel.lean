import Verif.Model.GnnModel
import Verif.Props.Gnn
import Verif.Props.GnnBounded
import Verif.Props.GnnRelabel

/-!
# C166: graph networks as polarizability models
-/

namespace Verif

open Spec

noncomputable section

variable {dn de n : ℕ}

/-- One batch: the outcome does not depend on the state, and the state stays usable. -/
theorem forward_state {m : PotGNN dn de} {ref : Triplets} (hm : m.Fits n ref) (samples : List (GSample n))
    {st st' : GnnState} (hst : st.Eval ref n m.refEdges.length)
    (hst' : st'.Eval ref n m.refEdges.length) :
    (m.forward st samples).1 = (m.forward st' samples).1 ∧
      (m.forward st samples).2.Eval ref n m.refEdges.length := by
  by_cases hk : ∀ x ∈ samples, ∀ a, m.Knows (x.numbers a)
  · have hP : ∀ x : GSample n, ∃ P, x ∈ samples → samplePols m ref x = .ok P := by
      intro x
      by_cases hx : x ∈ samples
      · obtain ⟨P, h1, -⟩ := samplePols_known hm (hk x hx)
        exact ⟨P, fun _ => h1⟩
      · exact ⟨[], fun h => absurd h hx⟩
    choose P hP using hP
    obtain ⟨h1, h2⟩ := forward_ok hm hst samples P hP
    exact ⟨h1.trans (forward_ok hm hst' samples P hP).1.symm, h2⟩
  · push Not at hk
    rw [C84_unknown_element hm.edges st samples hk, C84_unknown_element hm.edges st' samples hk]
    exact ⟨rfl, hst⟩

theorem predictLoop_state {m : PotGNN dn de} {ref : Triplets} (hm : m.Fits n ref) (lattice : Mat3 ℝ)
    (numbers : Fin n → ℕ) : ∀ (bs : List (List (Pos n ℝ))) {st st' : GnnState},
    st.Eval ref n m.refEdges.length → st'.Eval ref n m.refEdges.length →
    (m.predictLoop lattice numbers st bs).1 = (m.predictLoop lattice numbers st' bs).1 ∧
      (m.predictLoop lattice numbers st bs).2.Eval ref n m.refEdges.length
  | [], _, _, h, _ => ⟨rfl, h⟩
  | b :: bs, st, st', h, h' => by
    obtain ⟨h1, h2⟩ := forward_state hm (b.map fun p => (⟨lattice, numbers, p⟩ : GSample n)) h h'
    have h2' := (forward_state hm (b.map fun p => (⟨lattice, numbers, p⟩ : GSample n)) h' h).2
    unfold PotGNN.predictLoop
    generalize m.forward st (b.map fun p => (⟨lattice, numbers, p⟩ : GSample n)) = F at h1 h2 ⊢
    generalize m.forward st' (b.map fun p => (⟨lattice, numbers, p⟩ : GSample n)) = F' at h1 h2' ⊢
    obtain ⟨r, s⟩ := F
    obtain ⟨r', s'⟩ := F'
    dsimp only at h1 h2 h2'
    subst h1
    cases r with
    | error e => exact ⟨rfl, h2⟩
    | ok vs =>
      dsimp only
      obtain ⟨h3, h4⟩ := predictLoop_state hm lattice numbers bs h2 h2'
      generalize m.predictLoop lattice numbers s bs = G at h3 h4 ⊢
      generalize m.predictLoop lattice numbers s' bs = G' at h3 ⊢
      obtain ⟨r, t⟩ := G
      obtain ⟨r', t'⟩ := G'
      dsimp only at h3 h4
      subst h3
      cases r <;> exact ⟨rfl, h4⟩

/-- C166: what `calc_polarizabilities` returns does not depend on the state of the network (training or
evaluation mode, cached triplets of earlier batches), and the state stays usable, whatever happens. -/
theorem C166_state {m : PotGNN dn de} {ref : Triplets} (hm : m.Fits n ref) (lattice : Mat3 ℝ)
    (numbers : Fin n → ℕ) (positions : List (Pos n ℝ)) {st st' : GnnState}
    (hst : st.triplets.Ready ref n m.refEdges.length)
    (hst' : st'.triplets.Ready ref n m.refEdges.length) :
    (m.calcPolarizabilities lattice numbers st positions).1 =
      (m.calcPolarizabilities lattice numbers st' positions).1 ∧
    (m.calcPolarizabilities lattice numbers st positions).2.triplets.Ready ref n m.refEdges.length ∧
    m.asModel lattice numbers st = m.asModel lattice numbers st' := by
  have key : ∀ positions : List (Pos n ℝ), (m.calcPolarizabilities lattice numbers st positions).1 =
      (m.calcPolarizabilities lattice numbers st' positions).1 ∧
      (m.calcPolarizabilities lattice numbers st positions).2.triplets.Ready ref n
        m.refEdges.length := by
    intro positions
    unfold PotGNN.calcPolarizabilities
    dsimp only
    cases batchPositions positions 100 with
    | error e => exact ⟨rfl, hst⟩
    | ok bs =>
      dsimp only
      obtain ⟨h1, h2⟩ := predictLoop_state hm lattice numbers bs
        (st := { st with training := false }) (st' := { st' with training := false }) ⟨rfl, hst⟩
        ⟨rfl, hst'⟩
      generalize m.predictLoop lattice numbers { st with training := false } bs = G at h1 h2 ⊢
      generalize m.predictLoop lattice numbers { st' with training := false } bs = G' at h1 ⊢
      obtain ⟨r, t⟩ := G
      obtain ⟨r', t'⟩ := G'
      dsimp only at h1 h2
      subst h1
      cases r <;> exact ⟨rfl, h2.ready⟩
  refine ⟨(key positions).1, (key positions).2, funext fun ps => ?_⟩
  unfold PotGNN.asModel
  rw [(key ps).1]

theorem batch_map {α β : Type} (f : α → β) (l : List α) (b : ℤ) :
    batchPositions (l.map f) b = (batchPositions l b).map (List.map (List.map f)) := by
  unfold batchPositions
  split_ifs
  · rfl
  · rfl
  · change Except.ok _ = Except.ok _
    rw [List.length_map, List.map_map]
    congr 1
    refine List.map_congr_left fun k _ => ?_
    rw [Function.comp_apply, ← List.map_take, List.map_drop]

theorem batch_rel {α β : Type} {R : α → β → Prop} {l : List α} {l' : List β} (h : List.Forall₂ R l l')
    {bs : List (List α)} (hb : batchPositions l 100 = .ok bs) :
    ∃ bs', batchPositions l' 100 = .ok bs' ∧ List.Forall₂ (List.Forall₂ R) bs bs' := by
  unfold batchPositions at hb ⊢
  rw [if_neg (by norm_num), if_neg (by norm_num)] at hb ⊢
  cases hb
  refine ⟨_, rfl, ?_⟩
  rw [h.length_eq, List.forall₂_map_left_iff, List.forall₂_map_right_iff, List.forall₂_same]
  intro k _
  exact List.forall₂_drop _ (List.forall₂_take _ h)

theorem predictLoop_translated (m : PotGNN dn de) (lattice : Mat3 ℝ) (numbers : Fin n → ℕ)
    {bs bs' : List (List (Pos n ℝ))} (h : List.Forall₂ (List.Forall₂ Spec.Translated) bs bs') :
    ∀ st, m.predictLoop lattice numbers st bs = m.predictLoop lattice numbers st bs' := by
  induction h with
  | nil => intro st; rfl
  | @cons b b' bs bs' h1 _ ih =>
    intro st
    unfold PotGNN.predictLoop
    rw [C86_translation m st (b.map fun p => ⟨lattice, numbers, p⟩)
      (b'.map fun p => ⟨lattice, numbers, p⟩) (by
        rw [List.forall₂_map_left_iff, List.forall₂_map_right_iff]
        exact h1.imp fun x y hxy => ⟨rfl, rfl, hxy⟩)]
    simp only [ih]

/-- C166: replacing each configuration by a rigidly translated one (and atoms by periodic images) changes
neither the predicted polarizabilities nor the exceptions nor the state, for all networks and states. -/
theorem C166_translation (m : PotGNN dn de) (lattice : Mat3 ℝ) (numbers : Fin n → ℕ) (st : GnnState)
    {positions positions' : List (Pos n ℝ)} (h : List.Forall₂ Spec.Translated positions positions') :
    m.calcPolarizabilities lattice numbers st positions =
      m.calcPolarizabilities lattice numbers st positions' ∧
    m.asModel lattice numbers st positions = m.asModel lattice numbers st positions' := by
  have key : m.calcPolarizabilities lattice numbers st positions =
      m.calcPolarizabilities lattice numbers st positions' := by
    obtain ⟨bs, hb, -, -⟩ := C81_batches positions 100 (by norm_num)
    obtain ⟨bs', hb', hr⟩ := batch_rel h hb
    unfold PotGNN.calcPolarizabilities
    dsimp only
    rw [hb, hb']
    dsimp only
    rw [predictLoop_translated m lattice numbers hr]
  refine ⟨key, ?_⟩
  unfold PotGNN.asModel
  rw [key]

/-- C166: the spectrum of a trajectory does not change if the crystal drifts: every frame may be
translated by a vector of its own. -/
theorem C166_drift (m : PotGNN dn de) (lattice : Mat3 ℝ) (numbers : Fin n → ℕ) (st : GnnState)
    (t t' : Trajectory n) (ht : t.timestep = t'.timestep)
    (h : List.Forall₂ Spec.Translated t.positionsTs t'.positionsTs) :
    t.getRamanSpectrum (m.asModel lattice numbers st) =
      t'.getRamanSpectrum (m.asModel lattice numbers st) := by
  unfold Trajectory.getRamanSpectrum
  rw [(C166_translation m lattice numbers st h).2, ht]

/-- C166: an exception of the network is not lost: the spectrum of a trajectory fails with it,
and so does the Raman tensor of a vibration whose displaced
structure the network cannot evaluate. -/
theorem C166_exception (m : PotGNN dn de) (lattice : Mat3 ℝ) (numbers : Fin n → ℕ) (st : GnnState)
    (e : PyErr) :
    (∀ t : Trajectory n, (m.calcPolarizabilities lattice numbers st t.positionsTs).1 = .error e →
      t.getRamanSpectrum (m.asModel lattice numbers st)
        = .error e) ∧
    (∀ ref d : Pos n ℝ, (m.calcPolarizabilities lattice numbers st
        [fun a i => ref a i + d a i * centralDifference]).1 = .error e →
      ramanTensor (m.asModel lattice numbers st) ref d
        = .error e) := by
  constructor
  · intro t h
    unfold Trajectory.getRamanSpectrum PotGNN.asModel
    rw [h]
    dsimp only [asIncompatible]
    cases e <;> rfl
  · intro ref d h
    unfold ramanTensor evalOne PotGNN.asModel
    dsimp only
    rw [h]
    dsimp only [asIncompatible]
    cases e <;> rfl

/-- C166: a structure with an element that the network does not know makes every nonempty evaluation
fail with an IndexError, and with it the spectra of trajectories and the Raman tensors of
vibrations. -/
theorem C166_unknown {m : PotGNN dn de} (he : EdgesInRange n m.refEdges) (lattice : Mat3 ℝ)
    (numbers : Fin n → ℕ) (hk : ∃ a, ¬ m.Knows (numbers a)) (st : GnnState) :
    (∀ positions : List (Pos n ℝ), positions ≠ [] →
      (m.calcPolarizabilities lattice numbers st positions).1 = .error .indexError) ∧
    (∀ t : Trajectory n, t.positionsTs ≠ [] →
      t.getRamanSpectrum (m.asModel lattice numbers st) = .error .indexError) ∧
    ∀ ref d : Pos n ℝ, ramanTensor (m.asModel lattice numbers st) ref d = .error .indexError := by
  have key : ∀ positions : List (Pos n ℝ), positions ≠ [] →
      (m.calcPolarizabilities lattice numbers st positions).1 = .error .indexError := by
    intro positions hp
    obtain ⟨bs, h1, h2, h3, -⟩ := C81_batches positions 100 (by norm_num)
    unfold PotGNN.calcPolarizabilities
    dsimp only
    rw [h1]
    cases bs with
    | nil => exact absurd h2.symm hp
    | cons b bs =>
      dsimp only
      obtain ⟨x, hx⟩ := List.exists_mem_of_length_pos (h3 b (List.mem_cons_self ..)).1
      rw [PotGNN.predictLoop, C84_unknown_element he _ _
        ⟨_, List.mem_map.2 ⟨x, hx, rfl⟩, hk⟩]
  exact ⟨key, fun t ht => (C166_exception m lattice numbers st _).1 t (key _ ht),
    fun ref d => (C166_exception m lattice numbers st _).2 ref d (key _ (List.cons_ne_nil _ _))⟩

/-- C166: vibrations that move the crystal rigidly have no Raman activity: their Raman tensor is zero
whenever it can be computed. -/
theorem C166_acoustic (m : PotGNN dn de) (lattice : Mat3 ℝ) (numbers : Fin n → ℕ) (st : GnnState)
    (ref d : Pos n ℝ) (hd : ∀ a b i, d a i = d b i) (R : Mat3 ℝ)
    (hR : ramanTensor (m.asModel lattice numbers st) ref d = .ok R) : R = 0 := by
  have htr : Spec.Translated (fun a i => ref a i + d a i * centralDifference)
      (fun a i => ref a i - d a i * centralDifference) := by
    cases n with
    | zero => exact ⟨0, fun a => a.elim0⟩
    | succ n =>
      refine ⟨fun i => -2 * d 0 i * centralDifference, fun a i => ⟨0, ?_⟩⟩
      dsimp only
      rw [hd a 0 i]
      push_cast
      ring
  unfold ramanTensor evalOne at hR
  dsimp only at hR
  rw [(C166_translation m lattice numbers st (List.Forall₂.cons htr .nil)).2] at hR
  generalize (m.asModel lattice numbers st [fun a i => ref a i - d a i * centralDifference]) = r at hR
  cases r with
  | error e => cases e <;> cases hR
  | ok As =>
    cases As with
    | nil => cases hR
    | cons A As =>
      change Except.ok _ = Except.ok _ at hR
      cases hR
      rw [sub_self, smul_zero]

theorem finiteEntries_some {T : Matrix (Fin 3) (Fin 3) (Option ℝ)} {A : Mat3 ℝ}
    (h : finiteEntries T = some A) : ∀ i j, T i j = some (A i j) := by
  unfold finiteEntries at h
  split_ifs at h with hs
  cases h
  intro i j
  obtain ⟨x, hx⟩ := Option.isSome_iff_exists.1 (hs i j)
  dsimp only
  rw [hx]; rfl

theorem voigt_exists : ∀ i j : Fin 3, ∃ k, Spec.VoigtIndex i j k := by
  intro i j
  fin_cases i <;> fin_cases j
  exacts [⟨_, .xx⟩, ⟨_, .xy⟩, ⟨_, .xz⟩, ⟨_, .yx⟩, ⟨_, .yy⟩, ⟨_, .yz⟩, ⟨_, .zx⟩, ⟨_, .zy⟩, ⟨_, .zz⟩]

/-- C166: the Raman tensor of a rigid motion can be computed, and is zero, for every network that knows
the elements of a reference structure without coinciding bonded atoms. -/
theorem C166_acoustic_exists {m : PotGNN dn de} {ref : Triplets} (hm : m.Fits n ref)
    (hne : m.refEdges ≠ []) (lattice : Mat3 ℝ) (numbers : Fin n → ℕ) (hk : ∀ a, m.Knows (numbers a))
    (p d : Pos n ℝ) (hp : ¬ Degenerate m ⟨lattice, numbers, p⟩) (hd : ∀ a b i, d a i = d b i)
    (st : GnnState) (hst : st.triplets.Ready ref n m.refEdges.length) :
    ramanTensor (m.asModel lattice numbers st) p d = .ok 0 := by
  have hone : ∃ A, m.asModel lattice numbers st [p] = .ok [A] := by
    obtain ⟨Ts, h1, h2, -, -⟩ := C85_samplewise hm lattice numbers hk [p] (by
      intro q hq; rw [List.mem_singleton.1 hq]; exact hp) st hst
    cases h2 with
    | cons hT hr =>
      cases hr
      rename_i T
      obtain ⟨v, hv, hTv⟩ := hT { st with training := false } ⟨rfl, hst⟩
      obtain ⟨preds, g1, -, g3⟩ := C84_partial hm (st := { st with training := false }) ⟨rfl, hst⟩
        [⟨lattice, numbers, p⟩] (by intro x hx; rw [List.mem_singleton.1 hx]; exact hk) (by
          intro x hx; rw [List.mem_singleton.1 hx]; exact hp)
      rw [hv] at g1
      cases g1
      obtain ⟨w, rfl⟩ := Option.ne_none_iff_exists'.1 (g3 hne v (by simp))
      have hf : ∃ A, finiteEntries T = some A := by
        unfold finiteEntries
        rw [if_pos]
        · exact ⟨_, rfl⟩
        · intro i j
          obtain ⟨k, hk⟩ := voigt_exists i j
          rw [hTv i j k hk]; rfl
      obtain ⟨A, hA⟩ := hf
      refine ⟨A, ?_⟩
      unfold PotGNN.asModel
      rw [h1]
      dsimp only
      rw [List.mapM_cons, hA]
      rfl
  obtain ⟨A, hA⟩ := hone
  have htr : ∀ q : Pos n ℝ, Spec.Translated q p → evalOne (m.asModel lattice numbers st) q = .ok A := by
    intro q hq
    unfold evalOne
    rw [(C166_translation m lattice numbers st (List.Forall₂.cons hq .nil)).2, hA]
    rfl
  have h1 : Spec.Translated (fun a i => p a i + d a i * centralDifference) p := by
    cases n with
    | zero => exact ⟨0, fun a => a.elim0⟩
    | succ n =>
      refine ⟨fun i => -d 0 i * centralDifference, fun a i => ⟨0, ?_⟩⟩
      dsimp only
      rw [hd a 0 i]; push_cast; ring
  have h2 : Spec.Translated (fun a i => p a i - d a i * centralDifference) p := by
    cases n with
    | zero => exact ⟨0, fun a => a.elim0⟩
    | succ n =>
      refine ⟨fun i => d 0 i * centralDifference, fun a i => ⟨0, ?_⟩⟩
      dsimp only
      rw [hd a 0 i]; push_cast; ring
  unfold ramanTensor
  dsimp only
  rw [htr _ h1, htr _ h2]
  change Except.ok _ = Except.ok _
  rw [sub_self, smul_zero]

/-- C166: predictions cannot leave a fixed range.  For every network with at least one round there is a
bound `B` such that predicted components differ from the mean of the training data by at most `B`
standard deviations, whatever the configurations. -/
theorem C166_bounded (m : PotGNN dn de) (hb : m.blocks ≠ []) :
    ∃ B : ℝ, ∀ {n : ℕ} {ref : Triplets}, m.Fits n ref → ∀ (lattice : Mat3 ℝ) (numbers : Fin n → ℕ)
      (st : GnnState), st.triplets.Ready ref n m.refEdges.length → ∀ (positions : List (Pos n ℝ)) Ts,
        (m.calcPolarizabilities lattice numbers st positions).1 = .ok Ts →
          ∀ T ∈ Ts, ∀ i j x, T i j = some x → |x - m.mean i j| ≤ B * |m.stddev i j| := by
  obtain ⟨B, hB⟩ := C128_predictions m hb
  refine ⟨B, ?_⟩
  intro n ref hm lattice numbers st hst positions Ts hTs T hT i j x hx
  have key : ∀ (bs : List (List (Pos n ℝ))) (st : GnnState), st.Eval ref n m.refEdges.length →
      ∀ ps, (m.predictLoop lattice numbers st bs).1 = .ok ps → ∀ P ∈ ps, ∀ y, P i j = some y →
        |y| ≤ B := by
    intro bs
    induction bs with
    | nil =>
      intro st _ ps h P hP
      cases h
      cases hP
    | cons b bs ih =>
      intro st hst ps h P hP y hy
      have h2 := (forward_state hm (b.map fun p => (⟨lattice, numbers, p⟩ : GSample n)) hst hst).2
      have h3 := hB hm hst (b.map fun p => (⟨lattice, numbers, p⟩ : GSample n))
      unfold PotGNN.predictLoop at h
      generalize m.forward st (b.map fun p => (⟨lattice, numbers, p⟩ : GSample n)) = F at h h2 h3
      obtain ⟨r, s⟩ := F
      cases r with
      | error e => cases h
      | ok vs =>
        dsimp only at h h2 h3
        have ih := ih s h2
        generalize m.predictLoop lattice numbers s bs = G at h ih
        obtain ⟨r, t⟩ := G
        cases r with
        | error e => cases h
        | ok qs =>
          cases h
          rcases List.mem_append.1 hP with hP | hP
          · obtain ⟨v, hv, rfl⟩ := List.mem_map.1 hP
            obtain ⟨k, hk⟩ := voigt_exists i j
            rw [(C74_components (optVector v) (fun _ _ => (none : Option ℝ)) i j k hk).1] at hy
            cases v with
            | none => cases hy
            | some w =>
              cases hy
              exact h3 vs rfl w hv k
          · exact ih qs rfl P hP y hy
  unfold PotGNN.calcPolarizabilities at hTs
  dsimp only at hTs
  cases hbp : batchPositions positions 100 with
  | error e => rw [hbp] at hTs; cases hTs
  | ok bs =>
    rw [hbp] at hTs
    dsimp only at hTs
    have key := key bs { st with training := false } ⟨rfl, hst⟩
    generalize m.predictLoop lattice numbers { st with training := false } bs = G at hTs key
    obtain ⟨r, t⟩ := G
    cases r with
    | error e => cases hTs
    | ok ps =>
      cases hTs
      obtain ⟨P, hP, rfl⟩ := List.mem_map.1 hT
      unfold unscale at hx
      cases hy : P i j with
      | none => rw [hy] at hx; cases hx
      | some y =>
        rw [hy] at hx
        cases hx
        have := key ps rfl P hP y hy
        rw [add_sub_cancel_right, abs_mul]
        exact mul_le_mul_of_nonneg_right this (abs_nonneg _)

/-- C166: consequently Raman tensors are bounded as well, however large the displacement. -/
theorem C166_raman_bounded (m : PotGNN dn de) (hb : m.blocks ≠ []) :
    ∃ B : ℝ, ∀ {n : ℕ} {ref : Triplets}, m.Fits n ref → ∀ (lattice : Mat3 ℝ) (numbers : Fin n → ℕ)
      (st : GnnState), st.triplets.Ready ref n m.refEdges.length → ∀ (p d : Pos n ℝ) R,
        ramanTensor (m.asModel lattice numbers st) p d = .ok R →
          ∀ i j, |R i j| ≤ B * |m.stddev i j| := by
  obtain ⟨B, hB⟩ := C166_bounded m hb
  refine ⟨1000 * (B + B), ?_⟩
  intro n ref hm lattice numbers st hst p d R hR i j
  have key : ∀ (q : Pos n ℝ) A, evalOne (m.asModel lattice numbers st) q = .ok A →
      |A i j - m.mean i j| ≤ B * |m.stddev i j| := by
    intro q A hA
    unfold evalOne PotGNN.asModel at hA
    cases hc : (m.calcPolarizabilities lattice numbers st [q]).1 with
    | error e => rw [hc] at hA; cases hA
    | ok Ts =>
      rw [hc] at hA
      dsimp only at hA
      cases Ts with
      | nil => cases hA
      | cons T Ts =>
        rw [List.mapM_cons] at hA
        cases hf : finiteEntries T with
        | none => rw [hf] at hA; cases hA
        | some A' =>
          rw [hf] at hA
          dsimp only [bind, Except.bind] at hA
          generalize (Ts.mapM fun T => match finiteEntries T with
            | none => (Except.error PyErr.unmodelled : Py (Mat3 ℝ))
            | some A => .ok A) = r at hA
          cases r with
          | error e => cases hA
          | ok As =>
            cases hA
            exact hB hm lattice numbers st hst [q] (T :: Ts) hc T (by simp) i j _
              (finiteEntries_some hf i j)
  unfold ramanTensor at hR
  dsimp only at hR
  generalize hP : evalOne (m.asModel lattice numbers st)
    (fun a i => p a i + d a i * centralDifference) = P at hR
  generalize hM : evalOne (m.asModel lattice numbers st)
    (fun a i => p a i - d a i * centralDifference) = M at hR
  cases P with
  | error e => cases e <;> cases hR
  | ok P =>
    cases M with
    | error e => cases e <;> cases hR
    | ok M =>
      change Except.ok _ = Except.ok _ at hR
      cases hR
      have h1 := abs_le.1 (key _ _ hP)
      have h2 := abs_le.1 (key _ _ hM)
      rw [Matrix.smul_apply, Matrix.sub_apply, smul_eq_mul, abs_mul]
      unfold centralDifference
      rw [show |(1 : ℝ) / (1 / 1000)| = 1000 by norm_num, mul_assoc]
      refine mul_le_mul_of_nonneg_left ?_ (by norm_num)
      rw [abs_le]
      constructor <;> nlinarith

theorem predictLoop_renumber {m : PotGNN dn de} {edges' : List (ℕ × ℕ)} {ref ref' : Triplets}
    {swap : Bool} (hp : ref.AllPaths swap n m.refEdges) (hp' : ref'.AllPaths swap n edges')
    (hl : m.refEdges.Nodup) (hl' : edges'.Nodup) (σ : Fin n ≃ Fin n)
    (he : ∀ a b : Fin n, (a.1, b.1) ∈ edges' ↔ ((σ a).1, (σ b).1) ∈ m.refEdges)
    (lattice : Mat3 ℝ) (numbers : Fin n → ℕ) : ∀ (bs : List (List (Pos n ℝ))) (st st' : GnnState),
    st.Eval ref n m.refEdges.length → st'.Eval ref' n edges'.length →
    (PotGNN.predictLoop { m with refEdges := edges' } lattice (fun a => numbers (σ a)) st'
      (bs.map (List.map fun p a => p (σ a)))).1 = (m.predictLoop lattice numbers st bs).1
  | [], _, _, _, _ => rfl
  | b :: bs, st, st', h, h' => by
    have hm : m.Fits n ref := ⟨hp.range, hp.valid⟩
    have hm' : PotGNN.Fits { m with refEdges := edges' } n ref' := ⟨hp'.range, hp'.valid⟩
    have h1 := C127_numbering h h' hp hp' hl hl' σ he
      (b.map fun p => (⟨lattice, numbers, p⟩ : GSample n))
    rw [List.map_map] at h1
    have h2 := (forward_state hm (b.map fun p => (⟨lattice, numbers, p⟩ : GSample n)) h h).2
    have h2' := (forward_state hm' (b.map (renumber σ ∘ fun p =>
      (⟨lattice, numbers, p⟩ : GSample n))) h' h').2
    rw [List.map_cons]
    unfold PotGNN.predictLoop
    rw [List.map_map, show (b.map ((fun p => (⟨lattice, fun a => numbers (σ a), p⟩ : GSample n)) ∘
      fun p a => p (σ a))) = b.map (renumber σ ∘ fun p => (⟨lattice, numbers, p⟩ : GSample n)) from rfl]
    generalize m.forward st (b.map fun p => (⟨lattice, numbers, p⟩ : GSample n)) = F at h1 h2 ⊢
    generalize PotGNN.forward { m with refEdges := edges' } st' (b.map (renumber σ ∘ fun p =>
      (⟨lattice, numbers, p⟩ : GSample n))) = F' at h1 h2' ⊢
    obtain ⟨r, s⟩ := F
    obtain ⟨r', s'⟩ := F'
    dsimp only at h1 h2 h2'
    subst h1
    cases r' with
    | error e => rfl
    | ok vs =>
      dsimp only
      have h3 := predictLoop_renumber hp hp' hl hl' σ he lattice numbers bs s s' h2 h2'
      generalize m.predictLoop lattice numbers s bs = G at h3 ⊢
      generalize PotGNN.predictLoop { m with refEdges := edges' } lattice (fun a => numbers (σ a)) s'
        (bs.map (List.map fun p a => p (σ a))) = G' at h3 ⊢
      obtain ⟨r, t⟩ := G
      obtain ⟨r', t'⟩ := G'
      dsimp only at h3
      subst h3
      cases r' <;> rfl

/-- C166: listing the atoms of the reference structure and of all configurations in another order changes
neither the predicted polarizabilities nor the exceptions. -/
theorem C166_numbering {m : PotGNN dn de} {edges' : List (ℕ × ℕ)} {ref ref' : Triplets}
    {swap : Bool} (hp : ref.AllPaths swap n m.refEdges) (hp' : ref'.AllPaths swap n edges')
    (hl : m.refEdges.Nodup) (hl' : edges'.Nodup) (σ : Fin n ≃ Fin n)
    (he : ∀ a b : Fin n, (a.1, b.1) ∈ edges' ↔ ((σ a).1, (σ b).1) ∈ m.refEdges)
    (lattice : Mat3 ℝ) (numbers : Fin n → ℕ) (st st' : GnnState)
    (hst : st.triplets.Ready ref n m.refEdges.length) (hst' : st'.triplets.Ready ref' n edges'.length)
    (positions : List (Pos n ℝ)) :
    (PotGNN.calcPolarizabilities { m with refEdges := edges' } lattice (fun a => numbers (σ a)) st'
      (positions.map fun p a => p (σ a))).1 = (m.calcPolarizabilities lattice numbers st positions).1 := by
  unfold PotGNN.calcPolarizabilities
  dsimp only
  rw [batch_map]
  cases batchPositions positions 100 with
  | error e => rfl
  | ok bs =>
    dsimp only [Except.map]
    have h := predictLoop_renumber hp hp' hl hl' σ he lattice numbers bs { st with training := false }
      { st' with training := false } ⟨rfl, hst⟩ ⟨rfl, hst'⟩
    generalize m.predictLoop lattice numbers { st with training := false } bs = G at h ⊢
    generalize PotGNN.predictLoop { m with refEdges := edges' } lattice (fun a => numbers (σ a))
      { st' with training := false } (bs.map (List.map fun p a => p (σ a))) = G' at h ⊢
    obtain ⟨r, t⟩ := G
    obtain ⟨r', t'⟩ := G'
    dsimp only at h
    subst h
    cases r' <;> rfl

/-- C166, concrete: the network of two hydrogen atoms, moved rigidly along any direction. -/
example (v : Fin 3 → ℝ) : ramanTensor (sampleGnn.asModel 1 (fun _ : Fin 2 => 1) sampleState)
    (pairSample (1 / 4)).positions (fun _ => v) = .ok 0 :=
  C166_acoustic_exists sampleGnn_fits (by simp [sampleGnn]) 1 (fun _ : Fin 2 => 1)
    (fun a => sampleGnn_knows a 0) _ _ (fun h => not_integer_quarter ((pairSample_degenerate _).1 h))
    (fun _ _ _ => rfl) sampleState sampleState_eval.ready

/-- C166, concrete: the second atom is helium, which this network does not know. -/
example (d : Pos 2 ℝ) : ramanTensor (sampleGnn.asModel 1 ![1, 2] sampleState)
    (pairSample (1 / 4)).positions d = .error .indexError :=
  (C166_unknown sampleGnn_fits.edges 1 ![1, 2] ⟨1, by simp [PotGNN.Knows, sampleGnn]⟩
    sampleState).2.2 _ d

/-- C166, concrete: one bound for all predictions of this network. -/
example : ∃ B : ℝ, ∀ (positions : List (Pos 2 ℝ)) Ts,
    (sampleGnn.calcPolarizabilities 1 (fun _ => 1) sampleState positions).1 = .ok Ts →
      ∀ T ∈ Ts, ∀ i j x, T i j = some x → |x - (1 : Mat3 ℝ) i j| ≤ B * 2 := by
  obtain ⟨B, hB⟩ := C166_bounded sampleGnn (by simp [sampleGnn])
  refine ⟨B, fun positions Ts h T hT i j x hx => ?_⟩
  have := hB sampleGnn_fits 1 (fun _ => 1) sampleState sampleState_eval.ready positions Ts h T hT i j x hx
  rwa [show |sampleGnn.stddev i j| = 2 from abs_of_pos (by norm_num [sampleGnn])] at this

end

end Verif
