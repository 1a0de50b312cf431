import Verif.Model.Art
import Verif.Model.PymatgenDof
import Verif.Spec.Polar
import Verif.Spec.Index
import Verif.Proofs.Index
import Verif.Proofs.EqLoop
import Verif.Proofs.EquivAtoms

/-! Helper lemmas about the interpolation model. -/

namespace Verif
open Spec

variable {N : ℕ}

/-! ### State changes -/

/-- `m'` extends `m` by unmasked degrees of freedom. -/
structure Extends (m m' : IModel N) : Prop where
  ref : m'.ref = m.ref
  refPol : m'.refPol = m.refPol
  dummy : m'.dummy = m.dummy
  data : ∃ (b : List (Pos N ℝ)) (f : List (ℝ → Mat3 ℝ)),
    m'.basis = m.basis ++ b ∧ m'.interps = m.interps ++ f ∧
    m'.mask = m.mask ++ List.replicate b.length false ∧
    f.length = if m.dummy then 0 else b.length

/-- A call that either fails without effect or succeeds by extending the model. -/
def Atomic (m : IModel N) (o : Outcome N) : Prop :=
  (∀ e, o.result = .error e → o.state = m) ∧ (o.result = .ok () → Extends m o.state)

theorem atomic_error (m : IModel N) (e : PyErr) (ws : List DofWarning) :
    Atomic m ⟨.error e, ws, m⟩ :=
  ⟨fun _ _ => rfl, fun h => by cases h⟩

theorem buildAll_length (spline : SplineFn) (we : Bool) (order : ℕ) (gs : List (DofGroup N))
    (fs : List (ℝ → Mat3 ℝ)) (ws : List DofWarning)
    (h : buildAll spline we order gs = (.ok fs, ws)) : fs.length = gs.length := by
  induction gs generalizing fs ws with
  | nil => simp only [buildAll, Prod.mk.injEq, Except.ok.injEq] at h; simp [← h.1]
  | cons g gs ih =>
    unfold buildAll at h
    split at h
    · cases h
    · split at h
      · cases h
      · rename_i h2
        cases h
        simp [ih _ _ h2]

theorem finiteBasis_length (gs : List (DofGroup N)) (b : List (Pos N ℝ))
    (h : finiteBasis gs = .ok b) : b.length = gs.length :=
  ((mapM_except_ok _ _ _).1 h).length_eq.symm

theorem constructAndAdd_ok (spline : SplineFn) (we : Bool) (m : IModel N)
    (gs : List (DofGroup N)) (order : ℤ)
    (h : (constructAndAdd spline we m gs order).result = .ok ()) :
    ∃ fs ws b, 1 ≤ order ∧ buildAll spline we order.toNat gs = (.ok fs, ws) ∧
      finiteBasis gs = .ok b ∧
      (constructAndAdd spline we m gs order).warnings = ws ∧
      (constructAndAdd spline we m gs order).state = { m with
        basis := m.basis ++ b
        interps := m.interps ++ (if m.dummy then [] else fs)
        mask := m.mask ++ List.replicate b.length false } := by
  by_cases h1 : order < 1
  · exfalso
    unfold constructAndAdd at h
    rw [if_pos h1] at h; cases h
  cases h2 : buildAll spline we order.toNat gs with
  | mk r ws =>
  cases r with
  | error e =>
    exfalso
    unfold constructAndAdd at h
    rw [if_neg h1, h2] at h; cases h
  | ok fs =>
    cases h3 : finiteBasis gs with
    | error e =>
      exfalso
      unfold constructAndAdd at h
      rw [if_neg h1, h2] at h
      simp only [h3] at h
      cases h
    | ok b =>
      refine ⟨fs, ws, b, by omega, rfl, rfl, ?_, ?_⟩
      · unfold constructAndAdd; rw [if_neg h1, h2]; simp only [h3]
      · unfold constructAndAdd; rw [if_neg h1, h2]; simp only [h3]
        cases hd : m.dummy <;> simp

theorem constructAndAdd_atomic (spline : SplineFn) (we : Bool) (m : IModel N)
    (gs : List (DofGroup N)) (order : ℤ) : Atomic m (constructAndAdd spline we m gs order) := by
  constructor
  · intro e he
    unfold constructAndAdd at he ⊢
    split_ifs at he ⊢ with h1
    · rfl
    · split at he
      · rfl
      · rename_i h2
        split at he
        · rfl
        · cases he
  · intro h
    obtain ⟨fs, ws, b, _, h2, h3, _, h5⟩ := constructAndAdd_ok spline we m gs order h
    rw [h5]
    refine ⟨rfl, rfl, rfl, b, (if m.dummy then [] else fs), rfl, rfl, rfl, ?_⟩
    have e1 := buildAll_length _ _ _ _ _ _ h2
    have e2 := finiteBasis_length _ _ h3
    split_ifs
    · rfl
    · omega

theorem addDofNan_atomic (spline : SplineFn) (we : Bool) (m : IModel N)
    (cart : Option (Pos N ℝ)) (amps : List ℝ) (pols : List (Mat3 ℝ)) (order : ℤ) (inc : Bool) :
    Atomic m (m.addDofNan spline we cart amps pols order inc) := by
  unfold IModel.addDofNan
  split
  · exact atomic_error _ _ _
  · exact constructAndAdd_atomic _ _ _ _ _

theorem addDofFromFiles_atomic (spline : SplineFn) (we : Bool) (m : IModel N)
    (files : List (DofFile N)) (order : ℤ) :
    Atomic m (m.addDofFromFiles spline we files order) := by
  unfold IModel.addDofFromFiles
  split
  · exact atomic_error _ _ _
  · exact atomic_error _ _ _
  · exact addDofNan_atomic _ _ _ _ _ _ _ _

theorem addArt_atomic (spline : SplineFn) (we : Bool) (m : IModel N) (i : ℤ) (d : Vec3)
    (amps : List ℝ) (pols : List (Mat3 ℝ)) : Atomic m (m.addArt spline we i d amps pols) := by
  unfold IModel.addArt
  split
  · exact atomic_error _ _ _
  · exact addDofNan_atomic _ _ _ _ _ _ _ _

theorem addArtFromFiles_atomic (spline : SplineFn) (we : Bool) (m : IModel N)
    (files : List (DofFile N)) : Atomic m (m.addArtFromFiles spline we files) := by
  unfold IModel.addArtFromFiles
  split
  · exact atomic_error _ _ _
  · exact atomic_error _ _ _
  · split_ifs
    · exact atomic_error _ _ _
    · split
      · exact atomic_error _ _ _
      · exact atomic_error _ _ _
      · split_ifs
        · exact atomic_error _ _ _
        · exact constructAndAdd_atomic _ _ _ _ _

theorem addDofFromPymatgen_atomic (present : Bool) (spline : SplineFn) (we : Bool) (m : IModel N)
    (structures : List PmgArg) (pols : List (Mat3 ℝ)) (order : ℤ) :
    Atomic m (m.addDofFromPymatgen present spline we structures pols order) := by
  unfold IModel.addDofFromPymatgen
  split_ifs
  · exact atomic_error _ _ _
  · split
    · exact atomic_error _ _ _
    · exact atomic_error _ _ _
    · exact addDofNan_atomic _ _ _ _ _ _ _ _

theorem addArtFromPymatgen_atomic (present : Bool) (spline : SplineFn) (we : Bool) (m : IModel N)
    (structures : List PmgArg) (pols : List (Mat3 ℝ)) :
    Atomic m (m.addArtFromPymatgen present spline we structures pols) := by
  unfold IModel.addArtFromPymatgen
  split
  · exact atomic_error _ _ _
  · exact atomic_error _ _ _
  · split_ifs
    · exact atomic_error _ _ _
    · split
      · exact atomic_error _ _ _
      · exact atomic_error _ _ _
      · split_ifs
        · exact atomic_error _ _ _
        · exact constructAndAdd_atomic _ _ _ _ _

/-! ### Reachable models -/

/-- Models obtainable by API calls (successful or failing) from a freshly constructed one. -/
inductive Reachable (spline : SplineFn) : IModel N → Prop
  | init (ref : RefStructure N) (pol : Mat3 ℝ) (dummy : Bool) :
      Reachable spline (IModel.init ref pol dummy)
  | addDof {m : IModel N} (we : Bool) (cart : Pos N ℝ) (amps : List ℝ) (pols : List (Mat3 ℝ))
      (order : ℤ) (inc : Bool) : Reachable spline m →
      Reachable spline (m.addDof spline we cart amps pols order inc).state
  | addDofFromFiles {m : IModel N} (we : Bool) (files : List (DofFile N)) (order : ℤ) :
      Reachable spline m → Reachable spline (m.addDofFromFiles spline we files order).state
  | addArt {m : IModel N} (we : Bool) (i : ℤ) (d : Vec3) (amps : List ℝ) (pols : List (Mat3 ℝ)) :
      Reachable spline m → Reachable spline (m.addArt spline we i d amps pols).state
  | addArtFromFiles {m : IModel N} (we : Bool) (files : List (DofFile N)) :
      Reachable spline m → Reachable spline (m.addArtFromFiles spline we files).state
  | addDofFromPymatgen {m : IModel N} (present we : Bool) (structures : List PmgArg)
      (pols : List (Mat3 ℝ)) (order : ℤ) : Reachable spline m →
      Reachable spline (m.addDofFromPymatgen present spline we structures pols order).state
  | addArtFromPymatgen {m : IModel N} (present we : Bool) (structures : List PmgArg)
      (pols : List (Mat3 ℝ)) : Reachable spline m →
      Reachable spline (m.addArtFromPymatgen present spline we structures pols).state
  | setMask {m : IModel N} (value : List Bool) :
      Reachable spline m → Reachable spline (m.setMask value).state
  | masked {m m' : IModel N} (idx : List ℤ) :
      Reachable spline m → m.getMaskedModel idx = .ok m' → Reachable spline m'
  | unmask {m : IModel N} : Reachable spline m → Reachable spline m.unmask

/-- Lengths of the three lists agree. -/
structure WellFormed (m : IModel N) : Prop where
  mask : m.mask.length = m.basis.length
  interps : m.interps.length = if m.dummy then 0 else m.basis.length

theorem Extends.wellFormed {m m' : IModel N} (h : Extends m m') (hw : WellFormed m) :
    WellFormed m' := by
  obtain ⟨b, f, h1, h2, h3, h4⟩ := h.data
  constructor
  · rw [h1, h3]; simp [hw.mask]
  · rw [h1, h2, h.dummy, List.length_append, List.length_append, hw.interps, h4]
    split_ifs <;> simp

theorem Atomic.wellFormed {m : IModel N} {o : Outcome N} (h : Atomic m o) (hw : WellFormed m) :
    WellFormed o.state := by
  cases hr : o.result with
  | error e => rw [h.1 e hr]; exact hw
  | ok u => exact (h.2 hr).wellFormed hw

theorem reachable_wellFormed {spline : SplineFn} {m : IModel N} (h : Reachable spline m) :
    WellFormed m := by
  induction h with
  | init ref pol dummy => exact ⟨rfl, by cases dummy <;> rfl⟩
  | addDof we cart amps pols order inc _ ih => exact (addDofNan_atomic _ _ _ _ _ _ _ _).wellFormed ih
  | addDofFromFiles we files order _ ih => exact (addDofFromFiles_atomic _ _ _ _ _).wellFormed ih
  | addArt we i d amps pols _ ih => exact (addArt_atomic _ _ _ _ _ _ _).wellFormed ih
  | addArtFromFiles we files _ ih => exact (addArtFromFiles_atomic _ _ _ _).wellFormed ih
  | addDofFromPymatgen present we ss pols order _ ih =>
    exact (addDofFromPymatgen_atomic _ _ _ _ _ _ _).wellFormed ih
  | addArtFromPymatgen present we ss pols _ ih =>
    exact (addArtFromPymatgen_atomic _ _ _ _ _ _).wellFormed ih
  | setMask value _ ih =>
    unfold IModel.setMask
    split_ifs with h1
    · exact ih
    · exact ⟨by simpa using (not_not.1 h1).trans ih.mask, ih.interps⟩
  | masked idx _ hm ih =>
    unfold IModel.getMaskedModel at hm
    split at hm
    · cases hm
    · cases hm; exact ⟨by simpa using ih.mask, ih.interps⟩
  | unmask _ ih => exact ⟨by simpa [IModel.unmask] using ih.mask, ih.interps⟩

theorem Atomic.same {m : IModel N} {o : Outcome N} (h : Atomic m o) :
    o.state.dummy = m.dummy ∧ o.state.refPol = m.refPol ∧ o.state.ref = m.ref := by
  cases hr : o.result with
  | error e => rw [h.1 e hr]; exact ⟨rfl, rfl, rfl⟩
  | ok u => exact ⟨(h.2 hr).dummy, (h.2 hr).refPol, (h.2 hr).ref⟩

theorem reachable_dummy_zero {spline : SplineFn} {m : IModel N} (h : Reachable spline m) :
    m.dummy = true → m.refPol = 0 := by
  induction h with
  | init ref pol dummy => intro h; simp only [IModel.init] at h ⊢; rw [if_pos h]
  | @addDof m₀ we cart amps pols order inc _ ih =>
    have := (addDofNan_atomic spline we m₀ (some cart) amps pols order inc).same
    intro h; exact this.2.1.trans (ih (this.1.symm.trans h))
  | @addDofFromFiles m₀ we files order _ ih =>
    have := (addDofFromFiles_atomic spline we m₀ files order).same
    intro h; exact this.2.1.trans (ih (this.1.symm.trans h))
  | @addArt m₀ we i d amps pols _ ih =>
    have := (addArt_atomic spline we m₀ i d amps pols).same
    intro h; exact this.2.1.trans (ih (this.1.symm.trans h))
  | @addArtFromFiles m₀ we files _ ih =>
    have := (addArtFromFiles_atomic spline we m₀ files).same
    intro h; exact this.2.1.trans (ih (this.1.symm.trans h))
  | @addDofFromPymatgen m₀ present we ss pols order _ ih =>
    have := (addDofFromPymatgen_atomic present spline we m₀ ss pols order).same
    intro h; exact this.2.1.trans (ih (this.1.symm.trans h))
  | @addArtFromPymatgen m₀ present we ss pols _ ih =>
    have := (addArtFromPymatgen_atomic present spline we m₀ ss pols).same
    intro h; exact this.2.1.trans (ih (this.1.symm.trans h))
  | setMask value _ ih =>
    unfold IModel.setMask
    split_ifs with h1
    · exact ih
    · exact ih
  | masked idx _ hm ih =>
    unfold IModel.getMaskedModel at hm
    split at hm
    · cases hm
    · cases hm; exact ih
  | unmask _ ih => exact ih

/-! ### Evaluation -/

theorem accumulate_ok (disps : List (Pos N ℝ)) (bs : List (Pos N ℝ)) (fs : List (ℝ → Mat3 ℝ))
    (ks : List Bool) (acc : Pos N ℝ → Mat3 ℝ) (h1 : fs.length = bs.length)
    (h2 : ks.length = bs.length) :
    accumulate disps bs fs ks (disps.map acc) = .ok (disps.map fun D => acc D +
      ((bs.zip (fs.zip ks)).map fun x => if x.2.2 then 0 else x.2.1 (inner3 x.1 D)).sum) := by
  induction bs generalizing fs ks acc with
  | nil =>
    cases List.length_eq_zero_iff.1 h1
    cases List.length_eq_zero_iff.1 h2
    simp [accumulate]
  | cons b bs ih =>
    cases fs with
    | nil => simp at h1
    | cons f fs =>
    cases ks with
    | nil => simp at h2
    | cons k ks =>
      unfold accumulate
      have : List.zipWith (fun D a => a + oneMinus k • f (getAmplitude b D)) disps (disps.map acc)
          = disps.map fun D => acc D + if k then 0 else f (inner3 b D) := by
        rw [List.zipWith_map_right, List.zipWith_self]
        refine List.map_congr_left fun D _ => ?_
        have hA : getAmplitude b D = inner3 b D := by
          unfold getAmplitude dot inner3; rw [Fintype.sum_prod_type]; rfl
        rw [hA]
        cases k <;> simp [oneMinus]
      rw [this, ih fs ks _ (by simpa using h1) (by simpa using h2)]
      congr 1
      refine List.map_congr_left fun D _ => ?_
      simp only [List.zip_cons_cons, List.map_cons, List.sum_cons]
      rw [add_assoc]

theorem accumulate_err (disps : List (Pos N ℝ)) (bs : List (Pos N ℝ)) (fs : List (ℝ → Mat3 ℝ))
    (ks : List Bool) (acc : List (Mat3 ℝ)) (h : ¬ (fs.length = bs.length ∧ ks.length = bs.length)) :
    accumulate disps bs fs ks acc = .error .valueError := by
  induction bs generalizing fs ks acc with
  | nil =>
    cases fs with
    | nil =>
      cases ks with
      | nil => simp at h
      | cons => rfl
    | cons => rfl
  | cons b bs ih =>
    cases fs with
    | nil => rfl
    | cons f fs =>
      cases ks with
      | nil => rfl
      | cons k ks => unfold accumulate; exact ih fs ks _ (by simpa using h)

theorem calcDisplacement_nearest (p q : Pos N ℝ) : NearestImage p q (calcDisplacement p q) := by
  intro a i
  rw [calc_apply]
  exact ⟨wrap1_inHalfBox _, wrap1_sameImage _⟩

theorem Spec.NearestImage.unique {p q w w' : Pos N ℝ} (h : NearestImage p q w)
    (h' : NearestImage p q w') : w = w' := by
  funext a i
  exact ((h a i).2.symm.trans (h' a i).2).eq_of_inHalfBox (h a i).1 (h' a i).1

theorem getCart_calc (s : RefStructure N) (p q : Pos N ℝ) :
    s.getCartDisplacement (calcDisplacement p q) = toCart s.lattice (calcDisplacement p q) := by
  unfold RefStructure.getCartDisplacement
  have : applyPbcDisplacement (calcDisplacement p q) = calcDisplacement p q := by
    funext a i
    exact wrap1_of_inHalfBox (calcDisplacement_nearest p q a i).1
  rw [this]; rfl

/-- The value of the model at one configuration. -/
noncomputable def valueAt (m : IModel N) (q : Pos N ℝ) : Mat3 ℝ :=
  expansion m.refPol m.basis m.interps m.mask
    (toCart m.ref.lattice (calcDisplacement m.ref.positions q))

theorem calc_ok (m : IModel N) (h1 : m.interps.length = m.basis.length)
    (h2 : m.mask.length = m.basis.length) (batch : List (Pos N ℝ)) :
    m.calcPolarizabilities batch = .ok (batch.map (valueAt m)) := by
  unfold IModel.calcPolarizabilities
  dsimp only
  have hd : (batch.map fun _ => (0 : Mat3 ℝ)) = (batch.map fun p =>
      m.ref.getCartDisplacement (calcDisplacement m.ref.positions p)).map fun _ => 0 := by
    rw [List.map_map]; rfl
  rw [hd, accumulate_ok _ _ _ _ _ h1 h2]
  simp only [List.map_map]
  congr 1
  refine List.map_congr_left fun q _ => ?_
  simp only [Function.comp, valueAt, expansion, getCart_calc, zero_add]
  rw [add_comm]

theorem calc_err (m : IModel N) (h : ¬ (m.interps.length = m.basis.length ∧
    m.mask.length = m.basis.length)) (batch : List (Pos N ℝ)) :
    m.calcPolarizabilities batch = .error (if m.dummy then .userError else .valueError) := by
  unfold IModel.calcPolarizabilities
  dsimp only
  rw [accumulate_err _ _ _ _ _ h]
  cases m.dummy <;> rfl

/-! ### Masks -/

theorem maskIndexes_some (n : ℕ) (idx : List ℤ) (ks : List (Fin n))
    (h : maskIndexes n idx = some ks) (k : Fin n) :
    k ∈ ks ↔ ∃ i ∈ idx, Addresses n i k := by
  induction idx generalizing ks with
  | nil => cases h; simp
  | cons i is ih =>
    unfold maskIndexes at h
    cases hk : pyIndex n i with
    | none => rw [hk] at h; cases h
    | some k0 =>
      rw [hk] at h
      cases hks : maskIndexes n is with
      | none => rw [hks] at h; cases h
      | some ks0 =>
        rw [hks] at h; cases h
        rw [List.mem_cons, ih ks0 hks]
        constructor
        · rintro (rfl | ⟨j, hj, h⟩)
          · exact ⟨i, by simp, (pyIndex_some_iff _ _ _).1 hk⟩
          · exact ⟨j, by simp [hj], h⟩
        · rintro ⟨j, hj, h⟩
          rcases List.mem_cons.1 hj with rfl | hj
          · left
            have := (pyIndex_some_iff _ _ _).2 h
            rw [hk] at this; exact (Option.some.inj this).symm
          · right; exact ⟨j, hj, h⟩

theorem maskIndexes_none (n : ℕ) (idx : List ℤ) :
    maskIndexes n idx = none ↔ ∃ i ∈ idx, i < -(n : ℤ) ∨ (n : ℤ) ≤ i := by
  induction idx with
  | nil => simp [maskIndexes]
  | cons i is ih =>
    unfold maskIndexes
    cases hk : pyIndex n i with
    | none =>
      have := (pyIndex_none_iff n i).1 hk
      simp only [Option.bind_eq_bind, Option.bind_none, true_iff]
      exact ⟨i, by simp, this⟩
    | some k0 =>
      have hni : ¬ (i < -(n : ℤ) ∨ (n : ℤ) ≤ i) := fun h => by
        rw [(pyIndex_none_iff n i).2 h] at hk; cases hk
      have e : (∃ j ∈ i :: is, j < -(n : ℤ) ∨ (n : ℤ) ≤ j) ↔ ∃ j ∈ is, j < -(n : ℤ) ∨ (n : ℤ) ≤ j := by
        constructor
        · rintro ⟨j, hj, h⟩
          rcases List.mem_cons.1 hj with rfl | hj
          · exact absurd h hni
          · exact ⟨j, hj, h⟩
        · rintro ⟨j, hj, h⟩; exact ⟨j, by simp [hj], h⟩
      rw [e, ← ih]
      cases maskIndexes n is <;> simp

end Verif
