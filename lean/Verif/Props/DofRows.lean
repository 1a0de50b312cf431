import Verif.Model.DofRows
import Verif.Props.Reference
import Verif.Proofs.ReaderLayout
import Verif.Props.InterpolationDof
import Verif.Props.OperationOrderRuns

/-!
# C164: displacements for another number of atoms
-/

namespace Verif

open Spec

variable {M N : ℕ}

/-- A call failed with `e` and left no trace. -/
def Spec.Refused (m : IModel N) (o : Outcome N) (e : PyErr) : Prop :=
  o.result = .error e ∧ o.warnings = [] ∧ o.state = m

/-- C164: a displacement with one row per atom is treated as before. -/
theorem C164_one_row_per_atom (hN : 0 < N) (spline : SplineFn) (we : Bool) (m : IModel N)
    (cart : Pos N ℝ) (amps : List ℝ) (pols : List (Mat3 ℝ)) (order : ℤ) (inc : Bool) :
    m.addDofRows spline we cart amps pols order inc = m.addDof spline we cart amps pols order inc := by
  have hp : prepareRows m cart amps pols inc = prepareDof m (some cart) amps pols inc := by
    unfold prepareRows prepareDof parentRows parentDisplacement RefStructure.getFracDisplacement
    cases hi : npInv m.ref.lattice with
    | error e => rfl
    | ok inv =>
      dsimp only [bind, Except.bind, pure, Except.pure]
      rw [if_neg hN.ne']
      congr 1
      unfold getDofRows getDof orthRows
      rw [dif_pos rfl]
      dsimp only [bind, Except.bind]
      generalize normalizeTenth (applyPbcDisplacement (matMulPos cart inv)) = parent
      have hc : (parent.map fun p a => p (a.cast (rfl : N = N))) = parent := by
        cases parent <;> rfl
      rw [hc]
      congr 1
      cases parent with
      | none => simp only [true_or, if_true]
      | some p =>
        dsimp only
        have he : equivalentRows m.ref p = m.ref.getEquivalentDisplacements p := by
          unfold equivalentRows RefStructure.getEquivalentDisplacements
          rw [if_neg hN.ne']
          cases scaleDisplacement p with
          | none => simp only [true_or, if_true]
          | some d =>
            have hb : broadcastRows N d = some d := by
              unfold broadcastRows; rw [dif_pos rfl]; rfl
            dsimp only
            rw [hb]
        rw [he]
        rfl
  unfold IModel.addDofRows IModel.addDof IModel.addDofNan
  rw [hp]
  rfl

theorem prepareRows_eq (m : IModel N) (cart : Pos M ℝ) (amps : List ℝ) (pols : List (Mat3 ℝ))
    (inc : Bool) (hdet : m.ref.lattice.det ≠ 0) :
    ∃ parent : Option (Pos M ℝ), parentRows m cart = .ok parent ∧
      prepareRows m cart amps pols inc =
        if (usedPols m amps pols).length ≠ amps.length then .error .valueError
        else getDofRows m parent amps (usedPols m amps pols) inc := by
  have h : ∃ parent, parentRows m cart = .ok parent := by
    unfold parentRows npInv
    rw [if_neg hdet]
    exact ⟨_, rfl⟩
  obtain ⟨parent, h⟩ := h
  refine ⟨parent, h, ?_⟩
  unfold prepareRows
  rw [h]
  rfl

theorem refused_of_prepare (spline : SplineFn) (we : Bool) (m : IModel N) (cart : Pos M ℝ)
    (amps : List ℝ) (pols : List (Mat3 ℝ)) (order : ℤ) (inc : Bool) (e : PyErr)
    (h : prepareRows m cart amps pols inc = .error e) :
    Refused m (m.addDofRows spline we cart amps pols order inc) e := by
  unfold IModel.addDofRows
  rw [h]
  exact ⟨rfl, rfl, rfl⟩

/-- C164: any other number of rows, except one, is refused with `ValueError`. -/
theorem C164_other_sizes (spline : SplineFn) (we : Bool) (m : IModel N) (cart : Pos M ℝ)
    (amps : List ℝ) (pols : List (Mat3 ℝ)) (order : ℤ) (inc : Bool)
    (hdet : m.ref.lattice.det ≠ 0) (hops : m.ref.ops.zip m.ref.perms ≠ [])
    (hMN : M ≠ N) (hM : M ≠ 1) :
    Refused m (m.addDofRows spline we cart amps pols order inc) .valueError := by
  apply refused_of_prepare
  obtain ⟨parent, _, h⟩ := prepareRows_eq m cart amps pols inc hdet
  rw [h]
  by_cases hl : (usedPols m amps pols).length ≠ amps.length
  · rw [if_pos hl]
  rw [if_neg hl]
  unfold getDofRows orthRows
  rw [dif_neg hMN]
  have hemp : (m.ref.ops.zip m.ref.perms).isEmpty = false := by
    cases hx : m.ref.ops.zip m.ref.perms with
    | nil => exact absurd hx hops
    | cons x l => rfl
  have hsingle : singleAtomLoop (m.ref.ops.zip m.ref.perms) = .error .valueError := by
    cases hx : m.ref.ops.zip m.ref.perms with
    | nil => exact absurd hx hops
    | cons x l => rfl
  by_cases hb : m.basis.isEmpty
  · rw [if_pos hb]
    dsimp only [bind, Except.bind]
    rw [if_neg (by simp)]
    cases parent with
    | none =>
      dsimp only
      rw [if_neg (by tauto), if_neg (by simp [hemp])]
    | some p =>
      dsimp only
      have he : equivalentRows m.ref p = .error .valueError := by
        unfold equivalentRows
        have hbr : ∀ d : Pos M ℝ, broadcastRows N d = none := fun d => by
          unfold broadcastRows
          rw [dif_neg hMN, dif_neg hM]
        generalize (if M = 0 then some (applyPbcDisplacement p) else scaleDisplacement p) = x
        cases x with
        | none =>
          dsimp only
          rw [if_neg (by tauto), hsingle, ite_self]
        | some d =>
          dsimp only
          rw [hbr]
          dsimp only
          rw [hsingle, ite_self]
      rw [he]
  · rw [if_neg hb]
    rfl

/-- C164: a single row is refused with `ValueError` once the model of several atoms has a degree of
freedom. -/
theorem C164_single_row_later (spline : SplineFn) (we : Bool) (m : IModel N) (cart : Pos 1 ℝ)
    (amps : List ℝ) (pols : List (Mat3 ℝ)) (order : ℤ) (inc : Bool)
    (hdet : m.ref.lattice.det ≠ 0) (hN : N ≠ 1) (hb : m.basis ≠ []) :
    Refused m (m.addDofRows spline we cart amps pols order inc) .valueError := by
  apply refused_of_prepare
  obtain ⟨parent, _, h⟩ := prepareRows_eq m cart amps pols inc hdet
  rw [h]
  by_cases hl : (usedPols m amps pols).length ≠ amps.length
  · rw [if_pos hl]
  rw [if_neg hl]
  unfold getDofRows orthRows
  rw [dif_neg (Ne.symm hN), if_neg (by simpa using hb)]
  rfl

/-- All atoms move by the same vector. -/
def Spec.RigidShift (b : Pos N ℝ) : Prop := ∀ a a', b a = b a'

theorem rigid_cart (s : RefStructure N) {d : Pos N ℝ} (h : RigidShift d) :
    RigidShift (s.getCartDisplacement d) := by
  intro a a'
  unfold RefStructure.getCartDisplacement matMulPos applyPbcDisplacement
  funext j
  simp only [h a a']

theorem rigid_normalize {d b : Pos N ℝ} (h : RigidShift d) (hb : normalizePos d = some b) :
    RigidShift b := by
  unfold normalizePos at hb
  split_ifs at hb
  cases hb
  intro a a'
  funext j
  dsimp only
  rw [h a a']

/-- C164: in a model of several atoms without degrees of freedom a single row is accepted, but
what is added are rigid shifts of the whole crystal (at least one). -/
theorem C164_single_row_first (spglib : Mat3 ℝ → Pos N ℝ → (Fin N → ℕ) → Option SymDict)
    (nums : Fin N → ℕ) (lat : Mat3 ℝ) (p : Pos N ℝ) (spline : SplineFn) (we : Bool) (m : IModel N)
    (hs : RefStructure.init spglib nums lat p = .ok m.ref)
    (hsep : ∀ j k, j ≠ k → Apart (2 / 10 ^ 5) (p j) (p k))
    (hsym : ∀ op ∈ m.ref.ops, ∃ σ, IsSymmetry p op.rot op.trans σ) (hops : m.ref.ops ≠ [])
    (cart : Pos 1 ℝ) (amps : List ℝ) (pols : List (Mat3 ℝ)) (order : ℤ) (inc : Bool)
    (hN : N ≠ 1) (hb : m.basis = [])
    (hok : (m.addDofRows spline we cart amps pols order inc).result = .ok ()) :
    (m.addDofRows spline we cart amps pols order inc).state.basis ≠ [] ∧
      ∀ b ∈ (m.addDofRows spline we cart amps pols order inc).state.basis, RigidShift b := by
  obtain ⟨hpos, hperms⟩ : m.ref.positions = p ∧
      List.Forall₂ (fun op P => permMatrixOf (comShift p) p op = .ok P) m.ref.ops m.ref.perms := by
    unfold RefStructure.init at hs
    split at hs
    · cases hs
    · rename_i sym _
      cases hperm : computePermutationMatrices sym.ops p with
      | error er => rw [hperm] at hs; cases hs
      | ok Ps =>
        rw [hperm] at hs
        have hs := (Except.ok.inj hs)
        rw [← hs]
        exact ⟨rfl, (mapM_except_ok _ _ _).1 hperm⟩
  have hzip : m.ref.ops.zip m.ref.perms ≠ [] := by
    have := hperms.length_eq
    intro h0
    have h1 := congrArg List.length h0
    rw [List.length_zip, ← this, min_self] at h1
    exact hops (List.length_eq_zero_iff.1 h1)
  -- the groups
  unfold IModel.addDofRows at hok ⊢
  cases hprep : prepareRows m cart amps pols inc with
  | error e => rw [hprep] at hok; cases hok
  | ok gs =>
    rw [hprep] at hok
    dsimp only at hok ⊢
    obtain ⟨fs, ws, b, _, _, hfin, _, hstate⟩ := constructAndAdd_ok _ _ _ _ _ hok
    rw [hstate]
    dsimp only
    rw [hb, List.nil_append]
    have hfin' := (mapM_except_ok _ _ _).1 hfin
    -- every group belongs to a rigid shift
    have key : gs ≠ [] ∧ ∀ g ∈ gs, g.basis = none ∨ ∃ d, RigidShift d ∧ g.basis = normalizePos d := by
      have hdet : m.ref.lattice.det ≠ 0 := by
        intro h0
        unfold prepareRows parentRows npInv at hprep
        rw [if_pos h0] at hprep
        cases hprep
      obtain ⟨parent, _, h⟩ := prepareRows_eq m cart amps pols inc hdet
      rw [h] at hprep
      split_ifs at hprep
      unfold getDofRows orthRows at hprep
      rw [dif_neg (Ne.symm hN), if_pos (by simp [hb])] at hprep
      dsimp only [bind, Except.bind] at hprep
      rw [if_neg (by simp)] at hprep
      have hnan : ∀ gs, nanGroups m amps (usedPols m amps pols) inc = .ok gs →
          gs ≠ [] ∧ ∀ g ∈ gs, g.basis = none := by
        intro gs hgs
        unfold nanGroups at hgs
        cases hz : m.ref.ops.zip m.ref.perms with
        | nil => exact absurd hz hzip
        | cons x l =>
          obtain ⟨op, P⟩ := x
          rw [hz] at hgs
          dsimp only at hgs
          obtain ⟨pts, _, h2⟩ := (bind_ok_iff _ _ _).1 hgs
          have h2 := Except.ok.inj h2
          subst h2
          simp
      cases parent with
      | none =>
        dsimp only at hprep
        rw [if_pos (Or.inr rfl)] at hprep
        exact ⟨(hnan _ hprep).1, fun g hg => Or.inl ((hnan _ hprep).2 g hg)⟩
      | some q =>
        dsimp only at hprep
        unfold equivalentRows at hprep
        rw [if_neg (by norm_num)] at hprep
        cases hsc : scaleDisplacement q with
        | none =>
          rw [hsc] at hprep
          dsimp only at hprep
          rw [if_pos (Or.inr rfl), if_neg (by simpa using hzip)] at hprep
          dsimp only at hprep
          exact ⟨(hnan _ hprep).1, fun g hg => Or.inl ((hnan _ hprep).2 g hg)⟩
        | some d =>
          rw [hsc] at hprep
          dsimp only at hprep
          have hbr : broadcastRows N d = some fun _ => d 0 := by
            unfold broadcastRows
            rw [dif_neg (Ne.symm hN), dif_pos rfl]
            rfl
          rw [hbr] at hprep
          dsimp only at hprep
          obtain ⟨new, st, h1, hI, hF⟩ := eqLoop_inv m.ref.positions (fun _ : Fin N => d 0)
            (m.ref.ops.zip m.ref.perms) [] ⟨[], []⟩ eqInv_empty
          rw [h1] at hprep
          dsimp only [pure, Except.pure] at hprep
          rw [List.nil_append] at hI
          have hgs := (mapM_except_ok _ _ _).1 hprep
          -- all candidates are rigid
          have hcand : ∀ y ∈ new, RigidShift y.2 := by
            intro y hy
            obtain ⟨k, hk, hyk⟩ := List.mem_iff_getElem.1 hy
            have hkz : k < (m.ref.ops.zip m.ref.perms).length := by rw [hF.length_eq]; exact hk
            have hko : k < m.ref.ops.length := by simp at hkz; omega
            have hkp : k < m.ref.perms.length := by simp at hkz; omega
            have h2 := (List.forall₂_iff_get.1 hF).2 k hkz hk
            simp only [List.get_eq_getElem, List.getElem_zip] at h2
            rw [hyk] at h2
            obtain ⟨h3, h4⟩ := h2
            obtain ⟨σ, hσ⟩ := hsym _ (List.getElem_mem hko)
            have hPk := (List.forall₂_iff_get.1 hperms).2 k hko hkp
            simp only [List.get_eq_getElem] at hPk
            obtain ⟨c, hc, hcc⟩ := C13_candidate p (fun _ : Fin N => d 0) m.ref.ops[k] _ σ hsep hσ hPk
            rw [hpos, hc] at h4
            have h4 := Except.ok.inj h4
            rw [← h4]
            intro a a'
            funext j
            obtain ⟨u1, u2⟩ := hcc (σ.symm a) j
            obtain ⟨v1, v2⟩ := hcc (σ.symm a') j
            rw [Equiv.apply_symm_apply] at u1 u2 v1 v2
            obtain ⟨n, hn⟩ := u2
            obtain ⟨n', hn'⟩ := v2
            refine SameImage.eq_of_inHalfBox ⟨n' - n, ?_⟩ u1 v1
            rw [hn, hn']
            push_cast
            ring
          constructor
          · -- at least one
            have hnew : new ≠ [] := by
              intro h0
              rw [h0] at hF
              exact hzip (List.forall₂_nil_right_iff.1 hF)
            obtain ⟨x, hx⟩ := List.exists_mem_of_ne_nil _ hnew
            have hres : st.result ≠ [] := by
              rcases hI.cover x hx with ⟨g, hg, _⟩ | ⟨g, hg, _⟩ | ⟨hs', h2, ⟨h, hh, _⟩, _⟩
              · exact List.ne_nil_of_mem hg
              · exact List.ne_nil_of_mem hg
              · intro h0
                have h5 := hI.heads
                rw [h0] at h5
                have h6 : st.orth = [] := by simpa using h5.symm
                have := h2.subset hh
                rw [h6] at this
                cases this
            intro h0
            rw [h0] at hgs
            exact hres (List.forall₂_nil_right_iff.1 hgs)
          · intro g hg
            right
            obtain ⟨k, hk, hgk⟩ := List.mem_iff_getElem.1 hg
            have hkr : k < st.result.length := by rw [hgs.length_eq]; exact hk
            have h2 := (List.forall₂_iff_get.1 hgs).2 k hkr hk
            simp only [List.get_eq_getElem] at h2
            rw [hgk] at h2
            unfold dofGroup at h2
            have hlen := hI.len _ (List.getElem_mem hkr)
            cases hd : st.result[k].displacements with
            | nil => rw [hd] at h2; cases h2
            | cons child rest =>
              rw [hd] at h2
              dsimp only at h2
              obtain ⟨pts, _, h3⟩ := (bind_ok_iff _ _ _).1 h2
              have h3 := Except.ok.inj h3
              refine ⟨m.ref.getCartDisplacement child, rigid_cart _ ?_, by rw [← h3]⟩
              -- the first displacement is a candidate
              cases ht : st.result[k].transformations with
              | nil => rw [hd, ht] at hlen; cases hlen
              | cons op ops' =>
                refine hcand (op, child) (hI.prov.subset (List.mem_flatMap.2
                  ⟨_, List.getElem_mem hkr, ?_⟩))
                unfold EqGroup.pairs
                rw [hd, ht]
                simp
    constructor
    · intro h0
      rw [h0] at hfin'
      exact key.1 (List.forall₂_nil_right_iff.1 hfin')
    · intro v hv
      obtain ⟨k, hk, hvk⟩ := List.mem_iff_getElem.1 hv
      have hkg : k < gs.length := by rw [hfin'.length_eq]; exact hk
      have h2 := (List.forall₂_iff_get.1 hfin').2 k hkg hk
      simp only [List.get_eq_getElem] at h2
      rw [hvk] at h2
      rcases key.2 _ (List.getElem_mem hkg) with h3 | ⟨d, hd, h3⟩
      · rw [h3] at h2; cases h2
      · cases h4 : normalizePos d with
        | none => rw [h3, h4] at h2; cases h2
        | some w =>
          rw [h3, h4] at h2
          have h2 := Except.ok.inj h2
          rw [← h2]
          exact rigid_normalize hd h4

/-- C164: such a call does succeed: over every structure without symmetry, with every single row that
is not a lattice vector, one amplitude and one polarizability. -/
theorem C164_single_row_accepted (spglib : Mat3 ℝ → Pos N ℝ → (Fin N → ℕ) → Option SymDict)
    (nums : Fin N → ℕ) (lat : Mat3 ℝ) (p : Pos N ℝ) (s : RefStructure N)
    (hs : RefStructure.init spglib nums lat p = .ok s)
    (hsep : ∀ j k, j ≠ k → Apart (2 / 10 ^ 5) (p j) (p k)) (hid : s.ops = [⟨1, 0⟩])
    (spline : SplineFn) (hspline : ∀ k pts, ∃ f, spline k pts = .ok f) (pol A : Mat3 ℝ)
    (cart : Pos 1 ℝ) (hdet : lat.det ≠ 0)
    (hrow : ∃ j, ¬ SameImage (∑ i, cart 0 i * lat⁻¹ i j) 0) (hN1 : N ≠ 1) (hN0 : 0 < N) :
    ∃ o, (IModel.init s pol false).addDofRows spline false cart [1] [A] 1 true = o ∧
      o.result = .ok () ∧ o.state.basis.length = 1 := by
  obtain ⟨hpos, hlat, hperms⟩ : s.positions = p ∧ s.lattice = lat ∧
      List.Forall₂ (fun op P => permMatrixOf (comShift p) p op = .ok P) s.ops s.perms := by
    unfold RefStructure.init at hs
    split at hs
    · cases hs
    · rename_i sym _
      cases hperm : computePermutationMatrices sym.ops p with
      | error er => rw [hperm] at hs; cases hs
      | ok Ps =>
        rw [hperm] at hs; cases hs
        exact ⟨rfl, rfl, (mapM_except_ok _ _ _).1 hperm⟩
  -- the row, as a displacement of a single atom
  obtain ⟨P, hP, hpermsP⟩ : ∃ P, permMatrixOf (comShift p) p ⟨1, 0⟩ = .ok P ∧ s.perms = [P] := by
    rw [hid] at hperms
    cases hx : s.perms with
    | nil => rw [hx] at hperms; cases hperms
    | cons P l =>
      rw [hx] at hperms
      obtain ⟨h1, h2⟩ := List.forall₂_cons.1 hperms
      exact ⟨P, h1, by rw [List.forall₂_nil_left_iff.1 h2]⟩
  have hz : s.ops.zip s.perms = [(⟨1, 0⟩, P)] := by rw [hid, hpermsP]; rfl
  let w : Pos 1 ℝ := applyPbcDisplacement (matMulPos cart lat⁻¹)
  have hwbox : ∀ a i, InHalfBox (w a i) := fun a i => wrap1_inHalfBox _
  have hw0 : w ≠ 0 := by
    obtain ⟨j, hj⟩ := hrow
    intro h0
    apply hj
    have h1 : wrap1 (∑ i, cart 0 i * lat⁻¹ i j) = 0 := congrFun (congrFun h0 0) j
    have h2 := wrap1_sameImage (∑ i, cart 0 i * lat⁻¹ i j)
    rwa [h1] at h2
  let s1 : RefStructure 1 := ⟨fun _ => 1, lat, fun _ _ => 0, [], [], []⟩
  have hfrac : s1.getFracDisplacement cart = .ok w := by
    unfold RefStructure.getFracDisplacement npInv
    rw [if_neg hdet]
    rfl
  obtain ⟨q, c, hc, hpar, hq, _, hnq, _⟩ :=
    (parent_facts (IModel.init s1 pol false) cart w hfrac).2 hw0
  have hparent : parentRows (IModel.init s pol false) cart = .ok (some q) := by
    have h1 : parentDisplacement (IModel.init s1 pol false) (some cart) = .ok (normalizeTenth w) := by
      unfold parentDisplacement; dsimp only; rw [show (IModel.init s1 pol false).ref = s1 from rfl, hfrac]
      rfl
    rw [h1] at hpar
    have hpar := Except.ok.inj hpar
    unfold parentRows npInv
    rw [show (IModel.init s pol false).ref.lattice = lat from hlat, if_neg hdet]
    change Except.ok _ = Except.ok _
    rw [if_neg (by norm_num)]
    exact congrArg _ hpar
  have hqbox : ∀ a i, InHalfBox (q a i) := box_of_norm hnq.le
  have hq0 : ∃ a i, ¬ SameImage (q a i) 0 := by
    by_contra hcon
    push Not at hcon
    have : q = 0 := by
      funext a i
      exact (hcon a i).eq_of_inHalfBox (hqbox a i) (by norm_num [InHalfBox])
    rw [this] at hnq
    have h0 : norm2 (flat (0 : Pos 1 ℝ)) = 0 := norm2_eq_zero.2 rfl
    rw [h0] at hnq
    norm_num at hnq
  obtain ⟨d, hd, hresc⟩ := scaleDisplacement_spec q hq0
  have hdbox : ∀ i, InHalfBox (d 0 i) := by
    intro i
    obtain ⟨⟨k, hk, hke⟩, hn⟩ := hresc
    have h1 : d 0 i ^ 2 ≤ ∑ j, d 0 j ^ 2 :=
      Finset.single_le_sum (f := fun j => d 0 j ^ 2) (fun _ _ => sq_nonneg _) (Finset.mem_univ i)
    rw [Fin.sum_univ_one] at hn
    rw [hn] at h1
    constructor <;> nlinarith
  have hd0 : ∃ i, d 0 i ≠ 0 := by
    by_contra hcon
    push Not at hcon
    have hn := hresc.2
    rw [Fin.sum_univ_one] at hn
    simp only [hcon] at hn
    norm_num at hn
  have hbr : broadcastRows N d = some fun _ => d 0 := by
    unfold broadcastRows
    rw [dif_neg (Ne.symm hN1), dif_pos rfl]
    rfl
  obtain ⟨e, he, hcc⟩ := C13_candidate p (fun _ : Fin N => d 0) ⟨1, 0⟩ P (Equiv.refl _) hsep
    (idOp_sym p) hP
  have hee : e = fun _ => d 0 := by
    funext a j
    obtain ⟨h1, h2⟩ := hcc a j
    simp only [Equiv.refl_apply] at h1 h2
    have h3 : ∑ i, d 0 i * (1 : Mat3 ℝ) i j = d 0 j := by simp [Matrix.one_apply]
    rw [h3] at h2
    exact (h2.eq_of_inHalfBox (hdbox j) h1).symm
  have hequiv : equivalentRows s q = .ok (some [⟨[e], [⟨1, 0⟩]⟩]) := by
    unfold equivalentRows
    rw [if_neg (by norm_num), hd]
    dsimp only
    rw [hbr, hz]
    dsimp only
    unfold eqLoop
    rw [hpos, he]
    rfl
  have he0 : e ≠ 0 := by
    obtain ⟨i, hi⟩ := hd0
    intro h0
    rw [hee] at h0
    exact hi (congrFun (congrFun h0 ⟨0, hN0⟩) i)
  have hebox : ∀ a i, InHalfBox (e a i) := by rw [hee]; exact fun _ i => hdbox i
  have hcart : s.getCartDisplacement e ≠ 0 := by
    rw [getCart_of_box _ _ hebox]
    intro h0
    apply he0
    have h1 : matMulPos (matMulPos e s.lattice) s.lattice⁻¹ = e :=
      matMulPos_inv_right (by rw [hlat]; exact hdet) e
    have h2 : matMulPos e s.lattice = 0 := h0
    rw [h2] at h1
    rw [← h1]
    funext a i
    simp [matMulPos]
  obtain ⟨b, hb⟩ : ∃ b, normalizePos (s.getCartDisplacement e) = some b := by
    unfold normalizePos
    rw [if_neg fun h => hcart ?_]
    · exact ⟨_, rfl⟩
    · by_contra hne; exact flat_ne_zero hne (norm2_eq_zero.1 h)
  let pts : List (Option ℝ × Mat3 ℝ) := [(some 0, 0), (some 1, A - pol)]
  have hgroup : dofGroup (IModel.init s pol false) [1] [A] true ⟨[e], [⟨1, 0⟩]⟩
      = .ok ⟨some b, pts⟩ := by
    rw [dofGroup_eq (IModel.init s pol false) [1] [A] true ⟨[e], [⟨1, 0⟩]⟩ e [] rfl (by simp)]
    rw [show (IModel.init s pol false).ref = s from rfl, hb]
    simp [multiplier_self e he0, refPoint, imagePoint, IModel.init, pts]
  have hprep : prepareRows (IModel.init s pol false) cart [1] [A] true = .ok [⟨some b, pts⟩] := by
    unfold prepareRows
    rw [hparent]
    change getDofRows (IModel.init s pol false) (some q) [1] [A] true = _
    unfold getDofRows orthRows
    rw [dif_neg (Ne.symm hN1), if_pos (show (IModel.init s pol false).basis.isEmpty = true from rfl)]
    dsimp only [bind, Except.bind]
    rw [if_neg (by simp), show (IModel.init s pol false).ref = s from rfl, hequiv]
    dsimp only
    rw [List.mapM_cons, hgroup]
    rfl
  obtain ⟨f, hf⟩ := hspline 1 ([((0 : ℝ), (0 : Mat3 ℝ)), (1, A - pol)].insertionSort
    fun a b => a.1 ≤ b.1)
  have hbuild := buildOne_of (spline := spline) (we := false) (k := 1) (pts := pts)
    (fin := [((0 : ℝ), (0 : Mat3 ℝ)), (1, A - pol)]) (f := f) rfl (by
      simp [hasDuplicates, closeOpt, isclose]; norm_num) (by simp) (by simp) hf
  refine ⟨_, rfl, ?_⟩
  unfold IModel.addDofRows
  rw [hprep]
  dsimp only
  unfold constructAndAdd
  rw [if_neg (by norm_num)]
  have h1 : Int.toNat 1 = 1 := rfl
  simp only [buildAll, h1, hbuild, List.append_nil]
  have hfb : finiteBasis [(⟨some b, pts⟩ : DofGroup N)] = .ok [b] := rfl
  rw [hfb]
  exact ⟨rfl, rfl⟩

/-- C164, concrete: two atoms without symmetry.  On the fresh model the single row `(0.1, 0, 0)` is
accepted and adds a rigid shift; repeating the call is refused, and so are three rows. -/
example (pol A : Mat3 ℝ) (spline : SplineFn) (hspline : ∀ k pts, ∃ f, spline k pts = .ok f) :
    ∃ (m m' : IModel 2), m.basis = [] ∧
      (m.addDofRows spline false (fun _ : Fin 1 => ![1 / 10, 0, 0]) [1] [A] 1).state = m' ∧
      (∃ b, m'.basis = [b] ∧ RigidShift b) ∧
      Refused m' (m'.addDofRows spline false (fun _ : Fin 1 => ![1 / 10, 0, 0]) [1] [A] 1)
        .valueError ∧
      Refused m (m.addDofRows spline false (fun _ : Fin 3 => ![1 / 10, 0, 0]) [1] [A] 1)
        .valueError := by
  obtain ⟨P, hP, _⟩ := C12_entry csCl idOp (idOp_sym csCl).1 csCl_closed
  have hs : RefStructure.init (fun _ _ _ => some ⟨[idOp], [0, 1]⟩) (fun _ => 1) 1 csCl
      = .ok (⟨fun _ => 1, 1, csCl, [idOp], [P], [0, 1]⟩ : RefStructure 2) := by
    unfold RefStructure.init computePermutationMatrices
    simp only [List.mapM_cons, hP, List.mapM_nil]
    rfl
  obtain ⟨o, h1, h2, h3⟩ := C164_single_row_accepted _ _ _ _ _ hs csCl_apart rfl spline hspline pol A
    (fun _ : Fin 1 => ![1 / 10, 0, 0]) (by simp) ⟨0, fun ⟨n, hn⟩ => by
      have h : (n : ℝ) = -(1 / 10) := by
        simp [Matrix.one_apply] at hn
        linarith
      have h4 : ((10 * n : ℤ) : ℝ) = ((-1 : ℤ) : ℝ) := by push_cast; linarith
      have h5 := Int.cast_injective h4
      omega⟩ (by norm_num) (by norm_num)
  have hfirst := C164_single_row_first _ _ _ _ spline false (IModel.init _ pol false) hs csCl_apart
    (fun op hop => ⟨Equiv.refl _, by
      rw [show op = idOp from List.mem_singleton.1 hop]; exact idOp_sym _⟩) (by simp [IModel.init])
    (fun _ : Fin 1 => ![1 / 10, 0, 0]) [1] [A] 1 true (by norm_num) rfl (by rw [h1]; exact h2)
  rw [h1] at hfirst
  obtain ⟨b, hb⟩ := List.length_eq_one_iff.1 h3
  refine ⟨IModel.init _ pol false, o.state, rfl, by rw [h1], ⟨b, hb, hfirst.2 b (by simp [hb])⟩,
    C164_single_row_later _ _ _ _ _ _ _ _ ?_ (by norm_num) (by simp [hb]), ?_⟩
  · have hst : o.state.ref.lattice = 1 := by
      rw [← h1]
      unfold IModel.addDofRows
      split
      · rfl
      · rename_i gs _
        unfold IModel.addDofRows at h1
        rename_i hg
        rw [hg] at h1
        dsimp only at h1
        rw [← h1] at h2
        obtain ⟨_, _, _, _, _, _, _, h5⟩ := constructAndAdd_ok _ _ _ _ _ h2
        rw [h5]
        rfl
    rw [hst]
    simp
  · exact C164_other_sizes _ _ _ _ _ _ _ _ (by simp [IModel.init]) (by simp [IModel.init])
      (by norm_num) (by norm_num)

end Verif
