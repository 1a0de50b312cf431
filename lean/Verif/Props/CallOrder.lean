import Verif.Props.CrossCall
import Verif.Model.PymatgenDof

/-!
# C144: the order in which degrees of freedom are added
-/

namespace Verif

open Spec

noncomputable section

variable {N : ℕ}

/-- A call that adds degrees of freedom. -/
inductive AddCall (N : ℕ)
  | dof (cart : Pos N ℝ) (amps : List ℝ) (pols : List (Mat3 ℝ)) (order : ℤ)
  | files (files : List (DofFile N)) (order : ℤ)
  | pymatgen (structures : List PmgArg) (pols : List (Mat3 ℝ)) (order : ℤ)
  | art (atom : ℤ) (dir : Vec3) (amps : List ℝ) (pols : List (Mat3 ℝ))
  | artFiles (files : List (DofFile N))
  | artPymatgen (structures : List PmgArg) (pols : List (Mat3 ℝ))

/-- What the call does. -/
def AddCall.run (spline : SplineFn) (we : Bool) (m : IModel N) : AddCall N → Outcome N
  | .dof cart amps pols order => m.addDof spline we cart amps pols order
  | .files fs order => m.addDofFromFiles spline we fs order
  | .pymatgen ss pols order => m.addDofFromPymatgen true spline we ss pols order
  | .art a d amps pols => m.addArt spline we a d amps pols
  | .artFiles fs => m.addArtFromFiles spline we fs
  | .artPymatgen ss pols => m.addArtFromPymatgen true spline we ss pols

/-- A script of such calls: the warnings issued and the final model, or the first exception. -/
def runScript (spline : SplineFn) (we : Bool) (m : IModel N) :
    List (AddCall N) → Py (List DofWarning × IModel N)
  | [] => .ok ([], m)
  | c :: cs =>
    match (c.run spline we m).result with
    | .error e => .error e
    | .ok () =>
      match runScript spline we (c.run spline we m).state cs with
      | .error e => .error e
      | .ok (ws, m') => .ok ((c.run spline we m).warnings ++ ws, m')

/-! ### What a call adds does not depend on what is there -/

def IModel.bare (m : IModel N) : IModel N := { m with basis := [], interps := [], mask := [] }

def IModel.plus (m d : IModel N) : IModel N :=
  { m with basis := m.basis ++ d.basis, interps := m.interps ++ d.interps, mask := m.mask ++ d.mask }

theorem plus_bare (m : IModel N) : m.plus m.bare = m := by
  unfold IModel.plus IModel.bare
  simp

theorem constructAndAdd_plus (spline : SplineFn) (we : Bool) (m : IModel N) (gs : List (DofGroup N))
    (order : ℤ) (o : Outcome N) (ho : o = constructAndAdd spline we m.bare gs order) :
    constructAndAdd spline we m gs order = ⟨o.result, o.warnings, m.plus o.state⟩ := by
  subst ho
  unfold constructAndAdd
  split_ifs
  · dsimp only; rw [plus_bare]
  · rcases buildAll spline we order.toNat gs with ⟨r, ws⟩
    cases r with
    | error e => dsimp only; rw [plus_bare]
    | ok fs =>
      dsimp only
      cases finiteBasis gs with
      | error e => dsimp only; rw [plus_bare]
      | ok bs =>
        unfold IModel.plus IModel.bare
        dsimp only
        by_cases hd : m.dummy = true
        · simp [hd]
        · simp [hd]

theorem getDof_bare {m : IModel N} {p : Option (Pos N ℝ)} {amps : List ℝ} {pols : List (Mat3 ℝ)}
    {inc : Bool} {gs : List (DofGroup N)} (h : getDof m p amps pols inc = .ok gs) :
    getDof m.bare p amps pols inc = .ok gs := by
  have ho : orthCheck m.bare p = -1 := by
    unfold orthCheck
    cases p with
    | none => rfl
    | some p => rfl
  unfold getDof at h ⊢
  split_ifs at h
  rw [if_neg (by rw [ho]; simp), ← h]
  rfl

theorem addDofNan_plus (spline : SplineFn) (we : Bool) (m : IModel N) (cart : Option (Pos N ℝ))
    (amps : List ℝ) (pols : List (Mat3 ℝ)) (order : ℤ) (inc : Bool) (o : Outcome N)
    (ho : o = m.bare.addDofNan spline we cart amps pols order inc)
    (h : (m.addDofNan spline we cart amps pols order inc).result = .ok ()) :
    m.addDofNan spline we cart amps pols order inc = ⟨o.result, o.warnings, m.plus o.state⟩ := by
  subst ho
  unfold IModel.addDofNan at h ⊢
  cases hp : prepareDof m cart amps pols inc with
  | error e => rw [hp] at h; cases h
  | ok gs =>
    have hb : prepareDof m.bare cart amps pols inc = .ok gs := by
      unfold prepareDof at hp ⊢
      rw [show parentDisplacement m.bare cart = parentDisplacement m cart from rfl]
      cases hq : parentDisplacement m cart with
      | error e => rw [hq] at hp; cases hp
      | ok p =>
        rw [hq] at hp
        change (if (usedPols m amps pols).length ≠ amps.length then _ else
          getDof m p amps (usedPols m amps pols) inc) = _ at hp
        change (if (usedPols m amps pols).length ≠ amps.length then _ else
          getDof m.bare p amps (usedPols m amps pols) inc) = _
        by_cases hl : (usedPols m amps pols).length ≠ amps.length
        · rw [if_pos hl] at hp; cases hp
        · rw [if_neg hl] at hp ⊢
          exact getDof_bare hp
    rw [hb]
    exact constructAndAdd_plus spline we m gs order _ rfl

theorem readDof_bare (m : IModel N) (fs : List (DofFile N)) : readDof m.bare fs = readDof m fs := by
  have h : ∀ fs, readDofFiles m.bare fs = readDofFiles m fs := by
    intro fs
    induction fs with
    | nil => rfl
    | cons f fs ih => rw [readDofFiles, readDofFiles, ih]; rfl
  unfold readDof
  rw [h]
  rfl

theorem pmg_bare (m : IModel N) (ss : List PmgArg) :
    pmgDisplacementAmplitudes true m.bare ss = pmgDisplacementAmplitudes true m ss := by
  have h : ∀ ss, pmgDisplacements m.bare ss = pmgDisplacements m ss := by
    intro ss
    induction ss with
    | nil => rfl
    | cons f fs ih => rw [pmgDisplacements, pmgDisplacements, ih]; rfl
  unfold pmgDisplacementAmplitudes
  rw [h]
  rfl

theorem AddCall.run_plus (spline : SplineFn) (we : Bool) (m : IModel N) (c : AddCall N) (o : Outcome N)
    (ho : o = c.run spline we m.bare) (h : (c.run spline we m).result = .ok ()) :
    c.run spline we m = ⟨o.result, o.warnings, m.plus o.state⟩ := by
  subst ho
  cases c with
  | dof cart amps pols order => exact addDofNan_plus spline we m _ amps pols order true _ rfl h
  | files fs order =>
    unfold AddCall.run IModel.addDofFromFiles at h ⊢
    dsimp only at h ⊢
    rw [readDof_bare]
    rcases hr : readDof m fs with e | ⟨ds, amps, pols⟩
    · rw [hr] at h; cases h
    · rw [hr] at h
      cases ds with
      | nil => cases h
      | cons d0 ds => exact addDofNan_plus spline we m _ amps pols order true _ rfl h
  | pymatgen ss pols order =>
    unfold AddCall.run IModel.addDofFromPymatgen at h ⊢
    dsimp only at h ⊢
    rw [pmg_bare]
    rw [if_neg (by simp)] at h ⊢
    rw [if_neg (by simp)]
    rcases hr : pmgDisplacementAmplitudes true m ss with e | ⟨ds, amps⟩
    · rw [hr] at h; cases h
    · rw [hr] at h
      cases ds with
      | nil => cases h
      | cons d0 ds => exact addDofNan_plus spline we m _ amps pols order true _ rfl h
  | art a d amps pols =>
    unfold AddCall.run IModel.addArt at h ⊢
    dsimp only at h ⊢
    rw [show prepareArt m.bare a d amps pols = prepareArt m a d amps pols from rfl]
    rcases hr : prepareArt m a d amps pols with e | cart
    · rw [hr] at h; cases h
    · rw [hr] at h
      exact addDofNan_plus spline we m _ amps pols 1 false _ rfl h
  | artFiles fs =>
    unfold AddCall.run IModel.addArtFromFiles at h ⊢
    dsimp only at h ⊢
    rw [readDof_bare]
    rcases hr : readDof m fs with e | ⟨ds, amps, pols⟩
    · rw [hr] at h; cases h
    · rw [hr] at h
      cases ds with
      | nil => cases h
      | cons d0 ds =>
        dsimp only at h ⊢
        by_cases hm : multipleAtomsDisplaced d0 = true
        · rw [if_pos hm] at h; cases h
        · rw [if_neg hm] at h ⊢
          rw [if_neg hm]
          rcases hg : getDof m (some d0) amps pols false with e | gs
          · rw [hg] at h; cases h
          · rw [getDof_bare hg]
            cases gs with
            | nil => rw [hg] at h; cases h
            | cons g gs =>
              rw [hg] at h
              dsimp only at h ⊢
              by_cases hl : g.pts.length ≠ 2
              · rw [if_pos hl] at h; cases h
              · rw [if_neg hl, if_neg hl]
                exact constructAndAdd_plus spline we m (g :: gs) 1 _ rfl
  | artPymatgen ss pols =>
    unfold AddCall.run IModel.addArtFromPymatgen at h ⊢
    dsimp only at h ⊢
    rw [pmg_bare]
    rcases hr : pmgDisplacementAmplitudes true m ss with e | ⟨ds, amps⟩
    · rw [hr] at h; cases h
    · rw [hr] at h
      cases ds with
      | nil => cases h
      | cons d0 ds =>
        dsimp only at h ⊢
        by_cases hm : multipleAtomsDisplaced d0 = true
        · rw [if_pos hm] at h; cases h
        · rw [if_neg hm] at h ⊢
          rw [if_neg hm]
          rcases hg : getDof m (some d0) amps pols false with e | gs
          · rw [hg] at h; cases h
          · rw [getDof_bare hg]
            cases gs with
            | nil => rw [hg] at h; cases h
            | cons g gs =>
              rw [hg] at h
              dsimp only at h ⊢
              by_cases hl : g.pts.length ≠ 2
              · rw [if_pos hl] at h; cases h
              · rw [if_neg hl, if_neg hl]
                exact constructAndAdd_plus spline we m (g :: gs) 1 _ rfl

/-- After a successful script the model is the initial one followed by what every call adds to an empty
model. -/
theorem runScript_ok (spline : SplineFn) (we : Bool) : ∀ (cs : List (AddCall N)) (m m' : IModel N)
    (ws : List DofWarning), runScript spline we m cs = .ok (ws, m') →
    ws = cs.flatMap (fun c => (c.run spline we m.bare).warnings) ∧
    m' = { m with
      basis := m.basis ++ cs.flatMap fun c => (c.run spline we m.bare).state.basis
      interps := m.interps ++ cs.flatMap fun c => (c.run spline we m.bare).state.interps
      mask := m.mask ++ cs.flatMap fun c => (c.run spline we m.bare).state.mask } ∧
    ∀ c ∈ cs, (c.run spline we m.bare).result = .ok ()
  | [], m, m', ws, h => by
    cases h
    refine ⟨rfl, ?_, fun c hc => by cases hc⟩
    simp
  | c :: cs, m, m', ws, h => by
    rw [runScript] at h
    cases hr : (c.run spline we m).result with
    | error e => rw [hr] at h; cases h
    | ok u =>
      rw [hr] at h
      have hp := c.run_plus spline we m _ rfl hr
      rw [hp] at h
      dsimp only at h
      cases hs : runScript spline we (m.plus (c.run spline we m.bare).state) cs with
      | error e => rw [hs] at h; cases h
      | ok x =>
        obtain ⟨ws', m''⟩ := x
        rw [hs] at h
        obtain ⟨h1, h2, h3⟩ := runScript_ok spline we cs _ _ _ hs
        have hb : (m.plus (c.run spline we m.bare).state).bare = m.bare := rfl
        rw [hb] at h1 h2 h3
        cases h
        refine ⟨by rw [List.flatMap_cons, ← h1], ?_, fun d hd => ?_⟩
        · rw [h2]
          unfold IModel.plus
          simp only [List.flatMap_cons, List.append_assoc]
        · rcases List.mem_cons.1 hd with rfl | hd
          · rw [← hr, hp]
          · exact h3 d hd

theorem constructAndAdd_lengths (spline : SplineFn) (we : Bool) (m : IModel N) (gs : List (DofGroup N))
    (order : ℤ) (hm : m.interps.length = m.basis.length ∧ m.mask.length = m.basis.length)
    (hd : m.dummy = false) :
    (constructAndAdd spline we m gs order).state.interps.length =
      (constructAndAdd spline we m gs order).state.basis.length ∧
    (constructAndAdd spline we m gs order).state.mask.length =
      (constructAndAdd spline we m gs order).state.basis.length := by
  have hb : ∀ (k : ℕ) (gs : List (DofGroup N)) fs ws, buildAll spline we k gs = (.ok fs, ws) →
      fs.length = gs.length := by
    intro k gs
    induction gs with
    | nil => intro fs ws h; cases h; rfl
    | cons g gs ih =>
      intro fs ws h
      rw [buildAll] at h
      rcases h1 : buildOne spline we k g.pts with ⟨r, w⟩
      rw [h1] at h
      cases r with
      | error e => cases h
      | ok f =>
        dsimp only at h
        rcases h2 : buildAll spline we k gs with ⟨r', w'⟩
        rw [h2] at h
        cases r' with
        | error e => cases h
        | ok fs' => cases h; rw [List.length_cons, ih _ _ h2, List.length_cons]
  unfold constructAndAdd
  split_ifs
  · exact hm
  · rcases h1 : buildAll spline we order.toNat gs with ⟨r, ws⟩
    cases r with
    | error e => exact hm
    | ok fs =>
      dsimp only
      cases h2 : finiteBasis gs with
      | error e => exact hm
      | ok bs =>
        have e1 := hb _ _ _ _ h1
        have e2 := (finiteBasis_ok gs bs h2).length_eq
        simp only [hd]
        simp [hm.1, hm.2, e1, e2]

/-- Whatever a call does, the model stays or is changed by `_construct_and_add_interpolations`. -/
theorem AddCall.run_state (spline : SplineFn) (we : Bool) (m : IModel N) (c : AddCall N) :
    (c.run spline we m).state = m ∨
    ∃ gs order, (c.run spline we m).state = (constructAndAdd spline we m gs order).state := by
  have key : ∀ cart amps pols order inc,
      (m.addDofNan spline we cart amps pols order inc).state = m ∨
      ∃ gs order', (m.addDofNan spline we cart amps pols order inc).state =
        (constructAndAdd spline we m gs order').state := by
    intro cart amps pols order inc
    unfold IModel.addDofNan
    cases prepareDof m cart amps pols inc with
    | error e => exact Or.inl rfl
    | ok gs => exact Or.inr ⟨gs, order, rfl⟩
  cases c with
  | dof cart amps pols order => exact key _ _ _ _ _
  | files fs order =>
    unfold AddCall.run IModel.addDofFromFiles
    dsimp only
    rcases readDof m fs with e | ⟨ds, amps, pols⟩
    · exact Or.inl rfl
    · cases ds with
      | nil => exact Or.inl rfl
      | cons d0 ds => exact key _ _ _ _ _
  | pymatgen ss pols order =>
    unfold AddCall.run IModel.addDofFromPymatgen
    dsimp only
    rw [if_neg (by simp)]
    rcases pmgDisplacementAmplitudes true m ss with e | ⟨ds, amps⟩
    · exact Or.inl rfl
    · cases ds with
      | nil => exact Or.inl rfl
      | cons d0 ds => exact key _ _ _ _ _
  | art a d amps pols =>
    unfold AddCall.run IModel.addArt
    dsimp only
    rcases prepareArt m a d amps pols with e | cart
    · exact Or.inl rfl
    · exact key _ _ _ _ _
  | artFiles fs =>
    unfold AddCall.run IModel.addArtFromFiles
    dsimp only
    rcases readDof m fs with e | ⟨ds, amps, pols⟩
    · exact Or.inl rfl
    · cases ds with
      | nil => exact Or.inl rfl
      | cons d0 ds =>
        dsimp only
        split_ifs
        · exact Or.inl rfl
        · rcases getDof m (some d0) amps pols false with e | gs
          · exact Or.inl rfl
          · cases gs with
            | nil => exact Or.inl rfl
            | cons g gs =>
              dsimp only
              split_ifs
              · exact Or.inl rfl
              · exact Or.inr ⟨g :: gs, 1, rfl⟩
  | artPymatgen ss pols =>
    unfold AddCall.run IModel.addArtFromPymatgen
    dsimp only
    rcases pmgDisplacementAmplitudes true m ss with e | ⟨ds, amps⟩
    · exact Or.inl rfl
    · cases ds with
      | nil => exact Or.inl rfl
      | cons d0 ds =>
        dsimp only
        split_ifs
        · exact Or.inl rfl
        · rcases getDof m (some d0) amps pols false with e | gs
          · exact Or.inl rfl
          · cases gs with
            | nil => exact Or.inl rfl
            | cons g gs =>
              dsimp only
              split_ifs
              · exact Or.inl rfl
              · exact Or.inr ⟨g :: gs, 1, rfl⟩

theorem AddCall.run_lengths (spline : SplineFn) (we : Bool) (m : IModel N) (hd : m.dummy = false)
    (hm : m.interps.length = m.basis.length ∧ m.mask.length = m.basis.length) (c : AddCall N) :
    (c.run spline we m).state.interps.length = (c.run spline we m).state.basis.length ∧
    (c.run spline we m).state.mask.length = (c.run spline we m).state.basis.length := by
  rcases c.run_state spline we m with h | ⟨gs, order, h⟩
  · rw [h]; exact hm
  · rw [h]; exact constructAndAdd_lengths spline we m gs order hm hd

theorem AddCall.run_dummy (spline : SplineFn) (we : Bool) (m : IModel N) (hd : m.dummy = true)
    (c : AddCall N) : (c.run spline we m).state.interps = m.interps := by
  rcases c.run_state spline we m with h | ⟨gs, order, h⟩
  · rw [h]
  · rw [h]
    unfold constructAndAdd
    split_ifs
    · rfl
    · rcases buildAll spline we order.toNat gs with ⟨r, ws⟩
      cases r with
      | error e => rfl
      | ok fs =>
        dsimp only
        cases finiteBasis gs with
        | error e => rfl
        | ok bs => dsimp only; rw [if_pos hd]

theorem zip_flatMap {α β γ δ : Type} (f : α → List β) (g : α → List γ) (h : α → List δ) :
    ∀ l : List α, (∀ a ∈ l, (g a).length = (f a).length ∧ (h a).length = (f a).length) →
    (l.flatMap f).zip ((l.flatMap g).zip (l.flatMap h)) =
      l.flatMap fun a => (f a).zip ((g a).zip (h a))
  | [], _ => by simp
  | a :: l, hl => by
    obtain ⟨h1, h2⟩ := hl a (by simp)
    rw [List.flatMap_cons, List.flatMap_cons, List.flatMap_cons, List.flatMap_cons,
      List.zip_append (by rw [h1, h2]),
      List.zip_append (by rw [List.length_zip, h1, h2, min_self]),
      zip_flatMap f g h l fun x hx => hl x (by simp [hx])]

theorem length_flatMap {α β γ : Type} (f : α → List β) (g : α → List γ) : ∀ l : List α,
    (∀ a ∈ l, (g a).length = (f a).length) → (l.flatMap g).length = (l.flatMap f).length
  | [], _ => rfl
  | a :: l, hl => by
    rw [List.flatMap_cons, List.flatMap_cons, List.length_append, List.length_append, hl a (by simp),
      length_flatMap f g l fun x hx => hl x (by simp [hx])]

/-- C144: two scripts with the same calls in different order, from the same model: if both run through,
they issue the same warnings (in some order), store the same basis vectors (in some order), and the
final models give the same predictions (or failures) for all configurations. -/
theorem C144_order (spline : SplineFn) (we : Bool) (m m₁ m₂ : IModel N)
    (hm : m.dummy = true → m.interps = []) {cs cs' : List (AddCall N)}
    (hperm : cs.Perm cs') (ws₁ ws₂ : List DofWarning)
    (h₁ : runScript spline we m cs = .ok (ws₁, m₁)) (h₂ : runScript spline we m cs' = .ok (ws₂, m₂)) :
    ws₁.Perm ws₂ ∧ m₁.basis.Perm m₂.basis ∧
    (m.interps.length = m.basis.length → m.mask.length = m.basis.length → m.dummy = false →
      (m₁.basis.zip (m₁.interps.zip m₁.mask)).Perm (m₂.basis.zip (m₂.interps.zip m₂.mask))) ∧
    ∀ batch, m₁.calcPolarizabilities batch = m₂.calcPolarizabilities batch := by
  obtain ⟨w1, e1, -⟩ := runScript_ok spline we cs m m₁ ws₁ h₁
  obtain ⟨w2, e2, -⟩ := runScript_ok spline we cs' m m₂ ws₂ h₂
  have hzip : m.interps.length = m.basis.length → m.mask.length = m.basis.length → m.dummy = false →
      (m₁.basis.zip (m₁.interps.zip m₁.mask)).Perm (m₂.basis.zip (m₂.interps.zip m₂.mask)) := by
    intro hi hk hd
    have hl : ∀ c : AddCall N, (c.run spline we m.bare).state.interps.length =
          (c.run spline we m.bare).state.basis.length ∧
        (c.run spline we m.bare).state.mask.length = (c.run spline we m.bare).state.basis.length :=
      fun c => c.run_lengths spline we m.bare hd ⟨rfl, rfl⟩
    have hz : ∀ l : List (AddCall N),
        (m.basis ++ l.flatMap fun c => (c.run spline we m.bare).state.basis).zip
          ((m.interps ++ l.flatMap fun c => (c.run spline we m.bare).state.interps).zip
            (m.mask ++ l.flatMap fun c => (c.run spline we m.bare).state.mask)) =
        m.basis.zip (m.interps.zip m.mask) ++ l.flatMap fun c =>
          (c.run spline we m.bare).state.basis.zip
            ((c.run spline we m.bare).state.interps.zip (c.run spline we m.bare).state.mask) := by
      intro l
      rw [List.zip_append (by rw [hi, hk]), List.zip_append (by rw [List.length_zip, hi, hk, min_self]),
        zip_flatMap _ _ _ l fun c _ => hl c]
    rw [e1, e2]
    dsimp only
    rw [hz, hz]
    exact List.Perm.append_left _ (hperm.flatMap_right _)
  refine ⟨by rw [w1, w2]; exact hperm.flatMap_right _, ?_, hzip, fun batch => ?_⟩
  · rw [e1, e2]
    exact List.Perm.append_left _ (hperm.flatMap_right _)
  · have p1 : m₁.basis.length = m₂.basis.length := by
      rw [e1, e2]; exact (List.Perm.append_left _ (hperm.flatMap_right _)).length_eq
    have p2 : m₁.interps.length = m₂.interps.length := by
      rw [e1, e2]; exact (List.Perm.append_left _ (hperm.flatMap_right _)).length_eq
    have p3 : m₁.mask.length = m₂.mask.length := by
      rw [e1, e2]; exact (List.Perm.append_left _ (hperm.flatMap_right _)).length_eq
    have q1 : m₁.dummy = m.dummy := by rw [e1]
    have q2 : m₂.dummy = m.dummy := by rw [e2]
    have v : ∀ q, valueAt m₁ q = m.refPol + ((m₁.basis.zip (m₁.interps.zip m₁.mask)).map fun x =>
        if x.2.2 then 0 else x.2.1 (inner3 x.1 (toCart m.ref.lattice
          (calcDisplacement m.ref.positions q)))).sum := by
      intro q; rw [e1]; rfl
    have v' : ∀ q, valueAt m₂ q = m.refPol + ((m₂.basis.zip (m₂.interps.zip m₂.mask)).map fun x =>
        if x.2.2 then 0 else x.2.1 (inner3 x.1 (toCart m.ref.lattice
          (calcDisplacement m.ref.positions q)))).sum := by
      intro q; rw [e2]; rfl
    by_cases hl : m₁.interps.length = m₁.basis.length ∧ m₁.mask.length = m₁.basis.length
    · have hl' : m₂.interps.length = m₂.basis.length ∧ m₂.mask.length = m₂.basis.length := by
        rw [← p1, ← p2, ← p3]; exact hl
      rw [calc_ok m₁ hl.1 hl.2, calc_ok m₂ hl'.1 hl'.2]
      congr 2
      funext q
      rw [v, v']
      congr 1
      refine List.Perm.sum_eq (List.Perm.map _ ?_)
      cases hd : m.dummy with
      | true =>
        have hi : m₁.interps = [] := by
          rw [e1]
          dsimp only
          rw [hm hd, List.nil_append, List.flatMap_eq_nil_iff]
          intro c _
          exact c.run_dummy spline we m.bare hd
        have hb : m₁.basis = [] := List.length_eq_zero_iff.1 (by rw [← hl.1, hi]; rfl)
        have hb' : m₂.basis = [] := List.length_eq_zero_iff.1 (by rw [← p1, hb]; rfl)
        rw [hb, hb']
        simp
      | false =>
        have f1 := length_flatMap (fun c : AddCall N => (c.run spline we m.bare).state.basis)
          (fun c => (c.run spline we m.bare).state.interps) cs
          fun c _ => (c.run_lengths spline we m.bare hd ⟨rfl, rfl⟩).1
        have f2 := length_flatMap (fun c : AddCall N => (c.run spline we m.bare).state.basis)
          (fun c => (c.run spline we m.bare).state.mask) cs
          fun c _ => (c.run_lengths spline we m.bare hd ⟨rfl, rfl⟩).2
        rw [e1] at hl
        dsimp only at hl
        rw [List.length_append, List.length_append, List.length_append, f1, f2] at hl
        exact hzip (by omega) (by omega) hd
    · have hl' : ¬ (m₂.interps.length = m₂.basis.length ∧ m₂.mask.length = m₂.basis.length) := by
        rw [← p1, ← p2, ← p3]; exact hl
      rw [calc_err m₁ hl, calc_err m₂ hl', q1, q2]

/-- C144: freshly constructed models meet the hypothesis, and so does everything reachable by calls. -/
theorem C144_reachable (spline : SplineFn) (ref : RefStructure N) (pol : Mat3 ℝ) (dummy : Bool) (we : Bool)
    (cs : List (AddCall N)) (ws : List DofWarning) (m : IModel N)
    (h : runScript spline we (IModel.init ref pol dummy) cs = .ok (ws, m)) :
    m.dummy = true → m.interps = [] := by
  intro hd
  obtain ⟨-, e, -⟩ := runScript_ok spline we cs _ m ws h
  have hd' : dummy = true := by rw [e] at hd; exact hd
  rw [e]
  dsimp only
  rw [show (IModel.init ref pol dummy).interps = [] from rfl, List.nil_append, List.flatMap_eq_nil_iff]
  intro c _
  exact c.run_dummy spline we _ hd'

/-- In the mirror crystal, a model that holds the direction `y` refuses `(0, 3/5, 4/5)`. -/
theorem mir_refused (nums : Fin 1 → ℕ) (s : RefStructure 1)
    (hs : RefStructure.init mirSpglib nums 1 (fun _ _ => 0) = .ok s) (A B : Mat3 ℝ) (m : IModel 1)
    (hr : m.ref = s) (hdum : m.dummy = false) (hY : one1 mirY ∈ m.basis) :
    (m.addDof lookupSpline true (one1 mirU) [-(1 / 10), 1 / 10] [A, B] 2).result = .error .invalidDOF := by
  obtain ⟨hpos, hlat, _⟩ := init_facts hs
  have hu : usedPols m [-(1 / 10), 1 / 10] [A, B] = [A, B] := by unfold usedPols; rw [hdum]; rfl
  unfold IModel.addDof IModel.addDofNan
  rw [prepareDof_eq _ _ _ _ _ _ (mir_parent m (by rw [hr]; exact hlat) mirU mir_norms.1 mir_box.1)
    (by rw [hu]; rfl)]
  have hn : orthCheck m (some (one1 mirU)) ≠ -1 := by
    unfold orthCheck
    dsimp only
    rw [Ne, C08_all_orthogonal]
    intro hall
    obtain ⟨_, _, h2⟩ := hall (flat (one1 mirY)) (List.mem_map.2 ⟨_, hY, rfl⟩)
    rw [hr, getCart_of_box _ (one1 mirU) fun a i => mir_box.1 i, hlat, toCart_one] at h2
    unfold cosine at h2
    rw [show ∑ i, flat (one1 mirU) i * flat (one1 mirY) i = 3 / 50 by
        simp [flat, one1, mirV', mirY, mirU, Fintype.sum_prod_type, Fin.sum_univ_three],
      show ∑ i, flat (one1 mirU) i ^ 2 = (1 / 10) ^ 2 by
        simp [flat, one1, mirU, Fintype.sum_prod_type, Fin.sum_univ_three]; norm_num,
      show ∑ i, flat (one1 mirY) i ^ 2 = 1 ^ 2 by
        simp [flat, one1, mirY, mirV', Fintype.sum_prod_type, Fin.sum_univ_three],
      Real.sqrt_sq (by norm_num), Real.sqrt_sq (by norm_num)] at h2
    norm_num [angTol, abs_of_pos] at h2
  unfold getDof
  rw [if_pos hn]

/-- C144: whether a call succeeds does depend on the order.  One atom in a cubic cell with the mirror
plane `x ↔ y`: adding first the displacement `(0, 3/5, 4/5)` and then `x` succeeds; in the other order
the second call is refused, because the mirror image `y` of the first displacement is not orthogonal to
the second. -/
theorem C144_counterexample (nums : Fin 1 → ℕ) (pol A B C D : Mat3 ℝ) :
    ∃ (s : RefStructure 1) (c c' : AddCall 1),
      RefStructure.init mirSpglib nums 1 (fun _ _ => 0) = .ok s ∧
      c = .dof (one1 mirU) [-(1 / 10), 1 / 10] [A, B] 2 ∧
      c' = .dof (one1 mirV) [-(3 / 50), 3 / 50] [C, D] 2 ∧
      runScript lookupSpline true (IModel.init s pol false) [c, c'] =
        .ok ([], (c'.run lookupSpline true (c.run lookupSpline true (IModel.init s pol false)).state).state) ∧
      runScript lookupSpline true (IModel.init s pol false) [c', c] = .error .invalidDOF := by
  obtain ⟨s, hs, hops⟩ := mirInit nums
  obtain ⟨hpos, hlat, _⟩ := init_facts hs
  obtain ⟨f, h1, -⟩ := mir_add₁ nums s hs hops pol A B
  obtain ⟨g, h, h2, -, -⟩ := mir_add₂ nums s hs hops pol C D f _ rfl
  have ho : orthCheck (IModel.init s pol false) (some (one1 mirV)) = -1 := by
    unfold orthCheck
    dsimp only
    rw [C08_all_orthogonal]
    intro x hx
    simp [IModel.init] at hx
  obtain ⟨g', h', hgh, -, -⟩ := mir_addV nums s hs hops C D (IModel.init s pol false) rfl rfl ho
  refine ⟨s, _, _, hs, rfl, rfl, ?_, ?_⟩
  · unfold runScript
    simp only [AddCall.run, h1]
    unfold runScript
    simp only [AddCall.run, h2]
    rfl
  · unfold runScript
    simp only [AddCall.run, hgh]
    unfold runScript
    simp only [AddCall.run]
    rw [mir_refused nums s hs A B _ rfl rfl (by simp)]

/-- Without symmetry a displacement of norm 1/10 makes one degree of freedom, along itself. -/
theorem plain_add_any (s : RefStructure 1)
    (hs : RefStructure.init trivialSpglib (fun _ => 1) 1 (fun _ _ => 0) = .ok s)
    (hops : s.ops = [⟨1, 0⟩]) (u : Fin 3 → ℝ) (hu : u 0 ^ 2 + u 1 ^ 2 + u 2 ^ 2 = (1 / 10) ^ 2)
    (hub : ∀ j, InHalfBox (u j)) (pols : List (Mat3 ℝ)) (C D : Mat3 ℝ)
    (m : IModel 1) (hr : m.ref = s) (hus : usedPols m [-(3 / 50), 3 / 50] pols = [C, D])
    (ho : orthCheck m (some (one1 u)) = -1) : ∃ g : ℝ → Mat3 ℝ,
    m.addDof lookupSpline true (one1 u) [-(3 / 50), 3 / 50] pols 2 true
      = ⟨.ok (), [], { m with
          basis := m.basis ++ [one1 fun i => 10 * u i], interps := m.interps ++ (if m.dummy then [] else [g]),
          mask := m.mask ++ [false] }⟩ := by
  obtain ⟨hpos, hlat, hperm⟩ := init_facts hs
  have hgr : s.getEquivalentDisplacements (one1 u) = .ok (some [⟨[one1 u], [⟨1, 0⟩]⟩]) := by
    rw [hops] at hperm
    obtain ⟨P, Ps, hP, hperm, e1⟩ := List.forall₂_cons_left_iff.1 hperm
    cases hperm
    unfold RefStructure.getEquivalentDisplacements
    rw [mir_scale u hu hub]
    dsimp only
    rw [hops, e1, hpos]
    have c0 := mir_candidate P ⟨1, 0⟩ (by simp [mirOps]) hP u u hub (fun j => by
      simp [Matrix.one_apply])
    have i0 : eqInsert (⟨[], []⟩ : EqState 1) ⟨1, 0⟩ (one1 u)
        = ⟨[⟨[one1 u], [⟨1, 0⟩]⟩], [one1 u]⟩ := by
      unfold eqInsert isOrthogonalToAll
      simp [firstIndexFrom]
    simp only [List.zip_cons_cons, List.zip_nil_left, eqLoop]
    rw [c0]
    change (pure _ >>= _ : Py _) = _
    rw [i0]
    rfl
  have hne : one1 u ≠ 0 := fun h => one1_ne (vec_ne_zero hu) (by rw [h]; rfl)
  obtain ⟨g, hg, -, -⟩ := build_sym (3 / 50) (by norm_num) (by norm_num) 0
    ((1 : Mat3 ℝ)⁻¹ * (C - m.refPol) * (1 : Mat3 ℝ)) ((1 : Mat3 ℝ)⁻¹ * (D - m.refPol) * (1 : Mat3 ℝ))
  refine ⟨g, ?_⟩
  unfold IModel.addDof IModel.addDofNan
  rw [prepareDof_eq _ _ _ _ _ _ (mir_parent m (by rw [hr]; exact hlat) u hu hub)
    (by rw [hus]; rfl), getDof_eq _ _ _ _ _ _ ho (by rw [hr]; exact hgr)]
  have d1 := dofGroup_eq m [-(3 / 50), 3 / 50] [C, D] true
    ⟨[one1 u], [⟨1, 0⟩]⟩ (one1 u) [] rfl (by simp)
  simp only [List.zip_cons_cons, List.zip_nil_left, List.flatMap_cons, List.flatMap_nil,
    List.append_nil, multiplier_self _ hne, hr,
    mir_normalize s hlat u hu hub,
    List.map_cons, List.map_nil, imagePoint, refPoint, Option.map_some, one_mul, if_true,
    List.singleton_append] at d1
  rw [hus, List.mapM_cons, d1]
  change constructAndAdd _ _ _ [_] _ = _
  unfold constructAndAdd
  rw [if_neg (by norm_num)]
  have h2 : (2 : ℤ).toNat = 2 := rfl
  simp only [buildAll, h2, one_mul, mul_one, inv_one] at hg ⊢
  simp only [hg]
  cases hdum : m.dummy <;> simp [finiteBasis] <;> rfl

theorem plain_add (s : RefStructure 1)
    (hs : RefStructure.init trivialSpglib (fun _ => 1) 1 (fun _ _ => 0) = .ok s)
    (hops : s.ops = [⟨1, 0⟩]) (u : Fin 3 → ℝ) (hu : u 0 ^ 2 + u 1 ^ 2 + u 2 ^ 2 = (1 / 10) ^ 2)
    (hub : ∀ j, InHalfBox (u j)) (C D : Mat3 ℝ) (m : IModel 1) (hr : m.ref = s) (hdum : m.dummy = false)
    (ho : orthCheck m (some (one1 u)) = -1) : ∃ g : ℝ → Mat3 ℝ,
    m.addDof lookupSpline true (one1 u) [-(3 / 50), 3 / 50] [C, D] 2 true
      = ⟨.ok (), [], { m with
          basis := m.basis ++ [one1 fun i => 10 * u i], interps := m.interps ++ [g],
          mask := m.mask ++ [false] }⟩ := by
  obtain ⟨g, hg⟩ := plain_add_any s hs hops u hu hub [C, D] C D m hr
    (by unfold usedPols; rw [hdum]; rfl) ho
  refine ⟨g, ?_⟩
  rw [hg, hdum]
  rfl

theorem plain_orth (s : RefStructure 1) (hlat : s.lattice = 1) (m : IModel 1) (hr : m.ref = s)
    (u v : Fin 3 → ℝ) (hu : u 0 ^ 2 + u 1 ^ 2 + u 2 ^ 2 = (1 / 10) ^ 2)
    (hv : v 0 ^ 2 + v 1 ^ 2 + v 2 ^ 2 = (1 / 10) ^ 2)
    (hub : ∀ j, InHalfBox (u j)) (huv : u 0 * v 0 + u 1 * v 1 + u 2 * v 2 = 0)
    (hb : m.basis = [] ∨ m.basis = [one1 fun i => 10 * v i]) : orthCheck m (some (one1 u)) = -1 := by
  unfold orthCheck
  dsimp only
  rw [C08_all_orthogonal]
  intro x hx
  rcases hb with hb | hb
  · rw [hb] at hx; simp at hx
  · rw [hb] at hx
    simp only [List.map_cons, List.map_nil, List.mem_singleton] at hx
    subst hx
    rw [hr, getCart_of_box _ (one1 u) fun a i => hub i, hlat, toCart_one]
    refine ⟨one1_ne (vec_ne_zero hu), one1_ne ?_, ?_⟩
    · intro h0
      apply vec_ne_zero hv
      funext i
      have := congrFun h0 i
      simpa using this
    · have hz : cosine (flat (one1 u)) (flat (one1 fun i => 10 * v i)) = 0 := by
        unfold cosine
        rw [show ∑ i, flat (one1 u) i * flat (one1 fun i => 10 * v i) i = 0 by
          simp only [flat, one1, Fintype.sum_prod_type, Fin.sum_univ_three, Finset.univ_unique,
            Finset.sum_singleton]
          rw [show u 0 * (10 * v 0) + u 1 * (10 * v 1) + u 2 * (10 * v 2) =
            10 * (u 0 * v 0 + u 1 * v 1 + u 2 * v 2) by ring, huv, mul_zero]]
        simp
      rw [hz]; norm_num [angTol]

/-- C144, concrete: one atom in a cubic cell without symmetry, displaced along x and along y, arbitrary
polarizabilities.  Both orders run through, the stored directions come in different orders, and all
predictions agree. -/
example (A B C D pol : Mat3 ℝ) : ∃ (s : RefStructure 1) (m₁ m₂ : IModel 1),
    runScript lookupSpline true (IModel.init s pol false)
      [.dof (one1 mirV) [-(3 / 50), 3 / 50] [A, B] 2, .dof (one1 mirV') [-(3 / 50), 3 / 50] [C, D] 2]
        = .ok ([], m₁) ∧
    runScript lookupSpline true (IModel.init s pol false)
      [.dof (one1 mirV') [-(3 / 50), 3 / 50] [C, D] 2, .dof (one1 mirV) [-(3 / 50), 3 / 50] [A, B] 2]
        = .ok ([], m₂) ∧
    m₁.basis = [one1 mirX, one1 mirY] ∧ m₂.basis = [one1 mirY, one1 mirX] ∧
    ∀ batch, m₁.calcPolarizabilities batch = m₂.calcPolarizabilities batch := by
  obtain ⟨s, hs, hops⟩ := trivialInit
  obtain ⟨hpos, hlat, -⟩ := init_facts hs
  obtain ⟨_, _, n1, n2⟩ := mir_norms
  obtain ⟨_, _, b1, b2⟩ := mir_box
  have o : mirV 0 * mirV' 0 + mirV 1 * mirV' 1 + mirV 2 * mirV' 2 = 0 := by
    norm_num [mirV, mirV', vec_two]
  have o' : mirV' 0 * mirV 0 + mirV' 1 * mirV 1 + mirV' 2 * mirV 2 = 0 := by
    norm_num [mirV, mirV', vec_two]
  obtain ⟨f, h1⟩ := plain_add s hs hops mirV n1 b1 A B (IModel.init s pol false) rfl rfl
    (plain_orth s hlat _ rfl _ _ n1 n2 b1 o (Or.inl rfl))
  obtain ⟨g, h2⟩ := plain_add s hs hops mirV' n2 b2 C D (IModel.init s pol false) rfl rfl
    (plain_orth s hlat _ rfl _ _ n2 n1 b2 o' (Or.inl rfl))
  obtain ⟨g', h3⟩ := plain_add s hs hops mirV' n2 b2 C D { IModel.init s pol false with
      basis := [] ++ [one1 fun i => 10 * mirV i], interps := [] ++ [f], mask := [] ++ [false] } rfl rfl
    (plain_orth s hlat _ rfl _ _ n2 n1 b2 o' (Or.inr rfl))
  obtain ⟨f', h4⟩ := plain_add s hs hops mirV n1 b1 A B { IModel.init s pol false with
      basis := [] ++ [one1 fun i => 10 * mirV' i], interps := [] ++ [g], mask := [] ++ [false] } rfl rfl
    (plain_orth s hlat _ rfl _ _ n1 n2 b1 o (Or.inr rfl))
  have e₁ : ∃ m₁, runScript lookupSpline true (IModel.init s pol false)
      [.dof (one1 mirV) [-(3 / 50), 3 / 50] [A, B] 2, .dof (one1 mirV') [-(3 / 50), 3 / 50] [C, D] 2]
        = .ok ([], m₁) ∧ m₁.basis = [one1 mirX, one1 mirY] := by
    unfold runScript
    simp only [AddCall.run, h1]
    unfold runScript
    simp only [AddCall.run]
    erw [h3]
    exact ⟨_, rfl, rfl⟩
  have e₂ : ∃ m₂, runScript lookupSpline true (IModel.init s pol false)
      [.dof (one1 mirV') [-(3 / 50), 3 / 50] [C, D] 2, .dof (one1 mirV) [-(3 / 50), 3 / 50] [A, B] 2]
        = .ok ([], m₂) ∧ m₂.basis = [one1 mirY, one1 mirX] := by
    unfold runScript
    simp only [AddCall.run, h2]
    unfold runScript
    simp only [AddCall.run]
    erw [h4]
    exact ⟨_, rfl, rfl⟩
  obtain ⟨m₁, r1, q1⟩ := e₁
  obtain ⟨m₂, r2, q2⟩ := e₂
  exact ⟨s, m₁, m₂, r1, r2, q1, q2,
    (C144_order lookupSpline true (IModel.init s pol false) m₁ m₂ (fun h => by cases h)
      (List.Perm.swap _ _ _) [] [] r1 r2).2.2.2⟩

end

end Verif
