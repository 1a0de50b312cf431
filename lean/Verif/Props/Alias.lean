import Verif.Model.Alias
import Mathlib.Tactic.Common

/-!
# C91: arrays shared between objects and their users
-/

namespace Verif.Alias

variable {V : Type}

/-! ## Copies are new -/

theorem copy_spec (h : Heap V) (a : ℕ) (ha : a < h.length) :
    (copy h a).1 = h.length ∧ ∃ v, (copy h a).2 = h ++ [v] := by
  unfold copy alloc
  rw [List.getElem?_eq_getElem ha]
  exact ⟨rfl, _, rfl⟩

theorem copyAll_spec (h : Heap V) (as : List ℕ) (ha : ∀ a ∈ as, a < h.length) :
    ∃ t : Heap V, (copyAll h as).2 = h ++ t ∧
      (∀ a ∈ (copyAll h as).1, h.length ≤ a ∧ a < (h ++ t).length) := by
  induction as generalizing h with
  | nil => exact ⟨[], by simp [copyAll], by simp [copyAll]⟩
  | cons a as ih =>
    obtain ⟨h1, v, h2⟩ := copy_spec h a (ha a (by simp))
    obtain ⟨t, h3, h4⟩ := ih (copy h a).2 (fun x hx => by
      rw [h2, List.length_append]
      have := ha x (by simp [hx])
      omega)
    refine ⟨v :: t, ?_, ?_⟩
    · unfold copyAll
      dsimp only
      rw [h3, h2, List.append_assoc, List.singleton_append]
    · intro x hx
      unfold copyAll at hx
      dsimp only at hx
      rcases List.mem_cons.1 hx with rfl | hx
      · rw [h1]
        simp
      · have := h4 x hx
        rw [h2] at this
        simp only [List.length_append, List.length_cons, List.length_nil] at this ⊢
        omega

theorem getCopy_spec (h : Heap V) (a : ℕ) (ha : a < h.length) :
    ∃ v, getCopy h a = ⟨h ++ [v], [h.length], [], []⟩ := by
  obtain ⟨h1, v, h2⟩ := copy_spec h a ha
  exact ⟨v, by rw [getCopy, h1, h2]⟩

/-- What every method except `polarizability_ts` does: it only adds arrays to the heap, arrays
documented as copies are new, and the arrays of returned objects are new or belong to the object
itself. -/
structure Harmless (h : Heap V) (o : Obj) (r : Outcome V) : Prop where
  grow : ∃ t, r.heap = h ++ t
  fresh : ∀ a ∈ r.copies, h.length ≤ a ∧ a < r.heap.length
  objs : ∀ o' ∈ r.objs, ∀ a ∈ o'.attrs,
    a < r.heap.length ∧ a ∉ r.copies ∧ (h.length ≤ a ∨ a ∈ o.attrs)

theorem harmless_copy {h : Heap V} {o : Obj} {a : ℕ} (ha : a < h.length) :
    Harmless h o (getCopy h a) := by
  obtain ⟨v, hv⟩ := getCopy_spec h a ha
  rw [hv]
  exact ⟨⟨[v], rfl⟩, by simp, by simp⟩

theorem run_harmless (h : Heap V) (o : Obj) (m : Method V) (r : Outcome V)
    (ho : ∀ a ∈ o.attrs, a < h.length) (hm : m ≠ .polarizabilityTs) (hr : run h o m = some r) :
    Harmless h o r := by
  cases m <;> unfold run at hr <;> dsimp only at hr
  case polarizabilityTs => exact absurd rfl hm
  case atomicNumbers | lattice | positions | refPositions | wavenumbers | displacements |
    positionsTs | phononWavenumbers | ramanTensors | refPolarizability | mask |
    datasetAtomicNumbers | datasetPositions | datasetPolarizabilities | datasetScaled =>
    split at hr <;> [skip; cases hr]
    cases hr
    exact harmless_copy (ho _ (by simp))
  case phononsSpectrum t =>
    split at hr <;> [skip; cases hr]
    cases hr
    rename_i w _
    refine ⟨⟨[t], rfl⟩, by simp, ?_⟩
    intro o' ho' a ha
    rw [List.mem_singleton.1 ho'] at ha
    have hw := ho w (by simp)
    simp only [construct, alloc, List.mem_cons, List.not_mem_nil, or_false] at ha ⊢
    rcases ha with rfl | rfl
    · simp
      omega
    · simp
  case getItem =>
    split at hr <;> [skip; cases hr]
    cases hr
    exact ⟨⟨[], by simp⟩, by simp, by simp⟩
  case trajectorySpectrum t =>
    split at hr <;> [skip; cases hr]
    cases hr
    refine ⟨⟨[t], rfl⟩, by simp, ?_⟩
    intro o' ho' a ha
    rw [List.mem_singleton.1 ho'] at ha
    simp only [construct, alloc, List.mem_cons, List.not_mem_nil, or_false] at ha ⊢
    subst ha
    simp
  case measure t =>
    split at hr <;> [skip; cases hr]
    cases hr
    exact ⟨⟨[t], rfl⟩, by simp, by simp⟩
  case mdMeasure t t' =>
    split at hr <;> [skip; cases hr]
    cases hr
    exact ⟨⟨[t, t'], by simp [alloc]⟩, by simp, by simp⟩
  case refStructure =>
    split at hr <;> [skip; cases hr]
    cases hr
    rename_i n l p rest
    obtain ⟨t, h1, h2⟩ := copyAll_spec h [n, l, p] (by
      intro a ha
      apply ho
      simp at ha ⊢
      tauto)
    refine ⟨⟨t, h1⟩, by simp, ?_⟩
    intro o' ho' a ha
    rw [List.mem_singleton.1 ho'] at ha
    have := h2 a ha
    dsimp only
    rw [h1]
    exact ⟨this.2, by simp, Or.inl this.1⟩
  case cartBasisVectors =>
    split at hr <;> [skip; cases hr]
    cases hr
    rename_i bs
    obtain ⟨t, h1, h2⟩ := copyAll_spec h bs (by
      intro a ha
      apply ho
      simp at ha ⊢
      tauto)
    refine ⟨⟨t, h1⟩, ?_, by simp⟩
    intro a ha
    dsimp only
    rw [h1]
    exact h2 a ha
  case maskedModel t' =>
    split at hr <;> [skip; cases hr]
    rename_i n l p a0 _ bs
    obtain ⟨t, h1, h2⟩ := copyAll_spec h (n :: l :: p :: a0 :: bs) (by
      intro a ha
      apply ho
      simp at ha ⊢
      tauto)
    split at hr
    · rename_i n' l' p' a' bs' heq
      cases hr
      refine ⟨⟨t ++ [t'], by simp [alloc, h1]⟩, by simp, ?_⟩
      intro o' ho' a ha
      rw [List.mem_singleton.1 ho'] at ha
      rw [heq] at h2
      dsimp only at ha ⊢
      have hcase : a = (alloc (copyAll h (n :: l :: p :: a0 :: bs)).2 t').1 ∨
          a ∈ n' :: l' :: p' :: a' :: bs' := by
        simp only [List.mem_cons] at ha ⊢
        tauto
      refine ⟨?_, by simp, Or.inl ?_⟩
      · rcases hcase with rfl | hmem
        · simp [alloc]
        · have := (h2 a hmem).2
          simp only [alloc, h1, List.length_append, List.length_singleton] at this ⊢
          omega
      · rcases hcase with rfl | hmem
        · simp [alloc, h1]
        · exact (h2 a hmem).1
    · cases hr
  case sample =>
    split at hr <;> [skip; cases hr]
    cases hr
    exact ⟨⟨[], by simp⟩, by simp, by simp⟩

/-! ## C91 -/

/-- Programs that write only into arrays documented as copies and do not use
`MDRamanSpectrum.polarizability_ts`. -/
def Action.Polite : Action V → Prop
  | .call _ m => m ≠ .polarizabilityTs
  | .writeCopy _ _ => True
  | .writeRef _ _ => False

/-- No array handed out as a copy belongs to an object. -/
structure World.Separate (w : World V) : Prop where
  copies : ∀ a ∈ w.copies, a < w.heap.length
  objs : ∀ o ∈ w.objs, ∀ a ∈ o.attrs, a < w.heap.length ∧ a ∉ w.copies

theorem write_getElem? (h : Heap V) (a b : ℕ) (f : V → V) (hab : a ≠ b) :
    (write h a f)[b]? = h[b]? := by
  unfold write
  rw [List.getElem?_modify]
  simp only [if_neg hab]
  cases h[b]? <;> rfl

theorem write_same (h : Heap V) (a : ℕ) (v : V) (f : V → V) (ha : h[a]? = some v) :
    (write h a f)[a]? = some (f v) := by
  unfold write
  rw [List.getElem?_modify, ha]
  simp

theorem step_polite (w : World V) (x : Action V) (hw : w.Separate) (hx : x.Polite) :
    (w.step x).Separate ∧ (∃ t, (w.step x).objs = w.objs ++ t) ∧
      ∀ o ∈ w.objs, o.state (w.step x).heap = o.state w.heap := by
  cases x with
  | call k m =>
    unfold World.step
    dsimp only
    cases hk : w.objs[k]? with
    | none => exact ⟨hw, ⟨[], by simp⟩, fun _ _ => rfl⟩
    | some o =>
      dsimp only
      have hmem : o ∈ w.objs := List.mem_of_getElem? hk
      cases hr : run w.heap o m with
      | none => exact ⟨hw, ⟨[], by simp⟩, fun _ _ => rfl⟩
      | some r =>
        dsimp only
        obtain ⟨⟨t, ht⟩, hfresh, hobjs⟩ :=
          run_harmless w.heap o m r (fun a ha => (hw.objs o hmem a ha).1) hx hr
        have hlen : w.heap.length ≤ r.heap.length := by rw [ht, List.length_append]; omega
        refine ⟨⟨?_, ?_⟩, ⟨_, rfl⟩, ?_⟩
        · intro a ha
          rcases List.mem_append.1 ha with ha | ha
          · exact lt_of_lt_of_le (hw.copies a ha) hlen
          · exact (hfresh a ha).2
        · intro o' ho' a ha
          rcases List.mem_append.1 ho' with ho' | ho'
          · have := hw.objs o' ho' a ha
            refine ⟨lt_of_lt_of_le this.1 hlen, ?_⟩
            intro hc
            rcases List.mem_append.1 hc with hc | hc
            · exact this.2 hc
            · have := (hfresh a hc).1
              omega
          · obtain ⟨h1, h2, h3⟩ := hobjs o' ho' a ha
            refine ⟨h1, ?_⟩
            intro hc
            rcases List.mem_append.1 hc with hc | hc
            · rcases h3 with h3 | h3
              · have := hw.copies a hc
                omega
              · exact (hw.objs o hmem a h3).2 hc
            · exact h2 hc
        · intro o' ho'
          unfold Obj.state
          apply List.map_congr_left
          intro a ha
          rw [ht, List.getElem?_append_left (hw.objs o' ho' a ha).1]
  | writeCopy k f =>
    unfold World.step
    dsimp only
    cases hk : w.copies[k]? with
    | none => exact ⟨hw, ⟨[], by simp⟩, fun _ _ => rfl⟩
    | some a =>
      dsimp only
      have ha : a ∈ w.copies := List.mem_of_getElem? hk
      have hlen : (write w.heap a f).length = w.heap.length := by simp [write]
      refine ⟨⟨fun b hb => by rw [hlen]; exact hw.copies b hb, fun o ho b hb => ?_⟩,
        ⟨[], by simp⟩, ?_⟩
      · rw [hlen]
        exact hw.objs o ho b hb
      · intro o ho
        unfold Obj.state
        apply List.map_congr_left
        intro b hb
        apply write_getElem?
        rintro rfl
        exact (hw.objs o ho _ hb).2 ha
  | writeRef k f => exact absurd hx (by simp [Action.Polite])

/-- C91: whatever a program does with getters, spectra and arrays documented as copies, as long as it
does not use `MDRamanSpectrum.polarizability_ts` and does not write into other returned arrays, no
object changes. -/
theorem C91_copies (w : World V) (hw : w.Separate) (history : List (Action V))
    (hh : ∀ x ∈ history, x.Polite) :
    ∀ o ∈ w.objs, o.state (w.exec history).heap = o.state w.heap := by
  unfold World.exec
  induction history generalizing w with
  | nil => exact fun _ _ => rfl
  | cons x xs ih =>
    intro o ho
    obtain ⟨h1, ⟨t, ht⟩, h3⟩ := step_polite w x hw (hh x (by simp))
    rw [List.foldl_cons, ih (w.step x) h1 (fun y hy => hh y (by simp [hy])) o (by
      rw [ht]; exact List.mem_append_left _ ho), h3 o ho]

/-- C91: the getter `MDRamanSpectrum.polarizability_ts` is documented as returning a copy, but writing
into what it returns changes the spectrum. -/
theorem C91_md_leak (h : Heap V) (p : ℕ) (v : V) (hp : h[p]? = some v) (f : V → V)
    (hf : f v ≠ v) :
    let w : World V := ⟨h, [⟨.mdSpectrum, [p]⟩], [], []⟩
    let w' := w.exec [.call 0 .polarizabilityTs, .writeCopy 0 f]
    Obj.state w'.heap ⟨.mdSpectrum, [p]⟩ = [some (f v)] ∧
      Obj.state w'.heap ⟨.mdSpectrum, [p]⟩ ≠ Obj.state w.heap ⟨.mdSpectrum, [p]⟩ := by
  have h1 : (write h p f)[p]? = some (f v) := write_same h p v f hp
  have h2 : Obj.state (write h p f) ⟨.mdSpectrum, [p]⟩ = [some (f v)] := by
    simp [Obj.state, h1]
  refine ⟨h2, ?_⟩
  change Obj.state (write h p f) _ ≠ Obj.state h _
  rw [h2]
  simp [Obj.state, hp, hf]

/-- C91: writing into the wavenumbers returned by `PhononRamanSpectrum.measure` changes the spectrum
and also the `Phonons` it was calculated from. -/
theorem C91_measure_leak (h : Heap V) (p q d : ℕ) (v tensors intensities : V)
    (hq : h[q]? = some v) (f : V → V) (hf : f v ≠ v) :
    let w : World V := ⟨h, [⟨.phonons, [p, q, d]⟩], [], []⟩
    let w' := w.exec [.call 0 (.phononsSpectrum tensors), .call 1 (.measure intensities),
      .writeRef 0 f]
    w'.objs = [⟨.phonons, [p, q, d]⟩, ⟨.phononSpectrum, [q, h.length]⟩] ∧
      ∀ o ∈ w'.objs, ∃ k : ℕ, o.attrs[k]? = some q ∧ (Obj.state w'.heap o)[k]? = some (some (f v)) ∧
        h[q]? ≠ some (f v) := by
  have hlt : q < h.length := (List.getElem?_eq_some_iff.1 hq).1
  have h1 : (write ((h ++ [tensors]) ++ [intensities]) q f)[q]? = some (f v) := by
    apply write_same
    rw [List.append_assoc, List.getElem?_append_left hlt, hq]
  have hne : h[q]? ≠ some (f v) := by
    rw [hq]
    intro h'
    exact hf (Option.some.inj h').symm
  refine ⟨rfl, ?_⟩
  intro o ho
  change o ∈ [(⟨.phonons, [p, q, d]⟩ : Obj), ⟨.phononSpectrum, [q, h.length]⟩] at ho
  change ∃ k : ℕ, o.attrs[k]? = some q ∧
    (Obj.state (write ((h ++ [tensors]) ++ [intensities]) q f) o)[k]? = some (some (f v)) ∧ _
  rcases List.mem_pair.1 ho with rfl | rfl
  · refine ⟨1, rfl, ?_, hne⟩
    simp only [Obj.state, List.map_cons, List.getElem?_cons_succ, List.getElem?_cons_zero]
    rw [h1]
  · refine ⟨0, rfl, ?_, hne⟩
    simp only [Obj.state, List.map_cons, List.getElem?_cons_zero]
    rw [h1]

/-- C91: the frames obtained by indexing a trajectory are views: writing into them changes the
trajectory. -/
theorem C91_getitem_leak (h : Heap V) (p : ℕ) (v : V) (hp : h[p]? = some v) (f : V → V)
    (hf : f v ≠ v) :
    let w : World V := ⟨h, [⟨.trajectory, [p]⟩], [], []⟩
    Obj.state (w.exec [.call 0 .getItem, .writeRef 0 f]).heap ⟨.trajectory, [p]⟩ ≠
      Obj.state w.heap ⟨.trajectory, [p]⟩ := by
  have h1 : (write h p f)[p]? = some (f v) := write_same h p v f hp
  change Obj.state (write h p f) _ ≠ Obj.state h _
  simp [Obj.state, hp, h1, hf]

/-- C91: constructors keep the arrays that they are given (a trajectory keeps a new array): later
writes of the caller change structures, phonons and spectra but not trajectories. -/
theorem C91_constructors (h : Heap V) (a : ℕ) (v : V) (ha : h[a]? = some v) (f pbc : V → V)
    (hf : f v ≠ v) :
    (∀ c (args : List ℕ), a ∈ args →
      (construct c args).state (write h a f) ≠ (construct c args).state h) ∧
    ∃ o h', newTrajectory pbc h a = some (o, h') ∧ o.state h' = [some (pbc v)] ∧
      o.state (write h' a f) = o.state h' := by
  have hlt : a < h.length := (List.getElem?_eq_some_iff.1 ha).1
  constructor
  · intro c args hmem heq
    unfold Obj.state construct at heq
    have := List.map_inj_left.1 heq a hmem
    rw [ha, write_same h a v f ha] at this
    exact hf (Option.some.inj this)
  · refine ⟨⟨.trajectory, [h.length]⟩, h ++ [pbc v], ?_, ?_, ?_⟩
    · unfold newTrajectory
      rw [ha]
      rfl
    · simp [Obj.state]
    · unfold Obj.state
      simp only [List.map_cons, List.map_nil]
      rw [write_getElem? _ _ _ _ (by omega)]

/-- C91: the mask setter keeps the array that it is given; `unmask` then writes into the array of the
caller. -/
theorem C91_mask_setter (h : Heap V) (o : Obj) (value : ℕ) (v : V) (hv : h[value]? = some v)
    (clear : V → V) (o' : Obj) (ho : setMask o value = some o') :
    ∃ h', unmask clear h o' = some h' ∧ h'[value]? = some (clear v) := by
  unfold setMask at ho
  split at ho
  · cases ho
    exact ⟨_, rfl, write_same h value v clear hv⟩
  · cases ho

/-! ## Concrete programs -/

/-- Some phonons, a structure, a spectrum and a model in a heap of numbers. -/
def sampleWorld : World ℕ :=
  ⟨[10, 11, 12, 13, 14, 15], [⟨.phonons, [0, 1, 2]⟩, ⟨.referenceStructure, [3, 4, 0]⟩,
    ⟨.mdSpectrum, [5]⟩], [], []⟩

theorem sampleWorld_separate : sampleWorld.Separate where
  copies := by simp [sampleWorld]
  objs := by
    intro o ho a ha
    simp only [sampleWorld, List.mem_cons, List.not_mem_nil, or_false] at ho
    rcases ho with rfl | rfl | rfl <;> simp at ha <;> simp [sampleWorld] <;> omega

/-- C91, concrete: getters, spectra and writes. -/
example : ∀ o ∈ sampleWorld.objs, o.state (sampleWorld.exec [.call 0 .wavenumbers,
      .writeCopy 0 (· + 1), .call 0 (.phononsSpectrum 7), .call 3 .phononWavenumbers,
      .writeCopy 1 (· * 2), .call 1 .positions, .writeCopy 2 (fun _ => 0),
      .call 2 (.mdMeasure 8 9)]).heap = o.state sampleWorld.heap :=
  C91_copies _ sampleWorld_separate _ (by
    intro x hx
    simp only [List.mem_cons, List.not_mem_nil, or_false] at hx
    rcases hx with rfl | rfl | rfl | rfl | rfl | rfl | rfl | rfl <;> simp [Action.Polite])

/-- C91, concrete: the arrays that were written into are there and have changed. -/
example : (sampleWorld.exec [.call 0 .wavenumbers, .writeCopy 0 (· + 1)]).heap =
    [10, 11, 12, 13, 14, 15, 12] := by decide

/-- C91, concrete: the leak of `polarizability_ts`. -/
example : (sampleWorld.exec [.call 2 .polarizabilityTs, .writeCopy 0 (· + 1)]).heap =
    [10, 11, 12, 13, 14, 16] := by decide

end Verif.Alias
