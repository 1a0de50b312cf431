import Verif.Props.Spectrum
import Verif.Props.Convolve
import Verif.Props.Dynamics

/-!
# C153: the time step and the order of the modes

`Trajectory` refuses time steps that are not positive, `MDRamanSpectrum` does not
(`_raman.py` L212-216): the theorems about negative and zero steps concern spectra built directly.
-/

namespace Verif

noncomputable section

/-! ### Rescaling of time -/

theorem fftfreq_scaled (n : ℕ) (dt c : ℝ) (hc : 0 < c) :
    fftfreq n (c * dt) = (fun fs => fs.map (· / c)) <$> fftfreq n dt := by
  unfold fftfreq
  by_cases h : (n : ℝ) * dt = 0
  · rw [if_pos h, if_pos (by rw [mul_left_comm, h, mul_zero])]
    rfl
  · rw [if_neg h, if_neg (by rw [mul_left_comm]; exact mul_ne_zero hc.ne' h)]
    change Except.ok _ = Except.ok _
    congr 1
    dsimp only
    rw [List.map_append, List.map_map, List.map_map]
    congr 1 <;>
    · refine List.map_congr_left fun i _ => ?_
      simp only [Function.comp]
      rw [mul_left_comm, mul_div_assoc, div_div, mul_comm c]

theorem filter_scaled (ws is : List ℝ) (c : ℝ) (hc : 0 < c) :
    (((ws.map (· / c)).zip is).filter fun x => decide (x.1 ≥ 0))
      = ((ws.zip is).filter fun x => decide (x.1 ≥ 0)).map fun x => (x.1 / c, x.2) := by
  have h0 : ∀ y : ℝ, (y / c ≥ 0) ↔ y ≥ 0 := by
    intro y
    constructor
    · intro h
      have g := mul_nonneg h hc.le
      rwa [div_mul_cancel₀ _ hc.ne'] at g
    · intro h
      exact div_nonneg h hc.le
  rw [List.zip_map_left, List.filter_map]
  refine congrArg₂ List.map rfl ?_
  refine List.filter_congr fun x _ => ?_
  simp [Function.comp, h0 x.1]

theorem signal_scaled (x : List ℝ) (dt c : ℝ) (hc : 0 < c) :
    calcSignalSpectrum x (c * dt) = (fun p => (p.1.map (· / c), p.2)) <$> calcSignalSpectrum x dt := by
  unfold calcSignalSpectrum
  dsimp only
  rw [fftfreq_scaled _ _ _ hc]
  cases fftfreq (calcAutocorrelation x).length dt with
  | error e => rfl
  | ok fs =>
    change Except.ok _ = Except.ok _
    congr 1
    have e : (fs.map (· / c)).map (fun f => f * (3335640951981521 / 10 ^ 14) * 1000)
        = (fs.map fun f => f * (3335640951981521 / 10 ^ 14) * 1000).map (· / c) := by
      rw [List.map_map, List.map_map]
      refine List.map_congr_left fun f _ => ?_
      simp only [Function.comp]
      ring
    rw [e, filter_scaled _ _ _ hc]
    simp [List.map_map, Function.comp_def]

theorem mdRaw_scaled (ts : List (Mat3 ℝ)) (dt c : ℝ) (hc : 0 < c) :
    mdRaw ⟨ts, c * dt⟩ = (fun p => (p.1.map (· / c), p.2)) <$> mdRaw ⟨ts, dt⟩ := by
  unfold mdRaw
  dsimp only
  simp only [signal_scaled _ _ _ hc]
  cases calcSignalSpectrum ((npDiff ts).map fun A => A 0 0) dt with
  | error e => rfl
  | ok w =>
  cases calcSignalSpectrum ((npDiff ts).map fun A => A 0 0 + A 1 1 + A 2 2) dt with
  | error e => rfl
  | ok a =>
  cases calcSignalSpectrum ((npDiff ts).map fun A => A 0 0 - A 1 1) dt with
  | error e => rfl
  | ok g1 =>
  cases calcSignalSpectrum ((npDiff ts).map fun A => A 1 1 - A 2 2) dt with
  | error e => rfl
  | ok g2 =>
  cases calcSignalSpectrum ((npDiff ts).map fun A => A 2 2 - A 0 0) dt with
  | error e => rfl
  | ok g3 =>
  cases calcSignalSpectrum ((npDiff ts).map fun A => A 0 1) dt with
  | error e => rfl
  | ok g4 =>
  cases calcSignalSpectrum ((npDiff ts).map fun A => A 1 2) dt with
  | error e => rfl
  | ok g5 =>
  cases calcSignalSpectrum ((npDiff ts).map fun A => A 0 2) dt with
  | error e => rfl
  | ok g6 =>
    change Except.ok _ = Except.ok _
    rw [← List.map_tail]

/-- C153: a time step `c` times as long divides every wavenumber by `c` and leaves the uncorrected
intensities alone, in particular their number and order.  No condition on the time step itself or on
the number of configurations: spectra that cannot be measured stay so. -/
theorem C153_timestep (ts : List (Mat3 ℝ)) (dt c : ℝ) (hc : 0 < c) (args : MeasureArgs)
    (hl : args.laserCorrection = false) (hb : args.boseEinstein = false) :
    (MDSpectrum.measure ⟨ts, c * dt⟩ args).1
      = match (MDSpectrum.measure ⟨ts, dt⟩ args).1 with
        | .error e => .error e
        | .ok (ws, is) => .ok (ws.map (· / c), is) := by
  unfold MDSpectrum.measure
  by_cases ho : args.orientation = polycrystalline
  · simp only [ho, ne_eq, not_true_eq_false, if_false, mdRaw_scaled ts dt c hc]
    cases mdRaw ⟨ts, dt⟩ with
    | error e => rfl
    | ok p => simp [applyLaser, applyBose, hl, hb, bind, Except.bind, Functor.map, Except.map, pure,
        Except.pure]
  · simp [ho]

/-! ### Negative and zero time steps -/

theorem specAt_mirror (n : ℕ) (x : ℕ → ℝ) (k : ℕ) (hk : k ≤ n) (hn : 0 < n) :
    specAt n x (n - k) = specAt n x k := by
  unfold specAt
  refine Finset.sum_congr rfl fun j _ => ?_
  congr 1
  have hn' : (n : ℝ) ≠ 0 := by exact_mod_cast hn.ne'
  have e : 2 * Real.pi * (j : ℝ) * ((n - k : ℕ) : ℝ) / n
      = (j : ℝ) * (2 * Real.pi) - 2 * Real.pi * j * k / n := by
    rw [Nat.cast_sub hk]
    field_simp
  rw [e, Real.cos_nat_mul_two_pi_sub]

/-- `calc_signal_spectrum` with a negative time step. -/
theorem calcSignalSpectrum_neg (x : List ℝ) (hx : x ≠ []) (dt : ℝ) (hdt : dt < 0) :
    calcSignalSpectrum x dt = .ok
      (0 :: (List.range (x.length / 2)).map fun i : ℕ =>
        ((x.length / 2 - i : ℕ) : ℝ) * (1 / ((x.length : ℝ) * -dt)) * (3335640951981521 / 10 ^ 14)
          * 1000,
      (0 :: (List.range (x.length / 2)).map fun i => x.length / 2 - i).map
        (specAt x.length fun i => x.getD i 0)) := by
  have hn : 0 < x.length := List.length_pos_of_ne_nil hx
  have hn' : (0 : ℝ) < x.length := by exact_mod_cast hn
  have hlen : (calcAutocorrelation x).length = x.length := by
    rw [calcAutocorrelation_eq x hx]; simp
  unfold calcSignalSpectrum
  dsimp only
  rw [hlen]
  have hneg : (x.length : ℝ) * dt < 0 := mul_neg_of_pos_of_neg hn' hdt
  have hval : 1 / ((x.length : ℝ) * dt) < 0 := one_div_neg.2 hneg
  unfold fftfreq
  rw [if_neg hneg.ne]
  change Except.ok _ = Except.ok _
  congr 1
  rw [fft_re, hlen]
  have hspec : ∀ k : ℕ, (∑ j ∈ Finset.range x.length, (calcAutocorrelation x).getD j 0 *
      Real.cos (2 * Real.pi * j * k / x.length)) = specAt x.length (fun i => x.getD i 0) k := by
    intro k
    unfold specAt
    refine Finset.sum_congr rfl fun j hj => ?_
    rw [calcAutocorrelation_eq x hx, getD_map_range _ _ _ (Finset.mem_range.1 hj)]
  simp only [hspec]
  have hsplit : x.length = halfLen x.length + x.length / 2 := by unfold halfLen; omega
  have hrange : List.range x.length = List.range (halfLen x.length)
      ++ (List.range (x.length / 2)).map (halfLen x.length + ·) := by
    conv_lhs => rw [hsplit]
    rw [List.range_add]
  set c : ℝ := 3335640951981521 / 10 ^ 14 with hc
  have hcpos : 0 < c := by rw [hc]; norm_num
  rw [hrange, List.map_append, List.map_append, List.zip_append (by simp [halfLen]),
    List.filter_append]
  have hhead : List.filter (fun x : ℝ × ℝ => decide (x.1 ≥ 0))
      ((((List.range ((x.length - 1) / 2 + 1)).map fun i : ℕ =>
        (i : ℝ) * (1 / ((x.length : ℝ) * dt))).map (fun f => f * c * 1000)).zip
        ((List.range (halfLen x.length)).map (specAt x.length fun i => x.getD i 0)))
      = [(0, specAt x.length (fun i => x.getD i 0) 0)] := by
    unfold halfLen
    rw [List.map_map, List.zip_map', List.range_succ_eq_map, List.map_cons, List.filter_cons_of_pos
      (by simp)]
    congr 1
    · simp
    · rw [List.filter_eq_nil_iff]
      intro y hy
      simp only [List.map_map, List.mem_map, List.mem_range, Function.comp] at hy
      obtain ⟨i, _, rfl⟩ := hy
      have h1 : (0 : ℝ) < ((i.succ : ℕ) : ℝ) := by exact_mod_cast Nat.succ_pos i
      have h2 := mul_neg_of_pos_of_neg h1 hval
      have h3 := mul_neg_of_neg_of_pos h2 hcpos
      simp only [ge_iff_le, decide_eq_true_eq, not_le]
      linarith
  have htail : List.filter (fun x : ℝ × ℝ => decide (x.1 ≥ 0))
      ((((List.range (x.length / 2)).map fun i : ℕ =>
        ((i : ℝ) - ((x.length / 2 : ℕ) : ℝ)) * (1 / ((x.length : ℝ) * dt))).map
          (fun f => f * c * 1000)).zip
        (((List.range (x.length / 2)).map (halfLen x.length + ·)).map
          (specAt x.length fun i => x.getD i 0)))
      = (List.range (x.length / 2)).map fun i =>
        (((x.length / 2 - i : ℕ) : ℝ) * (1 / ((x.length : ℝ) * -dt)) * c * 1000,
          specAt x.length (fun i => x.getD i 0) (x.length / 2 - i)) := by
    rw [List.map_map, List.map_map, List.zip_map', List.filter_eq_self.2]
    · refine List.map_congr_left fun i hi => ?_
      rw [List.mem_range] at hi
      simp only [Function.comp]
      congr 1
      · rw [Nat.cast_sub hi.le, mul_neg, one_div_neg_eq_neg_one_div]
        ring
      · rw [show halfLen x.length + i = x.length - (x.length / 2 - i) by omega]
        exact specAt_mirror _ _ _ (by omega) hn
    · intro y hy
      simp only [List.mem_map, List.mem_range, Function.comp] at hy
      obtain ⟨i, hi, rfl⟩ := hy
      have h1 : (i : ℝ) - ((x.length / 2 : ℕ) : ℝ) < 0 := by
        have : (i : ℝ) < ((x.length / 2 : ℕ) : ℝ) := by exact_mod_cast hi
        linarith
      have h2 := mul_pos_of_neg_of_neg h1 hval
      have h3 := mul_pos h2 hcpos
      simp only [ge_iff_le, decide_eq_true_eq]
      linarith
  rw [hhead, htail]
  simp [List.map_map, Function.comp_def]

theorem mdRaw_neg (s : MDSpectrum) (hS : 2 ≤ s.polarizabilityTs.length) (hdt : s.timestep < 0) :
    mdRaw s = .ok
      ((List.range ((s.polarizabilityTs.length - 1) / 2)).map fun i : ℕ =>
        (((s.polarizabilityTs.length - 1) / 2 - i : ℕ) : ℝ)
          * (1 / (((s.polarizabilityTs.length - 1 : ℕ) : ℝ) * -s.timestep))
          * (3335640951981521 / 10 ^ 14) * 1000,
      (List.range ((s.polarizabilityTs.length - 1) / 2)).map fun i =>
        mdAt (npDiff s.polarizabilityTs) ((s.polarizabilityTs.length - 1) / 2 - i)) := by
  have hne : npDiff s.polarizabilityTs ≠ [] := by
    intro h
    have := npDiff_length s.polarizabilityTs
    rw [h] at this
    simp at this
    omega
  unfold mdRaw
  dsimp only
  rw [← npDiff_length]
  set ad := npDiff s.polarizabilityTs with had
  have hs : ∀ f : Mat3 ℝ → ℝ, f 0 = 0 → calcSignalSpectrum (ad.map f) s.timestep = .ok
      (0 :: (List.range (ad.length / 2)).map fun i : ℕ =>
        ((ad.length / 2 - i : ℕ) : ℝ) * (1 / ((ad.length : ℝ) * -s.timestep))
          * (3335640951981521 / 10 ^ 14) * 1000,
      (0 :: (List.range (ad.length / 2)).map fun i => ad.length / 2 - i).map
        (specAt ad.length fun i => f (ad.getD i 0))) := by
    intro f hf
    rw [calcSignalSpectrum_neg _ (by simpa using hne) _ hdt]
    simp only [List.length_map, getD_map ad f hf]
  rw [hs _ rfl, hs (fun A => A 0 0 + A 1 1 + A 2 2) (by simp), hs (fun A => A 0 0 - A 1 1) (by simp),
    hs (fun A => A 1 1 - A 2 2) (by simp), hs (fun A => A 2 2 - A 0 0) (by simp), hs (fun A => A 0 1) rfl,
    hs (fun A => A 1 2) rfl, hs (fun A => A 0 2) rfl]
  change Except.ok _ = Except.ok _
  congr 1
  dsimp only
  simp only [scaleL_map, addL_map]
  rw [List.tail_cons, List.map_cons, List.tail_cons, List.map_map]
  congr 1
  refine List.map_congr_left fun k _ => ?_
  simp only [Function.comp, specAt_quad, mdAt, Finset.mul_sum, ← Finset.sum_add_distrib]
  refine Finset.sum_congr rfl fun a _ => Finset.sum_congr rfl fun b _ => ?_
  unfold pairInt
  ring

theorem range_down (m : ℕ) : ((List.range m).map fun i => m - i) = ((List.range m).map (· + 1)).reverse := by
  induction m with
  | zero => rfl
  | succ m ih =>
    conv_rhs => rw [List.range_succ, List.map_append, List.reverse_append]
    rw [List.range_succ_eq_map, List.map_cons, List.map_map]
    change _ = [m + 1] ++ _
    rw [← ih]
    simp only [Nat.sub_zero, List.singleton_append, List.cons.injEq, true_and]
    refine List.map_congr_left fun i _ => ?_
    simp

/-- C153: a negative time step gives the lines of the positive one in reverse order, corrections
included.  If the number of configurations is odd there is one line more, at the Nyquist
wavenumber, which positive time steps leave out. -/
theorem C153_negative (ts : List (Mat3 ℝ)) (dt : ℝ) (hS : 2 ≤ ts.length) (hdt : 0 < dt)
    (args : MeasureArgs) (h : ArgsOK args) :
    ∃ ws is extra extraI, (MDSpectrum.measure ⟨ts, dt⟩ args).1 = .ok (ws, is) ∧
      (MDSpectrum.measure ⟨ts, -dt⟩ args).1 = .ok (extra ++ ws.reverse, extraI ++ is.reverse) ∧
      extra = (if ts.length % 2 = 1 then [33356.40951981521 / (2 * dt)] else []) ∧
      extraI.length = extra.length ∧ is.length = ws.length := by
  have hp := mdRaw_tail ⟨ts, dt⟩ hS hdt
  have hq := mdRaw_neg ⟨ts, -dt⟩ hS (neg_lt_zero.2 hdt)
  dsimp only at hp hq
  rw [neg_neg] at hq
  set w : ℕ → ℝ := fun k => (k : ℝ) * (1 / (((ts.length - 1 : ℕ) : ℝ) * dt))
          * (3335640951981521 / 10 ^ 14) * 1000 with hw
  set raw : ℕ → ℝ := mdAt (npDiff ts) with hraw
  -- both spectra as lists of indices
  have hp' : mdRaw ⟨ts, dt⟩ = .ok (((List.range ((ts.length - 2) / 2)).map (· + 1)).map w,
      ((List.range ((ts.length - 2) / 2)).map (· + 1)).map raw) := by
    rw [hp, List.map_map, List.map_map]; rfl
  have hq' : mdRaw ⟨ts, -dt⟩ = .ok (((List.range ((ts.length - 1) / 2)).map (· + 1)).reverse.map w,
      ((List.range ((ts.length - 1) / 2)).map (· + 1)).reverse.map raw) := by
    rw [hq, ← range_down, List.map_map, List.map_map]; rfl
  have mp := C52_md_measure _ _ _ hp' (by simp) args h
  have mq := C52_md_measure _ _ _ hq' (by simp) args h
  have hz : ∀ l : List ℕ, ((l.map w).zip (l.map raw)).map
      (fun x => (totalFactor args x.1).map (x.2 * ·))
      = l.map fun k => (totalFactor args (w k)).map (raw k * ·) := by
    intro l
    rw [List.zip_map', List.map_map]
    rfl
  rw [hz] at mp mq
  by_cases hodd : ts.length % 2 = 1
  · have e : (ts.length - 1) / 2 = (ts.length - 2) / 2 + 1 := by omega
    rw [e, List.range_succ, List.map_append, List.reverse_append] at mq
    refine ⟨_, _, [w ((ts.length - 2) / 2 + 1)],
      [(totalFactor args (w ((ts.length - 2) / 2 + 1))).map (raw ((ts.length - 2) / 2 + 1) * ·)],
      mp, ?_, ?_, rfl, by simp⟩
    · rw [mq]
      simp
    · rw [if_pos hodd]
      congr 1
      rw [hw]
      dsimp only
      have e2 : ((ts.length - 1 : ℕ) : ℝ) = 2 * (((ts.length - 2) / 2 + 1 : ℕ) : ℝ) := by
        have : ts.length - 1 = 2 * ((ts.length - 2) / 2 + 1) := by omega
        exact_mod_cast this
      have e3 : (((ts.length - 2) / 2 + 1 : ℕ) : ℝ) ≠ 0 := by
        exact_mod_cast Nat.succ_ne_zero ((ts.length - 2) / 2)
      rw [e2]
      field_simp
      norm_num
  · have e : (ts.length - 1) / 2 = (ts.length - 2) / 2 := by omega
    rw [e] at mq
    refine ⟨_, _, [], [], mp, ?_, ?_, rfl, by simp⟩
    · rw [mq]
      simp
    · rw [if_neg hodd]

/-- C153: with time step zero the spectrum cannot be measured. -/
theorem C153_zero (ts : List (Mat3 ℝ)) (args : MeasureArgs)
    (ho : args.orientation = polycrystalline) :
    (MDSpectrum.measure ⟨ts, 0⟩ args).1 = .error .zeroDivisionError := by
  unfold MDSpectrum.measure
  rw [if_neg (not_not.2 ho)]
  dsimp only
  unfold mdRaw
  dsimp only
  unfold calcSignalSpectrum
  dsimp only
  unfold fftfreq
  rw [if_pos (mul_zero _)]
  rfl

/-! ### Order of the modes -/

/-- Spectrum of modes given as pairs of wavenumber and displacement. -/
def modesMeasured (ref : Pos N ℝ) (modes : List (ℝ × Pos N ℝ)) (model : PolModel N)
    (args : MeasureArgs) : Py (List ℝ × List (Option ℝ)) := do
  let ph ← Phonons.init ref (modes.map Prod.fst) (modes.map Prod.snd)
  let s ← ph.getRamanSpectrum model
  (s.measure args).1

/-- The Raman tensor of a mode, zero if it cannot be computed. -/
def tensorOf (ref : Pos N ℝ) (model : PolModel N) (m : ℝ × Pos N ℝ) : Mat3 ℝ :=
  match ramanTensor model ref m.2 with
  | .error _ => 0
  | .ok R => R

theorem modes_facts {ref : Pos N ℝ} {modes : List (ℝ × Pos N ℝ)} {model : PolModel N}
    {args : MeasureArgs} {r : List ℝ × List (Option ℝ)}
    (h : modesMeasured ref modes model args = .ok r) :
    modes ≠ [] ∧ ∀ m ∈ modes, ramanTensor model ref m.2 = .ok (tensorOf ref model m) := by
  unfold modesMeasured Phonons.init at h
  rw [if_neg (by simp)] at h
  change (Phonons.getRamanSpectrum _ model >>= _) = _ at h
  unfold Phonons.getRamanSpectrum at h
  dsimp only at h
  cases hm : (modes.map Prod.snd).mapM (ramanTensor model ref) with
  | error e => rw [hm] at h; cases h
  | ok ts =>
    refine ⟨?_, ?_⟩
    · rintro rfl
      rw [hm] at h
      have : ts = [] := by cases hm; rfl
      subst this
      cases h
    · intro m hm'
      have hf := (mapM_except_ok _ _ _).1 hm
      rw [List.forall₂_map_left_iff] at hf
      have key : ∀ (l : List (ℝ × Pos N ℝ)) (r : List (Mat3 ℝ)),
          List.Forall₂ (fun a b => ramanTensor model ref a.2 = .ok b) l r →
          ∀ m ∈ l, ∃ R, ramanTensor model ref m.2 = .ok R := by
        intro l r hlr
        induction hlr with
        | nil => intro m hm; cases hm
        | cons h1 _ ih =>
          intro m hm
          rcases List.mem_cons.1 hm with rfl | hm
          · exact ⟨_, h1⟩
          · exact ih m hm
      obtain ⟨R, hR⟩ := key _ _ hf m hm'
      unfold tensorOf
      rw [hR]

theorem modes_value {ref : Pos N ℝ} {modes : List (ℝ × Pos N ℝ)} {model : PolModel N}
    {args : MeasureArgs} (ha : ArgsOK args) (hne : modes ≠ [])
    (h : ∀ m ∈ modes, ramanTensor model ref m.2 = .ok (tensorOf ref model m)) :
    modesMeasured ref modes model args = .ok (modes.map Prod.fst, modes.map fun m =>
      (totalFactor args m.1).map (rawIntensity (tensorOf ref model m) * ·)) := by
  have hm : (modes.map Prod.snd).mapM (ramanTensor model ref)
      = .ok (modes.map (tensorOf ref model)) := by
    rw [mapM_except_ok, List.forall₂_map_left_iff, List.forall₂_map_right_iff]
    exact List.forall₂_same.2 h
  have hi : PhononSpectrum.init (modes.map Prod.fst) (modes.map (tensorOf ref model))
      = .ok ⟨modes.map Prod.fst, modes.map (tensorOf ref model)⟩ := by
    unfold PhononSpectrum.init
    rw [if_neg (by simp)]
  unfold modesMeasured Phonons.init
  rw [if_neg (by simp)]
  change (Phonons.getRamanSpectrum _ model >>= _) = _
  unfold Phonons.getRamanSpectrum
  dsimp only
  rw [hm]
  change ((if (modes.map (tensorOf ref model)).isEmpty = true then _ else _) >>= _) = _
  rw [if_neg (by simpa using hne), hi]
  change (PhononSpectrum.measure _ args).1 = _
  rw [C52_phonon_measure _ _ _ hi args ha, List.zip_map', List.map_map]
  rfl

/-- C153: listing the modes in another order lists the lines in another order and changes
nothing else. -/
theorem C153_modes (ref : Pos N ℝ) (modes modes' : List (ℝ × Pos N ℝ)) (hp : modes.Perm modes')
    (model : PolModel N) (args : MeasureArgs) (ha : ArgsOK args) (ws : List ℝ)
    (is : List (Option ℝ)) (h : modesMeasured ref modes model args = .ok (ws, is)) :
    ∃ ws' is', modesMeasured ref modes' model args = .ok (ws', is') ∧
      is'.length = ws'.length ∧ (ws.zip is).Perm (ws'.zip is') := by
  obtain ⟨hne, hall⟩ := modes_facts h
  have hne' : modes' ≠ [] := fun e => hne (by rw [e] at hp; exact hp.eq_nil)
  rw [modes_value ha hne hall] at h
  have h := Except.ok.inj h
  obtain ⟨rfl, rfl⟩ := Prod.mk.inj h
  refine ⟨_, _, modes_value ha hne' fun m hm => hall m (hp.mem_iff.2 hm), by simp, ?_⟩
  rw [List.zip_map', List.zip_map']
  exact hp.map _

/-- C153: the convolved spectrum does not depend on the order of the modes. -/
theorem C153_convolved (ref : Pos N ℝ) (modes modes' : List (ℝ × Pos N ℝ)) (hp : modes.Perm modes')
    (model : PolModel N) (args : MeasureArgs) (ha : ArgsOK args) (ws ws' is is' : List ℝ)
    (h : modesMeasured ref modes model args = .ok (ws, is.map some))
    (h' : modesMeasured ref modes' model args = .ok (ws', is'.map some))
    (function : List Char) (hf : Supported function) (width : ℝ) (hw : 0 < width)
    (o : Option (List ℝ)) :
    convolveSpectrum ws' is' function width o = convolveSpectrum ws is function width o := by
  obtain ⟨ws₁, is₁, h1, hl1, hperm⟩ := C153_modes ref modes modes' hp model args ha _ _ h
  obtain ⟨ws₂, is₂, h2, hl2, _⟩ := C153_modes ref modes' modes hp.symm model args ha _ _ h'
  rw [h'] at h1
  rw [h] at h2
  obtain ⟨rfl, rfl⟩ := Prod.mk.inj (Except.ok.inj h1)
  obtain ⟨rfl, rfl⟩ := Prod.mk.inj (Except.ok.inj h2)
  rw [List.length_map] at hl1 hl2
  have hq : (ws.zip is).Perm (ws'.zip is') := by
    rw [List.zip_map_right, List.zip_map_right] at hperm
    refine (List.map_perm_map_iff ?_).1 hperm
    rintro ⟨a, b⟩ ⟨a', b'⟩ hab
    simpa using hab
  have := C56_permutation _ _ hq function hf width hw o
  rwa [List.map_fst_zip hl1.ge, List.map_snd_zip hl1.le, List.map_fst_zip hl2.ge,
    List.map_snd_zip hl2.le] at this

/-! ### Concrete cases -/

/-- Four configurations whose polarizability jumps. -/
def fourJumps : List (Mat3 ℝ) := [0, 1, 0, 0]

/-- Five configurations: one interior line, and one at the Nyquist wavenumber if the time step is negative. -/
def fiveJumps : List (Mat3 ℝ) := [0, 1, 0, 0, 1]

theorem plainArgs_ok : ArgsOK plainArgs :=
  ⟨rfl, fun h => absurd h (by decide), fun h => absurd h (by decide)⟩

/-- C153, concrete: four configurations give one line whatever the sign of the time step; doubling
the time step halves its wavenumber. -/
example : ∃ ws is, (MDSpectrum.measure ⟨fourJumps, 1⟩ plainArgs).1 = .ok (ws, is) ∧ ws.length = 1 ∧
    (MDSpectrum.measure ⟨fourJumps, -1⟩ plainArgs).1 = .ok (ws, is) ∧
    (MDSpectrum.measure ⟨fourJumps, 2⟩ plainArgs).1 = .ok (ws.map (· / 2), is) := by
  obtain ⟨ws, is, e, eI, h1, h2, h3, h4, h5⟩ := C153_negative fourJumps 1 (by simp [fourJumps])
    one_pos plainArgs plainArgs_ok
  have hw : ws.length = 1 := by
    have h6 := C52_md_measure _ _ _ (mdRaw_tail ⟨fourJumps, 1⟩ (by simp [fourJumps]) one_pos) (by simp)
      plainArgs plainArgs_ok
    rw [h1] at h6
    have := (Prod.mk.inj (Except.ok.inj h6)).1
    rw [this]
    simp [fourJumps]
  rw [if_neg (by simp [fourJumps])] at h3
  subst h3
  obtain rfl := List.length_eq_zero_iff.1 h4
  obtain ⟨w, rfl⟩ := List.length_eq_one_iff.1 hw
  obtain ⟨i, rfl⟩ := List.length_eq_one_iff.1 (h5.trans hw)
  refine ⟨_, _, h1, rfl, h2, ?_⟩
  have := C153_timestep fourJumps 1 2 two_pos plainArgs rfl rfl
  rwa [h1, mul_one] at this

/-- C153, concrete: five configurations give one line for a positive and two for a negative step. -/
example : ∃ w i i', (MDSpectrum.measure ⟨fiveJumps, 1⟩ plainArgs).1 = .ok ([w], [i]) ∧
    (MDSpectrum.measure ⟨fiveJumps, -1⟩ plainArgs).1
      = .ok ([33356.40951981521 / (2 * 1), w], [i', i]) := by
  obtain ⟨ws, is, e, eI, h1, h2, h3, h4, h5⟩ := C153_negative fiveJumps 1 (by simp [fiveJumps])
    one_pos plainArgs plainArgs_ok
  have hw : ws.length = 1 := by
    have h6 := C52_md_measure _ _ _ (mdRaw_tail ⟨fiveJumps, 1⟩ (by simp [fiveJumps]) one_pos) (by simp)
      plainArgs plainArgs_ok
    rw [h1] at h6
    have := (Prod.mk.inj (Except.ok.inj h6)).1
    rw [this]
    simp [fiveJumps]
  rw [if_pos (by simp [fiveJumps])] at h3
  subst h3
  obtain ⟨i', rfl⟩ := List.length_eq_one_iff.1 h4
  obtain ⟨w, rfl⟩ := List.length_eq_one_iff.1 hw
  obtain ⟨i, rfl⟩ := List.length_eq_one_iff.1 (h5.trans hw)
  exact ⟨w, i, i', h1, h2⟩

/-- A model that responds to the first coordinate of a single atom. -/
def firstCoordinate : PolModel 1 := fun ps => .ok (ps.map fun p => p 0 0 • (1 : Mat3 ℝ))

/-- Two modes, along the first and along the second coordinate. -/
def twoModes : List (ℝ × Pos 1 ℝ) := [(100, fun _ => ![1, 0, 0]), (200, fun _ => ![0, 1, 0])]

theorem firstCoordinate_tensor (d : Pos 1 ℝ) :
    ramanTensor firstCoordinate 0 d
      = .ok ((1 / centralDifference) • (((0 : ℝ) + d 0 0 * centralDifference) • (1 : Mat3 ℝ)
        - ((0 : ℝ) - d 0 0 * centralDifference) • (1 : Mat3 ℝ))) := rfl

/-- C153, concrete: the two modes can be measured in either order, one of them shines. -/
example : ∃ ws is ws' is', modesMeasured 0 twoModes firstCoordinate plainArgs = .ok (ws, is) ∧
    modesMeasured 0 twoModes.reverse firstCoordinate plainArgs = .ok (ws', is') ∧
    (ws.zip is).Perm (ws'.zip is') ∧ ws = [100, 200] ∧ ws' = [200, 100] := by
  have hall : ∀ m ∈ twoModes,
      ramanTensor firstCoordinate 0 m.2 = .ok (tensorOf 0 firstCoordinate m) := by
    intro m _
    unfold tensorOf
    rw [firstCoordinate_tensor]
  have h := modes_value plainArgs_ok (by simp [twoModes]) hall
  obtain ⟨ws', is', h1, _, h2⟩ := C153_modes 0 twoModes twoModes.reverse
    (List.reverse_perm _).symm firstCoordinate plainArgs plainArgs_ok _ _ h
  refine ⟨_, _, _, _, h, h1, h2, rfl, ?_⟩
  have h3 := modes_value (modes := twoModes.reverse) plainArgs_ok (by simp [twoModes])
    fun m hm => hall m (by simpa using hm)
  rw [h1] at h3
  exact (Prod.mk.inj (Except.ok.inj h3)).1

end

end Verif
