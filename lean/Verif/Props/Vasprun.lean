import Verif.Proofs.Vasprun

/-!
# Properties C71, C72, C96, C97: `vasprun.xml` files
-/

namespace Verif

/-! ## C72: positions and trajectories -/

theorem find_positions_iff (root v : Elem) :
    root.find [named "structure" "initialpos", plain "varray"] = some v ↔
      Spec.HoldsPositions root v := by
  rw [find_iff]
  unfold Spec.HoldsPositions
  refine exists_congr fun s => and_congr (isFirst_congr (fun x => ?_) _ _) ?_
  · rw [named_selects, find_isSome_iff]
    refine and_congr Iff.rfl (exists_congr fun c => and_congr Iff.rfl ?_)
    rw [plain_selects]
    simp [find_nil]
  · rw [find_last_iff]
    exact isFirst_congr (fun x => plain_selects _ _) _ _

/-- C72: `read_positions` returns exactly the numbers in the first `varray` of the first structure
named `initialpos` that has one. -/
theorem C72_positions (root : Elem) (rows : List (List Num)) :
    vasprunPositions root = .ok rows ↔
      ∃ v, Spec.HoldsPositions root v ∧ Spec.RowsOf v rows := by
  unfold vasprunPositions vasprunInitialPositions
  rw [findVarray_iff]
  exact exists_congr fun v => and_congr (find_positions_iff root v) Iff.rfl

/-- C72: without such an element the file is refused. -/
theorem C72_no_positions (root : Elem) (h : Spec.NoPositions root) :
    vasprunPositions root = .error .invalidFile := by
  unfold vasprunPositions vasprunInitialPositions findVarray
  cases hf : root.find [named "structure" "initialpos", plain "varray"] with
  | none => rfl
  | some v =>
    obtain ⟨s, ⟨pre, post, hs, ⟨hi, c, hc, ht⟩, -⟩, -⟩ := (find_positions_iff root v).1 hf
    exact absurd ht (h s (by rw [hs]; simp) hi c hc)

/-- The first three-column `varray` of a structure. -/
def FrameOf (s : Elem) (frame : List NumVec) : Prop :=
  ∃ v, Spec.IsFirst (fun c => c.tag = "varray".toList) s.children v ∧
    Spec.RowsOf v (frame.map fun x => [x 0, x 1, x 2])

/-- The time step of the file. -/
def TimestepIs (root : Elem) (t : ℚ) : Prop :=
  ∃ e s, Spec.FirstChain [Spec.Tag "parameters", Spec.TagNamed "separator" "ionic",
      Spec.TagNamed "i" "POTIM"] root e ∧
    e.text = some s ∧ parseFloat (strip s) = some (some t)

theorem vasprunTimestep_iff (root : Elem) (t : ℚ) :
    vasprunTimestep root = .ok (some t) ↔ TimestepIs root t := by
  unfold vasprunTimestep TimestepIs
  have hfind : ∀ e, root.find [plain "parameters", named "separator" "ionic", named "i" "POTIM"] =
      some e ↔ Spec.FirstChain [Spec.Tag "parameters", Spec.TagNamed "separator" "ionic",
        Spec.TagNamed "i" "POTIM"] root e := by
    intro e
    rw [find_chain_iff]
    simp only [List.map_cons, List.map_nil, plain_pred, named_pred]
  simp only [← hfind]
  cases root.find [plain "parameters", named "separator" "ionic", named "i" "POTIM"] with
  | none =>
    constructor
    · intro h; cases h
    · rintro ⟨e, s, h, -⟩; cases h
  | some e =>
    dsimp only
    cases ht : e.text with
    | none =>
      constructor
      · intro h; cases h
      · rintro ⟨e', s, h, h', -⟩
        obtain rfl := Option.some.inj h
        rw [ht] at h'; cases h'
    | some s =>
      dsimp only
      cases hp : parseFloat (strip s) with
      | none =>
        constructor
        · intro h; cases h
        · rintro ⟨e', s', h, h', h2⟩
          obtain rfl := Option.some.inj h
          rw [ht] at h'
          obtain rfl := Option.some.inj h'
          rw [hp] at h2; cases h2
      | some x =>
        dsimp only
        constructor
        · intro h
          rw [Except.ok.inj h] at hp
          exact ⟨e, s, rfl, ht, hp⟩
        · rintro ⟨e', s', h, h', h2⟩
          obtain rfl := Option.some.inj h
          rw [ht] at h'
          obtain rfl := Option.some.inj h'
          rw [hp] at h2
          rw [Option.some.inj h2]

theorem structurePositions_iff (s : Elem) (rows : List (List Num)) :
    structurePositions s = .ok rows ↔
      ∃ v, Spec.IsFirst (fun c => c.tag = "varray".toList) s.children v ∧ Spec.RowsOf v rows := by
  unfold structurePositions
  rw [findVarray_iff]
  refine exists_congr fun v => and_congr ?_ Iff.rfl
  rw [find_last_iff]
  exact isFirst_congr (fun x => plain_selects _ _) _ _

theorem mapM_toVec_eq_some {rows : List (List Num)} {vs : List NumVec}
    (h : rows.mapM toVec = some vs) : rows = vs.map fun v => [v 0, v 1, v 2] := by
  replace h := (mapM_option_iff _ _ _).1 h
  induction h with
  | nil => rfl
  | cons hx _ ih => rw [List.map_cons, ← ih, ← toVec_eq_some hx]

theorem stackPositions_iff (frames : List (List (List Num))) (hne : frames ≠ [])
    (ps : List (List NumVec)) :
    stackPositions frames = .ok ps ↔
      frames = ps.map (fun f => f.map fun v => [v 0, v 1, v 2]) ∧
        ∃ n, 0 < n ∧ ∀ f ∈ ps, f.length = n := by
  unfold stackPositions
  have hiff : ∀ qs, frames.mapM (fun f => f.mapM toVec) = some qs ↔
      frames = qs.map (fun f => f.map fun v => [v 0, v 1, v 2]) := by
    intro qs
    constructor
    · intro h
      replace h := (mapM_option_iff _ _ _).1 h
      clear hne
      induction h with
      | nil => rfl
      | cons hx _ ih => rw [List.map_cons, ← ih, ← mapM_toVec_eq_some hx]
    · rintro rfl
      rw [mapM_option_iff, List.forall₂_map_left_iff, List.forall₂_same]
      exact fun f _ => mapM_toVec_rows f
  cases hm : frames.mapM (fun f => f.mapM toVec) with
  | none =>
    constructor
    · intro h; cases h
    · rintro ⟨h, -⟩
      rw [(hiff ps).2 h] at hm; cases hm
  | some qs =>
    have hq := (hiff qs).1 hm
    cases qs with
    | nil => exact absurd hq hne
    | cons f fs =>
      dsimp only
      constructor
      · intro h
        split_ifs at h with hc
        obtain rfl := Except.ok.inj h
        refine ⟨hq, f.length, List.length_pos_iff.2 hc.1, ?_⟩
        intro g hg
        rcases List.mem_cons.1 hg with rfl | hg
        · rfl
        · exact hc.2 g hg
      · rintro ⟨h, n, hn, hall⟩
        have := (hiff ps).2 h
        rw [hm] at this
        obtain rfl := Option.some.inj this
        rw [if_pos]
        refine ⟨?_, fun g hg => ?_⟩
        · rintro rfl
          have := hall [] (by simp)
          simp at this
          omega
        · rw [hall g (by simp [hg]), hall f (by simp)]

theorem mem_unnamed_iff (root : Elem) (e : Elem) :
    e ∈ unnamedStructures root ↔
      e ∈ root.children ∧ e.tag = "structure".toList ∧ ¬ Spec.HasName e := by
  unfold unnamedStructures Spec.HasName
  rw [List.mem_filter, List.mem_filter, decide_eq_true_iff, dictGet_isNone, and_assoc]
  push Not
  rfl

/-- C72: the trajectory consists of exactly the unnamed structures among the children of the root,
in order, each with its first `varray`, wrapped into the cell. -/
theorem C72_trajectory (root : Elem) (tr : OutcarTrajectory) :
    vasprunTrajectory root = .ok tr ↔
      ∃ structures frames, structures.Sublist root.children ∧
        (∀ e, e ∈ structures ↔ e ∈ root.children ∧ e.tag = "structure".toList ∧ ¬ Spec.HasName e) ∧
        (structures = root.children.filter (fun e =>
          @decide (e.tag = "structure".toList ∧ ¬ Spec.HasName e) (Classical.dec _))) ∧
        structures ≠ [] ∧ List.Forall₂ FrameOf structures frames ∧
        (∃ n, 0 < n ∧ ∀ f ∈ frames, f.length = n) ∧ TimestepIs root tr.timestep ∧
        0 < tr.timestep ∧ tr.positionsTs = frames.map fun f => f.map fun p i => (p i).map pbc1 := by
  have hun : unnamedStructures root = root.children.filter (fun e =>
      @decide (e.tag = "structure".toList ∧ ¬ Spec.HasName e) (Classical.dec _)) := by
    unfold unnamedStructures
    rw [List.filter_filter]
    refine List.filter_congr fun e _ => ?_
    rw [Bool.eq_iff_iff, Bool.and_eq_true, dictGet_isNone]
    rw [@decide_eq_true_iff _ (Classical.dec _), decide_eq_true_iff]
    unfold Spec.HasName
    push Not
    exact and_comm
  constructor
  · intro h
    unfold vasprunTrajectory at h
    cases hm : (unnamedStructures root).mapM structurePositions with
    | error e => rw [hm] at h; cases h
    | ok fr =>
      rw [hm] at h
      have hall := (mapM_except_ok _ _ _).1 hm
      change (if fr = [] then Except.error PyErr.invalidFile else
        (vasprunTimestep root >>= fun t => stackPositions fr >>= fun ps => makeTrajectory ps t)) =
        _ at h
      split_ifs at h with hfr
      cases ht : vasprunTimestep root with
      | error e => rw [ht] at h; cases h
      | ok t =>
        rw [ht] at h
        change (stackPositions fr >>= fun ps => makeTrajectory ps t) = _ at h
        cases hs : stackPositions fr with
        | error e => rw [hs] at h; cases h
        | ok ps =>
          rw [hs] at h
          change makeTrajectory ps t = _ at h
          cases t with
          | none => cases h
          | some t =>
            unfold makeTrajectory at h
            dsimp only at h
            split_ifs at h with h0
            obtain rfl := Except.ok.inj h
            obtain ⟨hfr', hn⟩ := (stackPositions_iff fr hfr ps).1 hs
            refine ⟨unnamedStructures root, ps, ?_, mem_unnamed_iff root, hun, ?_, ?_, hn,
              (vasprunTimestep_iff root t).1 ht, not_le.1 h0, rfl⟩
            · rw [hun]; exact List.filter_sublist
            · intro he
              rw [he] at hall
              cases hall
              exact hfr rfl
            · rw [hfr', List.forall₂_map_right_iff] at hall
              exact hall.imp fun s f h => (structurePositions_iff _ _).1 h
  · rintro ⟨structures, frames, -, -, hstr, hne, hall, hn, ht, h0, hps⟩
    rw [← hun] at hstr
    subst hstr
    have hm : (unnamedStructures root).mapM structurePositions =
        .ok (frames.map fun f => f.map fun v => [v 0, v 1, v 2]) := by
      rw [mapM_except_ok, List.forall₂_map_right_iff]
      exact hall.imp fun s f h => (structurePositions_iff _ _).2 h
    have hfne : frames.map (fun f => f.map fun v : NumVec => [v 0, v 1, v 2]) ≠ [] := by
      intro he
      rw [List.map_eq_nil_iff] at he
      subst he
      exact hne (List.forall₂_nil_right_iff.1 hall)
    unfold vasprunTrajectory
    rw [hm]
    change (if _ = [] then Except.error PyErr.invalidFile else
      (vasprunTimestep root >>= fun t => stackPositions _ >>= fun ps => makeTrajectory ps t)) = _
    rw [if_neg hfne, (vasprunTimestep_iff root tr.timestep).2 ht]
    change (stackPositions _ >>= fun ps => makeTrajectory ps (some tr.timestep)) = _
    rw [(stackPositions_iff _ hfne frames).2 ⟨rfl, hn⟩]
    change makeTrajectory frames (some tr.timestep) = _
    unfold makeTrajectory
    dsimp only
    rw [if_neg (not_le.2 h0), ← hps]

/-! ## C71: wavenumbers -/

/-- C71: the wavenumber is the square root of the modulus divided by a constant. -/
theorem C71_formula (x : ℝ) : vasprunWavenumber x = Real.sqrt |x| / 0.0299792458 := by
  unfold vasprunWavenumber rawWavenumber
  rw [abs_neg, mul_one]
  have h : 0 ≤ Real.sqrt |x| / 0.0299792458 := by positivity
  rcases h.eq_or_lt with h0 | h0
  · rw [← h0]; simp
  · rw [sign_pos h0]; simp

/-- C71: wavenumbers are never negative and do not depend on the sign of the eigenvalue, so stable
and unstable modes cannot be told apart. -/
theorem C71_sign_lost (x : ℝ) :
    0 ≤ vasprunWavenumber x ∧ vasprunWavenumber (-x) = vasprunWavenumber x := by
  rw [C71_formula, C71_formula, abs_neg]
  exact ⟨by positivity, rfl⟩

/-- C71: moduli are kept. -/
theorem C71_modulus (x y : ℝ) (h : vasprunWavenumber x = vasprunWavenumber y) : |x| = |y| := by
  rw [C71_formula, C71_formula] at h
  have h1 : Real.sqrt |x| = Real.sqrt |y| := by
    have h0 : (0.0299792458 : ℝ) ≠ 0 := by norm_num
    exact (div_left_inj' h0).1 h
  exact (Real.sqrt_inj (abs_nonneg x) (abs_nonneg y)).1 h1

/-- C71: all wavenumbers of all files are nonnegative; there is one for each number listed. -/
theorem C71_read (root : Elem) (ws : List (Option ℝ)) (h : vasprunEigenvalues root = .ok ws) :
    ∃ e xs, Spec.FirstChain [Spec.Tag "calculation", Spec.Tag "dynmat",
        Spec.TagNamed "v" "eigenvalues"] root e ∧ Spec.NumbersOf e xs ∧ List.Forall₂ (fun (x : Num) w => ∀ q, x = some q →
        w = some (Real.sqrt |(q : ℝ)| / 0.0299792458)) xs ws ∧ ∀ w, some w ∈ ws → 0 ≤ w := by
  unfold vasprunEigenvalues at h
  cases hf : root.find [plain "calculation", plain "dynmat", named "v" "eigenvalues"] with
  | none => rw [hf] at h; cases h
  | some e =>
    rw [hf] at h
    dsimp only at h
    cases ht : e.text with
    | none => rw [ht] at h; cases h
    | some t =>
      rw [ht] at h
      dsimp only at h
      cases hp : parseFloats (splitWs t) with
      | none => rw [hp] at h; cases h
      | some xs =>
        rw [hp] at h
        obtain rfl := Except.ok.inj h
        refine ⟨e, xs, ?_, ⟨t, ht, (mapM_option_iff parseFloat _ _).1 hp⟩, ?_, ?_⟩
        · rw [find_chain_iff] at hf
          simpa only [List.map_cons, List.map_nil, plain_pred, named_pred] using hf
        · rw [List.forall₂_map_right_iff, List.forall₂_same]
          rintro x - q rfl
          rw [Option.map_some, C71_formula]
        · intro w hw
          obtain ⟨x, -, hx⟩ := List.mem_map.1 hw
          obtain ⟨q, -, rfl⟩ := Option.map_eq_some_iff.1 hx
          exact (C71_sign_lost _).1

/-- C71, concrete: `−1` and `1` give the same wavenumber. -/
example : vasprunWavenumber (-1) = vasprunWavenumber 1 ∧ 33 < vasprunWavenumber 1 := by
  refine ⟨(C71_sign_lost 1).2, ?_⟩
  rw [C71_formula, abs_one, Real.sqrt_one]
  norm_num

end Verif
