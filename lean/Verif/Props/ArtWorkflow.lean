import Verif.Props.Art
import Verif.Props.Workflow
import Verif.Props.ArtLinear

/-!
# Property C122: from atoms displaced one at a time to an ARTModel and back
-/

namespace Verif
open Spec

variable {N : ℕ}

/-- A displacement of at most one atom passes the check of `add_art_from_files`. -/
theorem C122_single_atom (d : Pos N ℝ) (k : Fin N) (hk : ∀ a, a ≠ k → d a = 0) :
    multipleAtomsDisplaced d = false := by
  unfold multipleAtomsDisplaced
  cases hl : List.finRange N with
  | nil => rfl
  | cons x xs =>
    dsimp only
    rw [Bool.not_eq_false', decide_eq_true_iff]
    intro a i
    split_ifs with h
    · simp
    · by_cases ha : a = k
      · subst ha
        have hmax := (argmaxFrom_max (rowSq d) x xs).1 a (by rw [← hl]; exact List.mem_finRange a)
        have h0 : rowSq d (argmaxFrom (rowSq d) x xs) = 0 := by
          have : ∀ c, c ≠ a → rowSq d c = 0 := fun c hc => by
            unfold rowSq; rw [hk c hc]; simp
          exact this _ (Ne.symm h)
        rw [h0] at hmax
        have : d a i ^ 2 ≤ rowSq d a :=
          Finset.single_le_sum (f := fun i => d a i ^ 2) (fun _ _ => sq_nonneg _) (Finset.mem_univ i)
        have h1 : d a i = 0 := by nlinarith [sq_nonneg (d a i)]
        rw [h1]; norm_num
      · rw [hk a ha]; norm_num

/-- One atom displaced along a direction, as an `(N,3)` array. -/
def onAtom (k : Fin N) (v : Vec3) : Pos N ℝ := fun a => if a = k then v else fun _ => 0

theorem onAtom_sum (k : Fin N) (f : Vec3 → Fin 3 → ℝ) (hf : ∀ j, f (fun _ => 0) j = 0) (v : Vec3) :
    (∑ a, ∑ j, f (onAtom k v a) j) = ∑ j, f v j := by
  rw [Finset.sum_eq_single k]
  · simp [onAtom]
  · intro a _ ha
    refine Finset.sum_eq_zero fun j _ => ?_
    simp only [onAtom, if_neg ha, hf]
  · simp

theorem ast_displaced (s : RefStructure N) (i : ℤ) (k : Fin N) (hk : Addresses N i k) (d : Vec3)
    (hd : d ≠ 0) (amps : List ℝ) :
    getAstDisplacedPositions s i d amps
      = getDisplacedPositions s (onAtom k fun j => d j / Real.sqrt (∑ c, d c ^ 2)) amps := by
  unfold getAstDisplacedPositions
  rw [(pyIndex_some_iff N i k).2 hk]
  have hn1 : norm2 d = Real.sqrt (∑ c, d c ^ 2) := by unfold norm2 dot; simp [sq]
  have hnorm : normalize d = some fun j => d j / Real.sqrt (∑ c, d c ^ 2) := by
    unfold normalize; rw [if_neg (norm2_pos hd).ne', hn1]
  simp only [hnorm]
  rfl

/-- The linear spline routine succeeds on every admissible pair of points. -/
def BuildsLines (spline : SplineFn) : Prop :=
  ∀ pts, SplineReady 1 pts → pts.length = 2 → ∃ f, spline 1 pts = .ok f

/-- C122: displace one atom of a structure without symmetry along a direction by two nonzero
amplitudes that are not too close, obtain a polarizability for both structures, and give structures and
polarizabilities to a new ARTModel.  The model is built, with one degree of freedom that moves this atom
only, and returns the given polarizability at both structures.  (Unless warnings are turned into
exceptions, in which case the amplitudes must lie on both sides of zero.) -/
theorem C122_end_to_end (spglib : Mat3 ℝ → Pos N ℝ → (Fin N → ℕ) → Option SymDict)
    (nums : Fin N → ℕ) (lat : Mat3 ℝ) (hL : lat.det ≠ 0) (p : Pos N ℝ) (s : RefStructure N)
    (hs : RefStructure.init spglib nums lat p = .ok s)
    (hsep : ∀ j k, j ≠ k → Apart (2 / 10 ^ 5) (p j) (p k)) (hid : s.ops = [⟨1, 0⟩])
    (spline : SplineFn) (hspline : Interpolates spline) (hbuild : BuildsLines spline) (we : Bool)
    (pol : Mat3 ℝ) (i : ℤ) (k : Fin N) (hk : Addresses N i k) (d : Vec3) (hd : d ≠ 0) (e : Vec3)
    (he : ∀ j, ∑ c, e c * lat c j = d j / Real.sqrt (∑ c, d c ^ 2))
    (x y : ℝ) (hx : x ≠ 0) (hy : y ≠ 0) (hxy : ¬ TooClose x y)
    (hbox : ∀ c, InHalfBox (x * e c) ∧ InHalfBox (y * e c))
    (hwe : we = false ∨ (x * y < 0 ∧ 1 / 10 ^ 3 < |x| ∧ 1 / 10 ^ 3 < |y|)) (A B : Mat3 ℝ) :
    ∃ q r o, getAstDisplacedPositions s i d [x, y] = .ok [some q, some r] ∧
      o = (IModel.init s pol false).addArtFromFiles spline we [.ok (some q, A), .ok (some r, B)] ∧
      o.result = .ok () ∧
      (∃ b, o.state.basis = [b] ∧ ∀ a, a ≠ k → b a = 0) ∧
      o.state.calcPolarizabilities [q] = .ok [A] ∧ o.state.calcPolarizabilities [r] = .ok [B] := by
  obtain ⟨hpos, hlat, -⟩ := init_facts hs
  have hL' : s.lattice.det ≠ 0 := by rw [hlat]; exact hL
  have hn1 : norm2 d = Real.sqrt (∑ c, d c ^ 2) := by unfold norm2 dot; simp [sq]
  have hnpos : 0 < Real.sqrt (∑ c, d c ^ 2) := by rw [← hn1]; exact norm2_pos hd
  obtain ⟨u, hu⟩ : ∃ u : Vec3, u = fun j => d j / Real.sqrt (∑ c, d c ^ 2) := ⟨_, rfl⟩
  have hu1 : ∑ j, u j ^ 2 = 1 := by
    rw [hu]
    simp only [div_pow]
    rw [← Finset.sum_div, Real.sq_sqrt (Finset.sum_nonneg fun _ _ => sq_nonneg _)]
    refine div_self fun h0 => ?_
    rw [h0, Real.sqrt_zero] at hnpos
    exact lt_irrefl _ hnpos
  have hD1 : (∑ b, ∑ j, onAtom k u b j ^ 2) = 1 := by
    rw [onAtom_sum k (fun v j => v j ^ 2) (by simp), hu1]
  have hD : onAtom k u ≠ (0 : Pos N ℝ) := fun h => by
    rw [h] at hD1; simp at hD1
  have he' : ∀ a j, ∑ c, onAtom k e a c * s.lattice c j
      = onAtom k u a j / Real.sqrt (∑ b, ∑ j, onAtom k u b j ^ 2) := fun a j => by
    rw [hD1, Real.sqrt_one, div_one, hlat]
    by_cases ha : a = k
    · simp only [onAtom, if_pos ha, he j, hu]
    · simp [onAtom, if_neg ha]
  have h00 : InHalfBox (0 : ℝ) := by norm_num [InHalfBox]
  have hbox' : ∀ z ∈ [x, y], ∀ a c, InHalfBox (z * onAtom k e a c) := fun z hz a c => by
    by_cases ha : a = k
    · simp only [onAtom, if_pos ha]
      simp only [List.mem_cons, List.not_mem_nil, or_false] at hz
      rcases hz with rfl | rfl
      · exact (hbox c).1
      · exact (hbox c).2
    · simp only [onAtom, if_neg ha, mul_zero]; exact h00
  have hx' : ∀ z ∈ [x, y], z ≠ 0 := by simp [hx, hy]
  obtain ⟨ps, hps, -⟩ := C21_displaced_positions s hL' (onAtom k u) hD [x, y]
  have hlen : ps.length = 2 := by
    unfold getDisplacedPositions at hps
    simpa using ((mapM_except_ok _ _ _).1 hps).length_eq.symm
  obtain ⟨q, r, rfl⟩ := List.length_eq_two.1 hlen
  have hnear := displaced_nearest s hL' (onAtom k u) hD (onAtom k e) he' [x, y] hbox' [q, r] hps
  rw [hpos] at hnear
  obtain ⟨hnq, hnr⟩ : NearestImage p q (fun a c => x * onAtom k e a c) ∧
      NearestImage p r (fun a c => y * onAtom k e a c) := by
    cases hnear with
    | cons h1 h2 => cases h2 with
      | cons h2 _ => exact ⟨h1, h2⟩
  have hrd := C112_read_back s hL' (onAtom k u) hD (onAtom k e) he' x [y] hx' hbox' [q, r] hps
    (IModel.init s pol false) rfl rfl [A, B] rfl
  obtain ⟨E, hE⟩ : ∃ E : Pos N ℝ, E = onAtom k e := ⟨_, rfl⟩
  rw [← hE] at hrd hnq hnr hbox' he'
  obtain ⟨σ, hσ⟩ : ∃ σ : ℝ, σ = x / |x| := ⟨_, rfl⟩
  rw [← hσ] at hrd
  have hσσ : σ * σ = 1 := by
    rw [hσ, div_mul_div_comm, abs_mul_abs_self, div_self (mul_ne_zero hx hx)]
  have hσa : |σ| = 1 := by
    rw [hσ, abs_div, abs_abs, div_self (abs_ne_zero.2 hx)]
  obtain ⟨w, hw⟩ : ∃ w : Pos N ℝ, w = fun a c => x * E a c := ⟨_, rfl⟩
  have hwbox : ∀ a c, InHalfBox (w a c) := fun a c => by rw [hw]; exact hbox' x (by simp) a c
  have hEcart : toCart lat E = onAtom k u := by
    funext a j
    have := he' a j
    rw [hD1, Real.sqrt_one, div_one, hlat] at this
    exact this
  have hE0 : E ≠ 0 := fun h => hD (by rw [← hEcart, h]; funext a j; simp [toCart])
  have hw0 : w ≠ 0 := fun h => hE0 (by
    funext a c
    have := congrFun (congrFun h a) c
    rw [hw] at this
    simpa [hx] using this)
  have hwne : ∃ a c, ¬ SameImage (w a c) 0 := by
    by_contra hcon
    push Not at hcon
    apply hw0
    funext a c
    exact (hcon a c).eq_of_inHalfBox (hwbox a c) h00
  obtain ⟨g, hg, ⟨c3, hc3, hscale⟩, hnorm⟩ := getEq_single spglib nums lat p s hs hsep hid w hwne
  have hwrap : applyPbcDisplacement w = w := by
    funext a c; exact wrap1_of_inHalfBox (hwbox a c)
  have hg0 : g ≠ 0 := by
    rintro rfl
    simp at hnorm
  have hgbox : ∀ a c, InHalfBox (g a c) := by
    refine box_of_norm (le_of_eq ?_)
    unfold norm2
    have : dot (flat g) (flat g) = (1 / 10) ^ 2 := by
      rw [dot, Fintype.sum_prod_type]
      calc _ = ∑ a, ∑ c, g a c ^ 2 := Finset.sum_congr rfl fun a _ =>
            Finset.sum_congr rfl fun c _ => by simp [flat, sq]
        _ = _ := by rw [hnorm]; norm_num
    rw [this, Real.sqrt_sq (by norm_num)]
  -- the basis vector
  have hgc : s.getCartDisplacement g = fun a j => (c3 * x) * onAtom k u a j := by
    rw [getCart_of_box _ _ hgbox, hlat, ← hEcart]
    have : g = fun a c => (c3 * x) * E a c := by
      funext a c
      rw [hscale, hwrap, hw]; ring
    rw [this, toCart_scaled]
  have hgn : norm2 (flat (s.getCartDisplacement g)) = c3 * |x| := by
    have h1 : flat (s.getCartDisplacement g) = fun z => (c3 * x) * flat (onAtom k u) z := by
      rw [hgc]; rfl
    have h2 : norm2 (flat (onAtom k u)) = 1 := by
      unfold norm2 dot
      rw [Fintype.sum_prod_type]
      have : (∑ a, ∑ j, flat (onAtom k u) (a, j) * flat (onAtom k u) (a, j)) = 1 := by
        rw [← hD1]
        exact Finset.sum_congr rfl fun a _ => Finset.sum_congr rfl fun j _ => by simp [flat, sq]
      rw [this, Real.sqrt_one]
    rw [h1, norm2_smul, h2, mul_one, abs_mul, abs_of_pos hc3]
  have hb : normalizePos (s.getCartDisplacement g) = some fun a j => σ * onAtom k u a j := by
    unfold normalizePos
    rw [hgn, if_neg (mul_ne_zero hc3.ne' (abs_ne_zero.2 hx)), hgc]
    congr 1
    funext a j
    rw [hσ, mul_div_right_comm, mul_div_mul_left _ _ hc3.ne']
  have hpts : dofGroup (IModel.init s pol false) [σ * x, σ * y] [A, B] false ⟨[g], [⟨1, 0⟩]⟩
      = .ok ⟨some fun a j => σ * onAtom k u a j,
        [(some (σ * x), A - pol), (some (σ * y), B - pol)]⟩ := by
    have := dofGroup_eq (IModel.init s pol false) [σ * x, σ * y] [A, B] false ⟨[g], [⟨1, 0⟩]⟩ g [] rfl
      (by simp)
    rw [this]
    have hb' : normalizePos ((IModel.init s pol false).ref.getCartDisplacement g)
        = some fun a j => σ * onAtom k u a j := hb
    rw [hb']
    simp [refPoint, multiplier_self g hg0, imagePoint, IModel.init]
  have horthc : orthCheck (IModel.init s pol false) (some w) = -1 := rfl
  have hdof : getDof (IModel.init s pol false) (some w) [σ * x, σ * y] [A, B] false
      = .ok [⟨some fun a j => σ * onAtom k u a j,
        [(some (σ * x), A - pol), (some (σ * y), B - pol)]⟩] := by
    rw [getDof_eq _ _ _ _ _ [⟨[g], [⟨1, 0⟩]⟩] horthc hg, List.mapM_cons, hpts]
    rfl
  -- the interpolation
  have hfar : [σ * x, σ * y].Pairwise fun a b => ¬ TooClose a b := by
    simp only [List.pairwise_cons, List.mem_cons, List.not_mem_nil, or_false, forall_eq,
      false_imp_iff, implies_true, List.Pairwise.nil, and_true]
    unfold TooClose
    rw [← mul_sub, abs_mul, abs_mul, hσa, one_mul, one_mul]
    exact hxy
  obtain ⟨fin, hfin⟩ : ∃ fin : List (ℝ × Mat3 ℝ), fin = [(σ * x, A - pol), (σ * y, B - pol)] := ⟨_, rfl⟩
  have hdup : hasDuplicates ((fin.map Prod.fst).map some) = false := by
    rw [hasDuplicates_false, hfin]; exact hfar
  have hready := splineReady_sort 1 fin le_rfl (by rw [hfin]; simp) hdup
  obtain ⟨f, hf⟩ := hbuild _ hready (by rw [List.length_insertionSort, hfin]; rfl)
  have hmem : ∀ z ∈ fin, f z.1 = z.2 := fun z hz =>
    hspline _ _ _ hready hf z ((List.perm_insertionSort _ _).mem_iff.2 hz)
  obtain ⟨ws, hone⟩ : ∃ ws, buildOne spline we 1 (fin.map fun z => (some z.1, z.2)) = (.ok f, ws) := by
    unfold buildOne
    have e1 : (fin.map fun z => (some z.1, z.2)).map Prod.fst = (fin.map Prod.fst).map some := by
      rw [List.map_map, List.map_map]; rfl
    rw [e1, hdup, if_neg (by simp), if_neg (by rw [List.length_map, hfin]; simp),
      (finitePts_some _ _).2 rfl]
    dsimp only
    rw [hf]
    rcases hwe with rfl | ⟨hneg, hax, hay⟩
    · exact ⟨_, rfl⟩
    · have hws : dofWarnings (fin.map Prod.fst) = [] := by
        rw [dofWarnings_eq _ (by rw [hfin]; simp), hfin]
        have hσx : σ * x = |x| := by
          rw [hσ, div_mul_eq_mul_div, div_eq_iff (abs_ne_zero.2 hx), abs_mul_abs_self]
        have hσy : σ * y = -|y| := by
          have h1 : x * y = -(|x| * |y|) := by rw [← abs_mul, abs_of_neg hneg, neg_neg]
          rw [hσ, div_mul_eq_mul_div, h1, neg_div, mul_div_assoc, mul_comm, div_mul_cancel₀]
          exact abs_ne_zero.2 hx
        unfold warnSpec
        rw [if_neg, if_neg]
        · rfl
        · intro h
          have := h (σ * y) (by simp)
          rw [hσy] at this
          linarith
        · intro h
          have := h (σ * x) (by simp)
          rw [hσx] at this
          linarith
      rw [hws]
      exact ⟨[], by simp⟩
  have hout : (IModel.init s pol false).addArtFromFiles spline we [.ok (some q, A), .ok (some r, B)]
      = ⟨.ok (), ws ++ [], { IModel.init s pol false with
          basis := [fun a j => σ * onAtom k u a j], interps := [f], mask := [false] }⟩ := by
    unfold IModel.addArtFromFiles
    have hrd' : readDof (IModel.init s pol false) [.ok (some q, A), .ok (some r, B)]
        = .ok ([w, fun a c => y * E a c], [σ * x, σ * y], [A, B]) := by
      rw [hw]; exact hrd
    rw [hrd']
    dsimp only
    rw [C122_single_atom w k fun a ha => by
      rw [hw]; funext c; simp [hE, onAtom, ha], hdof]
    dsimp only
    rw [if_neg (by simp), if_neg (by simp)]
    unfold constructAndAdd
    rw [if_neg (by norm_num)]
    have hone' : buildOne spline we (1 : ℤ).toNat
        [(some (σ * x), A - pol), (some (σ * y), B - pol)] = (.ok f, ws) := by
      rw [hfin] at hone; exact hone
    simp only [buildAll, hone']
    rfl
  have hunit : inner3 (fun a j => σ * onAtom k u a j) (fun a j => σ * onAtom k u a j) = 1 := by
    unfold inner3
    rw [← hD1]
    refine Finset.sum_congr rfl fun a _ => Finset.sum_congr rfl fun j _ => ?_
    calc _ = (σ * σ) * onAtom k u a j ^ 2 := by ring
      _ = _ := by rw [hσσ, one_mul]
  have heval : ∀ z q', NearestImage p q' (fun a c => z * E a c) →
      ((IModel.init s pol false).addArtFromFiles spline we
        [.ok (some q, A), .ok (some r, B)]).state.calcPolarizabilities [q'] = .ok [pol + f (σ * z)] := by
    intro z q' hq'
    rw [hout]
    refine C32_on_axis _ [] [] _ [] [] f [] [] rfl rfl rfl ⟨rfl, rfl, rfl, rfl⟩ hunit (by simp)
      (by simp) q' _ (σ * z) (by
        change NearestImage s.positions q' _
        rw [hpos]; exact hq') ?_
    change toCart s.lattice _ = _
    rw [hlat, toCart_scaled, hEcart]
    funext a j
    calc z * onAtom k u a j = (σ * σ) * (z * onAtom k u a j) := by rw [hσσ, one_mul]
      _ = _ := by ring
  refine ⟨q, r, _, ?_, rfl, by rw [hout], ⟨_, by rw [hout], fun a ha => ?_⟩, ?_, ?_⟩
  · rw [ast_displaced s i k hk d hd, ← hu, hps]; rfl
  · funext j
    simp [onAtom, ha]
  · rw [heval x q hnq, hmem (σ * x, A - pol) (by rw [hfin]; simp)]
    simp
  · rw [heval y r hnr, hmem (σ * y, B - pol) (by rw [hfin]; simp)]
    simp

/-- C122, refusals: with one structure, or more than two, from a structure without symmetry, or with a
zero amplitude, `add_art_from_files` raises `InvalidDOFException` and leaves the model unchanged. -/
theorem C122_refused (spglib : Mat3 ℝ → Pos N ℝ → (Fin N → ℕ) → Option SymDict)
    (nums : Fin N → ℕ) (lat : Mat3 ℝ) (hL : lat.det ≠ 0) (p : Pos N ℝ) (s : RefStructure N)
    (hs : RefStructure.init spglib nums lat p = .ok s)
    (hsep : ∀ j k, j ≠ k → Apart (2 / 10 ^ 5) (p j) (p k)) (hid : s.ops = [⟨1, 0⟩])
    (spline : SplineFn) (we : Bool) (m : IModel N) (hm : m.ref = s)
    (i : ℤ) (k : Fin N) (hk : Addresses N i k) (d : Vec3) (hd : d ≠ 0) (e : Vec3)
    (he : ∀ j, ∑ c, e c * lat c j = d j / Real.sqrt (∑ c, d c ^ 2))
    (amps : List ℝ) (hne : amps ≠ []) (hbad : amps.length ≠ 2 ∨ 0 ∈ amps)
    (hbox : ∀ z ∈ amps, ∀ c, InHalfBox (z * e c)) (ps : List (Pos N ℝ))
    (hps : getAstDisplacedPositions s i d amps = .ok (ps.map some))
    (pols : List (Mat3 ℝ)) (hpols : pols.length = ps.length) (o : Outcome N)
    (ho : o = m.addArtFromFiles spline we ((ps.zip pols).map fun x => .ok (some x.1, x.2))) :
    o.result = .error .invalidDOF ∧ o.state = m := by
  obtain ⟨hpos, hlat, -⟩ := init_facts hs
  have hL' : s.lattice.det ≠ 0 := by rw [hlat]; exact hL
  have hn1 : norm2 d = Real.sqrt (∑ c, d c ^ 2) := by unfold norm2 dot; simp [sq]
  have hnpos : 0 < Real.sqrt (∑ c, d c ^ 2) := by rw [← hn1]; exact norm2_pos hd
  obtain ⟨u, hu⟩ : ∃ u : Vec3, u = fun j => d j / Real.sqrt (∑ c, d c ^ 2) := ⟨_, rfl⟩
  have hu1 : ∑ j, u j ^ 2 = 1 := by
    rw [hu]
    simp only [div_pow]
    rw [← Finset.sum_div, Real.sq_sqrt (Finset.sum_nonneg fun _ _ => sq_nonneg _)]
    refine div_self fun h0 => ?_
    rw [h0, Real.sqrt_zero] at hnpos
    exact lt_irrefl _ hnpos
  have hD1 : (∑ b, ∑ j, onAtom k u b j ^ 2) = 1 := by
    rw [onAtom_sum k (fun v j => v j ^ 2) (by simp), hu1]
  have hD : onAtom k u ≠ (0 : Pos N ℝ) := fun h => by
    rw [h] at hD1; simp at hD1
  have he' : ∀ a j, ∑ c, onAtom k e a c * s.lattice c j
      = onAtom k u a j / Real.sqrt (∑ b, ∑ j, onAtom k u b j ^ 2) := fun a j => by
    rw [hD1, Real.sqrt_one, div_one, hlat]
    by_cases ha : a = k
    · simp only [onAtom, if_pos ha, he j, hu]
    · simp [onAtom, if_neg ha]
  have h00 : InHalfBox (0 : ℝ) := by norm_num [InHalfBox]
  have hbox' : ∀ z ∈ amps, ∀ a c, InHalfBox (z * onAtom k e a c) := fun z hz a c => by
    by_cases ha : a = k
    · simp only [onAtom, if_pos ha]; exact hbox z hz c
    · simp only [onAtom, if_neg ha, mul_zero]; exact h00
  rw [ast_displaced s i k hk d hd, ← hu] at hps
  by_cases h0 : 0 ∈ amps
  · have := C112_zero_refused s hL' (onAtom k u) hD (onAtom k e) he' amps h0 hbox' ps hps m hm pols hpols
    rw [ho]
    unfold IModel.addArtFromFiles
    rw [this]
    exact ⟨rfl, rfl⟩
  have hl2 : amps.length ≠ 2 := hbad.resolve_right h0
  have hnear := displaced_nearest s hL' (onAtom k u) hD (onAtom k e) he' amps hbox' ps hps
  have hplen : ps.length = amps.length := hnear.length_eq.symm
  cases amps with
  | nil => exact absurd rfl hne
  | cons x xs =>
  cases ps with
  | nil => cases hplen
  | cons q qs =>
  cases pols with
  | nil => cases hpols
  | cons A As =>
  have hnz : ∀ z ∈ x :: xs, z ≠ 0 := fun z hz h => h0 (h ▸ hz)
  have hE0 : onAtom k e ≠ (0 : Pos N ℝ) := fun h => hD (by
    funext a j
    have := he' a j
    rw [h, hD1, Real.sqrt_one, div_one] at this
    rw [← this]; simp)
  have hcalc : ∀ q' ∈ q :: qs, ∃ z ∈ x :: xs,
      calcDisplacement s.positions q' = fun a c => z * onAtom k e a c := by
    intro q' hq'
    obtain ⟨n, hn, rfl⟩ := List.mem_iff_getElem.1 hq'
    have := (List.forall₂_iff_get.1 hnear).2 n (by omega) hn
    simp only [List.get_eq_getElem] at this
    exact ⟨_, List.getElem_mem _, ((calcDisplacement_nearest _ _).unique this)⟩
  have hc0 : calcDisplacement s.positions q = fun a c => x * onAtom k e a c :=
    (calcDisplacement_nearest _ _).unique (List.forall₂_cons.1 hnear).1
  have hw0 : (fun a c => x * onAtom k e a c) ≠ (0 : Pos N ℝ) := fun h => hE0 (by
    funext a c
    have := congrFun (congrFun h a) c
    simpa [hnz x List.mem_cons_self] using this)
  have hwne : ∃ a c, ¬ SameImage (calcDisplacement s.positions q a c) 0 := by
    by_contra hcon
    push Not at hcon
    apply hw0
    rw [← hc0]
    funext a c
    exact (hcon a c).eq_of_inHalfBox (calcDisplacement_nearest s.positions q a c).1 h00
  obtain ⟨g, hg, -⟩ := getEq_single spglib nums lat p s hs hsep hid _ hwne
  refine C45_amplitude_count spline we m (by rw [hm]; exact hL') ?_ q A (qs.zip As)
    (calcDisplacement s.positions) (fun p' => by rw [hm]; exact calcDisplacement_nearest _ _) ?_
    ⟨[g], [⟨1, 0⟩]⟩ [] (by rw [hm]; exact hg) ?_ o ho
  · intro op hop
    rw [hm, hid, List.mem_singleton] at hop
    rw [hop]; simp
  · intro z hz
    have hz' : z.1 ∈ q :: qs := by
      rw [← List.zip_cons_cons] at hz
      exact (List.of_mem_zip hz).1
    obtain ⟨t, ht, he⟩ := hcalc z.1 hz'
    rw [hc0, he]
    exact collinear_scaled (flat_ne_zero hE0) (hnz x List.mem_cons_self) (hnz t ht)
  · simp only [List.length_cons] at hl2 hplen hpols
    simp only [List.length_zip, List.length_singleton, mul_one]
    omega

theorem lineSpline_interpolates : Interpolates lineSpline := by
  intro k pts f hr hf z hz
  unfold lineSpline at hf
  split at hf
  · rename_i a b
    cases hf
    have hlt : a.1 < b.1 := by
      have := hr.2.2
      simp only [List.pairwise_cons, List.mem_cons, List.not_mem_nil, or_false, forall_eq] at this
      exact this.1.1
    simp only [List.mem_cons, List.not_mem_nil, or_false] at hz
    have hne : b.1 - a.1 ≠ 0 := by linarith
    rcases hz with rfl | rfl
    · unfold chord; simp
    · unfold chord
      rw [div_self hne, one_smul]
      abel
  · cases hf

theorem lineSpline_builds : BuildsLines lineSpline := by
  intro pts _ hl
  obtain ⟨a, b, rfl⟩ := List.length_eq_two.1 hl
  exact ⟨_, rfl⟩

/-- C122, concrete: the chlorine atom of CsCl (index -1) displaced by ±1/10 along x, arbitrary
polarizabilities, warnings treated as errors. -/
example (A B pol : Mat3 ℝ) : ∃ (s : RefStructure 2) (q r : Pos 2 ℝ) (o : Outcome 2),
    getAstDisplacedPositions s (-1) ![2, 0, 0] [-(1 / 10), 1 / 10] = .ok [some q, some r] ∧
    o = (IModel.init s pol false).addArtFromFiles lineSpline true
      [.ok (some q, A), .ok (some r, B)] ∧ o.result = .ok () ∧
    (∃ b, o.state.basis = [b] ∧ b 0 = 0) ∧
    o.state.calcPolarizabilities [q] = .ok [A] ∧ o.state.calcPolarizabilities [r] = .ok [B] := by
  obtain ⟨s, hs, hops⟩ := pairInit
  have hd : (![2, 0, 0] : Vec3) ≠ 0 := fun h => by
    have := congrFun h 0
    norm_num at this
  have he : ∀ j, ∑ c, (![1, 0, 0] : Vec3) c * (1 : Mat3 ℝ) c j
      = (![2, 0, 0] : Vec3) j / Real.sqrt (∑ c, (![2, 0, 0] : Vec3) c ^ 2) := fun j => by
    have : Real.sqrt (∑ c, (![2, 0, 0] : Vec3) c ^ 2) = 2 := by
      rw [show (∑ c, (![2, 0, 0] : Vec3) c ^ 2) = 2 ^ 2 by simp [Fin.sum_univ_three]]
      exact Real.sqrt_sq (by norm_num)
    rw [this]
    fin_cases j <;> simp [Fin.sum_univ_three, Matrix.one_apply]
  obtain ⟨q, r, o, h1, h2, h3, ⟨b, h4, h5⟩, h6, h7⟩ := C122_end_to_end pairSpglib _ 1 (by simp) csCl s hs
    csCl_apart hops lineSpline lineSpline_interpolates lineSpline_builds true pol (-1) 1
    (Or.inr (by norm_num)) ![2, 0, 0] hd ![1, 0, 0] he (-(1 / 10)) (1 / 10) (by norm_num) (by norm_num)
    (by norm_num [TooClose, abs_of_neg, abs_of_pos]) (by
      intro c
      fin_cases c <;> norm_num [InHalfBox]) (Or.inr (by norm_num [abs_of_neg, abs_of_pos])) A B
  exact ⟨s, q, r, o, h1, h2, h3, ⟨b, h4, h5 0 (by decide)⟩, h6, h7⟩

end Verif
