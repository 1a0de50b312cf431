import Verif.Props.Displace
import Verif.Props.InterpolationDof
import Verif.Props.Symmetry

/-!
# Property C112: from displaced structures to a model and back
-/

namespace Verif
open Spec

variable {N : ℕ}

theorem collinear_scaled {ι : Type} [Fintype ι] {u : ι → ℝ} (hu : u ≠ 0) {x y : ℝ} (hx : x ≠ 0)
    (hy : y ≠ 0) : Collinear (fun i => x * u i) (fun i => y * u i) := by
  have hne : ∀ z : ℝ, z ≠ 0 → (fun i => z * u i) ≠ 0 := fun z hz h => hu (by
    funext i
    have := congrFun h i
    simpa [hz] using this)
  refine ⟨hne x hx, hne y hy, ?_⟩
  rw [cosine_smul_left hx, cosine_comm, cosine_smul_left hy, cosine_eq, ← norm2_sq, sq,
    div_self (mul_ne_zero (norm2_pos hu).ne' (norm2_pos hu).ne')]
  unfold angTol
  norm_num

theorem toCart_eq_matMul (L : Mat3 ℝ) (w : Pos N ℝ) : toCart L w = matMulPos w L := rfl

theorem toCart_injective {L : Mat3 ℝ} (hL : L.det ≠ 0) {v w : Pos N ℝ} (h : toCart L v = toCart L w) :
    v = w := by
  have := congrArg (fun z => matMulPos z L⁻¹) h
  simpa only [toCart_eq_matMul, matMulPos_inv_right hL] using this

theorem toCart_scaled (L : Mat3 ℝ) (e : Pos N ℝ) (x : ℝ) :
    toCart L (fun a i => x * e a i) = fun a j => x * toCart L e a j := by
  funext a j
  simp only [toCart, Finset.mul_sum, mul_assoc]

theorem readDofFiles_ok (m : IModel N) (data : List (Pos N ℝ × Mat3 ℝ)) :
    readDofFiles m (data.map fun x => .ok (some x.1, x.2))
      = .ok (data.map fun x => (calcDisplacement m.ref.positions x.1, if m.dummy then 0 else x.2)) := by
  induction data with
  | nil => rfl
  | cons x data ih =>
    simp only [List.map_cons, readDofFiles]
    rw [ih]
    rfl

/-- The displaced structures have the requested displacements as nearest images of the reference. -/
theorem displaced_nearest (s : RefStructure N) (hL : s.lattice.det ≠ 0) (d : Pos N ℝ) (hd : d ≠ 0)
    (e : Pos N ℝ)
    (he : ∀ a j, ∑ i, e a i * s.lattice i j = d a j / Real.sqrt (∑ b, ∑ k, d b k ^ 2))
    (amps : List ℝ) (hbox : ∀ x ∈ amps, ∀ a i, InHalfBox (x * e a i)) (ps : List (Pos N ℝ))
    (hps : getDisplacedPositions s d amps = .ok (ps.map some)) :
    List.Forall₂ (fun x q => NearestImage s.positions q fun a i => x * e a i) amps ps := by
  obtain ⟨ps', h1, h2⟩ := C21_displaced_positions s hL d hd amps
  have : ps = ps' := by
    rw [hps] at h1
    exact List.map_injective_iff.2 (Option.some_injective _) (Except.ok.inj h1)
  subst this
  have h3 : List.Forall₂ (fun x q => x ∈ amps ∧ ((∀ a i, InCell (q a i)) ∧
        ∃ n : Fin N → Fin 3 → ℤ, ∀ a j, ∑ i, (q a i - s.positions a i) * s.lattice i j
          = x * (d a j / Real.sqrt (∑ b, ∑ k, d b k ^ 2)) + ∑ i, n a i * s.lattice i j))
        amps ps := by
    clear hps h1
    have : ∀ (l : List ℝ) (r : List (Pos N ℝ)), (∀ x ∈ l, x ∈ amps) → List.Forall₂ (fun x q =>
        (∀ a i, InCell (q a i)) ∧
        ∃ n : Fin N → Fin 3 → ℤ, ∀ a j, ∑ i, (q a i - s.positions a i) * s.lattice i j
          = x * (d a j / Real.sqrt (∑ b, ∑ k, d b k ^ 2)) + ∑ i, n a i * s.lattice i j) l r →
        List.Forall₂ (fun x q => x ∈ amps ∧ ((∀ a i, InCell (q a i)) ∧
        ∃ n : Fin N → Fin 3 → ℤ, ∀ a j, ∑ i, (q a i - s.positions a i) * s.lattice i j
          = x * (d a j / Real.sqrt (∑ b, ∑ k, d b k ^ 2)) + ∑ i, n a i * s.lattice i j)) l r := by
      intro l r hl h
      induction h with
      | nil => exact .nil
      | cons h _ ih =>
        exact .cons ⟨hl _ List.mem_cons_self, h⟩ (ih fun x hx => hl x (List.mem_cons_of_mem _ hx))
    exact this _ _ (fun _ h => h) h2
  refine h3.imp ?_
  rintro x q ⟨hx, -, n, hn⟩
  have key : (fun a i => q a i - s.positions a i) = fun a i => x * e a i + n a i := by
    apply toCart_injective hL
    funext a j
    simp only [toCart, add_mul, Finset.sum_add_distrib]
    rw [hn a j, ← he a j, Finset.mul_sum]
    simp only [mul_assoc]
  intro a i
  refine ⟨hbox x hx a i, -n a i, ?_⟩
  have := congrFun (congrFun key a) i
  rw [this]; push_cast; ring

theorem unit_norm (d u : Pos N ℝ) (hd : d ≠ 0)
    (hu : ∀ a j, u a j = d a j / Real.sqrt (∑ b, ∑ k, d b k ^ 2)) :
    u ≠ 0 ∧ norm2 (flat u) = 1 ∧ inner3 u u = 1 := by
  have hn : norm2 (flat d) = Real.sqrt (∑ b, ∑ k, d b k ^ 2) := by
    unfold norm2 dot
    rw [Fintype.sum_prod_type]
    simp [flat, sq]
  have hp := norm2_pos (flat_ne_zero hd)
  have hfu : flat u = fun x => (1 / norm2 (flat d)) * flat d x := by
    funext ⟨a, i⟩
    change u a i = _ * d a i
    rw [hu, ← hn]; ring
  have h1 : norm2 (flat u) = 1 := by
    rw [hfu, norm2_smul, abs_of_pos (by positivity)]
    field_simp
  refine ⟨fun h => ?_, h1, ?_⟩
  · have : flat u = 0 := by rw [h]; rfl
    rw [this] at h1
    have h0 : norm2 (0 : Fin N × Fin 3 → ℝ) = 0 := by simp [norm2, dot]
    rw [h0] at h1
    exact zero_ne_one h1
  · have : dot (flat u) (flat u) = 1 := by rw [← norm2_sq, h1]; norm_num
    simpa [inner3, dot, flat, Fintype.sum_prod_type] using this

theorem read_displacements (s : RefStructure N) (hL : s.lattice.det ≠ 0) (d : Pos N ℝ) (hd : d ≠ 0)
    (e : Pos N ℝ)
    (he : ∀ a j, ∑ i, e a i * s.lattice i j = d a j / Real.sqrt (∑ b, ∑ k, d b k ^ 2))
    (amps : List ℝ) (hbox : ∀ x ∈ amps, ∀ a i, InHalfBox (x * e a i)) (ps : List (Pos N ℝ))
    (hps : getDisplacedPositions s d amps = .ok (ps.map some))
    (m : IModel N) (hm : m.ref = s) (pols : List (Mat3 ℝ)) (hpols : pols.length = ps.length) :
    ((ps.zip pols).map fun x => (calcDisplacement m.ref.positions x.1,
      if m.dummy then 0 else x.2)).map Prod.fst = amps.map fun x a i => x * e a i := by
  have hnear := displaced_nearest s hL d hd e he _ hbox ps hps
  have hdisp : ps.map (calcDisplacement s.positions) = amps.map fun x a i => x * e a i := by
    rw [← List.forall₂_eq_eq_eq]
    rw [List.forall₂_map_left_iff, List.forall₂_map_right_iff]
    exact hnear.flip.imp fun q x h => ((h : NearestImage _ _ _).unique
      (calcDisplacement_nearest s.positions q)).symm
  rw [List.map_map, ← hdisp, hm]
  have : ps = (ps.zip pols).map Prod.fst := by
    rw [List.map_fst_zip (by omega)]
  conv_rhs => rw [this, List.map_map]
  rfl

/-- C112, reading back: structures displaced by nonzero amplitudes that keep every fractional component
of the displacement within half a cell (`e` is the unit displacement in fractional coordinates) are
read back as the same displacements, with the same amplitudes up to one common sign (the direction is
taken from the first structure), and with the polarizabilities in order. -/
theorem C112_read_back (s : RefStructure N) (hL : s.lattice.det ≠ 0) (d : Pos N ℝ) (hd : d ≠ 0)
    (e : Pos N ℝ)
    (he : ∀ a j, ∑ i, e a i * s.lattice i j = d a j / Real.sqrt (∑ b, ∑ k, d b k ^ 2))
    (x₀ : ℝ) (xs : List ℝ) (hx : ∀ x ∈ x₀ :: xs, x ≠ 0)
    (hbox : ∀ x ∈ x₀ :: xs, ∀ a i, InHalfBox (x * e a i)) (ps : List (Pos N ℝ))
    (hps : getDisplacedPositions s d (x₀ :: xs) = .ok (ps.map some))
    (m : IModel N) (hm : m.ref = s) (hdummy : m.dummy = false)
    (pols : List (Mat3 ℝ)) (hpols : pols.length = ps.length) :
    readDof m ((ps.zip pols).map fun x => .ok (some x.1, x.2))
      = .ok ((x₀ :: xs).map (fun x a i => x * e a i),
          (x₀ :: xs).map (fun x => x₀ / |x₀| * x), pols) := by
  obtain ⟨hu0, hun, huu⟩ := unit_norm d (toCart s.lattice e) hd he
  have he0 : e ≠ 0 := fun h => hu0 (by rw [h]; funext a j; simp [toCart])
  have hmap := read_displacements s hL d hd e he _ hbox ps hps m hm pols hpols
  have hmap2 : ((ps.zip pols).map fun x => (calcDisplacement m.ref.positions x.1,
      if m.dummy then 0 else x.2)).map Prod.snd = pols := by
    rw [List.map_map, hdummy]
    have : pols = (ps.zip pols).map Prod.snd := by
      rw [List.map_snd_zip (by omega)]
    conv_rhs => rw [this]
    rfl
  unfold readDof
  rw [readDofFiles_ok]
  dsimp only [bind, Except.bind]
  rw [hmap, hmap2]
  simp only [List.map_cons]
  have hcol : isCollinearWithAll (flat fun a i => x₀ * e a i)
      (flat (fun a i => x₀ * e a i) :: List.map flat (List.map (fun x a i => x * e a i) xs)) = -1 := by
    rw [← List.map_cons]
    refine (C09_neg_one _ _).1.2 ?_
    intro w hw
    obtain ⟨w', hw', rfl⟩ := List.mem_map.1 hw
    obtain ⟨x, hxm, rfl⟩ : ∃ x ∈ x₀ :: xs, w' = fun a i => x * e a i := by
      rcases List.mem_cons.1 hw' with rfl | h
      · exact ⟨x₀, List.mem_cons_self, rfl⟩
      · obtain ⟨x, hx', rfl⟩ := List.mem_map.1 h
        exact ⟨x, List.mem_cons_of_mem _ hx', rfl⟩
    exact collinear_scaled (flat_ne_zero he0) (hx _ List.mem_cons_self) (hx x hxm)
  rw [if_neg (not_not.2 hcol)]
  have hcart : ∀ x ∈ x₀ :: xs, m.ref.getCartDisplacement (fun a i => x * e a i)
      = fun a j => x * toCart s.lattice e a j := fun x hxm => by
    rw [getCart_of_box _ _ (hbox x hxm), hm, toCart_scaled]
  have h0 := hx x₀ List.mem_cons_self
  have hnorm : norm2 (flat fun a j => x₀ * toCart s.lattice e a j) = |x₀| := by
    have : (flat fun a j => x₀ * toCart s.lattice e a j)
        = fun x => x₀ * flat (toCart s.lattice e) x := rfl
    rw [this, norm2_smul, hun, mul_one]
  have hb : normalizePos (m.ref.getCartDisplacement fun a i => x₀ * e a i)
      = some fun a j => x₀ / |x₀| * toCart s.lattice e a j := by
    rw [hcart x₀ List.mem_cons_self]
    unfold normalizePos
    rw [hnorm, if_neg (abs_ne_zero.2 h0)]
    congr 1
    funext a j
    ring
  rw [hb]
  dsimp only
  have hamp : ∀ x ∈ x₀ :: xs, getAmplitude (fun a j => x₀ / |x₀| * toCart s.lattice e a j)
      (m.ref.getCartDisplacement fun a i => x * e a i) = x₀ / |x₀| * x := fun x hxm => by
    rw [hcart x hxm]
    have : getAmplitude (fun a j => x₀ / |x₀| * toCart s.lattice e a j)
        (fun a j => x * toCart s.lattice e a j)
        = (x₀ / |x₀| * x) * dot (flat (toCart s.lattice e)) (flat (toCart s.lattice e)) := by
      unfold getAmplitude dot flat
      rw [Finset.mul_sum]
      exact Finset.sum_congr rfl fun i _ => by ring
    rw [this, ← norm2_sq, hun]
    ring
  change Except.ok _ = Except.ok _
  rw [hamp x₀ List.mem_cons_self, List.map_map]
  congr 4
  exact List.map_congr_left fun x hxm => hamp x (List.mem_cons_of_mem _ hxm)

/-- C112, zero amplitude: if one of the structures is the reference structure, the set is refused with
`InvalidDOFException`. -/
theorem C112_zero_refused (s : RefStructure N) (hL : s.lattice.det ≠ 0) (d : Pos N ℝ) (hd : d ≠ 0)
    (e : Pos N ℝ)
    (he : ∀ a j, ∑ i, e a i * s.lattice i j = d a j / Real.sqrt (∑ b, ∑ k, d b k ^ 2))
    (amps : List ℝ) (hx : 0 ∈ amps)
    (hbox : ∀ x ∈ amps, ∀ a i, InHalfBox (x * e a i)) (ps : List (Pos N ℝ))
    (hps : getDisplacedPositions s d amps = .ok (ps.map some))
    (m : IModel N) (hm : m.ref = s)
    (pols : List (Mat3 ℝ)) (hpols : pols.length = ps.length) :
    readDof m ((ps.zip pols).map fun x => .ok (some x.1, x.2)) = .error .invalidDOF := by
  have hmap := read_displacements s hL d hd e he amps hbox ps hps m hm pols hpols
  unfold readDof
  rw [readDofFiles_ok]
  dsimp only [bind, Except.bind]
  rw [hmap]
  cases amps with
  | nil => cases hx
  | cons x₀ xs =>
    simp only [List.map_cons]
    rw [if_pos]
    rw [← List.map_cons (f := flat), ← List.map_cons (f := fun x a i => x * e a i)]
    intro hc
    have hc := (C09_neg_one _ _).1.1 hc _ (List.mem_map_of_mem (List.mem_map_of_mem hx))
    refine hc.2.1 ?_
    funext x
    simp [flat]

theorem read_frac (s : RefStructure N) (hL : s.lattice.det ≠ 0) (w : Pos N ℝ)
    (hw : ∀ a i, InHalfBox (w a i)) : s.getFracDisplacement (toCart s.lattice w) = .ok w := by
  unfold RefStructure.getFracDisplacement npInv
  rw [if_neg hL]
  change Except.ok (applyPbcDisplacement (matMulPos (matMulPos w s.lattice) s.lattice⁻¹)) = _
  rw [matMulPos_inv_right hL]
  congr 1
  funext a i
  exact wrap1_of_inHalfBox (hw a i)

/-- C112, end to end: displace the reference structure by nonzero amplitudes, obtain a polarizability
for every displaced structure, and give structures and polarizabilities to a new model.  If this
succeeds (and symmetry adds no basis vector that overlaps the first), the model returns exactly the
given polarizability at every one of the displaced structures, and the reference polarizability at the
reference structure. -/
theorem C112_end_to_end (spglib : Mat3 ℝ → Pos N ℝ → (Fin N → ℕ) → Option SymDict)
    (nums : Fin N → ℕ) (lat : Mat3 ℝ) (hL : lat.det ≠ 0) (p : Pos N ℝ) (s : RefStructure N)
    (hs : RefStructure.init spglib nums lat p = .ok s)
    (hsep : ∀ j k, j ≠ k → Apart (2 / 10 ^ 5) (p j) (p k))
    (rest : List SymOp) (hid : s.ops = ⟨1, 0⟩ :: rest)
    (spline : SplineFn) (hspline : Interpolates spline) (we : Bool) (pol : Mat3 ℝ)
    (d : Pos N ℝ) (hd : d ≠ 0) (e : Pos N ℝ)
    (he : ∀ a j, ∑ i, e a i * lat i j = d a j / Real.sqrt (∑ b, ∑ k, d b k ^ 2))
    (amps : List ℝ) (hx : ∀ x ∈ amps, x ≠ 0)
    (hbox : ∀ x ∈ amps, ∀ a i, InHalfBox (x * e a i)) (ps : List (Pos N ℝ))
    (hps : getDisplacedPositions s d amps = .ok (ps.map some))
    (pols : List (Mat3 ℝ)) (hpols : pols.length = ps.length) (order : ℤ) (o : Outcome N)
    (ho : o = (IModel.init s pol false).addDofFromFiles spline we
      ((ps.zip pols).map fun x => .ok (some x.1, x.2)) order)
    (hok : o.result = .ok ())
    (b : Pos N ℝ) (B : List (Pos N ℝ)) (hB : o.state.basis = b :: B)
    (horth : ∀ x ∈ B, inner3 x b = 0) :
    (∀ x ∈ ps.zip pols, o.state.calcPolarizabilities [x.1] = .ok [x.2]) ∧
    o.state.calcPolarizabilities [p] = .ok [pol] := by
  obtain ⟨hpos, hlat, -⟩ := init_facts hs
  have hL' : s.lattice.det ≠ 0 := by rw [hlat]; exact hL
  have he' : ∀ a j, ∑ i, e a i * s.lattice i j = d a j / Real.sqrt (∑ b, ∑ k, d b k ^ 2) := by
    rw [hlat]; exact he
  cases amps with
  | nil =>
    exfalso
    have : ps = [] := by
      have h : getDisplacedPositions s d [] = .ok [] := rfl
      rw [h] at hps
      exact List.map_eq_nil_iff.1 (Except.ok.inj hps).symm
    subst this
    rw [ho] at hok
    cases hok
  | cons x₀ xs =>
    have hrd := C112_read_back s hL' d hd e he' x₀ xs hx hbox ps hps (IModel.init s pol false) rfl rfl
      pols hpols
    have hbox0 := hbox x₀ List.mem_cons_self
    have h0 := hx x₀ List.mem_cons_self
    obtain ⟨hu0, hun, huu⟩ := unit_norm d (toCart lat e) hd he
    have he0 : e ≠ 0 := fun h => hu0 (by rw [h]; funext a j; simp [toCart])
    have hadd : o = (IModel.init s pol false).addDof spline we
        (toCart s.lattice fun a i => x₀ * e a i)
        ((x₀ :: xs).map fun x => x₀ / |x₀| * x) pols order true := by
      rw [ho]
      unfold IModel.addDofFromFiles
      rw [hrd]
      simp only [List.map_cons]
      rw [getCart_of_box _ _ hbox0]
      rfl
    have hw0 : (fun a i => x₀ * e a i) ≠ (0 : Pos N ℝ) := fun h => he0 (by
      funext a i
      have := congrFun (congrFun h a) i
      simpa [h0] using this)
    obtain ⟨⟨c, hc, hbc⟩, hbb, hdata, href⟩ := C32_reproduces_data spglib nums lat p s hs hsep rest hid
      spline hspline we pol _ _ pols order _ (read_frac s hL' _ hbox0) hw0 o hadd hok b B hB horth
    refine ⟨?_, href⟩
    -- the basis vector is the unit displacement up to sign
    have hb : ∀ a i, b a i = x₀ / |x₀| * toCart lat e a i := by
      have h1 : ∀ a i, b a i = c * x₀ * toCart lat e a i := fun a i => by
        rw [hbc, toCart_scaled]; ring
      have h2 : (c * x₀) ^ 2 = 1 := by
        have : inner3 b b = (c * x₀) ^ 2 * inner3 (toCart lat e) (toCart lat e) := by
          unfold inner3
          simp only [h1, Finset.mul_sum]
          exact Finset.sum_congr rfl fun i _ => Finset.sum_congr rfl fun j _ => by ring
        rw [hbb, huu, mul_one] at this
        exact this.symm
      have h3 : c * |x₀| = 1 := by
        have h4 : (c * |x₀|) ^ 2 = 1 := by rw [mul_pow, sq_abs, ← mul_pow]; exact h2
        have h5 : 0 < c * |x₀| := mul_pos hc (abs_pos.2 h0)
        nlinarith
      intro a i
      rw [h1]
      congr 1
      rw [eq_div_iff (abs_ne_zero.2 h0)]
      calc c * x₀ * |x₀| = (c * |x₀|) * x₀ := by ring
        _ = x₀ := by rw [h3, one_mul]
    have hnear := displaced_nearest s hL' d hd e he' _ hbox ps hps
    rw [hpos] at hnear
    have hsign : x₀ / |x₀| * (x₀ / |x₀|) = 1 := by
      rw [div_mul_div_comm, abs_mul_abs_self, div_self (mul_ne_zero h0 h0)]
    -- position by position
    have main : ∀ (l : List ℝ) (qs : List (Pos N ℝ)) (As : List (Mat3 ℝ)),
        List.Forall₂ (fun x q => NearestImage p q fun a i => x * e a i) l qs →
        (∀ y ∈ (l.map fun x => x₀ / |x₀| * x).zip As, ∀ q v, NearestImage p q v →
          toCart lat v = (fun i j => y.1 * b i j) → o.state.calcPolarizabilities [q] = .ok [y.2]) →
        ∀ x ∈ qs.zip As, o.state.calcPolarizabilities [x.1] = .ok [x.2] := by
      intro l qs As h
      induction h generalizing As with
      | nil => intro _ x hx; simp at hx
      | @cons y q l qs hyq _ ih =>
        intro hall x hxm
        cases As with
        | nil => simp at hxm
        | cons A As =>
          rw [List.zip_cons_cons] at hxm
          rcases List.mem_cons.1 hxm with rfl | hxm
          · refine hall (x₀ / |x₀| * y, A) (by simp) q _ hyq ?_
            rw [toCart_scaled]
            funext a j
            rw [hb]
            dsimp only
            calc y * toCart lat e a j = (x₀ / |x₀| * (x₀ / |x₀|)) * (y * toCart lat e a j) := by
                  rw [hsign, one_mul]
              _ = _ := by ring
          · exact ih As (fun y hy => hall y (by
              rw [List.map_cons, List.zip_cons_cons]; exact List.mem_cons_of_mem _ hy)) x hxm
    exact main _ _ _ hnear hdata

theorem build_plus_minus (pol A B : Mat3 ℝ) : ∃ f, buildOne lookupSpline true (2 : ℤ).toNat
    ((dofPoints pol true [(1, ⟨1, 0⟩)] ([1 / 10, -(1 / 10)].zip [A, B])).map
      fun x => (some x.1, x.2)) = (.ok f, []) := by
  have hd : hasDuplicates ((((dofPoints pol true [(1, ⟨1, 0⟩)]
      ([1 / 10, -(1 / 10)].zip [A, B])).map fun x => (some x.1, x.2))).map Prod.fst) = false := by
    rw [List.map_map]
    have e : (Prod.fst ∘ fun x : ℝ × Mat3 ℝ => (some x.1, x.2)) = some ∘ Prod.fst := rfl
    rw [e, ← List.map_map, hasDuplicates_false]
    simp [dofPoints, TooClose]
    norm_num [abs_of_pos, abs_of_neg]
  unfold buildOne
  rw [hd]
  have hl : ¬ ((dofPoints pol true [(1, ⟨1, 0⟩)]
      ([1 / 10, -(1 / 10)].zip [A, B])).map fun x => ((some x.1 : Option ℝ), x.2)).length
        ≤ (2 : ℤ).toNat := by
    simp [dofPoints]
  rw [if_neg (by simp), if_neg hl, (finitePts_some _ _).2 rfl]
  dsimp only
  have hws : dofWarnings ((dofPoints pol true [(1, ⟨1, 0⟩)]
      ([1 / 10, -(1 / 10)].zip [A, B])).map Prod.fst) = [] := by
    rw [dofWarnings_eq _ (by simp [dofPoints])]
    unfold warnSpec
    rw [if_neg, if_neg]
    · rfl
    · intro h
      have := h (-(1 / 10)) (by simp [dofPoints])
      norm_num at this
    · intro h
      have := h (1 / 10) (by simp [dofPoints])
      norm_num at this
  rw [hws]
  exact ⟨_, rfl⟩

/-- C112, concrete: one atom in a cubic cell, displaced by ±1/10 along x, arbitrary polarizabilities:
the workflow succeeds and the model returns the polarizabilities. -/
example (A B pol : Mat3 ℝ) : ∃ (s : RefStructure 1) (q q' : Pos 1 ℝ) (o : Outcome 1),
    getDisplacedPositions s (fun _ => ![2, 0, 0]) [1 / 10, -(1 / 10)] = .ok [some q, some q'] ∧
    o = (IModel.init s pol false).addDofFromFiles lookupSpline true
      [.ok (some q, A), .ok (some q', B)] 2 ∧ o.result = .ok () ∧
    o.state.calcPolarizabilities [q] = .ok [A] ∧ o.state.calcPolarizabilities [q'] = .ok [B] ∧
    o.state.calcPolarizabilities [fun _ _ => 0] = .ok [pol] := by
  obtain ⟨s, hs, hops⟩ := trivialInit
  obtain ⟨hpos, hlat, -⟩ := init_facts hs
  have hd : (fun _ => ![2, 0, 0] : Pos 1 ℝ) ≠ 0 := fun h => by
    have := congrFun (congrFun h 0) 0
    norm_num at this
  have he : ∀ (a : Fin 1) j, ∑ i, ![(1 : ℝ), 0, 0] i * (1 : Mat3 ℝ) i j = (![2, 0, 0] : Fin 3 → ℝ) j /
      Real.sqrt (∑ _b : Fin 1, ∑ k, ![(2 : ℝ), 0, 0] k ^ 2) := fun a j => by
    have : Real.sqrt (∑ _b : Fin 1, ∑ k, ![(2 : ℝ), 0, 0] k ^ 2) = 2 := by
      rw [show (∑ _b : Fin 1, ∑ k, ![(2 : ℝ), 0, 0] k ^ 2) = 2 ^ 2 by simp [Fin.sum_univ_three]]
      exact Real.sqrt_sq (by norm_num)
    rw [this]
    fin_cases j <;> simp [Fin.sum_univ_three, Matrix.one_apply]
  have hx : ∀ x ∈ ([1 / 10, -(1 / 10)] : List ℝ), x ≠ 0 := by simp
  have hbox : ∀ x ∈ ([1 / 10, -(1 / 10)] : List ℝ), ∀ (a : Fin 1) i,
      InHalfBox (x * ![(1 : ℝ), 0, 0] i) := by
    intro x hx a i
    simp only [List.mem_cons, List.not_mem_nil, or_false] at hx
    rcases hx with rfl | rfl <;> fin_cases i <;> norm_num [InHalfBox]
  have hL : s.lattice.det ≠ 0 := by rw [hlat]; simp
  obtain ⟨ps, hps, hF⟩ := C21_displaced_positions s hL _ hd [1 / 10, -(1 / 10)]
  obtain ⟨q, q', rfl⟩ : ∃ q q', ps = [q, q'] := by
    have := hF.length_eq
    match ps, this with
    | [q, q'], _ => exact ⟨q, q', rfl⟩
  have hrd := C112_read_back s hL _ hd (fun _ => ![1, 0, 0]) (by rw [hlat]; exact he) _ _ hx hbox _ hps
    (IModel.init s pol false) rfl rfl [A, B] rfl
  have hamp : (([1 / 10, -(1 / 10)] : List ℝ).map fun x => (1 / 10 : ℝ) / |1 / 10| * x)
      = [1 / 10, -(1 / 10)] := by
    have : |(1 / 10 : ℝ)| = 1 / 10 := abs_of_pos (by norm_num)
    rw [this]; norm_num
  rw [hamp] at hrd
  have hb0 := hbox (1 / 10) (by simp)
  have hadd : (IModel.init s pol false).addDofFromFiles lookupSpline true
      [.ok (some q, A), .ok (some q', B)] 2 = (IModel.init s pol false).addDof lookupSpline true
        (toCart s.lattice fun a i => 1 / 10 * ![(1 : ℝ), 0, 0] i) [1 / 10, -(1 / 10)] [A, B] 2 true := by
    have h : ([.ok (some q, A), .ok (some q', B)] : List (DofFile 1))
        = ([q, q'].zip [A, B]).map fun x => .ok (some x.1, x.2) := rfl
    unfold IModel.addDofFromFiles
    rw [h, hrd]
    simp only [List.map_cons]
    rw [getCart_of_box _ _ hb0]
    rfl
  have hw0 : (fun _ i => 1 / 10 * ![(1 : ℝ), 0, 0] i : Pos 1 ℝ) ≠ 0 := fun h => by
    have := congrFun (congrFun h 0) 0
    norm_num at this
  obtain ⟨b, -, hb⟩ := addDof_single trivialSpglib _ _ _ s hs (one_apart _) hops lookupSpline
    true pol _ _ (read_frac s hL _ hb0) hw0 [1 / 10, -(1 / 10)] [A, B] rfl 2 (by norm_num) true
  obtain ⟨f, hf⟩ := build_plus_minus pol A B
  have hres := hadd.trans (hb f [] hf)
  obtain ⟨h1, h2⟩ := C112_end_to_end trivialSpglib _ _ (by simp) _ s hs (one_apart _) [] hops
    lookupSpline lookupSpline_interpolates true pol _ hd (fun _ => ![1, 0, 0]) he _ hx hbox _ hps [A, B]
    rfl 2 _ rfl (by
      change ((IModel.init s pol false).addDofFromFiles lookupSpline true
        [.ok (some q, A), .ok (some q', B)] 2).result = _
      rw [hres]) b [] (by
      change ((IModel.init s pol false).addDofFromFiles lookupSpline true
        [.ok (some q, A), .ok (some q', B)] 2).state.basis = _
      rw [hres]) (by simp)
  refine ⟨s, q, q', _, hps, rfl, by rw [hres], h1 (q, A) (by simp), h1 (q', B) (by simp), h2⟩

end Verif
