import Verif.Model.Dtype
import Verif.Props.Dataset
import Mathlib.Tactic.NormNum
import Mathlib.Tactic.Linarith
import Mathlib.Tactic.FinCases

/-!
# Property C161: element types of dataset samples
-/

namespace Verif

/-- Rounding to a type gives numbers of this type, and leaves these alone. -/
def Spec.Rounding (rnd : Dtype → ℝ → ℝ) : Prop := ∀ d x, rnd d (rnd d x) = rnd d x

/-- All finite entries can be represented in type `d`. -/
def Spec.EntriesIn {ι : Type} (rnd : Dtype → ℝ → ℝ) (d : Dtype) (t : Tensor ι) : Prop :=
  ∀ i x, t.entry i = some x → rnd d x = x

variable {S N : ℕ} {rnd : Dtype → ℝ → ℝ} {default dl dx dp : Dtype} {lattice : Fin 3 × Fin 3 → ℝ}
  {positions : Fin S × Fin N × Fin 3 → ℝ} {pols : PolIx S → ℝ}

theorem cast_entriesIn {ι : Type} (hr : Spec.Rounding rnd) (d : Dtype) (t : Tensor ι) :
    Spec.EntriesIn rnd d (t.cast rnd d) := by
  intro i x hx
  obtain ⟨y, -, rfl⟩ := Option.map_eq_some_iff.1 hx
  exact hr d y

theorem cast_cast {ι : Type} (hr : Spec.Rounding rnd) (d : Dtype) (t : Tensor ι) :
    (t.cast rnd d).cast rnd d = t.cast rnd d := by
  unfold Tensor.cast
  congr 1
  funext i
  dsimp only
  cases t.entry i with
  | none => rfl
  | some x => simp only [Option.map_some]; rw [hr]

theorem promote_self (d : Dtype) : d.promote d = d := by cases d <;> rfl

/-- C161: in a new dataset lattice, positions and scaled polarizabilities of a sample have the default
type and entries of this type, whatever the types of the given arrays. -/
theorem C161_new (hr : Spec.Rounding rnd) :
    let t := TypedDataset.make rnd default dl dx dp lattice positions pols
    t.itemTypes = (default, default, default) ∧ Spec.EntriesIn rnd default t.lattice ∧
      Spec.EntriesIn rnd default t.positions ∧ Spec.EntriesIn rnd default t.scaled :=
  ⟨rfl, cast_entriesIn hr _ _, cast_entriesIn hr _ _, cast_entriesIn hr _ _⟩

/-- C161: after `scale_polarizabilities` the scaled polarizabilities have the wider one of the types of
polarizabilities and mean; lattice and positions still have the default type. -/
theorem C161_rescaled (mean stddev : Tensor (Fin 3 × Fin 3)) :
    ((TypedDataset.make rnd default dl dx dp lattice positions pols).rescale rnd mean stddev).itemTypes =
      (default, default, dp.promote mean.dtype) := rfl

/-- C161: with double precision arrays, as annotated, a rescaled sample has a single type exactly if the
default type is double precision (PyTorch's own default is `float32`). -/
theorem C161_double (mean stddev : Tensor (Fin 3 × Fin 3)) (hm : mean.dtype = .float64) :
    ((TypedDataset.make rnd default dl dx .float64 lattice positions pols).rescale rnd mean
      stddev).itemTypes = (default, default, default) ↔ default = .float64 := by
  rw [C161_rescaled, hm]
  constructor
  · intro h
    exact (congrArg (fun x => x.2.2) h).symm
  · rintro rfl
    rfl

/-- C161: rescaling with the dataset's own mean and standard deviation gives the values before the
conversion to the default type: converting them gives back the constructor's tensor. -/
theorem C161_own_statistics (hr : Spec.Rounding rnd) :
    let t := TypedDataset.make rnd default dl dx dp lattice positions pols
    (t.rescale rnd (Tensor.mean rnd dp pols) (Tensor.std rnd dp pols)).scaled.cast rnd default =
      t.scaled := by
  intro t
  change _ = ((Tensor.index _ _).cast rnd default).cast rnd default
  rw [cast_cast hr]
  change Tensor.cast rnd default (Tensor.index _ _) = _
  congr 1
  unfold Tensor.divInPlace Tensor.index
  simp only [Tensor.cast, Tensor.div, Tensor.sub, Tensor.ofArray, Tensor.mean, Tensor.std, t,
    TypedDataset.make, promote_self]
  congr 1
  funext k
  split_ifs
  · rfl
  · simp only [Option.bind_some, Option.map_some]
    cases fdiv _ _ with
    | none => rfl
    | some x => simp only [Option.map_some]; rw [hr]

/-- C161: so it changes no value exactly if the quotients can be represented in the default type. -/
theorem C161_unchanged_iff (hr : Spec.Rounding rnd) :
    let t := TypedDataset.make rnd default dl dx dp lattice positions pols
    let u := t.rescale rnd (Tensor.mean rnd dp pols) (Tensor.std rnd dp pols)
    u.scaled.entry = t.scaled.entry ↔ Spec.EntriesIn rnd default u.scaled := by
  intro t u
  have h := congrArg Tensor.entry (C161_own_statistics (default := default) (dl := dl) (dx := dx)
    (dp := dp) (lattice := lattice) (positions := positions) (pols := pols) hr)
  constructor
  · intro he i x hx
    rw [he] at hx
    exact (C161_new hr).2.2.2 i x hx
  · intro hu
    refine Eq.trans ?_ h
    funext i
    change u.scaled.entry i = (u.scaled.entry i).map (rnd default)
    cases hi : u.scaled.entry i with
    | none => rfl
    | some x => rw [Option.map_some, hu i x hi]

/-- The polarizabilities of a batch as a list of matrices. -/
def Spec.batch (pols : PolIx S → ℝ) : List (Mat3 ℝ) := List.ofFn fun s => Matrix.of fun i j => pols (s, i, j)

theorem batch_length (pols : PolIx S → ℝ) : (Spec.batch pols).length = S := List.length_ofFn

theorem batch_sum (pols : PolIx S → ℝ) (f : Mat3 ℝ → ℝ) :
    ((Spec.batch pols).map f).sum = ∑ s, f (Matrix.of fun i j => pols (s, i, j)) := by
  unfold Spec.batch
  rw [List.map_ofFn, List.sum_ofFn]
  rfl

/-- C161: if nothing is rounded, the scaled polarizabilities are those of the dataset over the reals,
after construction and after rescaling. -/
theorem C161_exact (numbers : List ℕ) (ps : List (List (Fin 3 → ℝ))) (L : Mat3 ℝ) {d : PolDataset}
    (hd : makeDataset L numbers ps (Spec.batch pols) = .ok d) (dm ds : Dtype) (mean stddev : Mat3 ℝ)
    (s : Fin S) (k : Fin 6) :
    let t := TypedDataset.make (fun _ x => x) default dl dx dp lattice positions pols
    (d.scaled[s]?).map (fun v => v k) = some (t.scaled.entry (s, k)) ∧
    (((d.scalePolarizabilities mean stddev).scaled)[s]?).map (fun v => v k) =
      some ((t.rescale (fun _ x => x) (Tensor.ofArray dm fun i => mean i.1 i.2)
        (Tensor.ofArray ds fun i => stddev i.1 i.2)).scaled.entry (s, k)) := by
  obtain ⟨-, -, rfl⟩ := makeDataset_ok hd
  have hS : S ≠ 0 := fun h => by subst h; exact s.elim0
  have hget : (Spec.batch pols)[(s : ℕ)]? = some (Matrix.of fun i j => pols (s, i, j)) := by
    unfold Spec.batch
    rw [List.getElem?_ofFn]
    simp
  have hmean : ∀ i j, meanPol (Spec.batch pols) i j = (∑ s, pols (s, i, j)) / S := by
    intro i j
    unfold meanPol
    rw [batch_sum, batch_length]
    rfl
  have hstd : ∀ i j, stdPol (Spec.batch pols) i j =
      Real.sqrt ((∑ s, (pols (s, i, j) - (∑ s, pols (s, i, j)) / S) ^ 2) / S) := by
    intro i j
    unfold stdPol
    rw [batch_sum, batch_length]
    simp only [hmean, Matrix.of_apply]
  intro t
  constructor
  · simp only [Fin.getElem?_fin, List.getElem?_map, hget, Option.map_some]
    simp [tensorToVector, standardize, hmean, hstd, t, TypedDataset.make, typedScaleAndFlatten,
      Tensor.cast, Tensor.index, Tensor.div, Tensor.sub, Tensor.ofArray, Tensor.mean, Tensor.std, if_neg hS,
      Option.bind_some, Option.map_some, Option.map_id', vectorIx]
  · simp only [PolDataset.scalePolarizabilities, Fin.getElem?_fin, List.getElem?_map, hget,
      Option.map_some]
    simp [tensorToVector, standardize, t, TypedDataset.make, TypedDataset.rescale,
      Tensor.divInPlace, Tensor.cast, Tensor.index, Tensor.div, Tensor.sub, Tensor.ofArray,
      Option.bind_some, Option.map_some, Option.map_id', vectorIx]

/-- Rounding down to integers in single (and half) precision, to multiples of 1/2 in double. -/
noncomputable def coarse : Dtype → ℝ → ℝ
  | .float64, x => ⌊x * 2⌋ / 2
  | _, x => ⌊x⌋

theorem coarse_rounding : Spec.Rounding coarse := by
  intro d x
  cases d <;> simp [coarse]

/-- Five samples: the last polarizability is 5 (in all components), the others are 0. -/
noncomputable def fiveSamples : PolIx 5 → ℝ := fun i => if i.1 = 4 then 5 else 0

theorem fiveSamples_mean : Tensor.mean coarse .float64 fiveSamples = ⟨.float64, fun _ => some 1⟩ := by
  unfold Tensor.mean fiveSamples
  congr 1
  funext i
  norm_num [Fin.sum_univ_five, coarse]

theorem fiveSamples_std : Tensor.std coarse .float64 fiveSamples = ⟨.float64, fun _ => some 2⟩ := by
  have h4 : Real.sqrt 4 = 2 := by
    rw [show (4 : ℝ) = 2 ^ 2 by norm_num]
    exact Real.sqrt_sq (by norm_num)
  have hsum : (∑ s : Fin 5, fiveSamples (s, (0, 0))) / ((5 : ℕ) : ℝ) = 1 := by
    rw [Fin.sum_univ_five]
    simp [fiveSamples, show ((0 : Fin 5) = 4) = False by decide, show ((1 : Fin 5) = 4) = False by decide,
      show ((2 : Fin 5) = 4) = False by decide, show ((3 : Fin 5) = 4) = False by decide]
  have hvar : (∑ s : Fin 5, (fiveSamples (s, (0, 0)) - 1) ^ 2) / ((5 : ℕ) : ℝ) = 4 := by
    rw [Fin.sum_univ_five]
    simp only [fiveSamples, show ((0 : Fin 5) = 4) = False by decide,
      show ((1 : Fin 5) = 4) = False by decide, show ((2 : Fin 5) = 4) = False by decide,
      show ((3 : Fin 5) = 4) = False by decide, if_true, if_false]
    norm_num
  unfold Tensor.std
  congr 1
  funext i
  rw [if_neg (by decide)]
  change some (coarse .float64 (Real.sqrt ((∑ s : Fin 5, (fiveSamples (s, (0, 0)) -
    (∑ s : Fin 5, fiveSamples (s, (0, 0))) / ((5 : ℕ) : ℝ)) ^ 2) / ((5 : ℕ) : ℝ)))) = some 2
  rw [hsum, hvar, h4]
  norm_num [coarse]

/-- The dataset of the five samples, with single precision as default. -/
noncomputable def fiveDataset : TypedDataset 5 1 :=
  TypedDataset.make coarse .float32 .float64 .float64 .float64 (fun _ => 0) (fun _ => 0) fiveSamples

/-- C161: rescaling with its own statistics can change the samples of a dataset, in type and value: here
`-1/2`, which the constructor has rounded to `-1`.  The rounding `coarse` is artificial, not IEEE. -/
theorem C161_changed :
    let u := fiveDataset.rescale coarse (Tensor.mean coarse .float64 fiveSamples)
      (Tensor.std coarse .float64 fiveSamples)
    fiveDataset.itemTypes = (.float32, .float32, .float32) ∧
      u.itemTypes = (.float32, .float32, .float64) ∧
      fiveDataset.scaled.entry (0, 0) = some (-1) ∧ u.scaled.entry (0, 0) = some (-1 / 2) := by
  intro u
  have hu : u.scaled.entry (0, 0) = some (-1 / 2) := by
    dsimp only [u]
    rw [fiveSamples_mean, fiveSamples_std]
    norm_num [TypedDataset.rescale, fiveDataset, TypedDataset.make, Tensor.index, Tensor.divInPlace,
      Tensor.cast, Tensor.div, Tensor.sub, Tensor.ofArray, fdiv, Dtype.promote, coarse, vectorIx,
      fiveSamples, show ((0 : Fin 5) = 4) = False by decide]
  refine ⟨rfl, rfl, ?_, hu⟩
  have h : (u.scaled.cast coarse .float32) = fiveDataset.scaled := C161_own_statistics coarse_rounding
  rw [← h]
  change (u.scaled.entry (0, 0)).map (coarse .float32) = _
  rw [hu]
  norm_num [coarse]

/-- C161, concrete: the hypothesis of `C161_unchanged_iff` holds, and its right-hand side fails. -/
example : ¬ Spec.EntriesIn coarse .float32 (fiveDataset.rescale coarse
    (Tensor.mean coarse .float64 fiveSamples) (Tensor.std coarse .float64 fiveSamples)).scaled := by
  intro h
  have := h (0, 0) _ C161_changed.2.2.2
  norm_num [coarse] at this

/-- C161, concrete: the hypothesis of `C161_exact` holds for the five samples. -/
example : ∃ d, makeDataset 1 [] [[], [], [], [], []] (Spec.batch fiveSamples) = .ok d := by
  unfold makeDataset
  rw [if_neg (by simp), if_neg (by rw [batch_length]; simp), scaleAndFlatten_standard]
  exact ⟨_, rfl⟩

/-! ## Types of the rescaled entries -/

/-- Number of bits of a floating point type. -/
def Spec.bits : Dtype → ℕ
  | .float16 => 16
  | .float32 => 32
  | .float64 => 64

/-- The wider one of two types. -/
def Spec.wider (d e : Dtype) : Dtype := if Spec.bits e ≤ Spec.bits d then d else e

theorem promote_wider (d e : Dtype) : d.promote e = Spec.wider d e := by
  cases d <;> cases e <;> rfl

/-- C161: `scale_polarizabilities` gives the scaled polarizabilities the wider one of the types of
polarizabilities and mean. -/
theorem C161_wider (mean stddev : Tensor (Fin 3 × Fin 3)) :
    ((TypedDataset.make rnd default dl dx dp lattice positions pols).rescale rnd mean
      stddev).scaled.dtype = Spec.wider dp mean.dtype :=
  promote_wider dp mean.dtype

/-- C161: the values after `scale_polarizabilities`.  The difference is rounded to the wider type of
polarizabilities and mean, the quotient to the wider type of this and the standard deviation and then to
the first one, in which it is stored. -/
theorem C161_values (mean stddev : Tensor (Fin 3 × Fin 3)) (s : Fin S) (k : Fin 6) (μ σ : ℝ)
    (hμ : mean.entry (vectorRow k, vectorCol k) = some μ)
    (hσ : stddev.entry (vectorRow k, vectorCol k) = some σ) (h0 : σ ≠ 0) :
    ((TypedDataset.make rnd default dl dx dp lattice positions pols).rescale rnd mean
      stddev).scaled.entry (s, k) =
    some (rnd (Spec.wider dp mean.dtype) (rnd (Spec.wider (Spec.wider dp mean.dtype) stddev.dtype)
      (rnd (Spec.wider dp mean.dtype) (pols (s, vectorRow k, vectorCol k) - μ) / σ))) := by
  simp only [← promote_wider, TypedDataset.rescale, TypedDataset.make, Tensor.index, Tensor.divInPlace,
    Tensor.cast, Tensor.div, Tensor.sub, Tensor.ofArray, vectorIx, hμ, hσ, Option.bind_some,
    Option.map_some, fdiv, if_neg h0]

/-- Half precision polarizabilities with a single precision mean and a double precision standard
deviation: the quotient passes through double precision and is stored in single precision. -/
example (rnd : Dtype → ℝ → ℝ) (pols : PolIx 2 → ℝ) :
    ((TypedDataset.make (N := 1) rnd .float32 .float64 .float64 .float16 (fun _ => 1) (fun _ => 0)
      pols).rescale rnd (Tensor.ofArray .float32 fun _ => 3) (Tensor.ofArray .float64 fun _ => 2)
      ).scaled.entry (0, 0) = some (rnd .float32 (rnd .float64 (rnd .float32
        (pols (0, 0, 0) - 3) / 2))) :=
  C161_values _ _ 0 0 3 2 rfl rfl (by norm_num)

end Verif
