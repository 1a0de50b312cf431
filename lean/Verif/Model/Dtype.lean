import Verif.Model.Dataset

/-!
# Model of the element types in `/repo/ramannoodle/dataset/torch/_dataset.py`

Tensors that carry a floating point type.  `rnd d` is rounding to type `d` and is applied to the result
of every operation; `default` is `torch.get_default_dtype()`.  The types of the arrays given by the
caller are arbitrary floating point types (the annotations say `float64`).  Integer arrays and overflow
in conversions are not modelled; a non-finite entry is `none`.  Mean and standard deviation are rounded
once, not after every addition.
-/

namespace Verif

noncomputable section

/-- Floating point types of tensors. -/
inductive Dtype
  | float16
  | float32
  | float64
  deriving DecidableEq

/-- `torch.promote_types`: the wider type. -/
def Dtype.promote : Dtype → Dtype → Dtype
  | .float64, _ => .float64
  | _, .float64 => .float64
  | .float32, _ => .float32
  | _, .float32 => .float32
  | .float16, .float16 => .float16

/-- A tensor: its type and its entries. -/
structure Tensor (ι : Type) where
  dtype : Dtype
  entry : ι → Option ℝ

variable {ι κ : Type}

/-- `torch.tensor(array)` keeps type and entries. -/
def Tensor.ofArray (d : Dtype) (a : ι → ℝ) : Tensor ι := ⟨d, fun i => some (a i)⟩

/-- `t.type(d)`. -/
def Tensor.cast (rnd : Dtype → ℝ → ℝ) (d : Dtype) (t : Tensor ι) : Tensor ι :=
  ⟨d, fun i => (t.entry i).map (rnd d)⟩

/-- `s - t`, with `t` broadcast along `f`. -/
def Tensor.sub (rnd : Dtype → ℝ → ℝ) (s : Tensor ι) (t : Tensor κ) (f : ι → κ) : Tensor ι :=
  let d := s.dtype.promote t.dtype
  ⟨d, fun i => (s.entry i).bind fun x => (t.entry (f i)).map fun y => rnd d (x - y)⟩

/-- `s / t`, with `t` broadcast along `f`. -/
def Tensor.div (rnd : Dtype → ℝ → ℝ) (s : Tensor ι) (t : Tensor κ) (f : ι → κ) : Tensor ι :=
  let d := s.dtype.promote t.dtype
  ⟨d, fun i => (s.entry i).bind fun x => (t.entry (f i)).bind fun y => (fdiv x y).map (rnd d)⟩

/-- `s /= t`: the quotient is stored in `s`, which keeps its type. -/
def Tensor.divInPlace (rnd : Dtype → ℝ → ℝ) (s : Tensor ι) (t : Tensor κ) (f : ι → κ) : Tensor ι :=
  (s.div rnd t f).cast rnd s.dtype

/-- Indexing keeps the type. -/
def Tensor.index (t : Tensor ι) (f : κ → ι) : Tensor κ := ⟨t.dtype, fun k => t.entry (f k)⟩

/-- Indices of a batch of `S` polarizabilities, of one polarizability and of `S` vectors. -/
abbrev PolIx (S : ℕ) := Fin S × Fin 3 × Fin 3

/-- `polarizabilities.mean(0)`, _dataset.py L45, L179. -/
def Tensor.mean {S : ℕ} (rnd : Dtype → ℝ → ℝ) (d : Dtype) (a : PolIx S → ℝ) : Tensor (Fin 3 × Fin 3) :=
  ⟨d, fun i => if S = 0 then none else some (rnd d ((∑ s, a (s, i)) / S))⟩

/-- `polarizabilities.std(0, unbiased=False)`, _dataset.py L46, L190. -/
def Tensor.std {S : ℕ} (rnd : Dtype → ℝ → ℝ) (d : Dtype) (a : PolIx S → ℝ) : Tensor (Fin 3 × Fin 3) :=
  ⟨d, fun i => if S = 0 then none else
    some (rnd d (Real.sqrt ((∑ s, (a (s, i) - (∑ s, a (s, i)) / S) ^ 2) / S)))⟩

/-- Entries of the vectors, _dataset.py L55-60 and utils.py L59. -/
def vectorIx {S : ℕ} (k : Fin S × Fin 6) : PolIx S := (k.1, vectorRow k.2, vectorCol k.2)

/-- Tensors of a dataset with `S` samples of `N` atoms (the atomic numbers are integers). -/
structure TypedDataset (S N : ℕ) where
  lattice : Tensor (Fin 3 × Fin 3)
  positions : Tensor (Fin S × Fin N × Fin 3)
  polType : Dtype
  pols : PolIx S → ℝ
  scaled : Tensor (Fin S × Fin 6)

variable {S N : ℕ}

/-- `_scale_and_flatten_polarizabilities` with mode `"standard"`, _dataset.py L45-62: the quotient is
assigned to a tensor made by `torch.zeros` (L54), which has the default type. -/
def typedScaleAndFlatten (rnd : Dtype → ℝ → ℝ) (default d : Dtype) (a : PolIx S → ℝ) :
    Tensor (Fin S × Fin 6) :=
  let diff := (Tensor.ofArray d a).sub rnd (Tensor.mean rnd d a) Prod.snd
  let quot := diff.div rnd (Tensor.std rnd d a) Prod.snd
  (quot.index vectorIx).cast rnd default

/-- `PolarizabilityDataset.__init__`, _dataset.py L102-113 (after the shape checks). -/
def TypedDataset.make (rnd : Dtype → ℝ → ℝ) (default dl dx dp : Dtype) (lattice : Fin 3 × Fin 3 → ℝ)
    (positions : Fin S × Fin N × Fin 3 → ℝ) (pols : PolIx S → ℝ) : TypedDataset S N where
  lattice := (Tensor.ofArray dl lattice).cast rnd default
  positions := (Tensor.ofArray dx positions).cast rnd default
  polType := dp
  pols := pols
  scaled := (typedScaleAndFlatten rnd default dp pols).cast rnd default

/-- `scale_polarizabilities`, _dataset.py L212-217, with the tensors made from mean and standard
deviation. -/
def TypedDataset.rescale (rnd : Dtype → ℝ → ℝ) (t : TypedDataset S N)
    (mean stddev : Tensor (Fin 3 × Fin 3)) : TypedDataset S N :=
  let diff := (Tensor.ofArray t.polType t.pols).sub rnd mean Prod.snd
  { t with scaled := (diff.divInPlace rnd stddev Prod.snd).index vectorIx }

/-- Types of the floating point tensors of a sample, `__getitem__`, _dataset.py L223-230. -/
def TypedDataset.itemTypes (t : TypedDataset S N) : Dtype × Dtype × Dtype :=
  (t.lattice.dtype, t.positions.dtype, t.scaled.dtype)

end

end Verif
