import Verif.Model.Interpolation

/-!
# `InterpolationModel.calc_polarizabilities` with every operation rounded

Model of `/repo/ramannoodle/pmodel/_interpolation.py` L213-252 and of
`/repo/ramannoodle/structure/_reference.py` L268-285 for one sample (samples do not influence each
other).  `rnd` rounds a real number to a float; overflow is excluded.  Matrix products and `np.einsum`
leave the order of additions and the use of fused operations to the library: `Summed` allows all
of them.  The splines evaluated in floating-point arithmetic are parameters.
-/

namespace Verif

noncomputable section

variable {N : ℕ} (rnd : ℝ → ℝ)

/-- `y` is a result of adding the numbers `s` in some order and grouping, each of them rounded at most
`k` times on the way, including the rounding of the number itself (which a fused multiply-add
omits). -/
inductive Summed : ℕ → Multiset ℝ → ℝ → Prop
  | zero (k : ℕ) : Summed k 0 0
  | exact (k : ℕ) (x : ℝ) : Summed k {x} x
  | rounded (k : ℕ) (x : ℝ) : Summed (k + 1) {x} (rnd x)
  | add {k : ℕ} {s t : Multiset ℝ} {x y : ℝ} (hx : Summed k s x) (hy : Summed k t y) :
      Summed (k + 1) (s + t) (rnd (x + y))

/-- `z` is the floating-point value of the sum of the products `x i * y i`: no product is rounded more
often than there are products, plus once for its own rounding. -/
def DotR {ι : Type} [Fintype ι] (x y : ι → ℝ) (z : ℝ) : Prop :=
  Summed rnd (Fintype.card ι + 1) (Finset.univ.val.map fun i => x i * y i) z

/-- Wrapped fractional displacement, _interpolation.py L216-217 and _reference.py L283: it is
wrapped once more on the way to Cartesian coordinates. -/
def fracDisplacementR (ref p : Pos N ℝ) : Pos N ℝ := fun a i =>
  wrap1R rnd (calcDisplacementR rnd ref p a i)

/-- Loop of `calc_polarizabilities`, _interpolation.py L233-244, for the amplitudes `amps` of one
sample. -/
def accumulateR : List ℝ → List (ℝ → Mat3 ℝ) → List Bool → Mat3 ℝ → Py (Mat3 ℝ)
  | [], [], [], acc => .ok acc
  | t :: ts, f :: fs, k :: ks, acc =>
    accumulateR ts fs ks fun i j => rnd (acc i j + rnd (oneMinus k * f t i j))
  | _, _, _, _ => .error .valueError

/-- `A` is a floating-point value of `calc_polarizabilities`, _interpolation.py L191-252, at the
positions `p`; `fs` are the interpolations as evaluated in floating-point arithmetic. -/
def PredictsR (m : IModel N) (fs : List (ℝ → Mat3 ℝ)) (p : Pos N ℝ) (A : Mat3 ℝ) : Prop :=
  ∃ (D : Pos N ℝ) (amps : List ℝ) (acc : Mat3 ℝ),
    (∀ a j, DotR rnd (fracDisplacementR rnd m.ref.positions p a) (fun i => m.ref.lattice i j)
      (D a j)) ∧
    List.Forall₂ (fun b t => DotR rnd (flat b) (flat D) t) m.basis amps ∧
    accumulateR rnd amps fs m.mask 0 = .ok acc ∧
    A = fun i j => rnd (acc i j + m.refPol i j)

/-- `R` is a floating-point value of the Raman tensor of a phonon with the displacements `d`,
/repo/ramannoodle/dynamics/_phonon.py L95-106.  The constant is a float as well. -/
def RamanR (m : IModel N) (fs : List (ℝ → Mat3 ℝ)) (ref d : Pos N ℝ) (R : Mat3 ℝ) : Prop :=
  ∃ plus minus : Mat3 ℝ,
    PredictsR rnd m fs (fun a i => rnd (ref a i + rnd (d a i * rnd (1 / 1000)))) plus ∧
    PredictsR rnd m fs (fun a i => rnd (ref a i - rnd (d a i * rnd (1 / 1000)))) minus ∧
    R = fun i j => rnd (rnd (plus i j - minus i j) / rnd (1 / 1000))

end

end Verif
