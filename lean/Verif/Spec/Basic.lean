import Verif.Model.Base

/-!
# Specification vocabulary for periodic geometry (independent of the model)
-/

set_option linter.unusedSectionVars false

namespace Verif.Spec

variable {K : Type} [Field K] [LinearOrder K] [IsStrictOrderedRing K]

/-- `x` and `y` are the same coordinate in a crystal: they differ by an integer. -/
def SameImage (x y : K) : Prop := ∃ n : ℤ, y = x + n

/-- Coordinate inside the unit cell. -/
def InCell (x : K) : Prop := 0 ≤ x ∧ x < 1

/-- Coordinate inside the closed unit cell. -/
def InClosedCell (x : K) : Prop := 0 ≤ x ∧ x ≤ 1

/-- Displacement coordinate inside the half-open box centred at the origin. -/
def InHalfBox (x : K) : Prop := -(1 / 2) < x ∧ x ≤ 1 / 2

/-- `y` is a shortest representative of `x` modulo integers. -/
def Shortest (x y : K) : Prop := SameImage x y ∧ ∀ z, SameImage x z → |y| ≤ |z|

/-- An integer rotation matrix (what a space group operation is in lattice coordinates). -/
def IntegerMatrix (R : Mat3 K) : Prop := ∃ Z : Matrix (Fin 3) (Fin 3) ℤ, ∀ i j, R i j = (Z i j : K)

theorem SameImage.refl (x : K) : SameImage x x := ⟨0, by simp⟩

theorem SameImage.symm {x y : K} (h : SameImage x y) : SameImage y x := by
  obtain ⟨n, rfl⟩ := h; exact ⟨-n, by push_cast; ring⟩

theorem SameImage.trans {x y z : K} (h : SameImage x y) (h' : SameImage y z) :
    SameImage x z := by
  obtain ⟨n, rfl⟩ := h; obtain ⟨m, rfl⟩ := h'; exact ⟨n + m, by push_cast; ring⟩

theorem SameImage.add {x y x' y' : K} (h : SameImage x y) (h' : SameImage x' y') :
    SameImage (x + x') (y + y') := by
  obtain ⟨n, rfl⟩ := h; obtain ⟨m, rfl⟩ := h'; exact ⟨n + m, by push_cast; ring⟩

theorem SameImage.neg {x y : K} (h : SameImage x y) : SameImage (-x) (-y) := by
  obtain ⟨n, rfl⟩ := h; exact ⟨-n, by push_cast; ring⟩

theorem SameImage.sub {x y x' y' : K} (h : SameImage x y) (h' : SameImage x' y') :
    SameImage (x - x') (y - y') := by
  simpa [sub_eq_add_neg] using h.add h'.neg

theorem SameImage.mul_int {x y : K} (h : SameImage x y) (m : ℤ) :
    SameImage (x * m) (y * m) := by
  obtain ⟨n, rfl⟩ := h; exact ⟨n * m, by push_cast; ring⟩

theorem SameImage.sum {ι : Type*} (s : Finset ι) {f g : ι → K}
    (h : ∀ i ∈ s, SameImage (f i) (g i)) : SameImage (∑ i ∈ s, f i) (∑ i ∈ s, g i) := by
  classical
  induction s using Finset.induction_on with
  | empty => simpa using SameImage.refl (0 : K)
  | insert a s ha ih =>
    rw [Finset.sum_insert ha, Finset.sum_insert ha]
    exact (h a (by simp)).add (ih fun i hi => h i (by simp [hi]))

private theorem int_small {n : ℤ} (h1 : (-1 : K) < n) (h2 : (n : K) < 1) : n = 0 := by
  have a : (-1 : ℤ) < n := by exact_mod_cast h1
  have b : n < 1 := by exact_mod_cast h2
  omega

theorem SameImage.eq_of_inCell {x y : K} (h : SameImage x y) (hx : InCell x) (hy : InCell y) :
    x = y := by
  obtain ⟨n, rfl⟩ := h
  have : n = 0 := int_small (K := K) (by linarith [hx.1, hx.2, hy.1, hy.2])
    (by linarith [hx.1, hx.2, hy.1, hy.2])
  simp [this]

theorem SameImage.eq_of_inHalfBox {x y : K} (h : SameImage x y) (hx : InHalfBox x)
    (hy : InHalfBox y) : x = y := by
  obtain ⟨n, rfl⟩ := h
  have : n = 0 := int_small (K := K) (by linarith [hx.1, hx.2, hy.1, hy.2])
    (by linarith [hx.1, hx.2, hy.1, hy.2])
  simp [this]

end Verif.Spec
