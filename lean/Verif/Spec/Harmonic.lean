import Verif.Spec.Spectrum

/-!
# Vocabulary for claims about trajectories of harmonic vibrations
-/

namespace Verif.Spec

/-- A vibration with `periods` full periods during the sampled time. -/
structure Vibration where
  periods : ℕ
  phase : ℝ
  tensor : Matrix (Fin 3) (Fin 3) ℝ

/-- Polarizability in step `t` of `n` when several vibrations are excited. -/
noncomputable def vibrating {M : ℕ} (n : ℕ) (equilibrium : Matrix (Fin 3) (Fin 3) ℝ)
    (modes : Fin M → Vibration) (t : ℕ) : Matrix (Fin 3) (Fin 3) ℝ :=
  equilibrium + ∑ m, Real.cos (2 * Real.pi * (modes m).periods * t / n + (modes m).phase) •
    (modes m).tensor

end Verif.Spec
