import Verif.Proofs.GnnFormula
import Mathlib.Analysis.Calculus.ContDiff.Operations
import Mathlib.Analysis.SpecialFunctions.Trigonometric.DerivHyp
import Mathlib.Analysis.SpecialFunctions.Sqrt
import Mathlib.Analysis.SpecialFunctions.Log.Deriv

/-!
# Helper lemmas: the layers of the network are smooth
-/

namespace Verif

variable {dn de n e T a b d : ℕ} {X : Type} [NormedAddCommGroup X] [NormedSpace ℝ X] {p : X}
  {k : WithTop ℕ∞}

theorem smooth_affine (W : Matrix (Fin b) (Fin a) ℝ) (c : Fin b → ℝ) {f : X → Fin a → ℝ}
    (hf : ContDiffAt ℝ k f p) : ContDiffAt ℝ k (fun x => Spec.affine W c (f x)) p := by
  rw [contDiffAt_pi] at hf ⊢
  intro i
  unfold Spec.affine
  simp only [Pi.add_apply, Matrix.mulVec, dotProduct]
  refine ContDiffAt.add (ContDiffAt.sum fun j _ => ?_) contDiffAt_const
  exact contDiffAt_const.mul (hf j)

theorem smooth_mean {f : X → Fin d → ℝ} (hf : ContDiffAt ℝ k f p) :
    ContDiffAt ℝ k (fun x => Spec.meanOf (f x)) p := by
  rw [contDiffAt_pi] at hf
  unfold Spec.meanOf
  exact contDiffAt_const.mul (ContDiffAt.sum fun j _ => hf j)

theorem smooth_layerNorm (g o : Fin d → ℝ) {f : X → Fin d → ℝ} (hf : ContDiffAt ℝ k f p) :
    ContDiffAt ℝ k (fun x => Spec.layerNorm g o (f x)) p := by
  have hm := smooth_mean hf
  have hv : ContDiffAt ℝ k (fun x => Spec.varOf (f x)) p := by
    unfold Spec.varOf
    refine ContDiffAt.sub (smooth_mean ?_) (hm.pow 2)
    rw [contDiffAt_pi] at hf ⊢
    exact fun j => (hf j).pow 2
  rw [contDiffAt_pi] at hf ⊢
  intro i
  unfold Spec.layerNorm Spec.standardised
  have hpos : 0 < Spec.varOf (f p) + 1 / 100000 := by
    have := varOf_nonneg (f p)
    positivity
  refine ContDiffAt.add (contDiffAt_const.mul ?_) contDiffAt_const
  refine ContDiffAt.div ((hf i).sub hm) ((hv.add contDiffAt_const).sqrt hpos.ne') ?_
  exact (Real.sqrt_pos.2 hpos).ne'

theorem smooth_tanh {f : X → ℝ} (hf : ContDiffAt ℝ k f p) :
    ContDiffAt ℝ k (fun x => Real.tanh (f x)) p := by
  simp only [Real.tanh_eq_sinh_div_cosh]
  refine ContDiffAt.div (Real.contDiff_sinh.contDiffAt.comp p hf)
    (Real.contDiff_cosh.contDiffAt.comp p hf) (Real.cosh_pos _).ne'

theorem smooth_logistic {f : X → ℝ} (hf : ContDiffAt ℝ k f p) :
    ContDiffAt ℝ k (fun x => Spec.logistic (f x)) p := by
  unfold Spec.logistic
  refine ContDiffAt.div hf.exp (hf.exp.add contDiffAt_const) ?_
  have := Real.exp_pos (f p)
  positivity

theorem smooth_softplus {f : X → ℝ} (hf : ContDiffAt ℝ k f p) :
    ContDiffAt ℝ k (fun x => Spec.softplus0 (f x)) p := by
  unfold Spec.softplus0
  refine ContDiffAt.log ((contDiffAt_const.add hf.exp).div_const 2) ?_
  have := Real.exp_pos (f p)
  positivity

theorem smooth_gated {f : X → Fin (d + d) → ℝ} (hf : ContDiffAt ℝ k f p) :
    ContDiffAt ℝ k (fun x => Spec.gated (f x)) p := by
  rw [contDiffAt_pi] at hf ⊢
  intro i
  exact (smooth_logistic (hf _)).mul (smooth_tanh (hf _))

theorem smooth_append {f : X → Fin a → ℝ} {g : X → Fin b → ℝ} (hf : ContDiffAt ℝ k f p)
    (hg : ContDiffAt ℝ k g p) : ContDiffAt ℝ k (fun x => Fin.append (f x) (g x)) p := by
  rw [contDiffAt_pi] at hf hg ⊢
  intro i
  refine Fin.addCases (fun i => ?_) (fun i => ?_) i
  · simpa only [Fin.append_left] using hf i
  · simpa only [Fin.append_right] using hg i

section
variable (r : NodeBlock dn de × EdgeBlock dn de)

theorem smooth_message {x : X → Fin dn → ℝ} {y : X → Fin de → ℝ} (hx : ContDiffAt ℝ k x p)
    (hy : ContDiffAt ℝ k y p) : ContDiffAt ℝ k (fun q => (roundOf r).message (x q) (y q)) p :=
  smooth_gated (smooth_layerNorm _ _ (smooth_affine _ _ (smooth_append hx hy)))

theorem smooth_newNode {x s : X → Fin dn → ℝ} (hx : ContDiffAt ℝ k x p) (hs : ContDiffAt ℝ k s p) :
    ContDiffAt ℝ k (fun q => (roundOf r).newNode (x q) (s q)) p := by
  have hl := smooth_layerNorm r.1.finalNorm.weight r.1.finalNorm.bias hs
  rw [contDiffAt_pi] at hx hl ⊢
  exact fun i => smooth_tanh ((hx i).add (hl i))

theorem smooth_pair {x x' : X → Fin dn → ℝ} (hx : ContDiffAt ℝ k x p) (hx' : ContDiffAt ℝ k x' p) :
    ContDiffAt ℝ k (fun q => (roundOf r).pair (x q) (x' q)) p := by
  refine smooth_layerNorm _ _ (smooth_gated (smooth_layerNorm _ _ (smooth_affine _ _ ?_)))
  rw [contDiffAt_pi] at hx hx' ⊢
  exact fun i => (hx i).mul (hx' i)

theorem smooth_triple {x x' x'' : X → Fin dn → ℝ} {y y' : X → Fin de → ℝ} (hx : ContDiffAt ℝ k x p)
    (hx' : ContDiffAt ℝ k x' p) (hx'' : ContDiffAt ℝ k x'' p) (hy : ContDiffAt ℝ k y p)
    (hy' : ContDiffAt ℝ k y' p) :
    ContDiffAt ℝ k (fun q => (roundOf r).triple (x q) (x' q) (x'' q) (y q) (y' q)) p :=
  smooth_gated (smooth_layerNorm _ _ (smooth_affine _ _
    (smooth_append hx (smooth_append hx' (smooth_append hx'' (smooth_append hy hy'))))))

theorem smooth_newEdge {y c s : X → Fin de → ℝ} (hy : ContDiffAt ℝ k y p) (hc : ContDiffAt ℝ k c p)
    (hs : ContDiffAt ℝ k s p) : ContDiffAt ℝ k (fun q => (roundOf r).newEdge (y q) (c q) (s q)) p := by
  have hl := smooth_layerNorm r.2.c3Norm2.weight r.2.c3Norm2.bias hs
  rw [contDiffAt_pi] at hy hc hl ⊢
  exact fun i => smooth_tanh (((hy i).add (hc i)).add (hl i))

end

theorem smooth_embed (G : Spec.Wiring (Fin n) (Fin e) (Fin T)) :
    ∀ (blocks : List (NodeBlock dn de × EdgeBlock dn de)) (x : X → Fin n → Fin dn → ℝ)
      (y : X → Fin e → Fin de → ℝ), (∀ v, ContDiffAt ℝ k (fun q => x q v) p) →
      (∀ i, ContDiffAt ℝ k (fun q => y q i) p) →
      ∀ i, ContDiffAt ℝ k (fun q => Spec.embed G (blocks.map roundOf) (x q) (y q) i) p
  | [], _, _, _, hy, i => hy i
  | r :: rs, x, y, hx, hy, i => by
    have hn : ∀ v, ContDiffAt ℝ k (fun q => (roundOf r).nodes G (x q) (y q) v) p := fun v =>
      smooth_newNode r (hx v) (ContDiffAt.sum fun i _ => smooth_message r (hx v) (hy i))
    refine smooth_embed G rs _ _ hn (fun i => ?_) i
    exact smooth_newEdge r (hy i) (smooth_pair r (hn _) (hn _)) (ContDiffAt.sum fun t _ =>
      smooth_triple r (hn _) (hn _) (hn _) (hy i) (hy _))

theorem smooth_axial {f g : X → ℝ} {u : X → Fin 3 → ℝ} (hf : ContDiffAt ℝ k f p)
    (hg : ContDiffAt ℝ k g p) (hu : ContDiffAt ℝ k u p) (i j : Fin 3) :
    ContDiffAt ℝ k (fun q => Spec.axial (f q) (g q) (u q) i j) p := by
  rw [contDiffAt_pi] at hu
  unfold Spec.axial
  refine ContDiffAt.add ?_ (((hf.sub hg).mul (hu i)).mul (hu j))
  by_cases h : i = j
  · simpa only [h, if_true] using hg
  · simpa only [h, if_false] using contDiffAt_const

theorem smooth_edgeTensor {h : X → Fin 12 → ℝ} {u : X → Fin 3 → ℝ} (hh : ContDiffAt ℝ k h p)
    (hu : ContDiffAt ℝ k u p) : ContDiffAt ℝ k (fun q => Spec.edgeTensor (h q) (u q)) p := by
  rw [contDiffAt_pi] at hh
  rw [contDiffAt_pi]
  intro i
  fin_cases i <;> exact smooth_axial (hh _) (hh _) hu _ _

end Verif
