import Mathlib.Analysis.Real.Sqrt
import Mathlib.Analysis.SpecialFunctions.Log.Basic
import Mathlib.Analysis.Complex.Trigonometric
import Mathlib.LinearAlgebra.Matrix.ToLin
import Verif.Spec.Gnn
import Verif.Spec.Dataset

/-!
# Specification vocabulary: message passing networks

The textbook formulas of the layers, and of a network on a graph whose nodes, edges and triplets
are arbitrary finite types (so that no numbering of the atoms enters).
-/

namespace Verif.Spec

noncomputable section

/-! ## Layers -/

/-- Affine map. -/
def affine {a b : ℕ} (W : Matrix (Fin b) (Fin a) ℝ) (c : Fin b → ℝ) (x : Fin a → ℝ) : Fin b → ℝ :=
  W.mulVec x + c

/-- Mean of the entries. -/
def meanOf {d : ℕ} (x : Fin d → ℝ) : ℝ := (d : ℝ)⁻¹ * ∑ j, x j

/-- Variance of the entries: mean square minus squared mean. -/
def varOf {d : ℕ} (x : Fin d → ℝ) : ℝ := meanOf (fun j => x j ^ 2) - meanOf x ^ 2

/-- Entries shifted and scaled to mean zero and (nearly) unit variance. -/
def standardised {d : ℕ} (x : Fin d → ℝ) : Fin d → ℝ :=
  fun k => (x k - meanOf x) / Real.sqrt (varOf x + 1 / 100000)

/-- Layer normalisation with gain `g` and offset `o`. -/
def layerNorm {d : ℕ} (g o x : Fin d → ℝ) : Fin d → ℝ := fun k => g k * standardised x k + o k

/-- Logistic function. -/
def logistic (x : ℝ) : ℝ := Real.exp x / (Real.exp x + 1)

/-- Softplus, shifted to vanish at zero. -/
def softplus0 (x : ℝ) : ℝ := Real.log ((1 + Real.exp x) / 2)

/-- Filter (first half of the entries) times core (second half). -/
def gated {d : ℕ} (x : Fin (d + d) → ℝ) : Fin d → ℝ :=
  fun k => logistic (x (Fin.castAdd d k)) * Real.tanh (x (Fin.natAdd d k))

/-! ## Networks -/

/-- Nodes `V`, edges `E` with two ends, and triplets `T`: three nodes, the edge that receives the
message of the triplet, and the other edge. -/
structure Wiring (V E T : Type) where
  fst : E → V
  snd : E → V
  nodeA : T → V
  nodeB : T → V
  nodeC : T → V
  near : T → E
  far : T → E

/-- The maps used in one round of message passing. -/
structure Round (dn de : ℕ) where
  message : (Fin dn → ℝ) → (Fin de → ℝ) → Fin dn → ℝ
  newNode : (Fin dn → ℝ) → (Fin dn → ℝ) → Fin dn → ℝ
  pair : (Fin dn → ℝ) → (Fin dn → ℝ) → Fin de → ℝ
  triple : (Fin dn → ℝ) → (Fin dn → ℝ) → (Fin dn → ℝ) → (Fin de → ℝ) → (Fin de → ℝ) → Fin de → ℝ
  newEdge : (Fin de → ℝ) → (Fin de → ℝ) → (Fin de → ℝ) → Fin de → ℝ

section
variable {dn de : ℕ} {V E T : Type} [Fintype E] [Fintype T] [DecidableEq V] [DecidableEq E]

/-- Node features after a round: each node collects the messages of the edges at it. -/
def Round.nodes (r : Round dn de) (G : Wiring V E T) (x : V → Fin dn → ℝ) (y : E → Fin de → ℝ) :
    V → Fin dn → ℝ :=
  fun v => r.newNode (x v) (∑ e with G.fst e = v, r.message (x v) (y e))

/-- Edge features after a round, from the new node features. -/
def Round.edges (r : Round dn de) (G : Wiring V E T) (x : V → Fin dn → ℝ) (y : E → Fin de → ℝ) :
    E → Fin de → ℝ :=
  fun e => r.newEdge (y e) (r.pair (x (G.fst e)) (x (G.snd e)))
    (∑ t with G.near t = e, r.triple (x (G.nodeA t)) (x (G.nodeB t)) (x (G.nodeC t)) (y e)
      (y (G.far t)))

/-- Edge features after all rounds. -/
def embed (G : Wiring V E T) : List (Round dn de) → (V → Fin dn → ℝ) → (E → Fin de → ℝ) →
    E → Fin de → ℝ
  | [], _, y => y
  | r :: rs, x, y => embed G rs (r.nodes G x y) (r.edges G (r.nodes G x y) y)

/-- Polarizability of an edge along `u`: every component from its own pair of values. -/
def edgeTensor (h : Fin 12 → ℝ) (u : Fin 3 → ℝ) : Fin 6 → ℝ :=
  ![axial (h 6) (h 7) u 0 0, axial (h 8) (h 9) u 1 1, axial (h 10) (h 11) u 2 2,
    axial (h 0) (h 1) u 0 1, axial (h 2) (h 3) u 0 2, axial (h 4) (h 5) u 1 2]

/-- Prediction: average of the polarizabilities of the edges. -/
def predict (G : Wiring V E T) (rounds : List (Round dn de)) (head : (Fin de → ℝ) → Fin 12 → ℝ)
    (x : V → Fin dn → ℝ) (y : E → Fin de → ℝ) (u : E → Fin 3 → ℝ) : Fin 6 → ℝ :=
  fun k => (∑ e, edgeTensor (head (embed G rounds x y e)) (u e) k) / Fintype.card E

end

end

/-! ## Numbering -/

/-- The first graph is the second one with other names for nodes, edges and triplets. -/
structure Relabelled {V E T V' E' T' : Type} (G' : Wiring V' E' T') (G : Wiring V E T)
    (σ : V' ≃ V) (τ : E' ≃ E) (ρ : T' ≃ T) : Prop where
  fst : ∀ e, G.fst (τ e) = σ (G'.fst e)
  snd : ∀ e, G.snd (τ e) = σ (G'.snd e)
  nodeA : ∀ t, G.nodeA (ρ t) = σ (G'.nodeA t)
  nodeB : ∀ t, G.nodeB (ρ t) = σ (G'.nodeB t)
  nodeC : ∀ t, G.nodeC (ρ t) = σ (G'.nodeC t)
  near : ∀ t, G.near (ρ t) = τ (G'.near t)
  far : ∀ t, G.far (ρ t) = τ (G'.far t)

/-- The triplets are the paths `k → j → i` with `k ≠ i`, each listed once.  Either the edge
`k → j` (`swap`) or the edge `j → i` receives the message. -/
structure AllTriplets {V E T : Type} (swap : Bool) (ends : E → V × V) (G : Wiring V E T) : Prop where
  fst : ∀ e, G.fst e = (ends e).2
  snd : ∀ e, G.snd e = (ends e).1
  once : ∀ t t', G.near t = G.near t' → G.far t = G.far t' → t = t'
  nodes : ∀ t, if swap then
      ends (G.near t) = (G.nodeC t, G.nodeB t) ∧ ends (G.far t) = (G.nodeB t, G.nodeA t)
    else ends (G.near t) = (G.nodeB t, G.nodeA t) ∧ ends (G.far t) = (G.nodeC t, G.nodeB t)
  paths : ∀ p q, (∃ t, G.near t = p ∧ G.far t = q) ↔
    if swap then (ends p).2 = (ends q).1 ∧ (ends p).1 ≠ (ends q).2
    else (ends q).2 = (ends p).1 ∧ (ends q).1 ≠ (ends p).2

/-! ## Rotations -/

/-- The symmetric tensors with components `v` and `v'` are related by the change of axes `Q`. -/
def Turned (Q : Matrix (Fin 3) (Fin 3) ℝ) (v v' : Fin 6 → ℝ) : Prop :=
  ∃ A A' : Matrix (Fin 3) (Fin 3) ℝ, (∀ i j k, VoigtIndex i j k → A i j = v k ∧ A' i j = v' k) ∧
    A' = Q.transpose * A * Q

/-- The same for predictions that may be missing. -/
def TurnedOpt (Q : Matrix (Fin 3) (Fin 3) ℝ) : Option (Fin 6 → ℝ) → Option (Fin 6 → ℝ) → Prop
  | none, none => True
  | some v, some v' => Turned Q v v'
  | _, _ => False

end Verif.Spec
