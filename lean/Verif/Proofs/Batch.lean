import Verif.Model.TorchUtils
import Verif.Spec.Graph

/-!
# Helper lemmas for batched lists
-/

namespace Verif

theorem repeatTimes_succ {α : Type} (n : ℕ) (l : List α) :
    repeatTimes (n + 1) l = repeatTimes n l ++ l := by
  unfold repeatTimes
  rw [List.replicate_succ', List.flatten_append]
  simp

theorem length_repeatTimes {α : Type} (n : ℕ) (l : List α) :
    (repeatTimes n l).length = n * l.length := by
  simp [repeatTimes]

theorem repeatInterleave_succ (n c : ℕ) :
    repeatInterleave (n + 1) c = repeatInterleave n c ++ List.replicate c n := by
  unfold repeatInterleave
  rw [List.range_succ, List.flatMap_append]
  simp

theorem length_repeatInterleave (n c : ℕ) : (repeatInterleave n c).length = n * c := by
  induction n with
  | zero => simp [repeatInterleave]
  | succ n ih => rw [repeatInterleave_succ, List.length_append, ih]; simp; ring

theorem shifted_succ (n size : ℕ) (l : List ℕ) :
    Spec.shifted (n + 1) size l = Spec.shifted n size l ++ l.map (· + n * size) := by
  unfold Spec.shifted
  rw [List.range_succ, List.flatMap_append]
  simp

theorem addOffsets_repeat (n size c : ℕ) (l : List ℕ) (h : l.length = c) :
    addOffsets (repeatTimes n l) (repeatInterleave n c) size = Spec.shifted n size l := by
  induction n with
  | zero => rfl
  | succ n ih =>
    rw [repeatTimes_succ, repeatInterleave_succ, shifted_succ, ← ih]
    unfold addOffsets
    rw [List.zipWith_append (by rw [length_repeatTimes, length_repeatInterleave, h])]
    congr 1
    subst h
    clear ih
    induction l with
    | nil => rfl
    | cons a l ih => rw [List.length_cons, List.replicate_succ, List.zipWith_cons_cons, List.map_cons, ih]

theorem shifted_one (size : ℕ) (l : List ℕ) : Spec.shifted 1 size l = l := by
  simp [Spec.shifted]

theorem length_shifted (n size : ℕ) (l : List ℕ) : (Spec.shifted n size l).length = n * l.length := by
  induction n with
  | zero => simp [Spec.shifted]
  | succ n ih => rw [shifted_succ, List.length_append, ih]; simp; ring

theorem mem_shifted {n size : ℕ} {l : List ℕ} {x : ℕ} :
    x ∈ Spec.shifted n size l ↔ ∃ s < n, ∃ y ∈ l, x = y + s * size := by
  simp only [Spec.shifted, List.mem_flatMap, List.mem_range, List.mem_map]
  constructor
  · rintro ⟨s, hs, y, hy, rfl⟩; exact ⟨s, hs, y, hy, rfl⟩
  · rintro ⟨s, hs, y, hy, rfl⟩; exact ⟨s, hs, y, hy, rfl⟩

theorem shifted_getElem? {n size : ℕ} {l : List ℕ} {s e : ℕ} (hs : s < n) (he : e < l.length) :
    (Spec.shifted n size l)[s * l.length + e]? = some (l[e] + s * size) := by
  induction n with
  | zero => omega
  | succ n ih =>
    rw [shifted_succ]
    have hlen := length_shifted n size l
    by_cases hsn : s < n
    · rw [List.getElem?_append_left, ih hsn]
      rw [hlen]
      calc s * l.length + e < s * l.length + l.length := by omega
        _ = (s + 1) * l.length := by ring
        _ ≤ n * l.length := Nat.mul_le_mul_right _ hsn
    · have : s = n := by omega
      subst this
      rw [List.getElem?_append_right (by rw [hlen]; omega), hlen]
      simp [he]

theorem forall₂_mem_right {α β : Type} {R : α → β → Prop} {l : List α} {m : List β}
    (h : List.Forall₂ R l m) : ∀ y ∈ m, ∃ x ∈ l, R x y := by
  induction h with
  | nil => intro y hy; simp at hy
  | cons h _ ih =>
    intro y hy
    rcases List.mem_cons.1 hy with rfl | hy
    · exact ⟨_, by simp, h⟩
    · obtain ⟨x, hx, hr⟩ := ih y hy
      exact ⟨x, by simp [hx], hr⟩

theorem forall₂_mem_left {α β : Type} {R : α → β → Prop} {l : List α} {m : List β}
    (h : List.Forall₂ R l m) : ∀ x ∈ l, ∃ y ∈ m, R x y := by
  induction h with
  | nil => intro y hy; simp at hy
  | cons h _ ih =>
    intro y hy
    rcases List.mem_cons.1 hy with rfl | hy
    · exact ⟨_, by simp, h⟩
    · obtain ⟨x, hx, hr⟩ := ih y hy
      exact ⟨x, by simp [hx], hr⟩

end Verif
