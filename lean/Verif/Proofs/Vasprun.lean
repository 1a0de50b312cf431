import Verif.Model.Vasprun
import Verif.Spec.Vasprun
import Verif.Props.OutcarErrors

/-!
# Lemmas about `vasprun.xml` readers
-/

namespace Verif

theorem selectPath_flatMap (ss : List PathStep) (es : List Elem) :
    selectPath ss es = es.flatMap fun e => selectPath ss [e] := by
  induction ss generalizing es with
  | nil => simp [selectPath]
  | cons s ss ih =>
    rw [selectPath, ih]
    simp only [selectPath, List.flatMap_cons, List.flatMap_nil, List.append_nil]
    rw [List.flatMap_assoc]
    congr 1
    funext e
    exact (ih _).symm

theorem find_nil (e : Elem) : e.find [] = some e := rfl

theorem find_cons (e : Elem) (s : PathStep) (ss : List PathStep) :
    e.find (s :: ss) = (e.children.filter s.selects).findSome? fun c => c.find ss := by
  unfold Elem.find
  rw [selectPath, selectPath_flatMap, List.head?_flatMap]
  simp

theorem findSome_filter {α β : Type} (p : α → Bool) (f : α → Option β) (l : List α) (b : β) :
    (l.filter p).findSome? f = some b ↔
      ∃ x, Spec.IsFirst (fun x => p x = true ∧ (f x).isSome) l x ∧ f x = some b := by
  induction l with
  | nil =>
    constructor
    · intro h; cases h
    · rintro ⟨x, ⟨pre, post, h, -⟩, -⟩; simp at h
  | cons a l ih =>
    by_cases ha : p a = true ∧ (f a).isSome
    · obtain ⟨c, hc⟩ := Option.isSome_iff_exists.1 ha.2
      rw [List.filter_cons_of_pos ha.1, List.findSome?_cons, hc]
      constructor
      · intro h
        exact ⟨a, ⟨[], l, rfl, ha, by simp⟩, by rw [hc]; exact h⟩
      · rintro ⟨x, ⟨pre, post, h, hx, hpre⟩, hb⟩
        cases pre with
        | nil =>
          obtain ⟨rfl, -⟩ := List.cons.inj h
          rw [← hb, hc]
        | cons y pre =>
          obtain ⟨rfl, -⟩ := List.cons.inj h
          exact absurd ha (hpre a (by simp))
    · have : ((a :: l).filter p).findSome? f = (l.filter p).findSome? f := by
        by_cases hp : p a = true
        · have hn : f a = none := by
            rcases hf : f a with _ | c
            · rfl
            · exact absurd ⟨hp, by rw [hf]; rfl⟩ ha
          rw [List.filter_cons_of_pos hp, List.findSome?_cons, hn]
        · rw [List.filter_cons_of_neg hp]
      rw [this, ih]
      constructor
      · rintro ⟨x, ⟨pre, post, h, hx, hpre⟩, hb⟩
        refine ⟨x, ⟨a :: pre, post, by rw [h]; rfl, hx, ?_⟩, hb⟩
        intro y hy
        rcases List.mem_cons.1 hy with rfl | hy
        · exact ha
        · exact hpre y hy
      · rintro ⟨x, ⟨pre, post, h, hx, hpre⟩, hb⟩
        cases pre with
        | nil =>
          obtain ⟨rfl, -⟩ := List.cons.inj h
          exact absurd hx ha
        | cons y pre =>
          exact ⟨x, ⟨pre, post, (List.cons.inj h).2, hx, fun z hz => hpre z (by simp [hz])⟩, hb⟩

theorem isFirst_congr {α : Type} {p q : α → Prop} (h : ∀ x, p x ↔ q x) (l : List α) (x : α) :
    Spec.IsFirst p l x ↔ Spec.IsFirst q l x := by
  have : p = q := funext fun x => propext (h x)
  rw [this]

theorem isFirst_unique {α : Type} {p : α → Prop} {l : List α} {x y : α}
    (hx : Spec.IsFirst p l x) (hy : Spec.IsFirst p l y) : x = y := by
  obtain ⟨pre, post, rfl, hx, hpre⟩ := hx
  obtain ⟨pre', post', h, hy, hpre'⟩ := hy
  induction pre generalizing pre' with
  | nil =>
    cases pre' with
    | nil => exact (List.cons.inj h).1
    | cons z pre' =>
      obtain ⟨rfl, -⟩ := List.cons.inj h
      exact absurd hx (hpre' x (by simp))
  | cons z pre ih =>
    cases pre' with
    | nil =>
      obtain ⟨rfl, -⟩ := List.cons.inj h
      exact absurd hy (hpre z (by simp))
    | cons z' pre' =>
      exact ih (fun w hw => hpre w (by simp [hw])) pre' (List.cons.inj h).2
        (fun w hw => hpre' w (by simp [hw]))

theorem find_iff (e : Elem) (s : PathStep) (ss : List PathStep) (v : Elem) :
    e.find (s :: ss) = some v ↔
      ∃ c, Spec.IsFirst (fun c => s.selects c = true ∧ (c.find ss).isSome) e.children c ∧
        c.find ss = some v := by
  rw [find_cons]
  exact findSome_filter _ _ _ _

theorem find_last_iff (e : Elem) (s : PathStep) (v : Elem) :
    e.find [s] = some v ↔ Spec.IsFirst (fun c => s.selects c = true) e.children v := by
  rw [find_iff]
  constructor
  · rintro ⟨c, hc, hv⟩
    rw [find_nil] at hv
    obtain rfl := Option.some.inj hv
    exact (isFirst_congr (fun x => by simp [find_nil]) _ _).1 hc
  · intro h
    exact ⟨v, (isFirst_congr (fun x => by simp [find_nil]) _ _).2 h, rfl⟩

theorem isFirst_exists {α : Type} {p : α → Prop} {l : List α} :
    (∃ x, Spec.IsFirst p l x) ↔ ∃ x ∈ l, p x := by
  classical
  constructor
  · rintro ⟨x, pre, post, rfl, hx, -⟩
    exact ⟨x, by simp, hx⟩
  · intro h
    induction l with
    | nil => obtain ⟨x, hx, -⟩ := h; cases hx
    | cons a l ih =>
      by_cases ha : p a
      · exact ⟨a, [], l, rfl, ha, by simp⟩
      · obtain ⟨x, hx, hp⟩ := h
        rcases List.mem_cons.1 hx with rfl | hx
        · exact absurd hp ha
        · obtain ⟨y, pre, post, rfl, hy, hpre⟩ := ih ⟨x, hx, hp⟩
          refine ⟨y, a :: pre, post, rfl, hy, ?_⟩
          intro z hz
          rcases List.mem_cons.1 hz with rfl | hz
          · exact ha
          · exact hpre z hz

theorem find_isSome_iff (e : Elem) (s : PathStep) (ss : List PathStep) :
    (e.find (s :: ss)).isSome ↔ ∃ c ∈ e.children, s.selects c = true ∧ (c.find ss).isSome := by
  rw [Option.isSome_iff_exists, ← isFirst_exists]
  constructor
  · rintro ⟨v, hv⟩
    obtain ⟨c, hc, -⟩ := (find_iff _ _ _ _).1 hv
    exact ⟨c, hc⟩
  · rintro ⟨c, hc⟩
    have hc' := hc
    obtain ⟨_, _, _, ⟨_, hs⟩, _⟩ := hc'
    obtain ⟨v, hv⟩ := Option.isSome_iff_exists.1 hs
    exact ⟨v, (find_iff _ _ _ _).2 ⟨c, hc, hv⟩⟩

theorem plain_selects (t : String) (e : Elem) : (plain t).selects e = true ↔ e.tag = t.toList := by
  unfold PathStep.selects plain
  simp

theorem dictGet_isFirst {α β : Type} [DecidableEq α] (d : List (α × β)) (k : α) (v : β) :
    dictGet d k = some v ↔ Spec.IsFirst (fun a => a.1 = k) d (k, v) := by
  induction d with
  | nil =>
    constructor
    · intro h; cases h
    · rintro ⟨pre, post, h, -⟩; simp at h
  | cons a d ih =>
    obtain ⟨k', v'⟩ := a
    rw [dictGet]
    by_cases hk : k' = k
    · rw [if_pos hk]
      subst hk
      constructor
      · intro h
        obtain rfl := Option.some.inj h
        exact ⟨[], d, rfl, rfl, by simp⟩
      · rintro ⟨pre, post, h, -, hpre⟩
        cases pre with
        | nil => rw [(Prod.mk.inj (List.cons.inj h).1).2]
        | cons y pre =>
          obtain ⟨rfl, -⟩ := List.cons.inj h
          exact absurd rfl (hpre (k', v') (by simp))
    · rw [if_neg hk, ih]
      constructor
      · rintro ⟨pre, post, rfl, hx, hpre⟩
        refine ⟨(k', v') :: pre, post, rfl, hx, ?_⟩
        intro y hy
        rcases List.mem_cons.1 hy with rfl | hy
        · exact hk
        · exact hpre y hy
      · rintro ⟨pre, post, h, hx, hpre⟩
        cases pre with
        | nil => exact absurd (Prod.mk.inj (List.cons.inj h).1).1 hk
        | cons y pre =>
          exact ⟨pre, post, (List.cons.inj h).2, hx, fun z hz => hpre z (by simp [hz])⟩

theorem dictGet_isNone {α β : Type} [DecidableEq α] (d : List (α × β)) (k : α) :
    (dictGet d k).isNone = true ↔ ∀ a ∈ d, a.1 ≠ k := by
  induction d with
  | nil => simp [dictGet]
  | cons a d ih =>
    obtain ⟨k', v'⟩ := a
    rw [dictGet]
    by_cases hk : k' = k
    · rw [if_pos hk]; simp [hk]
    · rw [if_neg hk, ih]; simp [hk]

theorem named_selects (t n : String) (e : Elem) :
    (named t n).selects e = true ↔ e.tag = t.toList ∧ Spec.NameIs e n := by
  unfold PathStep.selects named Spec.NameIs
  rw [← dictGet_isFirst]
  dsimp only [Elem.name]
  rw [Bool.and_eq_true, decide_eq_true_iff]
  exact and_congr_right fun _ => decide_eq_true_iff

theorem find_chain_iff (e : Elem) (path : List PathStep) (v : Elem) :
    e.find path = some v ↔ Spec.FirstChain (path.map fun s c => s.selects c = true) e v := by
  induction path generalizing e v with
  | nil => exact Option.some_inj
  | cons s ss ih =>
    rw [find_iff, List.map_cons, Spec.FirstChain]
    refine exists_congr fun c => and_congr (isFirst_congr (fun x => ?_) _ _) (ih c v)
    rw [Option.isSome_iff_exists]
    exact and_congr Iff.rfl (exists_congr fun w => ih x w)

theorem plain_pred (t : String) : (fun c => (plain t).selects c = true) = Spec.Tag t :=
  funext fun c => propext (plain_selects t c)

theorem named_pred (t n : String) : (fun c => (named t n).selects c = true) = Spec.TagNamed t n :=
  funext fun c => propext (named_selects t n c)

theorem varrayRow_iff (e : Elem) (row : List Num) :
    varrayRow e = .ok row ↔ Spec.NumbersOf e row := by
  unfold varrayRow Spec.NumbersOf
  cases e.text with
  | none =>
    constructor
    · intro h; cases h
    · rintro ⟨t, h, -⟩; cases h
  | some t =>
    dsimp only
    cases hp : parseFloats (splitWs t) with
    | none =>
      constructor
      · intro h; cases h
      · rintro ⟨t', h, hall⟩
        obtain rfl := Option.some.inj h
        have := (mapM_option_iff parseFloat _ _).2 hall
        unfold parseFloats at hp
        rw [hp] at this
        cases this
    | some xs =>
      have hx := (mapM_option_iff parseFloat _ _).1 hp
      constructor
      · intro h
        rw [← Except.ok.inj h]
        exact ⟨t, rfl, hx⟩
      · rintro ⟨t', h, hall⟩
        obtain rfl := Option.some.inj h
        have := (mapM_option_iff parseFloat _ _).2 hall
        unfold parseFloats at hp
        rw [hp] at this
        rw [Option.some.inj this]

theorem npArray_iff (rows a : List (List Num)) :
    npArray rows = .ok a ↔ a = rows ∧ ∀ x ∈ rows, ∀ y ∈ rows, x.length = y.length := by
  constructor
  · exact npArray_eq_ok
  · rintro ⟨rfl, h⟩
    cases a with
    | nil => rfl
    | cons r rs =>
      rw [npArray, if_pos]
      intro x hx
      exact h x (by simp [hx]) r (by simp)

theorem parseVarray_iff (e : Elem) (rows : List (List Num)) :
    parseVarray e = .ok rows ↔ Spec.RowsOf e rows := by
  unfold parseVarray Spec.RowsOf
  cases hm : e.children.mapM varrayRow with
  | error er =>
    constructor
    · intro h; cases h
    · rintro ⟨hall, -⟩
      rw [(mapM_except_ok varrayRow _ _).2 (hall.imp fun a b h => (varrayRow_iff a b).2 h)] at hm
      cases hm
  | ok rs =>
    have hx := ((mapM_except_ok varrayRow _ _).1 hm).imp fun a b h => (varrayRow_iff a b).1 h
    change npArray rs = .ok rows ↔ _
    rw [npArray_iff]
    constructor
    · rintro ⟨rfl, h⟩; exact ⟨hx, h⟩
    · rintro ⟨hall, h⟩
      have h2 := (mapM_except_ok varrayRow _ _).2 (hall.imp fun a b h => (varrayRow_iff a b).2 h)
      rw [hm] at h2
      obtain rfl := Except.ok.inj h2
      exact ⟨rfl, h⟩

theorem findVarray_iff (e : Elem) (path : List PathStep) (rows : List (List Num)) :
    findVarray e path = .ok rows ↔ ∃ v, e.find path = some v ∧ Spec.RowsOf v rows := by
  unfold findVarray
  cases e.find path with
  | none =>
    constructor
    · intro h; cases h
    · rintro ⟨v, h, -⟩; cases h
  | some v =>
    dsimp only
    rw [parseVarray_iff]
    constructor
    · intro h; exact ⟨v, rfl, h⟩
    · rintro ⟨w, h, hw⟩; rw [Option.some.inj h]; exact hw

theorem onlyErr_mapM {α β : Type} {S : PyErr → Prop} {f : α → Py β} {l : List α}
    (h : ∀ a ∈ l, OnlyErr S (f a)) : OnlyErr S (l.mapM f) := by
  induction l with
  | nil => exact .ok _
  | cons a l ih =>
    rw [List.mapM_cons]
    exact .bind (h a (by simp)) fun _ _ => .bind (ih fun x hx => h x (by simp [hx])) fun _ _ =>
      .ok _

theorem onlyErr_varrayRow (e : Elem) : OnlyErr FileErr (varrayRow e) := by
  unfold varrayRow
  cases e.text with
  | none => exact .err (Or.inl rfl)
  | some t =>
    dsimp only
    cases parseFloats (splitWs t) with
    | none => exact .err (Or.inr rfl)
    | some xs => exact .ok _

theorem onlyErr_npArray (rows : List (List Num)) : OnlyErr FileErr (npArray rows) := by
  cases rows with
  | nil => exact .ok _
  | cons r rs =>
    rw [npArray]
    split_ifs
    · exact .ok _
    · exact .err (Or.inr rfl)

theorem onlyErr_findVarray (e : Elem) (path : List PathStep) :
    OnlyErr FileErr (findVarray e path) := by
  unfold findVarray
  cases e.find path with
  | none => exact .err (Or.inl rfl)
  | some v =>
    exact .bind (onlyErr_mapM fun a _ => onlyErr_varrayRow a) fun _ _ => onlyErr_npArray _

end Verif
