import Verif.Lemmas.GmshRead
import Mathlib.Data.List.Nodup
/-
Lemmas about the renumbering of vertices.
-/
namespace Verif.Gmsh
open Verif.Grid

/-- The order of first use after one more vertex. -/
def use (order : List Nat) (x : Nat) : List Nat := if x ∈ order then order else order ++ [x]

/-- The state of the renumbering. -/
def ofOrder (n : Nat) (order : List Nat) : Renumbering :=
  ⟨(List.range n).map fun i => if i ∈ order then some (order.idxOf i) else none, order.length⟩

theorem usedIndex_ok {n x : Nat} (h : x < n) : usedIndex n ((x : Int) + 1) = .ok x := by
  unfold usedIndex
  dsimp only
  rw [if_pos ⟨by omega, by omega⟩]
  congr 1
  omega

theorem mem_use {order : List Nat} {x y : Nat} : y ∈ use order x ↔ y ∈ order ∨ y = x := by
  unfold use
  split
  · rename_i h
    constructor
    · exact Or.inl
    · rintro (h' | rfl)
      · exact h'
      · exact h
  · rw [List.mem_append, List.mem_singleton]

theorem idxOf_use {order : List Nat} {x y : Nat} (h : y ∈ order) : (use order x).idxOf y = order.idxOf y := by
  unfold use
  split
  · rfl
  · rw [List.idxOf_append_of_mem h]

theorem idxOf_use_self (order : List Nat) (x : Nat) (h : x ∉ order) : (use order x).idxOf x = order.length := by
  unfold use
  rw [if_neg h, List.idxOf_append_of_notMem h]
  simp

theorem visit_ok {n : Nat} (order : List Nat) {x : Nat} (hx : x < n) :
    (ofOrder n order).visit ((x : Int) + 1) = .ok (ofOrder n (use order x), (use order x).idxOf x) := by
  unfold Renumbering.visit
  have hlen : (ofOrder n order).used.length = n := by simp [ofOrder]
  rw [hlen, usedIndex_ok hx, bind_ok]
  have hget : (ofOrder n order).used.getD x none = if x ∈ order then some (order.idxOf x) else none := by
    simp [ofOrder, List.getD, List.getElem?_range hx]
  rw [hget]
  by_cases h : x ∈ order
  · rw [if_pos h]
    have hu : use order x = order := if_pos h
    rw [hu]
    rfl
  · rw [if_neg h]
    dsimp only
    rw [idxOf_use_self order x h]
    rw [pure_ok]
    congr 2
    unfold ofOrder
    congr 1
    · apply List.ext_getElem
      · simp
      · intro i h1 h2
        rw [List.getElem_set, List.getElem_map, List.getElem_map, List.getElem_range]
        by_cases hi : x = i
        · subst hi
          rw [if_pos rfl, if_pos (mem_use.2 (Or.inr rfl)), idxOf_use_self order x h]
        · rw [if_neg hi]
          by_cases ho : i ∈ order
          · rw [if_pos ho, if_pos (mem_use.2 (Or.inl ho)), idxOf_use ho]
          · rw [if_neg ho, if_neg]
            intro hh
            rcases mem_use.1 hh with hh | hh
            · exact ho hh
            · exact hi hh.symm
    · unfold use
      rw [if_neg h, List.length_append]
      rfl

theorem mem_foldl_use (order l : List Nat) (y : Nat) : y ∈ l.foldl use order ↔ y ∈ order ∨ y ∈ l := by
  induction l generalizing order with
  | nil => simp
  | cons x l ih =>
    rw [List.foldl_cons, ih, mem_use, List.mem_cons]
    tauto

theorem idxOf_foldl_use {order : List Nat} (l : List Nat) {y : Nat} (h : y ∈ order) : (l.foldl use order).idxOf y = order.idxOf y := by
  induction l generalizing order with
  | nil => rfl
  | cons x l ih => rw [List.foldl_cons, ih (mem_use.2 (Or.inl h)), idxOf_use h]

theorem visitAll_ok {n : Nat} (order l : List Nat) (hl : ∀ x ∈ l, x < n) :
    (ofOrder n order).visitAll (l.map fun x : Nat => (x : Int) + 1) = .ok (ofOrder n (l.foldl use order), l.map fun x => (l.foldl use order).idxOf x) := by
  induction l generalizing order with
  | nil => rfl
  | cons x l ih =>
    rw [List.map_cons, Renumbering.visitAll, visit_ok order (hl x List.mem_cons_self), bind_ok]
    dsimp only
    rw [ih (use order x) fun y hy => hl y (List.mem_cons_of_mem _ hy), bind_ok]
    dsimp only
    rw [pure_ok, List.foldl_cons, List.map_cons, idxOf_foldl_use l (mem_use.2 (Or.inr rfl))]

theorem elements_ok {n : Nat} (order : List Nat) (es : List FileElement) (els : List (List Nat))
    (he : es.map (·.nodes) = els.map fun e => e.map fun x : Nat => (x : Int) + 1) (hl : ∀ e ∈ els, ∀ x ∈ e, x < n) :
    (ofOrder n order).elements es =
      .ok (ofOrder n (els.flatten.foldl use order), els.map fun e => e.map fun x => (els.flatten.foldl use order).idxOf x) := by
  induction els generalizing order es with
  | nil =>
    have : es = [] := by simpa using he
    subst this
    rfl
  | cons e els ih =>
    cases es with
    | nil => simp at he
    | cons f es =>
      rw [List.map_cons, List.map_cons] at he
      obtain ⟨h1, h2⟩ := List.cons.inj he
      rw [Renumbering.elements, h1, visitAll_ok order e (hl e List.mem_cons_self), bind_ok]
      dsimp only
      rw [ih (e.foldl use order) es h2 fun e' he' => hl e' (List.mem_cons_of_mem _ he'), bind_ok]
      dsimp only
      rw [pure_ok, List.flatten_cons, List.foldl_append, List.map_cons]
      congr 3
      apply List.map_congr_left
      intro x hx
      rw [idxOf_foldl_use _ ((mem_foldl_use _ _ _).2 (Or.inr hx))]

theorem nodup_use {order : List Nat} (h : order.Nodup) (x : Nat) : (use order x).Nodup := by
  unfold use
  split
  · exact h
  · rename_i hx
    rw [List.nodup_append]
    refine ⟨h, List.nodup_singleton x, ?_⟩
    intro a ha b hb
    rw [List.mem_singleton.1 hb]
    rintro rfl
    exact hx ha

theorem nodup_foldl_use {order : List Nat} (l : List Nat) (h : order.Nodup) : (l.foldl use order).Nodup := by
  induction l generalizing order with
  | nil => exact h
  | cons x l ih => exact ih (nodup_use h x)

theorem firstUse_foldl (l : List Nat) : FirstUse l (l.foldl use []) := by
  refine ⟨nodup_foldl_use l List.nodup_nil, fun x => by rw [mem_foldl_use]; simp, ?_⟩
  induction l using List.reverseRecOn with
  | nil => exact List.Pairwise.nil
  | append_singleton l x ih =>
    rw [List.foldl_append, List.foldl_cons, List.foldl_nil]
    have hmem : ∀ y, y ∈ l.foldl use [] ↔ y ∈ l := fun y => by rw [mem_foldl_use]; simp
    have ih' : (l.foldl use []).Pairwise fun a b => (l ++ [x]).idxOf a < (l ++ [x]).idxOf b := by
      refine ih.imp_of_mem ?_
      intro a b ha hb hab
      rw [List.idxOf_append_of_mem ((hmem a).1 ha), List.idxOf_append_of_mem ((hmem b).1 hb)]
      exact hab
    unfold use
    split
    · exact ih'
    · rename_i hx
      rw [List.pairwise_append]
      refine ⟨ih', List.pairwise_singleton _ _, ?_⟩
      intro a ha b hb
      rw [List.mem_singleton.1 hb, List.idxOf_append_of_mem ((hmem a).1 ha), List.idxOf_append_of_notMem fun h => hx ((hmem x).2 h)]
      have := List.idxOf_lt_length_of_mem ((hmem a).1 ha)
      omega

theorem indexSet_ofOrder {n : Nat} {order : List Nat} (hn : ∀ x ∈ order, x < n) (hd : order.Nodup) : (ofOrder n order).indexSet = order := by
  unfold Renumbering.indexSet
  apply List.ext_getElem
  · simp [ofOrder]
  · intro k h1 h2
    rw [List.getElem_map, List.getElem_range]
    have hk := hn _ (List.getElem_mem h2)
    have hu : ∀ i (hi : i < (ofOrder n order).used.length), ((ofOrder n order).used[i] == some k) = decide (i = order[k]) := by
      intro i hi
      have hget : (ofOrder n order).used[i] = if i ∈ order then some (order.idxOf i) else none := by simp [ofOrder]
      rw [hget, Bool.eq_iff_iff, beq_iff_eq, decide_eq_true_eq]
      constructor
      · intro h
        split at h
        · rename_i hm
          have hik := Option.some.inj h
          have := List.getElem_idxOf (List.idxOf_lt_length_of_mem hm)
          simp only [hik] at this
          exact this.symm
        · cases h
      · rintro rfl
        rw [if_pos (List.getElem_mem h2), List.Nodup.idxOf_getElem hd]
    rw [List.findIdx_eq (by simpa [ofOrder] using hk)]
    constructor
    · rw [hu]; simp
    · intro j hj
      rw [hu]
      simp only [decide_eq_false_iff_not]
      omega

theorem ofOrder_nil (n : Nat) : ofOrder n [] = ⟨List.replicate n none, 0⟩ := by
  unfold ofOrder
  congr 1
  apply List.ext_getElem
  · simp
  · intro i h1 h2
    simp

end Verif.Gmsh
