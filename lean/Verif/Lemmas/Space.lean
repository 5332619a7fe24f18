import Verif.Spec.Space
import Verif.Props.GridSegment
import Mathlib.Data.List.Nodup
import Mathlib.Algebra.BigOperators.Group.List.Basic
/-
Lemmas about the dof maps.
-/
namespace Verif.Space
open Verif.Grid

/-! ### numbering -/

theorem numberBlocks_length {α : Type} (cnt : α → Nat) (keep : α → Int) : ∀ (l : List α) (n : Nat),
    (numberBlocks cnt keep l n).1.length = l.length := by
  intro l
  induction l with
  | nil => intro n; rfl
  | cons x l ih =>
    intro n
    unfold numberBlocks
    split <;> simp [ih]

theorem numberBlocks_count {α : Type} (cnt : α → Nat) (keep : α → Int) : ∀ (l : List α) (n : Nat),
    (numberBlocks cnt keep l n).2 = n + (l.map cnt).sum := by
  intro l
  induction l with
  | nil => intro n; rfl
  | cons x l ih =>
    intro n
    unfold numberBlocks
    split
    · simp only [ih, List.map_cons, List.sum_cons]; omega
    · simp only [ih, List.map_cons, List.sum_cons]; omega

theorem numberBlocks_get {α : Type} (cnt : α → Nat) (keep : α → Int) : ∀ (l : List α) (n k : Nat),
    (numberBlocks cnt keep l n).1[k]? = l[k]?.map fun x =>
      if 0 < cnt x then ((n + ((l.take k).map cnt).sum : Nat) : Int) else keep x := by
  intro l
  induction l with
  | nil => intro n k; simp [numberBlocks]
  | cons x l ih =>
    intro n k
    unfold numberBlocks
    by_cases h : 0 < cnt x
    · rw [if_pos h]
      cases k with
      | zero => simp [h]
      | succ k =>
        simp only [List.getElem?_cons_succ, ih, List.take_succ_cons, List.map_cons, List.sum_cons]
        congr 1
        funext y
        split
        · congr 1; omega
        · rfl
    · rw [if_neg h]
      cases k with
      | zero => simp [h]
      | succ k =>
        simp only [List.getElem?_cons_succ, ih, List.take_succ_cons, List.map_cons, List.sum_cons]
        congr 1
        funext y
        split
        · congr 1; omega
        · rfl

/-! ### writes of one element -/

theorem writeDof_fst (e : Nat) (ws : List (Nat × Int)) : ∀ st : List Int × List (List LocalDof),
    (ws.foldl (writeDof e) st).1 = ws.foldl (fun (l : List Int) w => l.set w.1 w.2) st.1 := by
  induction ws with
  | nil => intro st; rfl
  | cons w ws ih => intro st; rw [List.foldl_cons, ih]; rfl

theorem foldl_set_pairs_length (ws : List (Nat × Int)) : ∀ l : List Int,
    (ws.foldl (fun (l : List Int) w => l.set w.1 w.2) l).length = l.length := by
  induction ws with
  | nil => intro l; rfl
  | cons w ws ih => intro l; rw [List.foldl_cons, ih]; simp

theorem foldl_set_pairs_get (ws : List (Nat × Int)) : ∀ (l : List Int) (k : Nat) (g : Int),
    (ws.map Prod.fst).Nodup → k < l.length → (k, g) ∈ ws →
    (ws.foldl (fun (l : List Int) w => l.set w.1 w.2) l)[k]? = some g := by
  have skip : ∀ (ws : List (Nat × Int)) (l : List Int) (k : Nat), k ∉ ws.map Prod.fst →
      (ws.foldl (fun (l : List Int) w => l.set w.1 w.2) l)[k]? = l[k]? := by
    intro ws
    induction ws with
    | nil => intro l k _; rfl
    | cons w ws ih =>
      intro l k hk
      simp only [List.map_cons, List.mem_cons, not_or] at hk
      rw [List.foldl_cons, ih _ _ hk.2, List.getElem?_set_ne (fun h => hk.1 h.symm)]
  induction ws with
  | nil => intro l k g _ _ h; cases h
  | cons w ws ih =>
    intro l k g hnd hk hm
    rw [List.map_cons, List.nodup_cons] at hnd
    rw [List.foldl_cons]
    rcases List.mem_cons.mp hm with h | h
    · subst h
      rw [skip _ _ _ hnd.1, List.getElem?_set_self hk]
    · exact ih _ _ _ hnd.2 (by simpa using hk) h

theorem writeDof_snd (e : Nat) (ws : List (Nat × Int)) (g : Nat) : ∀ st : List Int × List (List LocalDof),
    (ws.foldl (writeDof e) st).2[g]? = st.2[g]?.map fun l =>
      l ++ (ws.filter fun w => w.2 = (g : Int)).map fun w => (⟨e, w.1⟩ : LocalDof) := by
  induction ws with
  | nil => intro st; simp
  | cons w ws ih =>
    intro st
    rw [List.foldl_cons, ih]
    unfold writeDof
    by_cases h0 : 0 ≤ w.2
    · rw [if_pos h0]
      by_cases hg : w.2 = (g : Int)
      · have : w.2.toNat = g := by omega
        simp only [List.getElem?_modify, this, if_true, Option.map_map, List.filter_cons, hg, decide_true]
        simp [Function.comp_def]
      · have : ¬ w.2.toNat = g := by omega
        simp [List.getElem?_modify, this, List.filter_cons, hg]
    · rw [if_neg h0]
      have : ¬ w.2 = (g : Int) := by omega
      simp [List.filter_cons, this]

theorem writeDof_snd_length (e : Nat) (ws : List (Nat × Int)) : ∀ st : List Int × List (List LocalDof),
    (ws.foldl (writeDof e) st).2.length = st.2.length := by
  induction ws with
  | nil => intro st; rfl
  | cons w ws ih =>
    intro st
    rw [List.foldl_cons, ih]
    unfold writeDof
    split <;> simp

/-! ### the loop over the elements -/

/-- The list of dofs written for an element. -/
def rowOf (n : Elem → Nat) (writes : Elem → List (Nat × Int)) (e : Elem) : List Int :=
  (writes e).foldl (fun (l : List Int) w => l.set w.1 w.2) (List.replicate (n e) 0)

theorem writeElements_fold (n : Elem → Nat) (writes : Elem → List (Nat × Int)) : ∀ (es : List Elem) (m : DofMaps),
    (es.foldl (writeElement n writes) m).local2global =
      es.foldl (fun (l : List (List Int)) e => l.set e.index (rowOf n writes e)) m.local2global ∧
    (es.foldl (writeElement n writes) m).global2local.length = m.global2local.length ∧
    ∀ g : Nat, (es.foldl (writeElement n writes) m).global2local[g]? = m.global2local[g]?.map fun l =>
      l ++ es.flatMap fun e => ((writes e).filter fun w => w.2 = (g : Int)).map fun w => (⟨e.index, w.1⟩ : LocalDof) := by
  intro es
  induction es with
  | nil => intro m; refine ⟨rfl, rfl, ?_⟩; intro g; simp
  | cons e es ih =>
    intro m
    obtain ⟨h1, h2, h3⟩ := ih (writeElement n writes m e)
    refine ⟨?_, ?_, ?_⟩
    · rw [List.foldl_cons, h1, List.foldl_cons]
      unfold writeElement rowOf
      simp only [writeDof_fst]
    · rw [List.foldl_cons, h2]
      unfold writeElement
      exact writeDof_snd_length _ _ _
    · intro g
      rw [List.foldl_cons, h3]
      unfold writeElement
      simp only [writeDof_snd, Option.map_map, List.flatMap_cons]
      congr 1
      funext l
      simp [Function.comp_def]

theorem foldl_set_rows_length {α : Type} (key : α → Nat) (row : α → List Int) (es : List α) :
    ∀ l : List (List Int), (es.foldl (fun (l : List (List Int)) e => l.set (key e) (row e)) l).length = l.length := by
  induction es with
  | nil => intro l; rfl
  | cons w ws ih => intro l; rw [List.foldl_cons, ih]; simp

theorem foldl_set_rows_skip {α : Type} (key : α → Nat) (row : α → List Int) (es : List α) (k : Nat)
    (hk : k ∉ es.map key) : ∀ l : List (List Int),
    (es.foldl (fun (l : List (List Int)) e => l.set (key e) (row e)) l)[k]? = l[k]? := by
  induction es with
  | nil => intro l; rfl
  | cons w ws ih =>
    intro l
    simp only [List.map_cons, List.mem_cons, not_or] at hk
    rw [List.foldl_cons, ih hk.2, List.getElem?_set_ne (fun h => hk.1 h.symm)]

theorem foldl_set_rows_get {α : Type} (key : α → Nat) (row : α → List Int) (es : List α) :
    ∀ (l : List (List Int)) (e : α), (es.map key).Nodup → key e < l.length → e ∈ es →
    (es.foldl (fun (l : List (List Int)) e => l.set (key e) (row e)) l)[key e]? = some (row e) := by
  induction es with
  | nil => intro l e _ _ h; cases h
  | cons w ws ih =>
    intro l e hnd hk hm
    rw [List.map_cons, List.nodup_cons] at hnd
    rw [List.foldl_cons]
    rcases List.mem_cons.mp hm with h | h
    · subst h
      rw [foldl_set_rows_skip key row ws _ hnd.1, List.getElem?_set_self hk]
    · exact ih _ _ hnd.2 (by simpa using hk) h

/-- What the theorems need to know about the writes of a space. -/
structure GoodWrites (v : View) (count : Nat) (n : Elem → Nat) (writes : Elem → List (Nat × Int)) : Prop where
  index_nodup : (v.elems.map (·.index)).Nodup
  index_lt : ∀ e ∈ v.elems, e.index < v.count 0
  keys : ∀ e ∈ v.elems, ((writes e).map Prod.fst).Perm (List.range (n e))
  range : ∀ e ∈ v.elems, ∀ w ∈ writes e, w.2 = -1 ∨ (0 ≤ w.2 ∧ w.2 < count)

section
variable {v : View} {count : Nat} {n : Elem → Nat} {writes : Elem → List (Nat × Int)}

theorem rowOf_get (h : GoodWrites v count n writes) {e : Elem} (he : e ∈ v.elems) (i : Nat) (g : Int) :
    (rowOf n writes e)[i]? = some g ↔ (i, g) ∈ writes e := by
  have hp := h.keys e he
  have hnd : ((writes e).map Prod.fst).Nodup := hp.nodup_iff.mpr List.nodup_range
  have hlen : (rowOf n writes e).length = n e := by
    unfold rowOf; rw [foldl_set_pairs_length]; simp
  constructor
  · intro hg
    have hi : i < n e := by
      rw [← hlen]; exact (List.getElem?_eq_some_iff.mp hg).1
    have : i ∈ (writes e).map Prod.fst := hp.mem_iff.mpr (List.mem_range.mpr hi)
    obtain ⟨w, hw, rfl⟩ := List.mem_map.mp this
    have h2 := foldl_set_pairs_get (writes e) (List.replicate (n e) 0) w.1 w.2 hnd (by simpa using hi) hw
    unfold rowOf at hg
    rw [h2] at hg
    cases hg
    exact hw
  · intro hm
    have hi : i < n e := List.mem_range.mp (hp.mem_iff.mp (List.mem_map.mpr ⟨_, hm, rfl⟩))
    exact foldl_set_pairs_get (writes e) _ i g hnd (by simpa using hi) hm

theorem rowOf_length (e : Elem) : (rowOf n writes e).length = n e := by
  unfold rowOf; rw [foldl_set_pairs_length]; simp

theorem writeElements_length : (writeElements v count n writes).local2global.length = v.count 0 := by
  unfold writeElements
  rw [(writeElements_fold n writes v.elems _).1, foldl_set_rows_length]
  simp

theorem writeElements_count : (writeElements v count n writes).globalDofCount = count := by
  unfold writeElements DofMaps.globalDofCount
  rw [(writeElements_fold n writes v.elems _).2.1]
  simp

theorem writeElements_row (h : GoodWrites v count n writes) {e : Elem} (he : e ∈ v.elems) :
    (writeElements v count n writes).getGlobalDofs e.index = rowOf n writes e := by
  unfold DofMaps.getGlobalDofs writeElements
  rw [(writeElements_fold n writes v.elems _).1, List.getD_eq_getElem?_getD,
    foldl_set_rows_get (fun e : Elem => e.index) (rowOf n writes) v.elems _ e h.index_nodup
      (by simpa using h.index_lt e he) he]
  rfl

theorem writeElements_row_none {k : Nat} (hk : ∀ e ∈ v.elems, e.index ≠ k) :
    (writeElements v count n writes).getGlobalDofs k = [] := by
  unfold DofMaps.getGlobalDofs writeElements
  rw [(writeElements_fold n writes v.elems _).1, List.getD_eq_getElem?_getD,
    foldl_set_rows_skip (fun e : Elem => e.index) (rowOf n writes) v.elems k (by
      intro hm; obtain ⟨e, he, h2⟩ := List.mem_map.mp hm; exact hk e he h2)]
  rw [List.getElem?_replicate]
  split <;> rfl

theorem writeElements_at (h : GoodWrites v count n writes) (ld : LocalDof) (g : Int) :
    (writeElements v count n writes).At ld g ↔
      ∃ e ∈ v.elems, e.index = ld.entityIndex ∧ (ld.dofIndex, g) ∈ writes e := by
  unfold DofMaps.At
  by_cases hx : ∃ e ∈ v.elems, e.index = ld.entityIndex
  · obtain ⟨e, he, hidx⟩ := hx
    rw [← hidx, writeElements_row h he, rowOf_get h he]
    constructor
    · intro hm; exact ⟨e, he, rfl, hm⟩
    · rintro ⟨e', he', hi', hm⟩
      have : e' = e := List.inj_on_of_nodup_map h.index_nodup he' he hi'
      rwa [← this]
  · rw [writeElements_row_none (fun e he hk => hx ⟨e, he, hk⟩)]
    simp only [List.getElem?_nil, reduceCtorEq, false_iff]
    rintro ⟨e, he, hi, -⟩
    exact hx ⟨e, he, hi⟩

theorem writeElements_global {g : Nat} (hg : g < count) :
    (writeElements v count n writes).globalToLocal g = v.elems.flatMap fun e =>
      ((writes e).filter fun w => w.2 = (g : Int)).map fun w => (⟨e.index, w.1⟩ : LocalDof) := by
  unfold DofMaps.globalToLocal writeElements
  rw [List.getD_eq_getElem?_getD, (writeElements_fold n writes v.elems _).2.2]
  simp [hg]

/-! ### flat local dofs -/

theorem flat_mem (m : DofMaps) (ld : LocalDof) : ld ∈ m.flat ↔ ∃ g : Nat, m.At ld g := by
  unfold DofMaps.flat flatLocalDofs DofMaps.At DofMaps.getGlobalDofs
  simp only [List.mem_flatMap, List.mem_filterMap, Prod.exists]
  constructor
  · rintro ⟨row, e, hr, g, d, hg, h⟩
    rw [List.mem_zipIdx_iff_getElem?] at hr hg
    simp only at hr hg h
    split at h
    · rename_i h0
      cases h
      refine ⟨g.toNat, ?_⟩
      rw [List.getD_eq_getElem?_getD, hr]
      simp only [Option.getD_some, hg, Option.some.injEq]
      omega
    · cases h
  · rintro ⟨g, h⟩
    rw [List.getD_eq_getElem?_getD] at h
    cases hr : m.local2global[ld.entityIndex]? with
    | none => rw [hr] at h; simp at h
    | some row =>
      rw [hr] at h
      refine ⟨row, ld.entityIndex, ?_, (g : Int), ld.dofIndex, ?_, ?_⟩
      · rw [List.mem_zipIdx_iff_getElem?]; exact hr
      · rw [List.mem_zipIdx_iff_getElem?]; exact h
      · rw [if_pos (by omega)]

theorem zipIdx_sorted {α : Type} : ∀ (l : List α) (k : Nat),
    (l.zipIdx k).Pairwise fun a b => a.2 < b.2 := by
  intro l
  induction l with
  | nil => intro k; simp
  | cons a l ih =>
    intro k
    rw [List.zipIdx_cons, List.pairwise_cons]
    refine ⟨?_, ih (k + 1)⟩
    rintro ⟨b, j⟩ hb
    have := List.le_snd_of_mem_zipIdx hb
    simp only at this ⊢
    omega

theorem flat_sorted (m : DofMaps) : m.flat.Pairwise fun a b =>
    a.entityIndex < b.entityIndex ∨ (a.entityIndex = b.entityIndex ∧ a.dofIndex < b.dofIndex) := by
  unfold DofMaps.flat flatLocalDofs
  rw [List.pairwise_flatMap]
  constructor
  · rintro ⟨row, e⟩ -
    refine List.Pairwise.filterMap _ ?_ (zipIdx_sorted row 0)
    intro a b hab x hx y hy
    simp only at hx hy
    split at hx
    · split at hy
      · cases hx; cases hy
        right
        exact ⟨rfl, hab⟩
      · cases hy
    · cases hx
  · refine (zipIdx_sorted m.local2global 0).imp ?_
    rintro ⟨r1, e1⟩ ⟨r2, e2⟩ hlt x hx y hy
    simp only [List.mem_filterMap] at hx hy
    obtain ⟨a, -, ha⟩ := hx
    obtain ⟨b, -, hb⟩ := hy
    split at ha
    · split at hb
      · cases ha; cases hb
        left
        exact hlt
      · cases hb
    · cases ha

theorem flat_nodup (m : DofMaps) : m.flat.Nodup := by
  refine (flat_sorted m).imp ?_
  rintro a b h rfl
  omega

/-- The generic consequence: the maps of a space given by its writes are consistent. -/
theorem writeElements_consistent (h : GoodWrites v count n writes) :
    (writeElements v count n writes).Consistent where
  range := by
    intro ld g hat
    rw [writeElements_at h] at hat
    obtain ⟨e, he, -, hw⟩ := hat
    rw [writeElements_count]
    exact h.range e he _ hw
  inverse := by
    intro g hg ld
    rw [writeElements_count] at hg
    rw [writeElements_global hg, writeElements_at h]
    simp only [List.mem_flatMap, List.mem_map, List.mem_filter, decide_eq_true_eq]
    constructor
    · rintro ⟨e, he, w, ⟨hw, hwg⟩, rfl⟩
      refine ⟨e, he, rfl, ?_⟩
      rw [← hwg]; exact hw
    · rintro ⟨e, he, hi, hw⟩
      exact ⟨e, he, _, ⟨hw, rfl⟩, by rw [hi]⟩
  once := by
    intro g hg
    rw [writeElements_count] at hg
    rw [writeElements_global hg, List.nodup_flatMap]
    constructor
    · intro e he
      have hnd : ((writes e).map Prod.fst).Nodup := (h.keys e he).nodup_iff.mpr List.nodup_range
      have : (((writes e).filter fun w => w.2 = (g : Int)).map Prod.fst).Nodup :=
        hnd.sublist (List.Sublist.map _ List.filter_sublist)
      refine List.Nodup.map_on ?_ (List.Nodup.of_map _ this)
      intro a ha b hb hab
      have h1 : a.1 = b.1 := by injection hab
      exact List.inj_on_of_nodup_map this ha hb h1
    · have := h.index_nodup
      rw [List.Nodup, List.pairwise_map] at this
      refine this.imp ?_
      intro a b hab
      rw [Function.onFun, List.disjoint_left]
      intro x hx hy
      simp only [List.mem_map] at hx hy
      obtain ⟨_, -, rfl⟩ := hx
      obtain ⟨_, -, h2⟩ := hy
      injection h2 with h3
      exact hab h3.symm
  flat_mem := flat_mem _
  flat_sorted := flat_sorted _
end

end Verif.Space
