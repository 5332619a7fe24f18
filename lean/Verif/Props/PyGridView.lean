import Verif.Model.PyGridView
import Verif.Props.DataContainer
import Mathlib.Data.List.GetD
/-
Property C107: queries of the Python grid classes.
-/
namespace Verif.PyGrid
open Verif.Grid

/-! ### Insertion indices -/

theorem foldl_dict {α : Type} (ins : α → Nat) (entities : List α) : ∀ (i : Int) (d : Dict α),
    entities.foldl (fun (st : Int × Dict α) e => ((ins e : Int), (ins e, e) :: st.2)) (i, d) =
      ((entities.getLast?.map fun e => (ins e : Int)).getD i,
        (entities.map fun e => (ins e, e)).reverse ++ d) := by
  induction entities with
  | nil => intro i d; rfl
  | cons e es ih =>
    intro i d
    rw [List.foldl_cons, ih]
    cases es with
    | nil => simp
    | cons a es => simp [List.getLast?_cons_cons]; cases h : (a :: es).getLast? <;> simp_all

theorem dict_get {α : Type} (ins : α → Nat) (entities : List α)
    (hnd : (entities.map ins).Nodup) (index : Int) :
    (∀ e ∈ entities, (ins e : Int) = index →
      Dict.get ((entities.map fun e => (ins e, e)).reverse) index = .ok e) ∧
    ((∀ e ∈ entities, (ins e : Int) ≠ index) →
      Dict.get ((entities.map fun e => (ins e, e)).reverse) index = .error .keyError) := by
  constructor
  · intro e he hi
    unfold Dict.get
    cases hf : ((entities.map fun e => (ins e, e)).reverse).find? (fun p => (p.1 : Int) == index) with
    | none =>
      exfalso
      rw [List.find?_eq_none] at hf
      exact hf (ins e, e) (by simpa using he) (by simpa using hi)
    | some p =>
      have h1 := List.find?_some hf
      have h2 := List.mem_of_find?_eq_some hf
      simp only [List.mem_reverse, List.mem_map] at h2
      obtain ⟨e', he', rfl⟩ := h2
      simp at h1
      have : ins e = ins e' := by omega
      have hee : e = e' := List.inj_on_of_nodup_map hnd he he' this
      subst hee
      rfl
  · intro h
    unfold Dict.get
    rw [List.find?_eq_none.mpr]
    intro p hp
    simp only [List.mem_reverse, List.mem_map] at hp
    obtain ⟨e, he, rfl⟩ := hp
    simpa using h e he

theorem from_cached {α : Type} (entities : List α) (ins : α → Nat) (is : List Int) (d : Dict α) :
    lookups entities ins (some d) is = is.map d.get := by
  induction is with
  | nil => rfl
  | cons i is ih =>
    show _ :: lookups entities ins (some d) is = _
    rw [ih]
    rfl

/-- **C107 (part)** From the second call on, `element_from_insertion_index(i)` (and the same for vertices)
returns the entity whose insertion index is `i`, and raises `KeyError` exactly if there is none.  Missing:
the first call on a grid (below). -/
theorem C107_insertion_lookup_partial {α : Type} (entities : List α) (ins : α → Nat)
    (hnd : (entities.map ins).Nodup) (first : Int) (is : List Int) (k : Nat) (i : Int) (hk : is[k]? = some i) :
    (∀ e ∈ entities, (ins e : Int) = i → (lookups entities ins none (first :: is))[k + 1]? = some (.ok e)) ∧
    ((∀ e ∈ entities, (ins e : Int) ≠ i) →
      (lookups entities ins none (first :: is))[k + 1]? = some (.error .keyError)) := by
  have : lookups entities ins none (first :: is) =
      (fromInsertionIndex entities ins none first).1 ::
        is.map (Dict.get ((entities.map fun e => (ins e, e)).reverse)) := by
    have h2 : (fromInsertionIndex entities ins none first).2 =
        some ((entities.map fun e => (ins e, e)).reverse) := by
      unfold fromInsertionIndex
      dsimp only
      rw [foldl_dict]
      simp
    show _ :: lookups entities ins (fromInsertionIndex entities ins none first).2 is = _
    rw [h2, from_cached]
  rw [this]
  obtain ⟨h1, h2⟩ := dict_get ins entities hnd i
  simp only [List.getElem?_cons_succ, List.getElem?_map, hk, Option.map_some]
  refine ⟨fun e he hi => by rw [h1 e he hi], fun h => by rw [h2 h]⟩

/-- **C107, counterexample** The first call on a grid returns the entity visited last, whatever index it is
given, even one that does not exist. -/
theorem C107_counterexample_first_lookup {α : Type} (entities : List α) (ins : α → Nat)
    (hnd : (entities.map ins).Nodup) (e : α) (he : entities.getLast? = some e) (i : Int) :
    (fromInsertionIndex entities ins none i).1 = .ok e := by
  unfold fromInsertionIndex
  dsimp only
  rw [foldl_dict, he]
  simp only [Option.map_some, Option.getD_some, List.append_nil]
  exact (dict_get ins entities hnd (ins e)).1 e (List.mem_of_getLast? he) rfl

example : (fromInsertionIndex [10, 11, 12] (fun e => e - 10) none 0).1 = .ok 12 := by decide
example : lookups [10, 11, 12] (fun e => e - 10) none [0, 0, 2, 3] =
    [.ok 12, .ok 10, .ok 12, .error .keyError] := by rfl

/-! ### Index maps -/

theorem map_fill {α : Type} (idx : α → Nat) (n : Nat) (entities : List α) :
    ∀ (m : List (Option α)), m.length = n → (entities.map idx).Nodup → (∀ e ∈ entities, idx e < n) →
    (entities.foldl (fun (m : List (Option α)) e => m.set (idx e) (some e)) m).length = n ∧
    (∀ e ∈ entities,
      (entities.foldl (fun (m : List (Option α)) e => m.set (idx e) (some e)) m)[idx e]? = some (some e)) ∧
    (∀ k, (∀ e ∈ entities, idx e ≠ k) →
      (entities.foldl (fun (m : List (Option α)) e => m.set (idx e) (some e)) m)[k]? = m[k]?) := by
  induction entities with
  | nil => intro m hm _ _; simp [hm]
  | cons a es ih =>
    intro m hm hnd hlt
    rw [List.map_cons, List.nodup_cons] at hnd
    obtain ⟨h1, h2, h3⟩ := ih (m.set (idx a) (some a)) (by simpa using hm) hnd.2
      (fun e he => hlt e (by simp [he]))
    rw [List.foldl_cons]
    refine ⟨h1, ?_, ?_⟩
    · intro e he
      rcases List.mem_cons.mp he with rfl | he
      · rw [h3 (idx e) (by
          intro e' he' hc
          exact hnd.1 (hc ▸ List.mem_map_of_mem he'))]
        rw [List.getElem?_set_self (by have := hlt e (by simp); omega)]
      · exact h2 e he
    · intro k hk
      rw [h3 k (fun e he => hk e (by simp [he])), List.getElem?_set_ne (hk a (by simp))]

/-- **C107** For a view whose entities have the indices `0, …, n-1` (each once, in any order of iteration),
`element_from_index(i)` — and the same for vertices and edges — is the entity with the index `i`; `-n, …, -1`
count from the end, and every other index raises `IndexError`. -/
theorem C107_from_index {α : Type} (entities : List α) (idx : α → Nat)
    (hp : (entities.map idx).Perm (List.range entities.length)) (i : Int) :
    (∀ e ∈ entities, (i = idx e ∨ i + entities.length = idx e ∧ i < 0) →
      fromIndex entities idx i = .ok (some e)) ∧
    (fromIndex entities idx i = .error .indexError ↔
      i < -(entities.length : Int) ∨ (entities.length : Int) ≤ i) ∧
    (-(entities.length : Int) ≤ i → i < entities.length →
      ∃ e ∈ entities, (idx e : Int) = if 0 ≤ i then i else i + entities.length) := by
  have hnd : (entities.map idx).Nodup := hp.nodup_iff.mpr List.nodup_range
  have hlt : ∀ e ∈ entities, idx e < entities.length := by
    intro e he
    have := hp.mem_iff.mp (List.mem_map_of_mem he)
    simpa using this
  obtain ⟨h1, h2, -⟩ := map_fill idx entities.length entities
    (List.replicate entities.length none) (by simp) hnd hlt
  have hsur : ∀ k < entities.length, ∃ e ∈ entities, idx e = k := by
    intro k hk
    have := hp.mem_iff.mpr (List.mem_range.mpr hk)
    exact List.mem_map.mp this
  refine ⟨?_, ?_, ?_⟩
  · intro e he hi
    have hl := hlt e he
    unfold fromIndex
    dsimp only
    rw [h1]
    have : pyIndex entities.length i = some (idx e) := by
      unfold pyIndex
      rcases hi with rfl | ⟨hi, hneg⟩
      · rw [if_pos (by omega), if_pos (by omega)]
        simp
      · rw [if_neg (by omega), if_pos (by omega)]
        congr 1
        omega
    rw [this]
    show Except.ok _ = _
    congr 1
    rw [List.getD_eq_getElem?_getD, h2 e he]
    rfl
  · unfold fromIndex
    dsimp only
    rw [h1]
    unfold pyIndex
    by_cases h0 : 0 ≤ i
    · rw [if_pos h0]
      by_cases h : i < (entities.length : Int)
      · rw [if_pos h]
        constructor
        · intro h'; cases h'
        · intro h'; omega
      · rw [if_neg h]
        constructor
        · intro _; omega
        · intro _; rfl
    · rw [if_neg h0]
      by_cases h : 0 ≤ i + (entities.length : Int)
      · rw [if_pos h]
        constructor
        · intro h'; cases h'
        · intro h'; omega
      · rw [if_neg h]
        constructor
        · intro _; omega
        · intro _; rfl
  · intro hlo hhi
    by_cases h0 : 0 ≤ i
    · obtain ⟨e, he, h⟩ := hsur i.toNat (by omega)
      exact ⟨e, he, by rw [if_pos h0]; omega⟩
    · obtain ⟨e, he, h⟩ := hsur (i + entities.length).toNat (by omega)
      exact ⟨e, he, by rw [if_neg h0]; omega⟩

example : (([12, 10, 11].map fun e => e - 10).Perm (List.range [12, 10, 11].length)) ∧
    fromIndex [12, 10, 11] (fun e => e - 10) 1 = .ok (some 11) ∧
    fromIndex [12, 10, 11] (fun e => e - 10) (-1) = .ok (some 12) := by
  refine ⟨by decide, rfl, rfl⟩

/-! ### Connectivity matrices -/

theorem count_blocks (r : Nat → List Nat) (lists : List Nat → List Nat × List Nat)
    (h0 : lists [] = ([], []))
    (hs : ∀ e es, lists (e :: es) = (r e ++ (lists es).1, List.replicate (r e).length e ++ (lists es).2))
    (es : List Nat) (hnd : es.Nodup) (i j : Nat) :
    cooEntry (lists es).1 (lists es).2 i j = if j ∈ es then (r j).count i else 0 := by
  have hz : ∀ (l : List Nat) (e : Nat), (l.zip (List.replicate l.length e)).count (i, j) =
      if j = e then l.count i else 0 := by
    intro l e
    induction l with
    | nil => simp
    | cons a l ih =>
      simp only [List.length_cons, List.replicate_succ, List.zip_cons_cons, List.count_cons, ih]
      by_cases hje : j = e
      · subst hje
        simp
      · have : ¬ e = j := fun h => hje h.symm
        simp [hje, this]
  induction es with
  | nil => simp [h0, cooEntry]
  | cons e es ih =>
    rw [List.nodup_cons] at hnd
    unfold cooEntry
    rw [hs]
    dsimp only
    rw [List.zip_append (by simp), List.count_append, hz]
    have := ih hnd.2
    unfold cooEntry at this
    rw [this]
    by_cases hje : j = e
    · subst hje
      simp [hnd.1]
    · simp [hje]

/-- **C107** `vertex_to_element_matrix[i, j]` is 1 if vertex `i` is a corner of element `j` and 0 otherwise,
for every mesh without degenerate triangles and any order of iteration over the elements. -/
theorem C107_vertex_matrix (n : Nat) (ts : List Tri) (d : DataContainer)
    (h : DataContainer.init n ts = some d) (hok : MeshOk n ts) (es : List Nat)
    (hes : es.Perm (List.range ts.length)) (j : Nat) (t : Tri) (ht : ts[j]? = some t) (i : Nat) :
    vertexToElement d es i j = if i = t.a ∨ i = t.b ∨ i = t.c then 1 else 0 := by
  have hel : d.elements = ts := by
    unfold DataContainer.init at h
    simp only [Option.bind_eq_bind, Option.bind_eq_some_iff] at h
    obtain ⟨⟨st, e2e⟩, -, a, -, b, -, c, -, h⟩ := h
    cases h
    rfl
  have hj : j < ts.length := by
    by_contra hc
    rw [List.getElem?_eq_none (by omega)] at ht
    cases ht
  unfold vertexToElement
  rw [count_blocks (fun e => [(d.elements.getD e ⟨0, 0, 0⟩).a, (d.elements.getD e ⟨0, 0, 0⟩).b,
    (d.elements.getD e ⟨0, 0, 0⟩).c]) (vertexLists d) rfl (fun e es => rfl) es
    (hes.nodup_iff.mpr List.nodup_range) i j, if_pos (hes.mem_iff.mpr (List.mem_range.mpr hj))]
  have htj : d.elements.getD j ⟨0, 0, 0⟩ = t := by
    rw [hel, List.getD_eq_getElem?_getD, ht]; rfl
  rw [htj]
  have hpr := hok.proper t (List.mem_of_getElem? ht)
  obtain ⟨p1, p2, p3⟩ := hpr
  simp only [List.count_cons, List.count_nil, beq_iff_eq]
  by_cases ha : t.a = i <;> by_cases hb : t.b = i <;> by_cases hc : t.c = i <;>
    simp [ha, hb, hc, eq_comm] <;> omega

/-- **C107** `edge_to_element_matrix[i, j]` is 1 if edge `i` is a side of element `j` and 0 otherwise. -/
theorem C107_edge_matrix (n : Nat) (ts : List Tri) (d : DataContainer)
    (h : DataContainer.init n ts = some d) (hok : MeshOk n ts) (es : List Nat)
    (hes : es.Perm (List.range ts.length)) (j : Nat) (t : Tri) (ht : ts[j]? = some t)
    (i : Nat) (p : Nat × Nat) (hp : d.edges[i]? = some p) [Decidable (side p ∈ t.sides)] :
    edgeToElement d es i j = if side p ∈ t.sides then 1 else 0 := by
  have hj : j < ts.length := by
    by_contra hc
    rw [List.getElem?_eq_none (by omega)] at ht
    cases ht
  obtain ⟨is, his, hmap⟩ := C31_element2Edges n ts 0 d h j t ht
  have hlen : is.length = 3 := by
    have := congrArg List.length hmap
    simpa [Tri.sides] using this
  have hnd : is.Nodup := element2Edges_nodup n ts 0 d h hok is (List.mem_of_getElem? his)
  have hmem := mem_element2Edges n ts 0 d h j t ht is his i p hp
  unfold edgeToElement
  rw [count_blocks (fun e => [(d.element2Edges.getD e []).getD 0 0, (d.element2Edges.getD e []).getD 1 0,
    (d.element2Edges.getD e []).getD 2 0]) (edgeLists d) rfl (fun e es => rfl) es
    (hes.nodup_iff.mpr List.nodup_range) i j, if_pos (hes.mem_iff.mpr (List.mem_range.mpr hj))]
  have hr : d.element2Edges.getD j [] = is := by
    rw [List.getD_eq_getElem?_getD, his]; rfl
  rw [hr]
  have : [is.getD 0 0, is.getD 1 0, is.getD 2 0] = is := by
    match is, hlen with
    | [a, b, c], _ => rfl
  rw [this]
  by_cases hi : i ∈ is
  · rw [if_pos (hmem.mp hi)]
    exact List.count_eq_one_of_mem hnd hi
  · rw [if_neg (fun hc => hi (hmem.mpr hc))]
    exact List.count_eq_zero.mpr hi

/-- **C107, counterexample** For a degenerate triangle, which the factories accept, the matrix has an entry
2. -/
theorem C107_counterexample_degenerate :
    ∃ d, DataContainer.init 2 [⟨0, 0, 1⟩] = some d ∧ vertexToElement d [0] 0 0 = 2 := by
  refine ⟨_, rfl, rfl⟩

example : ∃ d, DataContainer.init 4 [⟨0, 1, 2⟩, ⟨0, 2, 3⟩] = some d ∧
    MeshOk 4 [⟨0, 1, 2⟩, ⟨0, 2, 3⟩] ∧ [1, 0].Perm (List.range [(⟨0, 1, 2⟩ : Tri), ⟨0, 2, 3⟩].length) ∧
    d.edges.length = 5 ∧ vertexToElement d [1, 0] 2 0 = 1 ∧ vertexToElement d [1, 0] 3 0 = 0 ∧
    edgeToElement d [1, 0] 1 1 = 1 ∧ edgeToElement d [1, 0] 0 1 = 0 := by
  refine ⟨_, rfl, ⟨by decide, by simp [Tri.Proper]⟩, by decide, rfl, rfl, rfl, rfl, rfl⟩

/-! ### Marks -/

/-- The elements marked since the marks were last cleared. -/
def markedSince : List MarkCall → List Nat → List Nat
  | [], acc => acc
  | .mark e :: cs, acc => markedSince cs (e :: acc)
  | .clear :: cs, _ => markedSince cs []

theorem markRun_spec (cs : List MarkCall) : ∀ (s s' : Option (List Nat)) (acc : List Nat),
    markRun s cs = .ok s' → (∀ e, e ∈ s.getD [] ↔ e ∈ acc) →
    ∀ e, e ∈ s'.getD [] ↔ e ∈ markedSince cs acc := by
  induction cs with
  | nil => intro s s' acc h hs; cases h; exact hs
  | cons c cs ih =>
    intro s s' acc h hs
    unfold markRun at h
    cases c with
    | mark a =>
      show ∀ e, _ ↔ e ∈ markedSince cs (a :: acc)
      cases s with
      | none =>
        refine ih (some [a]) s' _ h ?_
        intro e
        have := hs e
        simp at this ⊢
        simp [this]
      | some l =>
        refine ih _ s' _ h ?_
        intro e
        have := hs e
        simp only [Option.getD_some] at this ⊢
        by_cases ha : a ∈ l
        · rw [if_pos ha, this, List.mem_cons]
          constructor
          · exact Or.inr
          · rintro (rfl | h)
            · exact (hs e).mp ha
            · exact h
        · rw [if_neg ha, List.mem_append, this, List.mem_singleton, List.mem_cons]
          tauto
    | clear =>
      cases s with
      | none => cases h
      | some l =>
        refine ih (some []) s' _ h ?_
        intro e
        simp

/-- **C107** After any history of marks and clears that raises nothing, the marked elements (those that
`refine` starts from) are exactly the elements marked since the last clear. -/
theorem C107_marks (cs : List MarkCall) (s : Option (List Nat)) (h : markRun none cs = .ok s) (e : Nat) :
    e ∈ s.getD [] ↔ e ∈ markedSince cs [] :=
  markRun_spec cs none s [] h (by simp) e

/-- **C107, counterexample** `get_mark` never reports a mark: after any history, of the view or of the grid,
it answers `False` or raises. -/
theorem C107_counterexample_get_mark (cs : List MarkCall) (s : Option (List Nat)) (h : markRun none cs = .ok s)
    (e : Nat) :
    viewGetMark s e ≠ .ok true ∧ gridGetMark s e ≠ .ok true ∧
    (e ∈ markedSince cs [] → viewGetMark s e = .error .typeError ∧ gridGetMark s e = .error .attributeError) := by
  refine ⟨?_, ?_, ?_⟩
  · cases s <;> simp [viewGetMark]
  · cases s <;> simp [gridGetMark]
  · intro he
    have := (C107_marks cs s h e).mpr he
    cases s with
    | none => simp at this
    | some l => exact ⟨rfl, rfl⟩

/-- **C107, counterexample** Clearing the marks of a grid on which nothing was marked raises. -/
theorem C107_counterexample_clear (cs : List MarkCall) : markRun none (.clear :: cs) = .error .attributeError :=
  rfl

example : markRun none [.mark 3, .mark 1, .clear, .mark 2, .mark 2] = .ok (some [2]) := by rfl

end Verif.PyGrid
