import Verif.Lemmas.SpaceDisc
import Mathlib.Algebra.Group.Basic
/-
Property C43: dofs and signs of the RWG space.
-/
namespace Verif.Space
open Verif.Grid

/-- The update of the record of an edge by an adjacent element. -/
def scanUpdate (s : GridSegment) (x : EdgeInfo) (e : Elem) : EdgeInfo :=
  ⟨x.adjacent + 1, if inSegment s 0 e.index then false else x.noneInSegment,
    match x.lowest with | none => some e.index | some k => some (min k e.index)⟩

theorem rwgScanElement_get (s : GridSegment) (mode : DofMode) (e : Elem) (f : Nat) :
    ∀ (fs : List Nat) (l : List EdgeInfo), fs.Nodup →
    (fs.foldl (fun (l : List EdgeInfo) f =>
      if mode.edgeOnSegment && !inSegment s 1 f then l
      else l.modify f fun x => scanUpdate s x e) l)[f]? =
    if f ∈ fs ∧ ¬ ((mode.edgeOnSegment && !inSegment s 1 f) = true) then l[f]?.map fun x => scanUpdate s x e else l[f]? := by
  intro fs
  induction fs with
  | nil => intro l _; simp
  | cons g fs ih =>
    intro l hnd
    rw [List.nodup_cons] at hnd
    rw [List.foldl_cons, ih _ hnd.2]
    by_cases hgf : g = f
    · subst hgf
      rw [if_neg (fun h => hnd.1 h.1)]
      by_cases hc : (mode.edgeOnSegment && !inSegment s 1 g) = true
      · rw [if_pos hc, if_neg (fun h => h.2 hc)]
      · rw [if_neg hc, if_pos ⟨List.mem_cons_self, hc⟩, List.getElem?_modify]
        simp
    · have hget : ∀ c : Prop, ∀ _ : Decidable c, (if c then l else l.modify g fun x => scanUpdate s x e)[f]? = l[f]? := by
        intro c _
        split
        · rfl
        · rw [List.getElem?_modify]; simp [hgf]
      rw [hget]
      have : f ∈ g :: fs ↔ f ∈ fs := by
        rw [List.mem_cons]
        constructor
        · rintro (h | h)
          · exact absurd h.symm hgf
          · exact h
        · exact Or.inr
      simp only [this]

theorem rwgScan_fold (s : GridSegment) (mode : DofMode) (f : Nat) : ∀ (es : List Elem) (l : List EdgeInfo),
    (∀ e ∈ es, (e.sub 1).Nodup) →
    (es.foldl (rwgScanElement s mode) l)[f]? = l[f]?.map fun x =>
      (es.filter fun e => decide (f ∈ e.sub 1 ∧ ¬ ((mode.edgeOnSegment && !inSegment s 1 f) = true))).foldl
        (scanUpdate s) x := by
  intro es
  induction es with
  | nil => intro l _; simp
  | cons e es ih =>
    intro l hnd
    rw [List.foldl_cons, ih _ (fun e' he' => hnd e' (List.mem_cons_of_mem _ he'))]
    have := rwgScanElement_get s mode e f (e.sub 1) l (hnd e List.mem_cons_self)
    have h2 : (rwgScanElement s mode l e)[f]? =
        if f ∈ e.sub 1 ∧ ¬ ((mode.edgeOnSegment && !inSegment s 1 f) = true) then
          l[f]?.map fun x => scanUpdate s x e else l[f]? := this
    rw [h2]
    by_cases hc : f ∈ e.sub 1 ∧ ¬ ((mode.edgeOnSegment && !inSegment s 1 f) = true)
    · rw [if_pos hc, List.filter_cons, if_pos (decide_eq_true hc), Option.map_map]
      rfl
    · rw [if_neg hc, List.filter_cons, if_neg (by rw [decide_eq_true_eq]; exact hc)]

theorem scan_adjacent (s : GridSegment) : ∀ (es : List Elem) (x : EdgeInfo),
    (es.foldl (scanUpdate s) x).adjacent = x.adjacent + es.length := by
  intro es
  induction es with
  | nil => intro x; rfl
  | cons e es ih => intro x; rw [List.foldl_cons, ih]; simp [scanUpdate]; omega

theorem scan_none (s : GridSegment) : ∀ (es : List Elem) (x : EdgeInfo),
    (es.foldl (scanUpdate s) x).noneInSegment = true ↔
      x.noneInSegment = true ∧ ∀ e ∈ es, inSegment s 0 e.index = false := by
  intro es
  induction es with
  | nil => intro x; simp
  | cons e es ih =>
    intro x
    rw [List.foldl_cons, ih]
    cases h : inSegment s 0 e.index <;> simp [scanUpdate, h]

theorem scan_lowest (s : GridSegment) : ∀ (es : List Elem) (x : EdgeInfo) (k : Nat),
    (es.foldl (scanUpdate s) x).lowest = some k →
      (∀ e ∈ es, k ≤ e.index) ∧ (∀ j, x.lowest = some j → k ≤ j) ∧
      ((∃ e ∈ es, e.index = k) ∨ x.lowest = some k) := by
  intro es
  induction es with
  | nil =>
    intro x k h
    simp only [List.foldl_nil] at h
    refine ⟨by simp, ?_, Or.inr h⟩
    intro j hj; rw [h] at hj; cases hj; omega
  | cons e es ih =>
    intro x k h
    rw [List.foldl_cons] at h
    obtain ⟨h1, h2, h3⟩ := ih _ _ h
    cases hx : x.lowest with
    | none =>
      simp only [scanUpdate, hx] at h2 h3
      have h4 := h2 _ rfl
      refine ⟨?_, by simp, Or.inl ?_⟩
      · intro e' he'
        rcases List.mem_cons.mp he' with rfl | he'
        · exact h4
        · exact h1 e' he'
      · rcases h3 with ⟨e', he', h5⟩ | h5
        · exact ⟨e', List.mem_cons_of_mem _ he', h5⟩
        · injection h5 with h5
          exact ⟨e, List.mem_cons_self, h5⟩
    | some j =>
      simp only [scanUpdate, hx] at h2 h3
      have h4 := h2 _ rfl
      refine ⟨?_, ?_, ?_⟩
      · intro e' he'
        rcases List.mem_cons.mp he' with rfl | he'
        · omega
        · exact h1 e' he'
      · intro j' hj'
        injection hj' with hj'
        omega
      · rcases h3 with ⟨e', he', h5⟩ | h5
        · exact Or.inl ⟨e', List.mem_cons_of_mem _ he', h5⟩
        · injection h5 with h5
          rcases Nat.le_total j e.index with hle | hle
          · right; rw [Nat.min_eq_left hle] at h5; rw [h5]
          · left; rw [Nat.min_eq_right hle] at h5; exact ⟨e, List.mem_cons_self, h5⟩

theorem scan_lowest_none (s : GridSegment) : ∀ (es : List Elem) (x : EdgeInfo),
    (es.foldl (scanUpdate s) x).lowest = none → es = [] := by
  have aux : ∀ (es : List Elem) (x : EdgeInfo), x.lowest ≠ none → (es.foldl (scanUpdate s) x).lowest ≠ none := by
    intro es
    induction es with
    | nil => intro x h; exact h
    | cons e es ih =>
      intro x h
      rw [List.foldl_cons]
      refine ih _ ?_
      unfold scanUpdate
      cases x.lowest <;> simp
  intro es x h
  cases es with
  | nil => rfl
  | cons e es =>
    exfalso
    rw [List.foldl_cons] at h
    refine aux es _ ?_ h
    unfold scanUpdate
    cases x.lowest <;> simp

/-- The elements counted for an edge. -/
def countedElems (v : View) (s : GridSegment) (mode : DofMode) (f : Nat) : List Elem :=
  v.elems.filter fun e => decide (f ∈ e.sub 1 ∧ ¬ ((mode.edgeOnSegment && !inSegment s 1 f) = true))

theorem countedElems_eq (v : View) (s : GridSegment) (mode : DofMode) (f : Nat)
    (h : mode.edgeOnSegment = true → s.contains 1 f = .ok true) : countedElems v s mode f = adjacentElems v f := by
  unfold countedElems adjacentElems
  congr 1
  funext e
  have : ¬ ((mode.edgeOnSegment && !inSegment s 1 f) = true) := by
    intro hc
    rw [Bool.and_eq_true, Bool.not_eq_true'] at hc
    have := (inSegment_iff s 1 f).mpr (h hc.1)
    rw [hc.2] at this; cases this
  simp [this]

theorem countedElems_nil (v : View) (s : GridSegment) (mode : DofMode) (f : Nat)
    (h : ¬ (mode.edgeOnSegment = true → s.contains 1 f = .ok true)) : countedElems v s mode f = [] := by
  unfold countedElems
  rw [List.filter_eq_nil_iff]
  intro e _
  have : (mode.edgeOnSegment && !inSegment s 1 f) = true := by
    rw [Bool.and_eq_true, Bool.not_eq_true']
    push Not at h
    refine ⟨h.1, ?_⟩
    cases hc : inSegment s 1 f with
    | false => rfl
    | true => exact absurd ((inSegment_iff s 1 f).mp hc) h.2
  simp [this]

theorem rwgScan_get (v : View) (hv : v.WF) (s : GridSegment) (mode : DofMode) (f : Nat) (hf : f < v.count 1) :
    (rwgScan v s mode)[f]? = some ((countedElems v s mode f).foldl (scanUpdate s) ⟨0, true, none⟩) := by
  unfold rwgScan
  rw [rwgScan_fold s mode f v.elems _ hv.facets_nodup]
  simp only [List.getElem?_replicate, hf, if_true, Option.map_some]
  rfl

theorem rwgScan_length (v : View) (s : GridSegment) (mode : DofMode) : (rwgScan v s mode).length = v.count 1 := by
  unfold rwgScan
  have h1 : ∀ (e : Elem) (fs : List Nat) (l : List EdgeInfo), (fs.foldl (fun (l : List EdgeInfo) f =>
      if mode.edgeOnSegment && !inSegment s 1 f then l
      else l.modify f fun x => scanUpdate s x e) l).length = l.length := by
    intro e fs
    induction fs with
    | nil => intro l; rfl
    | cons g fs ih => intro l; rw [List.foldl_cons, ih]; split <;> simp
  have h2 : ∀ (es : List Elem) (l : List EdgeInfo), (es.foldl (rwgScanElement s mode) l).length = l.length := by
    intro es
    induction es with
    | nil => intro l; rfl
    | cons e es ih => intro l; rw [List.foldl_cons, ih]; exact h1 e (e.sub 1) l
  rw [h2]; simp

/-- The condition of the numbering loop. -/
def rwgCnt (mode : DofMode) (pb : Bool) (x : EdgeInfo) : Nat :=
  if x.adjacent = 0 ∨ (!pb ∧ x.adjacent < 2) ∨ (mode.elementOnSegment ∧ x.noneInSegment) then 0 else 1

theorem rwgCnt_eq (v : View) (s : GridSegment) (mode : DofMode) (pb : Bool) (f : Nat) :
    open Classical in
    rwgCnt mode pb ((countedElems v s mode f).foldl (scanUpdate s) ⟨0, true, none⟩) =
      if RWGEdge v s mode pb f then 1 else 0 := by
  classical
  unfold rwgCnt
  have key : ¬ (((countedElems v s mode f).foldl (scanUpdate s) ⟨0, true, none⟩).adjacent = 0 ∨
      (!pb ∧ ((countedElems v s mode f).foldl (scanUpdate s) ⟨0, true, none⟩).adjacent < 2) ∨
      (mode.elementOnSegment ∧ ((countedElems v s mode f).foldl (scanUpdate s) ⟨0, true, none⟩).noneInSegment)) ↔
      RWGEdge v s mode pb f := by
    rw [scan_adjacent, scan_none]
    unfold RWGEdge
    by_cases h : mode.edgeOnSegment = true → s.contains 1 f = .ok true
    · rw [countedElems_eq v s mode f h]
      have h3 : (∀ e ∈ adjacentElems v f, inSegment s 0 e.index = false) ↔
          ¬ ∃ e ∈ adjacentElems v f, s.contains 0 e.index = .ok true := by
        constructor
        · rintro h1 ⟨e, he, h2⟩
          have := (inSegment_iff s 0 e.index).mpr h2
          rw [h1 e he] at this; cases this
        · intro h1 e he
          cases hc : inSegment s 0 e.index with
          | false => rfl
          | true => exact absurd ⟨e, he, (inSegment_iff s 0 e.index).mp hc⟩ h1
      rw [h3]
      have h4 : ((mode.edgeOnSegment = true → s.contains 1 f = .ok true)) ↔ True := by simp only [iff_true]; exact h
      rw [h4, true_and]
      generalize (∃ e ∈ adjacentElems v f, s.contains 0 e.index = .ok true) = Q
      generalize (adjacentElems v f).length = n
      have hn : ¬ (0 + n = 0) ↔ 1 ≤ n := by omega
      have hn2 : ¬ (0 + n < 2) ↔ 2 ≤ n := by omega
      simp only [not_or, not_and, hn, hn2, not_not]
      cases pb <;> cases mode.elementOnSegment <;> simp
    · rw [countedElems_nil v s mode f h]
      have h4 : ((mode.edgeOnSegment = true → s.contains 1 f = .ok true)) ↔ False := by simp only [iff_false]; exact h
      rw [h4]
      simp
  by_cases h : RWGEdge v s mode pb f
  · rw [if_pos h, if_neg (key.mpr h)]
  · rw [if_neg h, if_pos (not_not.mp (fun hc => h (key.mp hc)))]

theorem rwgScan_eq (v : View) (hv : v.WF) (s : GridSegment) (mode : DofMode) :
    rwgScan v s mode = (List.range (v.count 1)).map fun f =>
      (countedElems v s mode f).foldl (scanUpdate s) ⟨0, true, none⟩ :=
  eq_range_map _ _ _ (rwgScan_length v s mode) (rwgScan_get v hv s mode)

theorem rwgNumbering_count (v : View) (hv : v.WF) (s : GridSegment) (mode : DofMode) (pb : Bool) :
    (rwgNumbering v s mode pb).2 = countBelow (RWGEdge v s mode pb) (v.count 1) := by
  unfold rwgNumbering
  rw [numberBlocks_count, rwgScan_eq v hv, List.map_map, Nat.zero_add]
  refine sum_range_countBelow _ _ ?_ _
  intro i
  exact rwgCnt_eq v s mode pb i

theorem rwgNumbering_get (v : View) (hv : v.WF) (s : GridSegment) (mode : DofMode) (pb : Bool) (f : Nat)
    (hf : f < v.count 1) :
    open Classical in
    (rwgNumbering v s mode pb).1.getD f (-1) =
      if RWGEdge v s mode pb f then ((countBelow (RWGEdge v s mode pb) f : Nat) : Int) else -1 := by
  classical
  have h1 : rwgNumbering v s mode pb = numberBlocks (rwgCnt mode pb) (fun _ => -1) (rwgScan v s mode) 0 := rfl
  rw [h1, List.getD_eq_getElem?_getD, numberBlocks_get, rwgScan_eq v hv]
  simp only [List.getElem?_map, List.getElem?_range hf, Option.map_some, Option.getD_some, ← List.map_take,
    List.take_range, List.map_map, Nat.min_eq_left (Nat.le_of_lt hf), Nat.zero_add, rwgCnt_eq]
  rw [sum_range_countBelow _ (RWGEdge v s mode pb) (fun i => by rw [Function.comp_apply]; exact rwgCnt_eq v s mode pb i)]
  by_cases h : RWGEdge v s mode pb f <;> simp [h]

theorem rwg_good (v : View) (hv : v.WF) (hd : v.dim = 2) (s : GridSegment) (mode : DofMode) (pb : Bool) :
    GoodWrites v (rwgNumbering v s mode pb).2 (fun e => (e.sub 1).length) (rwgWrites v s mode pb) where
  index_nodup := hv.index_nodup
  index_lt := fun e he => index_lt v hv he
  keys := by
    intro e _
    unfold rwgWrites
    rw [zipIdx_keys]
  range := by
    classical
    rintro e he ⟨i, g⟩ hw
    unfold rwgWrites at hw
    rw [mem_zipIdx_map] at hw
    obtain ⟨a, ha, rfl⟩ := hw
    have hlt := sub_lt v hv he (by omega : (1 : Nat) ≠ 0) (by omega) ha
    simp only
    split
    · rw [rwgNumbering_get v hv s mode pb a hlt, rwgNumbering_count v hv s]
      by_cases hp : RWGEdge v s mode pb a
      · rw [if_pos hp]
        right
        exact ⟨by omega, by exact_mod_cast countBelow_lt _ hlt hp⟩
      · rw [if_neg hp]; left; rfl
    · left; rfl

/-- A triangular view: dimension 2 and all elements have three corners. -/
def Triangular (v : View) : Prop := v.dim = 2 ∧ ∀ e ∈ v.elems, (e.sub 2).length = 3

theorem assignRWG_ok (v : View) (ht : Triangular v) (s : GridSegment) (mode : DofMode) (pb : Bool) :
    assignRWG v s mode pb = .ok (writeElements v (rwgNumbering v s mode pb).2 (fun e => (e.sub 1).length)
      (rwgWrites v s mode pb)) := by
  unfold assignRWG
  rw [if_neg (by simpa using ht.1), if_neg]
  simp only [List.any_eq_true, not_exists, not_and]
  intro e he
  simp [ht.2 e he]

/-- **C43** (part 1, every mesh) The dof maps of the RWG space are consistent; global dofs are the edges that satisfy the
selection criteria, numbered by edge index; local dof `i` of an element carries the dof of edge `i` (if
elements are selected by the segment only when the element belongs to it), otherwise -1. -/
theorem C43_dof_maps (v : View) (hv : v.WF) (ht : Triangular v) (s : GridSegment) (mode : DofMode) (pb : Bool) :
    ∃ m, assignRWG v s mode pb = .ok m ∧ m.Consistent ∧
      m.globalDofCount = countBelow (RWGEdge v s mode pb) (v.count 1) ∧
      ∀ e ∈ v.elems, ∀ i f, (e.sub 1)[i]? = some f →
        (RWGEdge v s mode pb f ∧ (mode.elementOnSegment = true → s.contains 0 e.index = .ok true) →
          m.At ⟨e.index, i⟩ (countBelow (RWGEdge v s mode pb) f)) ∧
        (¬ (RWGEdge v s mode pb f ∧ (mode.elementOnSegment = true → s.contains 0 e.index = .ok true)) →
          m.At ⟨e.index, i⟩ (-1)) := by
  classical
  have hg := rwg_good v hv ht.1 s mode pb
  refine ⟨_, assignRWG_ok v ht s mode pb, writeElements_consistent hg, ?_, ?_⟩
  · rw [writeElements_count, rwgNumbering_count v hv s]
  · intro e he i f hf
    have hlt := sub_lt v hv he (by omega : (1 : Nat) ≠ 0) (by have := ht.1; omega) hf
    have key : ∀ g : Int, (if !mode.elementOnSegment || inSegment s 0 e.index then
          (rwgNumbering v s mode pb).1.getD f (-1) else -1) = g →
        (writeElements v (rwgNumbering v s mode pb).2 (fun e => (e.sub 1).length)
          (rwgWrites v s mode pb)).At ⟨e.index, i⟩ g := by
      intro g hgg
      rw [writeElements_at hg]
      refine ⟨e, he, rfl, ?_⟩
      unfold rwgWrites
      rw [mem_zipIdx_map]
      exact ⟨f, hf, hgg⟩
    rw [rwgNumbering_get v hv s mode pb f hlt] at key
    have hin := inSegment_iff s 0 e.index
    simp only [Nat.cast_zero, Int.ofNat_zero] at hin
    constructor
    · rintro ⟨h1, h2⟩
      refine key _ ?_
      rw [if_pos, if_pos h1]
      cases hm : mode.elementOnSegment with
      | false => rfl
      | true => simpa using hin.mpr (h2 hm)
    · intro hno
      refine key _ ?_
      by_cases h1 : RWGEdge v s mode pb f
      · rw [if_neg]
        intro h2
        refine hno ⟨h1, ?_⟩
        intro hst
        rw [hst] at h2
        exact hin.mp (by simpa using h2)
      · split <;> simp

/-- **C43** (part 2, every mesh) Weights: on an edge that carries a dof, the adjacent element with the lowest index has the
weight `+length`, every other adjacent element has `-length`. -/
theorem C43_weights {W : Type} [Neg W] (v : View) (hv : v.WF) (ht : Triangular v) (s : GridSegment) (mode : DofMode)
    (pb : Bool) (vol : Nat → W) (f : Nat) (hf : RWGEdge v s mode pb f) :
    ∃ e0 ∈ v.elems, f ∈ e0.sub 1 ∧ (∀ e ∈ v.elems, f ∈ e.sub 1 → e0.index ≤ e.index) ∧
      ∀ e ∈ v.elems, ∀ i : Nat, (e.sub 1)[i]? = some f →
        (rwgWeights v s mode vol e)[i]? = some (if e.index = e0.index then vol f else -vol f) := by
  have hadj : countedElems v s mode f = adjacentElems v f := countedElems_eq v s mode f hf.1
  have hlt : f < v.count 1 := by
    obtain ⟨e, he⟩ := List.exists_mem_of_length_pos hf.2.1
    have h2 := List.mem_filter.mp he
    exact hv.has_lt e h2.1 1 f (by have := ht.1; omega) (Or.inr ⟨by omega, by simpa using h2.2⟩)
  have hscan := rwgScan_get v hv s mode f hlt
  rw [hadj] at hscan
  cases hl : ((adjacentElems v f).foldl (scanUpdate s) ⟨0, true, none⟩).lowest with
  | none =>
    have := scan_lowest_none s _ _ hl
    have h2 := hf.2.1
    rw [this] at h2
    simp at h2
  | some k =>
    obtain ⟨h1, -, h3⟩ := scan_lowest s _ _ _ hl
    rcases h3 with ⟨e0, he0, hk⟩ | h3
    · have h4 := List.mem_filter.mp he0
      refine ⟨e0, h4.1, by simpa using h4.2, ?_, ?_⟩
      · intro e he hfe
        rw [hk]
        exact h1 e (List.mem_filter.mpr ⟨he, by simpa using hfe⟩)
      · intro e he i hi
        unfold rwgWeights
        rw [List.getElem?_map, hi]
        simp only [Option.map_some, hscan, Option.bind_some, hl, Option.some.injEq, hk]
        by_cases hke : k = e.index
        · rw [if_pos hke, if_pos hke.symm]
        · rw [if_neg hke, if_neg (fun h => hke h.symm)]
    · cases h3

theorem adjacent_elem_dof (v : View) (hv : v.WF) {e : Elem} (he : e ∈ v.elems) {i j f : Nat}
    (hi : (e.sub 1)[i]? = some f) (hj : (e.sub 1)[j]? = some f) : i = j :=
  (List.getElem?_inj (List.getElem?_eq_some_iff.mp hi).1 (hv.facets_nodup e he)).mp (hi.trans hj.symm)

/-- **C43** (partial) On meshes whose edges have at most two neighbouring elements, every RWG dof belongs to one edge, is
carried by at most two local dofs, and if it is carried by two, they lie on different elements and have
opposite weights `+length`, `-length` of that edge. Missing: edges with three or more neighbours, where
the claim is false (`C43_counterexample_junction`). -/
theorem C43_at_most_two_partial {W : Type} [Neg W] (v : View) (hv : v.WF) (ht : Triangular v) (s : GridSegment) (mode : DofMode)
    (pb : Bool) (vol : Nat → W) (hman : ∀ f, (adjacentElems v f).length ≤ 2)
    (m : DofMaps) (hm : assignRWG v s mode pb = .ok m) (g : Nat) (hg : g < m.globalDofCount) :
    ∃ f, f < v.count 1 ∧ RWGEdge v s mode pb f ∧
      (∀ ld ∈ m.globalToLocal g, ∃ e ∈ v.elems, e.index = ld.entityIndex ∧ (e.sub 1)[ld.dofIndex]? = some f ∧
        ((rwgWeights v s mode vol e)[ld.dofIndex]? = some (vol f) ∨
          (rwgWeights v s mode vol e)[ld.dofIndex]? = some (-vol f))) ∧
      ((m.globalToLocal g).length ≤ 2) ∧
      ∀ a b, m.globalToLocal g = [a, b] → ∃ ea ∈ v.elems, ∃ eb ∈ v.elems,
        ea.index = a.entityIndex ∧ eb.index = b.entityIndex ∧ ea ≠ eb ∧
        (((rwgWeights v s mode vol ea)[a.dofIndex]? = some (vol f) ∧
            (rwgWeights v s mode vol eb)[b.dofIndex]? = some (-vol f)) ∨
          ((rwgWeights v s mode vol ea)[a.dofIndex]? = some (-vol f) ∧
            (rwgWeights v s mode vol eb)[b.dofIndex]? = some (vol f))) := by
  obtain ⟨m', h1, hcons, hcount, hel⟩ := C43_dof_maps v hv ht s mode pb
  rw [hm] at h1
  cases h1
  have hg' := hg
  rw [hcount] at hg'
  obtain ⟨f, hf, hp, hc⟩ := countBelow_surj _ _ _ hg'
  -- every local dof of g sits on edge f
  have hloc : ∀ ld ∈ m.globalToLocal g, ∃ e ∈ v.elems, e.index = ld.entityIndex ∧ (e.sub 1)[ld.dofIndex]? = some f := by
    intro ld hld
    have hat := (hcons.inverse g hg ld).mp hld
    have hat' := hat
    have hmm : m = writeElements v (rwgNumbering v s mode pb).2 (fun e => (e.sub 1).length) (rwgWrites v s mode pb) := by
      rw [assignRWG_ok v ht s mode pb] at hm
      cases hm; rfl
    rw [hmm, writeElements_at (rwg_good v hv ht.1 s mode pb)] at hat'
    obtain ⟨e, he, hi, hw⟩ := hat'
    unfold rwgWrites at hw
    rw [mem_zipIdx_map] at hw
    obtain ⟨f', hf', -⟩ := hw
    have hcase := hel e he ld.dofIndex f' hf'
    by_cases hyes : RWGEdge v s mode pb f' ∧ (mode.elementOnSegment = true → s.contains 0 e.index = .ok true)
    · have h2 := hcase.1 hyes
      rw [hi] at h2
      unfold DofMaps.At at h2 hat
      rw [hat] at h2
      injection h2 with h2
      have : f' = f := countBelow_inj _ hyes.1 hp (by omega)
      subst this
      exact ⟨e, he, hi, hf'⟩
    · have h2 := hcase.2 hyes
      rw [hi] at h2
      unfold DofMaps.At at h2 hat
      rw [hat] at h2
      injection h2 with h2
      omega
  obtain ⟨e0, he0, hfe0, hmin, hwt⟩ := C43_weights v hv ht s mode pb vol f hp
  have hinj : ∀ a ∈ m.globalToLocal g, ∀ b ∈ m.globalToLocal g, a.entityIndex = b.entityIndex → a = b := by
    intro a ha b hb hab
    obtain ⟨ea, hea, hia, hfa⟩ := hloc a ha
    obtain ⟨eb, heb, hib, hfb⟩ := hloc b hb
    have : ea = eb := List.inj_on_of_nodup_map hv.index_nodup hea heb (by rw [hia, hib, hab])
    subst this
    have := adjacent_elem_dof v hv hea hfa hfb
    cases a; cases b
    simp only at hab this
    rw [hab, this]
  refine ⟨f, hf, hp, ?_, ?_, ?_⟩
  · intro ld hld
    obtain ⟨e, he, hi, hfe⟩ := hloc ld hld
    refine ⟨e, he, hi, hfe, ?_⟩
    rw [hwt e he _ hfe]
    by_cases h : e.index = e0.index
    · rw [if_pos h]; exact Or.inl rfl
    · rw [if_neg h]; exact Or.inr rfl
  · -- the entity indices are distinct indices of adjacent elements
    have hnd : ((m.globalToLocal g).map (·.entityIndex)).Nodup :=
      List.Nodup.map_on (fun a ha b hb hab => hinj a ha b hb hab) (hcons.once g hg)
    have hsub : (m.globalToLocal g).map (·.entityIndex) ⊆ (adjacentElems v f).map (·.index) := by
      intro k hk
      obtain ⟨ld, hld, rfl⟩ := List.mem_map.mp hk
      obtain ⟨e, he, hi, hfe⟩ := hloc ld hld
      refine List.mem_map.mpr ⟨e, List.mem_filter.mpr ⟨he, ?_⟩, hi⟩
      simpa using List.mem_of_getElem? hfe
    have := (hnd.subperm hsub).length_le
    simp only [List.length_map] at this
    exact this.trans (hman f)
  · intro a b hab
    have ha : a ∈ m.globalToLocal g := by rw [hab]; simp
    have hb : b ∈ m.globalToLocal g := by rw [hab]; simp
    obtain ⟨ea, hea, hia, hfa⟩ := hloc a ha
    obtain ⟨eb, heb, hib, hfb⟩ := hloc b hb
    have hne : a ≠ b := by
      have := hcons.once g hg
      rw [hab] at this
      simpa using this
    have hne2 : ea.index ≠ eb.index := by
      intro h
      exact hne (hinj a ha b hb (by rw [← hia, ← hib, h]))
    refine ⟨ea, hea, eb, heb, hia, hib, fun h => hne2 (by rw [h]), ?_⟩
    rw [hwt ea hea _ hfa, hwt eb heb _ hfb]
    -- e0 is ea or eb
    have h3 : e0.index = ea.index ∨ e0.index = eb.index := by
      by_contra hno
      push Not at hno
      have hnd : [e0.index, ea.index, eb.index].Nodup := by
        simp [hno.1, hno.2, hne2]
      have hsub : [e0.index, ea.index, eb.index] ⊆ (adjacentElems v f).map (·.index) := by
        intro k hk
        simp only [List.mem_cons, List.not_mem_nil, or_false] at hk
        rcases hk with rfl | rfl | rfl
        · exact List.mem_map.mpr ⟨e0, List.mem_filter.mpr ⟨he0, by simpa using hfe0⟩, rfl⟩
        · exact List.mem_map.mpr ⟨ea, List.mem_filter.mpr ⟨hea, by simpa using List.mem_of_getElem? hfa⟩, rfl⟩
        · exact List.mem_map.mpr ⟨eb, List.mem_filter.mpr ⟨heb, by simpa using List.mem_of_getElem? hfb⟩, rfl⟩
      have := (hnd.subperm hsub).length_le
      simp only [List.length_map, List.length_cons, List.length_nil] at this
      have := hman f
      omega
    rcases h3 with h3 | h3
    · left
      rw [if_pos h3.symm, if_neg (by omega)]
      exact ⟨rfl, rfl⟩
    · right
      rw [if_pos h3.symm, if_neg (by omega)]
      exact ⟨rfl, rfl⟩

/-- Non-vacuity of C43: two triangles sharing edge 0; one dof, carried by both with opposite weights. -/
example : (book 2).WF ∧ Triangular (book 2) ∧ RWGEdge (book 2) (wholeGrid (book 2)) ⟨true, false⟩ false 0 ∧
    (∀ f, (adjacentElems (book 2) f).length ≤ 2) ∧
    assignRWG (book 2) (wholeGrid (book 2)) ⟨true, false⟩ false =
      .ok ⟨[[0, -1, -1], [0, -1, -1]], [[⟨0, 0⟩, ⟨1, 0⟩]]⟩ ∧
    (book 2).elems.map (rwgWeights (book 2) (wholeGrid (book 2)) ⟨true, false⟩ (fun _ => (7 : Int))) =
      [[7, 7, 7], [-7, 7, 7]] := by
  refine ⟨book_WF 2 (by decide), by unfold Triangular; decide, by unfold RWGEdge; decide, ?_, by decide, by decide⟩
  intro f
  exact (List.length_filter_le _ _).trans (by decide)

/-- **C43 is false as stated**: on a junction of three triangles at one edge, the dof of that edge is
carried by three local dofs, two of them with the same sign. -/
theorem C43_counterexample_junction :
    (book 3).WF ∧ Triangular (book 3) ∧ ∃ m, assignRWG (book 3) (wholeGrid (book 3)) ⟨true, false⟩ false = .ok m ∧
      m.globalToLocal 0 = [⟨0, 0⟩, ⟨1, 0⟩, ⟨2, 0⟩] ∧
      (book 3).elems.map (fun e => (rwgWeights (book 3) (wholeGrid (book 3)) ⟨true, false⟩
        (fun _ => (1 : Int)) e)[0]?) = [some 1, some (-1), some (-1)] := by
  refine ⟨book_WF 3 (by decide), by unfold Triangular; decide,
    ⟨[[0, -1, -1], [0, -1, -1], [0, -1, -1]], [[⟨0, 0⟩, ⟨1, 0⟩, ⟨2, 0⟩]]⟩, by decide, by decide, by decide⟩

end Verif.Space
