import Verif.Lemmas.Space
/-
Lemmas about the continuous and discontinuous P1 spaces and the P0 space.
-/
namespace Verif.Space
open Verif.Grid

theorem inSegment_iff (s : GridSegment) (c i : Nat) : inSegment s c i = true ↔ s.contains c i = .ok true := by
  unfold inSegment
  cases h : s.contains (c : Int) (i : Int) with
  | ok b => simp
  | error _ => simp

theorem excludedMarks_length (s : GridSegment) (c : Nat) (hc : c ≤ 3) :
    (excludedMarks s c).length = (s.counts c).toNat := by
  obtain ⟨marks, h1, h2, h3⟩ := C58_markExcludedEntities s c (-1) (by omega) (by omega)
  unfold excludedMarks
  rw [h1]
  exact h2

theorem excludedMarks_get (s : GridSegment) (c : Nat) (hc : c ≤ 3) (k : Nat) (hk : (k : Int) < s.counts c) :
    (excludedMarks s c)[k]? = some (if inSegment s c k then 0 else -1) := by
  obtain ⟨marks, h1, h2, h3⟩ := C58_markExcludedEntities s c (-1) (by omega) (by omega)
  unfold excludedMarks
  rw [h1]
  show marks[k]? = _
  have := h3 k hk
  by_cases hs : inSegment s c k = true
  · rw [if_pos hs]; exact this.1 ((inSegment_iff s c k).mp hs)
  · rw [if_neg hs]
    refine this.2 ?_
    have hs' := fun h => hs ((inSegment_iff s c k).mpr h)
    unfold GridSegment.contains at hs' ⊢
    rw [if_neg (by omega)] at hs' ⊢
    simp only [Except.ok.injEq] at hs' ⊢
    exact Bool.eq_false_iff.mpr hs'

theorem set_false_fold_length (l : List Nat) : ∀ a : List Bool,
    (l.foldl (fun (a : List Bool) i => a.set i false) a).length = a.length := by
  induction l with
  | nil => intro a; rfl
  | cons x l ih => intro a; rw [List.foldl_cons, ih]; simp

theorem set_false_fold_get (l : List Nat) (k : Nat) : ∀ a : List Bool, k < a.length →
    (l.foldl (fun (a : List Bool) i => a.set i false) a)[k]? =
      if k ∈ l then some false else a[k]? := by
  induction l with
  | nil => intro a _; simp
  | cons x l ih =>
    intro a hk
    rw [List.foldl_cons, ih _ (by simpa using hk)]
    by_cases hm : k ∈ l
    · simp [hm]
    · by_cases hx : k = x
      · subst hx; simp [hm, hk]
      · rw [if_neg hm, if_neg (by simp [hx, hm]), List.getElem?_set_ne (fun h => hx h.symm)]

theorem noAdjacent_fold (s : GridSegment) (c : Nat) (i : Nat) : ∀ (es : List Elem) (a : List Bool), i < a.length →
    (es.foldl (fun (l : List Bool) e =>
      if inSegment s 0 e.index then (e.sub c).foldl (fun (l : List Bool) i => l.set i false) l else l) a)[i]? =
    if (∃ e ∈ es, inSegment s 0 e.index = true ∧ i ∈ e.sub c) then some false else a[i]? := by
  intro es
  induction es with
  | nil => intro a _; simp
  | cons e es ih =>
    intro a hi
    rw [List.foldl_cons]
    by_cases h : ∃ e ∈ es, inSegment s 0 e.index = true ∧ i ∈ e.sub c
    · rw [ih, if_pos h, if_pos]
      · obtain ⟨e', h1, h2⟩ := h; exact ⟨e', List.mem_cons_of_mem _ h1, h2⟩
      · split
        · rw [set_false_fold_length]; exact hi
        · exact hi
    · rw [ih, if_neg h]
      · by_cases hs : inSegment s 0 e.index = true
        · rw [if_pos hs, set_false_fold_get _ _ _ hi]
          by_cases hm : i ∈ e.sub c
          · rw [if_pos hm, if_pos ⟨e, List.mem_cons_self, hs, hm⟩]
          · rw [if_neg hm, if_neg]
            rintro ⟨e', h1, h2, h3⟩
            rcases List.mem_cons.mp h1 with rfl | h1
            · exact hm h3
            · exact h ⟨e', h1, h2, h3⟩
        · rw [if_neg hs, if_neg]
          rintro ⟨e', h1, h2, h3⟩
          rcases List.mem_cons.mp h1 with rfl | h1
          · exact hs h2
          · exact h ⟨e', h1, h2, h3⟩
      · split
        · rw [set_false_fold_length]; exact hi
        · exact hi

theorem noAdjacentInSegment_get (v : View) (s : GridSegment) (c i : Nat) (hi : i < v.count c) :
    (noAdjacentInSegment v s c).getD i false = true ↔
      ¬ ∃ e ∈ v.elems, s.contains 0 e.index = .ok true ∧ i ∈ e.sub c := by
  unfold noAdjacentInSegment
  rw [List.getD_eq_getElem?_getD, noAdjacent_fold _ _ _ _ _ (by simpa using hi)]
  have : (∃ e ∈ v.elems, inSegment s 0 e.index = true ∧ i ∈ e.sub c) ↔
      ∃ e ∈ v.elems, s.contains 0 e.index = .ok true ∧ i ∈ e.sub c := by
    constructor
    · rintro ⟨e, h1, h2, h3⟩; exact ⟨e, h1, (inSegment_iff _ _ _).mp h2, h3⟩
    · rintro ⟨e, h1, h2, h3⟩; exact ⟨e, h1, (inSegment_iff _ _ _).mpr h2, h3⟩
  rw [← this]
  split
  · rename_i h; simp [h]
  · rename_i h; simp [h, hi]

theorem eq_range_map {α : Type} (l : List α) (n : Nat) (f : Nat → α) (hl : l.length = n)
    (h : ∀ k, k < n → l[k]? = some (f k)) : l = (List.range n).map f := by
  refine List.ext_getElem? ?_
  intro k
  by_cases hk : k < n
  · rw [h k hk]; simp [hk]
  · rw [List.getElem?_eq_none (by omega), List.getElem?_eq_none (by simp; omega)]

/-- The marks in closed form (used to evaluate examples). -/
theorem excludedMarks_eq (s : GridSegment) (c : Nat) (hc : c ≤ 3) :
    excludedMarks s c = (List.range (s.counts c).toNat).map fun k => if inSegment s c k then 0 else -1 :=
  eq_range_map _ _ _ (excludedMarks_length s c hc) fun k hk => excludedMarks_get s c hc k (by omega)

open Classical in
theorem sum_range_countBelow (f : Nat → Nat) (p : Nat → Prop) (hf : ∀ i, f i = if p i then 1 else 0) (k : Nat) :
    ((List.range k).map f).sum = countBelow p k := by
  induction k with
  | zero => simp [countBelow]
  | succ k ih =>
    rw [List.range_succ, List.map_append, List.sum_append, ih]
    unfold countBelow
    rw [Finset.range_add_one, Finset.filter_insert]
    simp only [List.map_cons, List.map_nil, List.sum_cons, List.sum_nil, hf]
    by_cases hp : p k
    · rw [if_pos hp, if_pos hp, Finset.card_insert_of_notMem (by simp)]; omega
    · rw [if_neg hp, if_neg hp]; omega

open Classical in
theorem countBelow_lt (p : Nat → Prop) {k n : Nat} (hk : k < n) (hp : p k) : countBelow p k < countBelow p n := by
  unfold countBelow
  refine Finset.card_lt_card ?_
  rw [Finset.ssubset_iff_of_subset]
  · exact ⟨k, by simp [hk, hp], by simp⟩
  · intro x hx
    simp only [Finset.mem_filter, Finset.mem_range] at hx ⊢
    exact ⟨by omega, hx.2⟩

open Classical in
theorem countBelow_le (p : Nat → Prop) {k n : Nat} (hk : k ≤ n) : countBelow p k ≤ countBelow p n := by
  unfold countBelow
  refine Finset.card_le_card ?_
  intro x hx
  simp only [Finset.mem_filter, Finset.mem_range] at hx ⊢
  exact ⟨by omega, hx.2⟩

theorem countBelow_inj (p : Nat → Prop) {i j : Nat} (hi : p i) (hj : p j)
    (h : countBelow p i = countBelow p j) : i = j := by
  rcases Nat.lt_trichotomy i j with hlt | heq | hgt
  · have := countBelow_lt p hlt hi; omega
  · exact heq
  · have := countBelow_lt p hgt hj; omega

/-- Every number below the count is the number of some marked index. -/
theorem countBelow_surj (p : Nat → Prop) : ∀ n g, g < countBelow p n → ∃ i, i < n ∧ p i ∧ countBelow p i = g := by
  intro n
  induction n with
  | zero => intro g hg; simp [countBelow] at hg
  | succ n ih =>
    intro g hg
    by_cases h : g < countBelow p n
    · obtain ⟨i, h1, h2, h3⟩ := ih g h
      exact ⟨i, by omega, h2, h3⟩
    · classical
      unfold countBelow at hg h
      rw [Finset.range_add_one, Finset.filter_insert] at hg
      by_cases hp : p n
      · rw [if_pos hp, Finset.card_insert_of_notMem (by simp)] at hg
        exact ⟨n, by omega, hp, by unfold countBelow; omega⟩
      · rw [if_neg hp] at hg; omega

theorem p1Marks_eq (v : View) (hv : v.WF) (s : GridSegment) (hs : SegmentOf v s) (strict : Bool) :
    open Classical in
    p1Marks v s strict = (List.range (v.count v.dim)).map fun i => if P1Vertex v s strict i then 0 else -1 := by
  have hlen : (excludedMarks s v.dim).length = v.count v.dim := by
    rw [excludedMarks_length s v.dim hv.dim_le, hs]; simp
  have hget : ∀ k, k < v.count v.dim → (excludedMarks s v.dim)[k]? = some (if inSegment s v.dim k then 0 else -1) :=
    fun k hk => excludedMarks_get s v.dim hv.dim_le k (by rw [hs]; exact_mod_cast hk)
  unfold p1Marks
  cases strict with
  | false =>
    rw [if_neg (by simp)]
    refine eq_range_map _ _ _ hlen ?_
    intro k hk
    rw [hget k hk]
    by_cases h : inSegment s v.dim k = true
    · rw [if_pos h, if_pos ⟨(inSegment_iff _ _ _).mp h, by simp⟩]
    · rw [if_neg h, if_neg]
      rintro ⟨h2, -⟩; exact h ((inSegment_iff _ _ _).mpr h2)
  | true =>
    rw [if_pos rfl]
    refine eq_range_map _ _ _ (by simp [hlen]) ?_
    intro k hk
    rw [List.getElem?_mapIdx, hget k hk]
    simp only [Option.map_some, Option.some.injEq]
    by_cases hn : (noAdjacentInSegment v s v.dim).getD k false = true
    · rw [if_pos hn, if_neg]
      rintro ⟨-, h2⟩
      exact (noAdjacentInSegment_get v s v.dim k hk).mp hn (h2 rfl)
    · have hex := not_not.mp (fun hc => hn ((noAdjacentInSegment_get v s v.dim k hk).mpr hc))
      rw [if_neg hn]
      by_cases h : inSegment s v.dim k = true
      · rw [if_pos h, if_pos ⟨(inSegment_iff _ _ _).mp h, fun _ => hex⟩]
      · rw [if_neg h, if_neg]
        rintro ⟨h2, -⟩; exact h ((inSegment_iff _ _ _).mpr h2)

theorem p1Writes_eq (v : View) (s : GridSegment) (strict : Bool) : p1Writes v s strict = fun e =>
    ((e.sub v.dim).zipIdx).map fun q =>
      (q.2, if !strict || inSegment s 0 e.index then (p1Numbering v s strict).1.getD q.1 (-1) else -1) := rfl

theorem p1Numbering_count (v : View) (hv : v.WF) (s : GridSegment) (hs : SegmentOf v s) (strict : Bool) :
    (p1Numbering v s strict).2 = countBelow (P1Vertex v s strict) (v.count v.dim) := by
  classical
  unfold p1Numbering
  rw [numberBlocks_count, p1Marks_eq v hv s hs strict, List.map_map, Nat.zero_add]
  refine sum_range_countBelow _ _ ?_ _
  intro i
  simp only [Function.comp_apply]
  by_cases h : P1Vertex v s strict i <;> simp [h]

theorem p1Numbering_get (v : View) (hv : v.WF) (s : GridSegment) (hs : SegmentOf v s) (strict : Bool) (i : Nat)
    (hi : i < v.count v.dim) :
    open Classical in
    (p1Numbering v s strict).1.getD i (-1) =
      if P1Vertex v s strict i then ((countBelow (P1Vertex v s strict) i : Nat) : Int) else -1 := by
  classical
  unfold p1Numbering
  rw [List.getD_eq_getElem?_getD, numberBlocks_get, p1Marks_eq v hv s hs strict]
  simp only [List.getElem?_map, List.getElem?_range hi, Option.map_some, Option.getD_some, ← List.map_take,
    List.take_range, List.map_map, Nat.min_eq_left (Nat.le_of_lt hi), Nat.zero_add]
  rw [sum_range_countBelow _ (P1Vertex v s strict)]
  · by_cases h : P1Vertex v s strict i <;> simp [h]
  · intro j
    simp only [Function.comp_apply]
    by_cases h : P1Vertex v s strict j <;> simp [h]

theorem zipIdx_keys {α β : Type} (l : List α) (f : α × Nat → β) :
    (l.zipIdx.map fun q => (q.2, f q)).map Prod.fst = List.range l.length := by
  rw [List.map_map]
  have : (Prod.fst ∘ fun q : α × Nat => (q.2, f q)) = Prod.snd := rfl
  rw [this, List.zipIdx_map_snd, List.range_eq_range']

theorem mem_zipIdx_map {α β : Type} (l : List α) (f : α × Nat → β) (i : Nat) (b : β) :
    (i, b) ∈ l.zipIdx.map (fun q => (q.2, f q)) ↔ ∃ a, l[i]? = some a ∧ f (a, i) = b := by
  simp only [List.mem_map, Prod.exists, Prod.mk.injEq]
  constructor
  · rintro ⟨a, j, hm, rfl, rfl⟩
    exact ⟨a, List.mem_zipIdx_iff_getElem?.mp hm, rfl⟩
  · rintro ⟨a, h, rfl⟩
    exact ⟨a, i, List.mem_zipIdx_iff_getElem?.mpr h, rfl, rfl⟩

theorem sub_lt (v : View) (hv : v.WF) {e : Elem} (he : e ∈ v.elems) {c i k : Nat} (hc0 : c ≠ 0) (hc : c ≤ v.dim)
    (h : (e.sub c)[k]? = some i) : i < v.count c :=
  hv.has_lt e he c i hc (Or.inr ⟨hc0, List.mem_of_getElem? h⟩)

theorem index_lt (v : View) (hv : v.WF) {e : Elem} (he : e ∈ v.elems) : e.index < v.count 0 :=
  hv.has_lt e he 0 e.index (Nat.zero_le _) (Or.inl ⟨rfl, rfl⟩)

theorem p1_good (v : View) (hv : v.WF) (hd : v.dim ≠ 0) (s : GridSegment) (hs : SegmentOf v s) (strict : Bool) :
    GoodWrites v (p1Numbering v s strict).2 (fun e => (e.sub v.dim).length) (p1Writes v s strict) where
  index_nodup := hv.index_nodup
  index_lt := fun e he => index_lt v hv he
  keys := by
    intro e _
    unfold p1Writes
    rw [zipIdx_keys]
  range := by
    classical
    rintro e he ⟨i, g⟩ hw
    unfold p1Writes at hw
    rw [mem_zipIdx_map] at hw
    obtain ⟨a, ha, rfl⟩ := hw
    have hlt := sub_lt v hv he hd (Nat.le_refl _) ha
    simp only
    split
    · rw [p1Numbering_get v hv s hs strict a hlt, p1Numbering_count v hv s hs]
      by_cases hp : P1Vertex v s strict a
      · rw [if_pos hp]
        right
        exact ⟨by omega, by exact_mod_cast countBelow_lt _ hlt hp⟩
      · rw [if_neg hp]; left; rfl
    · left; rfl

end Verif.Space
