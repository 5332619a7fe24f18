import Verif.Lemmas.SpaceDisc
/-
Properties C39–C42: dof maps of the continuous P1, discontinuous P1 and P0 spaces; the map from global to
flat local dofs.
-/
namespace Verif.Space
open Verif.Grid

/-! ### C39 -/

theorem assignP1_ok (v : View) (hd : v.dim = 1 ∨ v.dim = 2) (s : GridSegment) (strict : Bool) :
    assignP1 v s strict = .ok (writeElements v (p1Numbering v s strict).2 (fun e => (e.sub v.dim).length)
      (p1Writes v s strict)) := by
  unfold assignP1
  rw [if_neg (by omega)]

/-- **C39** On every consistent grid view of dimension 1 or 2 and for every segment, the dof maps of the continuous P1 space
are consistent (inverse of each other, flat dofs enumerate the used local dofs once and in order); there is
one global dof for each included vertex, numbered by increasing vertex index; corner `i` of an element
carries the dof of its vertex (in strict mode only if the element belongs to the segment), otherwise -1. -/
theorem C39_dof_maps (v : View) (hv : v.WF) (hd : v.dim = 1 ∨ v.dim = 2) (s : GridSegment)
    (hs : SegmentOf v s) (strict : Bool) : ∃ m, assignP1 v s strict = .ok m ∧ m.Consistent ∧
      m.globalDofCount = countBelow (P1Vertex v s strict) (v.count v.dim) ∧
      ∀ e ∈ v.elems, (m.getGlobalDofs e.index).length = (e.sub v.dim).length ∧
        ∀ i vtx, (e.sub v.dim)[i]? = some vtx →
          (P1Vertex v s strict vtx ∧ (strict = true → s.contains 0 e.index = .ok true) →
            m.At ⟨e.index, i⟩ (countBelow (P1Vertex v s strict) vtx)) ∧
          (¬ (P1Vertex v s strict vtx ∧ (strict = true → s.contains 0 e.index = .ok true)) →
            m.At ⟨e.index, i⟩ (-1)) := by
  classical
  have hg := p1_good v hv (by omega) s hs strict
  refine ⟨_, assignP1_ok v hd s strict, writeElements_consistent hg, ?_, ?_⟩
  · rw [writeElements_count, p1Numbering_count v hv s hs]
  · intro e he
    refine ⟨by rw [writeElements_row hg he, rowOf_length], ?_⟩
    intro i vtx hvtx
    have hlt := sub_lt v hv he (by omega) (Nat.le_refl _) hvtx
    have key : ∀ g : Int, (if !strict || inSegment s 0 e.index then (p1Numbering v s strict).1.getD vtx (-1) else -1) = g →
        (writeElements v (p1Numbering v s strict).2 (fun e => (e.sub v.dim).length)
          (p1Writes v s strict)).At ⟨e.index, i⟩ g := by
      intro g hgg
      rw [writeElements_at hg]
      refine ⟨e, he, rfl, ?_⟩
      unfold p1Writes
      rw [mem_zipIdx_map]
      exact ⟨vtx, hvtx, hgg⟩
    rw [p1Numbering_get v hv s hs strict vtx hlt] at key
    have hin := inSegment_iff s 0 e.index
    simp only [Nat.cast_zero, Int.ofNat_zero] at hin
    constructor
    · rintro ⟨h1, h2⟩
      refine key _ ?_
      rw [if_pos, if_pos h1]
      cases strict with
      | false => rfl
      | true => simpa using hin.mpr (h2 rfl)
    · intro hno
      refine key _ ?_
      by_cases h1 : P1Vertex v s strict vtx
      · rw [if_neg]
        intro h2
        refine hno ⟨h1, ?_⟩
        intro hst
        subst hst
        exact hin.mp (by simpa using h2)
      · split <;> simp

/-- **C39** Every global dof of the continuous P1 space is carried by some local dof. -/
theorem C39_no_orphan_dof (v : View) (hv : v.WF) (hd : v.dim = 1 ∨ v.dim = 2) (s : GridSegment)
    (hs : SegmentOf v s) (strict : Bool) (m : DofMaps) (hm : assignP1 v s strict = .ok m) (g : Nat)
    (hg : g < m.globalDofCount) : m.globalToLocal g ≠ [] := by
  obtain ⟨m', h1, h2, h3, h4⟩ := C39_dof_maps v hv hd s hs strict
  rw [hm] at h1
  cases h1
  rw [h3] at hg
  obtain ⟨vtx, hlt, hp, hc⟩ := countBelow_surj _ _ _ hg
  have : ∃ e ∈ v.elems, (strict = true → s.contains 0 e.index = .ok true) ∧ vtx ∈ e.sub v.dim := by
    cases strict with
    | true =>
      obtain ⟨e, he, h5, h6⟩ := hp.2 rfl
      exact ⟨e, he, fun _ => h5, h6⟩
    | false =>
      obtain ⟨e, he, h5⟩ := hv.covered v.dim vtx (Nat.le_refl _) hlt
      rcases h5 with ⟨h0, -⟩ | ⟨-, h6⟩
      · omega
      · exact ⟨e, he, by simp, h6⟩
  obtain ⟨e, he, hcon, hmem⟩ := this
  obtain ⟨i, hi⟩ := List.mem_iff_getElem?.mp hmem
  have hat := ((h4 e he).2 i vtx hi).1 ⟨hp, hcon⟩
  rw [hc] at hat
  have := (h2.inverse g (by rw [h3]; exact hg) _).mpr hat
  intro hnil
  rw [hnil] at this
  cases this

/-- Other dimensions are rejected. -/
theorem C39_rejects (v : View) (hd : v.dim ≠ 1 ∧ v.dim ≠ 2) (s : GridSegment) (strict : Bool) :
    assignP1 v s strict = .error .invalidArgument := by
  unfold assignP1
  rw [if_pos hd]

/-- Non-vacuity of C39: two triangles sharing an edge, segment without vertex 1; the three included
vertices 0, 2, 3 get the dofs 0, 1, 2. -/
example : (book 2).WF ∧ SegmentOf (book 2) ⟨fun c => (book 2).count c, fun c => if c = 2 then {1} else ∅⟩ ∧
    assignP1 (book 2) ⟨fun c => (book 2).count c, fun c => if c = 2 then {1} else ∅⟩ false =
      .ok ⟨[[0, -1, 1], [0, -1, 2]], [[⟨0, 0⟩, ⟨1, 0⟩], [⟨0, 2⟩], [⟨1, 2⟩]]⟩ := by
  refine ⟨book_WF 2 (by decide), fun _ => rfl, ?_⟩
  simp only [assignP1, p1Writes_eq, p1Numbering, p1Marks, excludedMarks_eq _ (book 2).dim (by decide)]; decide

/-! ### C40 -/

theorem p0_good (v : View) (hv : v.WF) (s : GridSegment) :
    GoodUses v fun e => [(0, inSegment s 0 e.index)] where
  index_nodup := hv.index_nodup
  index_lt := fun e he => index_lt v hv he
  keys := by intro e _; rfl

theorem p0_used (v : View) (s : GridSegment) :
    v.elems.flatMap (usedOf fun e => [(0, inSegment s 0 e.index)]) =
      (v.elems.filter fun e => inSegment s 0 e.index).map fun e => (⟨e.index, 0⟩ : LocalDof) := by
  induction v.elems with
  | nil => rfl
  | cons e es ih =>
    rw [List.flatMap_cons, ih]
    unfold usedOf
    cases h : inSegment s 0 e.index <;> simp [h]

/-- **C40** (part) For every segment, the P0 space has exactly one global dof for each element of the segment, carried by the only
local dof of that element; the maps are consistent. Missing from the full property: `flatLocalDofCount()`
is wrong on proper segments, see `C40_throws_off_whole_grid`. -/
theorem C40_dof_maps_partial (v : View) (hv : v.WF) (s : GridSegment) :
    (assignP0 v s).Consistent ∧
    (assignP0 v s).globalDofCount = (v.elems.filter fun e => decide (s.contains 0 e.index = .ok true)).length ∧
    ∀ e ∈ v.elems,
      (s.contains 0 e.index = .ok true → ∃ g : Nat, (assignP0 v s).getGlobalDofs e.index = [(g : Int)] ∧
        (assignP0 v s).globalToLocal g = [⟨e.index, 0⟩]) ∧
      (s.contains 0 e.index ≠ .ok true → (assignP0 v s).getGlobalDofs e.index = [-1]) := by
  have hg := p0_good v hv s
  have hin : ∀ i : Nat, inSegment s 0 i = decide (s.contains 0 i = .ok true) := by
    intro i
    rw [Bool.eq_iff_iff, inSegment_iff, decide_eq_true_eq]
    rfl
  have hcons := pushElements_consistent hg
  have hsingle : ∀ e ∈ v.elems, ∀ g : Int, (assignP0 v s).At ⟨e.index, 0⟩ g →
      (assignP0 v s).getGlobalDofs e.index = [g] := by
    intro e he g hat
    have hlen : ∀ i, i ≠ 0 → (((assignP0 v s).getGlobalDofs e.index)[i]? = none) := by
      intro i hi
      cases hx : ((assignP0 v s).getGlobalDofs e.index)[i]? with
      | none => rfl
      | some x =>
        have := (pushElements_at hg ⟨e.index, i⟩ x).mp hx
        obtain ⟨e', -, -, ⟨h1, -⟩ | ⟨h1, -⟩⟩ := this
        · simp at h1; exact absurd h1.1 hi
        · simp at h1; exact absurd h1.1 hi
    refine List.ext_getElem? ?_
    intro i
    cases i with
    | zero => exact hat
    | succ i => rw [hlen _ (by omega)]; rfl
  refine ⟨hcons, ?_, ?_⟩
  · show (pushElements v _).globalDofCount = _
    rw [pushElements_count, p0_used, List.length_map]
    simp only [hin]
  · intro e he
    constructor
    · intro hc
      have hu : inSegment s 0 e.index = true := by rw [hin, decide_eq_true_eq]; exact hc
      have hmem : (⟨e.index, 0⟩ : LocalDof) ∈ v.elems.flatMap (usedOf fun e => [(0, inSegment s 0 e.index)]) := by
        rw [List.mem_flatMap]
        refine ⟨e, he, (mem_usedOf e _).mpr ⟨rfl, ?_⟩⟩
        simp [hu]
      obtain ⟨g, hgg⟩ := List.mem_iff_getElem?.mp hmem
      have hat : (assignP0 v s).At ⟨e.index, 0⟩ g := by
        refine (pushElements_at hg _ _).mpr ⟨e, he, rfl, Or.inl ⟨by simp [hu], by omega, ?_⟩⟩
        rw [Int.toNat_natCast]; exact hgg
      have hlt : g < (assignP0 v s).globalDofCount := by
        show g < (pushElements v _).globalDofCount
        rw [pushElements_count]
        exact (List.getElem?_eq_some_iff.mp hgg).1
      refine ⟨g, hsingle e he g hat, ?_⟩
      obtain ⟨ld, h1, h2⟩ := pushElements_globalToLocal hlt
      rw [hgg] at h2
      cases h2
      exact h1
    · intro hc
      have hu : inSegment s 0 e.index = false := by
        rw [hin]; exact decide_eq_false hc
      refine hsingle e he _ ?_
      exact (pushElements_at hg _ _).mpr ⟨e, he, rfl, Or.inr ⟨by simp [hu], rfl⟩⟩

/-! ### C41 -/

/-- The global dofs of the used local dofs, in order of element and local dof (specification of the
owners of the flat local dofs). -/
def SpaceQueries.owners (q : SpaceQueries) : List Nat :=
  (List.range q.elementCount).flatMap fun e => ((q.globalDofs e).filter fun g => 0 ≤ g).map Int.toNat

theorem mapping_inner (row : List Int) : ∀ st : List Nat × List Nat, st.1 = List.range st.2.length →
    let r := row.foldl (fun (st : List Nat × List Nat) g =>
      if 0 ≤ g then (st.1 ++ [st.1.length], st.2 ++ [g.toNat]) else st) st
    r.1 = List.range r.2.length ∧ r.2 = st.2 ++ (row.filter fun g => 0 ≤ g).map Int.toNat := by
  induction row with
  | nil => intro st h; simpa using h
  | cons g row ih =>
    intro st h
    simp only [List.foldl_cons]
    by_cases h0 : 0 ≤ g
    · rw [if_pos h0]
      have := ih (st.1 ++ [st.1.length], st.2 ++ [g.toNat]) (by
        simp only [List.length_append, List.length_cons, List.length_nil]
        rw [List.range_succ]
        conv_lhs => rw [h]
        simp)
      simpa [h0] using this
    · rw [if_neg h0]
      have := ih st h
      simpa [h0] using this

theorem mapping_outer (rows : Nat → List Int) (es : List Nat) : ∀ st : List Nat × List Nat, st.1 = List.range st.2.length →
    let r := es.foldl (fun (st : List Nat × List Nat) e => (rows e).foldl (fun (st : List Nat × List Nat) g =>
      if 0 ≤ g then (st.1 ++ [st.1.length], st.2 ++ [g.toNat]) else st) st) st
    r.1 = List.range r.2.length ∧
      r.2 = st.2 ++ es.flatMap fun e => ((rows e).filter fun g => 0 ≤ g).map Int.toNat := by
  induction es with
  | nil => intro st h; simpa using h
  | cons e es ih =>
    intro st h
    obtain ⟨h1, h2⟩ := mapping_inner (rows e) st h
    obtain ⟨h3, h4⟩ := ih _ h1
    refine ⟨h3, ?_⟩
    refine h4.trans ?_
    rw [h2]
    simp

theorem mappingVectors_eq (q : SpaceQueries) :
    mappingVectors q = if q.owners.length ≠ q.flatLocalDofCount then .error .runtimeError
      else .ok (List.range q.owners.length, q.owners) := by
  have := mapping_outer q.globalDofs (List.range q.elementCount) ([], []) rfl
  obtain ⟨h1, h2⟩ := this
  unfold mappingVectors
  simp only [] at h1 h2 ⊢
  rw [List.nil_append] at h2
  have h3 := h2.trans (show _ = q.owners from rfl)
  revert h1 h3
  clear h2
  generalize (List.range q.elementCount).foldl _ ([], []) = r
  intro h1 h3
  obtain ⟨r1, r2⟩ := r
  simp only at h1 h3 ⊢
  subst h3
  subst h1
  simp only [List.length_range, or_self]

theorem mappingEntry_range (l : List Nat) (i j : Nat) :
    mappingEntry (List.range l.length, l) i j = if l[i]? = some j then 1 else 0 := by
  unfold mappingEntry
  simp only
  rw [List.range_eq_range', ← List.zipIdx_map_snd 0 l]
  have gen : ∀ (l : List Nat) (k : Nat),
      ((((l.zipIdx k).map Prod.snd).zip l).map fun p => if p.1 = i ∧ p.2 = j then 1 else 0).sum =
        if k ≤ i ∧ l[i - k]? = some j then 1 else 0 := by
    intro l
    induction l with
    | nil => intro k; simp
    | cons a l ih =>
      intro k
      rw [List.zipIdx_cons, List.map_cons, List.zip_cons_cons, List.map_cons, List.sum_cons, ih]
      by_cases hk : k = i
      · subst hk
        have h1 : ¬ (k + 1 ≤ k) := by omega
        simp [h1]
      · by_cases hle : k ≤ i
        · have h1 : k + 1 ≤ i := by omega
          have h2 : i - k = (i - (k + 1)) + 1 := by omega
          rw [h2, List.getElem?_cons_succ]
          simp [hk, h1, hle]
        · have h1 : ¬ (k + 1 ≤ i) := by omega
          simp [hk, h1, hle]
  have := gen l 0
  simpa using this

/-- **C41** For every space: the construction throws exactly when the number of used local dofs differs
from the `flatLocalDofCount()` reported by the space; otherwise row `i` of the sparse matrix has a single
non-zero entry, equal to 1, in the column of the global dof that owns the `i`-th used local dof. -/
theorem C41_mapping (q : SpaceQueries) :
    (q.owners.length ≠ q.flatLocalDofCount → mappingVectors q = .error .runtimeError) ∧
    (q.owners.length = q.flatLocalDofCount → ∃ rc, mappingVectors q = .ok rc ∧
      (∀ i, i < q.flatLocalDofCount → ∃ g, q.owners[i]? = some g ∧
        ∀ j, mappingEntry rc i j = if j = g then 1 else 0) ∧
      ∀ i j, q.flatLocalDofCount ≤ i → mappingEntry rc i j = 0) := by
  rw [mappingVectors_eq]
  constructor
  · intro h; rw [if_pos h]
  · intro h
    rw [if_neg (by simpa using h)]
    refine ⟨_, rfl, ?_, ?_⟩
    · intro i hi
      rw [← h] at hi
      refine ⟨q.owners[i], List.getElem?_eq_getElem hi, ?_⟩
      intro j
      rw [mappingEntry_range, List.getElem?_eq_getElem hi]
      by_cases hj : j = q.owners[i]
      · rw [if_pos hj, if_pos (by rw [hj])]
      · rw [if_neg hj, if_neg (by simpa using fun h => hj h.symm)]
    · intro i j hi
      rw [mappingEntry_range, List.getElem?_eq_none (by omega)]
      simp

theorem zipIdx_eq_range {α : Type} (l : List α) (d : α) :
    l.zipIdx = (List.range l.length).map fun i => (l.getD i d, i) := by
  refine List.ext_getElem? ?_
  intro i
  rw [List.getElem?_zipIdx, List.getElem?_map]
  by_cases hi : i < l.length
  · rw [List.getElem?_range hi, List.getElem?_eq_getElem hi]
    simp [List.getD_eq_getElem?_getD, hi]
  · rw [List.getElem?_eq_none (by omega), List.getElem?_eq_none (by simpa using hi)]
    rfl

theorem row_owner (row : List Int) (e : Nat) (γ : LocalDof → Nat)
    (hγ : ∀ d (g : Int), row[d]? = some g → 0 ≤ g → γ ⟨e, d⟩ = g.toNat) :
    (row.zipIdx.filterMap fun q => if 0 ≤ q.1 then some (⟨e, q.2⟩ : LocalDof) else none).map γ =
      (row.filter fun g => 0 ≤ g).map Int.toNat := by
  have gen : ∀ (row : List Int) (k : Nat), (∀ d (g : Int), row[d]? = some g → 0 ≤ g → γ ⟨e, k + d⟩ = g.toNat) →
      ((row.zipIdx k).filterMap fun q => if 0 ≤ q.1 then some (⟨e, q.2⟩ : LocalDof) else none).map γ =
        (row.filter fun g => 0 ≤ g).map Int.toNat := by
    intro row
    induction row with
    | nil => intro k _; rfl
    | cons g row ih =>
      intro k h
      have := ih (k + 1) (by
        intro d g' hd h0
        have := h (d + 1) g' (by simpa using hd) h0
        rw [← this]
        congr 2
        omega)
      rw [List.zipIdx_cons]
      by_cases h0 : 0 ≤ g
      · have h2 := h 0 g rfl h0
        simp [h0, this, h2] at h2 ⊢
        exact h2
      · simp [h0, this]
  exact gen row 0 (by simpa using hγ)

theorem owners_flat (m : DofMaps) :
    m.queries.owners = m.flat.map fun ld => ((m.getGlobalDofs ld.entityIndex).getD ld.dofIndex (-1)).toNat := by
  unfold SpaceQueries.owners DofMaps.flat flatLocalDofs DofMaps.queries
  simp only
  rw [zipIdx_eq_range m.local2global [], List.flatMap_map, List.map_flatMap]
  refine List.flatMap_congr ?_
  intro e _
  rw [row_owner]
  · rfl
  · intro d g hd _
    unfold DofMaps.getGlobalDofs
    simp only []
    rw [List.getD_eq_getElem?_getD (l := m.local2global.getD e []), hd]
    rfl

/-- **C41** For a space whose `flatLocalDofCount()` is the length of its list of flat local dofs (continuous P1, RWG,
polynomial spaces) the matrix is always built, and the entry in row `k` is 1 exactly in the column of the
global dof carried by the `k`-th flat local dof. -/
theorem C41_mapping_of_space (m : DofMaps) : ∃ rc, mappingVectors m.queries = .ok rc ∧
    ∀ k ld, m.flat[k]? = some ld → ∀ g : Nat, m.At ld g → ∀ j, mappingEntry rc k j = if j = g then 1 else 0 := by
  have hlen : m.queries.owners.length = m.queries.flatLocalDofCount := by
    rw [owners_flat, List.length_map]; rfl
  obtain ⟨rc, h1, h2, -⟩ := (C41_mapping m.queries).2 hlen
  refine ⟨rc, h1, ?_⟩
  intro k ld hk g hat j
  obtain ⟨g', h3, h4⟩ := h2 k (by rw [← hlen, owners_flat, List.length_map]; exact (List.getElem?_eq_some_iff.mp hk).1)
  rw [h4]
  rw [owners_flat, List.getElem?_map, hk] at h3
  unfold DofMaps.At at hat
  simp only [Option.map_some, Option.some.injEq, List.getD_eq_getElem?_getD, hat, Option.getD_some,
    Int.toNat_natCast] at h3
  rw [h3]

/-- Non-vacuity of C41: two triangles sharing an edge; 6 flat local dofs, 4 global dofs. -/
example : ∃ m, assignP1 (book 2) (wholeGrid (book 2)) false = .ok m ∧
    mappingVectors m.queries = .ok ([0, 1, 2, 3, 4, 5], [0, 1, 2, 0, 1, 3]) ∧
    m.flat[3]? = some ⟨1, 0⟩ ∧ m.At ⟨1, 0⟩ (0 : Nat) :=
  ⟨⟨[[0, 1, 2], [0, 1, 3]], [[⟨0, 0⟩, ⟨1, 0⟩], [⟨0, 1⟩, ⟨1, 1⟩], [⟨0, 2⟩], [⟨1, 2⟩]]⟩,
    by simp only [assignP1, p1Writes_eq, p1Numbering, p1Marks, excludedMarks_eq _ (book 2).dim (by decide)]; decide, by decide, by decide, by unfold DofMaps.At; decide⟩

/-! ### C40: consequences for the sparse mapping -/

theorem p0_owners_length (v : View) (hv : v.WF) (s : GridSegment) :
    (p0Queries v s).owners.length =
      (v.elems.filter fun e => decide (s.contains 0 e.index = .ok true)).length := by
  obtain ⟨hcons, hcount, hel⟩ := C40_dof_maps_partial v hv s
  have hlen : (assignP0 v s).local2global.length = v.count 0 := by
    unfold assignP0 pushElements
    rw [pushElements_local_length]; simp
  have h1 : (p0Queries v s).owners = (assignP0 v s).queries.owners := by
    unfold SpaceQueries.owners p0Queries DofMaps.queries
    simp only [hlen]
  rw [h1, owners_flat, List.length_map, ← hcount]
  -- flat local dofs and global dofs are in bijection
  have hp : (assignP0 v s).flat.Perm ((assignP0 v s).global2local.flatten) := by
    unfold assignP0
    rw [pushElements_g2l]
    have hfl : ((v.elems.flatMap (usedOf fun e => [(0, inSegment s 0 e.index)])).map fun ld => [ld]).flatten =
        v.elems.flatMap (usedOf fun e => [(0, inSegment s 0 e.index)]) := by
      rw [← List.flatMap_def]; simp
    rw [hfl]
    refine (List.perm_ext_iff_of_nodup (flat_nodup _) ?_).mpr ?_
    · rw [p0_used]
      have := hv.index_nodup
      have h2 : ((v.elems.filter fun e => inSegment s 0 e.index).map (·.index)).Nodup :=
        this.sublist (List.Sublist.map _ List.filter_sublist)
      refine List.Nodup.map_on ?_ (List.Nodup.of_map _ h2)
      intro a ha b hb hab
      injection hab with h3
      exact List.inj_on_of_nodup_map h2 ha hb h3
    · intro ld
      rw [flat_mem]
      constructor
      · rintro ⟨g, hat⟩
        rw [pushElements_at (p0_good v hv s)] at hat
        obtain ⟨e, he, hi, ⟨h3, -⟩ | ⟨-, h3⟩⟩ := hat
        · exact List.mem_flatMap.mpr ⟨e, he, (mem_usedOf e ld).mpr ⟨hi, h3⟩⟩
        · omega
      · intro hm
        obtain ⟨e, he, h3⟩ := List.mem_flatMap.mp hm
        obtain ⟨h4, h5⟩ := (mem_usedOf e ld).mp h3
        obtain ⟨g, hgg⟩ := List.mem_iff_getElem?.mp hm
        refine ⟨g, (pushElements_at (p0_good v hv s) _ _).mpr ⟨e, he, h4, Or.inl ⟨h5, by omega, ?_⟩⟩⟩
        rw [Int.toNat_natCast]; exact hgg
  rw [hp.length_eq]
  unfold assignP0 DofMaps.globalDofCount
  rw [pushElements_g2l, ← List.flatMap_def, List.length_map]
  simp [List.length_flatMap]

/-- **C40** The sparse global-to-flat-local map of the P0 space can be built exactly when every element of the grid belongs
to the segment; on every proper segment the construction throws. -/
theorem C40_mapping_iff_whole_partial (v : View) (hv : v.WF) (hc : v.elems.length = v.count 0)
    (s : GridSegment) :
    (∃ rc, mappingVectors (p0Queries v s) = .ok rc) ↔ ∀ e ∈ v.elems, s.contains 0 e.index = .ok true := by
  rw [mappingVectors_eq, p0_owners_length v hv s]
  have h2 : (p0Queries v s).flatLocalDofCount = v.elems.length := hc.symm
  rw [h2]
  have h3 := List.length_filter_eq_length_iff (l := v.elems) (p := fun e => decide (s.contains 0 e.index = .ok true))
  simp only [decide_eq_true_eq] at h3
  rw [← h3]
  constructor
  · rintro ⟨rc, h⟩
    by_contra hne
    rw [if_pos hne] at h
    cases h
  · intro h
    rw [if_neg (by simpa using h)]
    exact ⟨_, rfl⟩

/-- **C40 is false as stated**: on the segment made of the first of two triangles, the space has one
global dof, reports two flat local dofs, and the mapping cannot be built. -/
theorem C40_counterexample_segment :
    let s : GridSegment := ⟨fun c => (book 2).count c, fun c => if c = 0 then {1} else ∅⟩
    (book 2).WF ∧ (p0Queries (book 2) s).globalDofCount = 1 ∧ (p0Queries (book 2) s).flatLocalDofCount = 2 ∧
      mappingVectors (p0Queries (book 2) s) = .error .runtimeError := by
  refine ⟨book_WF 2 (by decide), by decide, by decide, by decide⟩

/-! ### C42 -/

theorem p1d_good (v : View) (hv : v.WF) (s : GridSegment) (strict : Bool) : GoodUses v (p1dUses v s strict) where
  index_nodup := hv.index_nodup
  index_lt := fun e he => index_lt v hv he
  keys := by
    intro e _
    unfold p1dUses
    rw [zipIdx_keys]
    simp

theorem used_nodup (v : View) (uses : Elem → List (Nat × Bool)) (h : GoodUses v uses) :
    (v.elems.flatMap (usedOf uses)).Nodup := by
  rw [List.nodup_flatMap]
  constructor
  · intro e he
    have hnd : ((uses e).map Prod.fst).Nodup := by rw [h.keys e he]; exact List.nodup_range
    have : (((uses e).filter (·.2)).map Prod.fst).Nodup :=
      hnd.sublist (List.Sublist.map _ List.filter_sublist)
    refine List.Nodup.map_on ?_ (List.Nodup.of_map _ this)
    intro a ha b hb hab
    have h1 : a.1 = b.1 := by injection hab
    exact List.inj_on_of_nodup_map this ha hb h1
  · have := h.index_nodup
    rw [List.Nodup, List.pairwise_map] at this
    refine this.imp ?_
    intro a b hab
    rw [Function.onFun, List.disjoint_left]
    intro x hx hy
    simp only [usedOf, List.mem_map] at hx hy
    obtain ⟨_, -, rfl⟩ := hx
    obtain ⟨_, -, h2⟩ := hy
    injection h2 with h3
    exact hab h3.symm

theorem used_sorted (v : View) (uses : Elem → List (Nat × Bool)) (h : GoodUses v uses)
    (hord : (v.elems.map (·.index)).Pairwise (· < ·)) :
    (v.elems.flatMap (usedOf uses)).Pairwise fun a b =>
      a.entityIndex < b.entityIndex ∨ (a.entityIndex = b.entityIndex ∧ a.dofIndex < b.dofIndex) := by
  rw [List.pairwise_flatMap]
  constructor
  · intro e he
    have hs : ((uses e).map Prod.fst).Pairwise (· < ·) := by rw [h.keys e he]; exact List.pairwise_lt_range
    have h2 : (((uses e).filter (·.2)).map Prod.fst).Pairwise (· < ·) :=
      hs.sublist (List.Sublist.map _ List.filter_sublist)
    rw [List.pairwise_map] at h2
    unfold usedOf
    rw [List.pairwise_map]
    exact h2.imp fun hab => Or.inr ⟨rfl, hab⟩
  · rw [List.pairwise_map] at hord
    refine hord.imp ?_
    intro a b hab x hx y hy
    simp only [usedOf, List.mem_map] at hx hy
    obtain ⟨_, -, rfl⟩ := hx
    obtain ⟨_, -, rfl⟩ := hy
    exact Or.inl hab

/-- **C42** (part) If the space is not strictly on the segment, or every vertex of an element of the
segment belongs to the segment, then the discontinuous companion of a continuous P1 space has exactly one
global dof for each flat local dof of the continuous space; if elements are iterated in index order, global
dof `k` of the companion is the `k`-th flat local dof. Missing: strict mode with excluded vertices, see
`C42_counterexample_strict`. -/
theorem C42_discontinuous_companion_partial (v : View) (hv : v.WF) (hd : v.dim = 1 ∨ v.dim = 2) (s : GridSegment)
    (hs : SegmentOf v s) (strict : Bool)
    (hcl : strict = true → ∀ e ∈ v.elems, s.contains 0 e.index = .ok true →
      ∀ i ∈ e.sub v.dim, s.contains v.dim i = .ok true)
    (m d : DofMaps) (hm : assignP1 v s strict = .ok m) (hdd : p1DiscontinuousSpace v s strict = .ok d) :
    d.globalDofCount = m.flat.length ∧ (d.global2local).Perm (m.flat.map fun ld => [ld]) ∧
    ((v.elems.map (·.index)).Pairwise (· < ·) → d.global2local = m.flat.map fun ld => [ld]) := by
  obtain ⟨m', h1, hcons, -, hel⟩ := C39_dof_maps v hv hd s hs strict
  rw [hm] at h1
  cases h1
  have hdd' : d = pushElements v (p1dUses v s strict) := by
    unfold p1DiscontinuousSpace assignP1Disc at hdd
    rw [if_neg (by omega)] at hdd
    cases hdd
    rfl
  subst hdd'
  have hg := p1d_good v hv s strict
  have hin := inSegment_iff s
  have hmem : ∀ ld, ld ∈ v.elems.flatMap (usedOf (p1dUses v s strict)) ↔ ld ∈ m.flat := by
    intro ld
    rw [hcons.flat_mem, List.mem_flatMap]
    constructor
    · rintro ⟨e, he, hu⟩
      obtain ⟨hi, hu⟩ := (mem_usedOf e ld).mp hu
      unfold p1dUses at hu
      rw [mem_zipIdx_map] at hu
      obtain ⟨vtx, hvtx, huse⟩ := hu
      have hP : P1Vertex v s strict vtx ∧ (strict = true → s.contains 0 e.index = .ok true) := by
        cases strict with
        | true =>
          simp only [Bool.true_and, Bool.not_true, Bool.false_and, Bool.or_false] at huse
          have hc := (hin 0 e.index).mp huse
          exact ⟨⟨hcl rfl e he hc vtx (List.mem_of_getElem? hvtx), fun _ => ⟨e, he, hc, List.mem_of_getElem? hvtx⟩⟩,
            fun _ => hc⟩
        | false =>
          simp only [Bool.false_and, Bool.not_false, Bool.true_and, Bool.false_or] at huse
          exact ⟨⟨(hin v.dim vtx).mp huse, by simp⟩, by simp⟩
      have := ((hel e he).2 ld.dofIndex vtx hvtx).1 hP
      rw [hi] at this
      exact ⟨_, this⟩
    · rintro ⟨g, hat⟩
      have hrow : m = writeElements v (p1Numbering v s strict).2 (fun e => (e.sub v.dim).length) (p1Writes v s strict) := by
        rw [assignP1_ok v hd s strict] at hm
        cases hm; rfl
      have hat' := hat
      rw [hrow, writeElements_at (p1_good v hv (by omega) s hs strict)] at hat'
      obtain ⟨e, he, hi, hw⟩ := hat'
      unfold p1Writes at hw
      rw [mem_zipIdx_map] at hw
      obtain ⟨vtx, hvtx, -⟩ := hw
      refine ⟨e, he, (mem_usedOf e ld).mpr ⟨hi, ?_⟩⟩
      have hP : P1Vertex v s strict vtx ∧ (strict = true → s.contains 0 e.index = .ok true) := by
        by_contra hno
        have := ((hel e he).2 ld.dofIndex vtx hvtx).2 hno
        rw [hi] at this
        unfold DofMaps.At at this hat
        rw [hat] at this
        injection this with this
        omega
      unfold p1dUses
      rw [mem_zipIdx_map]
      refine ⟨vtx, hvtx, ?_⟩
      cases strict with
      | true =>
        simp only [Bool.true_and, Bool.not_true, Bool.false_and, Bool.or_false]
        exact (hin 0 e.index).mpr (hP.2 rfl)
      | false =>
        simp only [Bool.false_and, Bool.not_false, Bool.true_and, Bool.false_or]
        exact (hin v.dim vtx).mpr hP.1.1
  have hperm : (v.elems.flatMap (usedOf (p1dUses v s strict))).Perm m.flat :=
    (List.perm_ext_iff_of_nodup (used_nodup v _ hg) (flat_nodup m)).mpr hmem
  refine ⟨?_, ?_, ?_⟩
  · rw [pushElements_count]; exact hperm.length_eq
  · rw [pushElements_g2l]; exact hperm.map _
  · intro hord
    rw [pushElements_g2l]
    congr 1
    refine List.Perm.eq_of_pairwise ?_ (used_sorted v _ hg hord) (flat_sorted m) hperm
    intro a b _ _ hab hba
    omega

/-- Non-vacuity of C42 (strict mode, one of two triangles with its vertices). -/
example : let s : GridSegment := ⟨fun c => (book 2).count c, fun c => if c = 0 then {1} else ∅⟩
    (book 2).WF ∧ SegmentOf (book 2) s ∧
    assignP1 (book 2) s true = .ok ⟨[[0, 1, 2], [-1, -1, -1]], [[⟨0, 0⟩], [⟨0, 1⟩], [⟨0, 2⟩]]⟩ ∧
    p1DiscontinuousSpace (book 2) s true = .ok ⟨[[0, 1, 2], [-1, -1, -1]], [[⟨0, 0⟩], [⟨0, 1⟩], [⟨0, 2⟩]]⟩ := by
  refine ⟨book_WF 2 (by decide), fun _ => rfl, ?_, by decide⟩
  simp only [assignP1, p1Writes_eq, p1Numbering, p1Marks, excludedMarks_eq _ (book 2).dim (by decide)]; decide

/-- **C42 is false as stated**: on the open domain of a grid with one triangle (a segment made by the
library, which contains the triangle but none of its vertices) in strict mode, the continuous space has no
dofs at all while its discontinuous companion has three. -/
theorem C42_counterexample_strict :
    (book 1).WF ∧ ∃ m d, assignP1 (book 1) (openDomain (book 1) {1}) true = .ok m ∧
      p1DiscontinuousSpace (book 1) (openDomain (book 1) {1}) true = .ok d ∧
      m.flat.length = 0 ∧ d.globalDofCount = 3 := by
  refine ⟨book_WF 1 (by decide), ⟨[[-1, -1, -1]], []⟩, ⟨[[0, 1, 2]], [[⟨0, 0⟩], [⟨0, 1⟩], [⟨0, 2⟩]]⟩, ?_, ?_, ?_, ?_⟩
  · simp only [assignP1, p1Writes_eq, p1Numbering, p1Marks, excludedMarks_eq _ (book 1).dim (by decide)]; decide
  · decide
  · decide
  · decide

end Verif.Space
