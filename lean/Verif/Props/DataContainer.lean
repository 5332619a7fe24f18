import Verif.Lemmas.DataContainer
import Verif.Spec.Mesh
import Verif.Spec.GridSegment
/-
Properties C31, C32, C59: construction of the triangular grid.
-/
namespace Verif.Grid

theorem side_ord (p : Nat × Nat) : side (ord p) = side p := by
  unfold side ord
  split
  · exact Sym2.eq_swap
  · rfl

theorem ord_eq_of_side {p q : Nat × Nat} (h : side p = side q) : ord p = ord q := by
  unfold side at h
  rw [Sym2.eq_iff] at h
  unfold ord
  rcases h with ⟨h1, h2⟩ | ⟨h1, h2⟩
  · rw [h1, h2]
    have : p = q := Prod.ext h1 h2
    rw [this]
  · obtain ⟨a, b⟩ := p
    obtain ⟨c, d⟩ := q
    simp only at h1 h2 ⊢
    subst h1 h2
    split <;> split
    · omega
    · rfl
    · rfl
    · have : a = b := by omega
      subst this; rfl

theorem ord_ordered {p : Nat × Nat} (h : p.2 ≤ p.1) : ord p = p := by
  unfold ord; rw [if_neg (by omega)]

theorem edgeNodes_side (t : Tri) : t.edgeNodes.map side = t.sides := by
  simp only [Tri.edgeNodes, Tri.sides, List.map_cons, List.map_nil, side]
  rw [Sym2.eq_swap (a := t.c)]

theorem sides_nodup (t : Tri) (h : t.Proper) : t.sides.Nodup := by
  obtain ⟨h1, h2, h3⟩ := h
  simp only [Tri.sides, List.nodup_cons, List.mem_cons, List.not_mem_nil, or_false, Sym2.eq_iff,
    List.nodup_nil, and_true, not_false_eq_true]
  omega

/-- **C31** Creating the grid is well defined (no access outside an array) exactly when all vertex
indices are in range. -/
theorem C31_defined (n : Nat) (ts : List Tri) (c : Nat) :
    (DataContainer.init n ts c).isSome ↔ ∀ t ∈ ts, ∀ v ∈ t.verts, v < n := by
  constructor
  · intro h
    obtain ⟨d, hd⟩ := Option.isSome_iff_exists.mp h
    exact init_valid n ts c d hd
  · intro h
    obtain ⟨d, hd, _⟩ := init_spec n ts c h
    rw [hd]; rfl

/-- **C31** There is exactly one edge per unordered pair of vertices that are joined in some triangle,
and no other edge. -/
theorem C31_edges (n : Nat) (ts : List Tri) (c : Nat) (d : DataContainer)
    (h : DataContainer.init n ts c = some d) :
    (d.edges.map side).Nodup ∧ ∀ s, s ∈ d.edges.map side ↔ ∃ t ∈ ts, s ∈ t.sides := by
  obtain ⟨d', hd, hn, he, hnd, hord, h2e, -⟩ := init_spec n ts c (init_valid n ts c d h)
  rw [h] at hd
  cases hd
  constructor
  · apply List.Nodup.map_on _ hnd
    intro p hp q hq hpq
    have := ord_eq_of_side hpq
    rwa [ord_ordered (hord p hp).1, ord_ordered (hord q hq).1] at this
  · intro s
    constructor
    · intro hs
      obtain ⟨p, hp, rfl⟩ := List.mem_map.mp hs
      obtain ⟨-, -, t, ht, hpt⟩ := hord p hp
      refine ⟨t, ht, ?_⟩
      obtain ⟨q, hq, rfl⟩ := List.mem_map.mp hpt
      rw [side_ord, ← edgeNodes_side]
      exact List.mem_map.mpr ⟨q, hq, rfl⟩
    · rintro ⟨t, ht, hs⟩
      rw [← edgeNodes_side] at hs
      obtain ⟨q, hq, rfl⟩ := List.mem_map.mp hs
      have h1 : t.edgeNodes.map (fun p => some (ord p)) ∈
          d.element2Edges.map (fun is => is.map fun i => d.edges[i]?) := by
        rw [h2e]; exact List.mem_map.mpr ⟨t, ht, rfl⟩
      obtain ⟨is, _, his⟩ := List.mem_map.mp h1
      have h2 : some (ord q) ∈ is.map (fun i => d.edges[i]?) := by
        rw [his]; exact List.mem_map.mpr ⟨q, hq, rfl⟩
      obtain ⟨i, _, hi⟩ := List.mem_map.mp h2
      have := List.mem_of_getElem? hi
      exact List.mem_map.mpr ⟨_, this, side_ord q⟩

/-- **C31** The three edges of an element are its three sides, in Dune's numbering. -/
theorem C31_element2Edges (n : Nat) (ts : List Tri) (c : Nat) (d : DataContainer)
    (h : DataContainer.init n ts c = some d) (e : Nat) (t : Tri) (ht : ts[e]? = some t) :
    ∃ is, d.element2Edges[e]? = some is ∧
      is.map (fun i => (d.edges[i]?).map side) = t.sides.map some := by
  obtain ⟨d', hd, hn, he, hnd, hord, h2e, -⟩ := init_spec n ts c (init_valid n ts c d h)
  rw [h] at hd
  cases hd
  have h1 : (d.element2Edges.map (fun is => is.map fun i => d.edges[i]?))[e]? =
      some (t.edgeNodes.map fun p => some (ord p)) := by
    rw [h2e, List.getElem?_map, ht]; rfl
  rw [List.getElem?_map] at h1
  obtain ⟨is, his, hmap⟩ := Option.map_eq_some_iff.mp h1
  refine ⟨is, his, ?_⟩
  have h2 := congrArg (List.map (Option.map side)) hmap
  rw [List.map_map, List.map_map] at h2
  rw [← edgeNodes_side, List.map_map]
  have h3 : (Option.map side ∘ fun p => some (ord p)) = some ∘ side := by
    funext p; simp [side_ord]
  rw [h3] at h2
  exact h2

theorem element2Edges_length (n : Nat) (ts : List Tri) (c : Nat) (d : DataContainer)
    (h : DataContainer.init n ts c = some d) : d.element2Edges.length = ts.length := by
  obtain ⟨d', hd, hn, he, hnd, hord, h2e, -⟩ := init_spec n ts c (init_valid n ts c d h)
  rw [h] at hd
  cases hd
  simpa using congrArg List.length h2e

/-- Edge `i` is an edge of element `e` iff its vertex pair is a side of `e`. -/
theorem mem_element2Edges (n : Nat) (ts : List Tri) (c : Nat) (d : DataContainer)
    (h : DataContainer.init n ts c = some d) (e : Nat) (t : Tri) (ht : ts[e]? = some t)
    (is : List Nat) (his : d.element2Edges[e]? = some is) (i : Nat) (p : Nat × Nat)
    (hp : d.edges[i]? = some p) : i ∈ is ↔ side p ∈ t.sides := by
  obtain ⟨is', his', hmap⟩ := C31_element2Edges n ts c d h e t ht
  rw [his] at his'
  cases his'
  constructor
  · intro hi
    have : (d.edges[i]?).map side ∈ is.map (fun i => (d.edges[i]?).map side) :=
      List.mem_map.mpr ⟨i, hi, rfl⟩
    rw [hmap, hp] at this
    simpa using this
  · intro hs
    have : some (side p) ∈ is.map (fun i => (d.edges[i]?).map side) := by
      rw [hmap]; exact List.mem_map.mpr ⟨_, hs, rfl⟩
    obtain ⟨j, hj, hjp⟩ := List.mem_map.mp this
    obtain ⟨q, hq, hqs⟩ := Option.map_eq_some_iff.mp hjp
    have hnd := (C31_edges n ts c d h).1
    have hi' := (List.getElem?_eq_some_iff.mp hp)
    have hj' := (List.getElem?_eq_some_iff.mp hq)
    have : i = j := by
      apply (List.Nodup.getElem_inj_iff hnd (hi := by simpa using hi'.1) (hj := by simpa using hj'.1)).mp
      rw [List.getElem_map, List.getElem_map, hi'.2, hj'.2, hqs]
    rw [this]; exact hj

theorem element2Edges_nodup (n : Nat) (ts : List Tri) (c : Nat) (d : DataContainer)
    (h : DataContainer.init n ts c = some d) (hok : MeshOk n ts) :
    ∀ is ∈ d.element2Edges, is.Nodup := by
  intro is his
  obtain ⟨e, he, heq⟩ := List.getElem_of_mem his
  have hl := element2Edges_length n ts c d h
  have he' : e < ts.length := by omega
  obtain ⟨is', his', hmap⟩ := C31_element2Edges n ts c d h e _ (List.getElem?_eq_getElem he')
  rw [List.getElem?_eq_getElem he, heq] at his'
  cases his'
  have hs := sides_nodup _ (hok.proper _ (List.getElem_mem he'))
  have : (is.map (fun i => (d.edges[i]?).map side)).Nodup := by
    rw [hmap]; exact hs.map (Option.some_injective _)
  exact List.Nodup.of_map _ this

/-- **C31** `edge2Elements` of an edge lists, in increasing order and each once, exactly the elements that
have this edge as a side. -/
theorem C31_edge2Elements (n : Nat) (ts : List Tri) (c : Nat) (d : DataContainer)
    (h : DataContainer.init n ts c = some d) (hok : MeshOk n ts) (i : Nat) (p : Nat × Nat)
    (hp : d.edges[i]? = some p) :
    ∃ l, d.edge2Elements[i]? = some l ∧ l.Pairwise (· < ·) ∧
      ∀ e, e ∈ l ↔ ∃ t, ts[e]? = some t ∧ side p ∈ t.sides := by
  have hlen := element2Edges_length n ts c d h
  obtain ⟨d', hd, hn, he, hnd, hord, h2e, -, -, -, hee, -⟩ := init_spec n ts c (init_valid n ts c d h)
  rw [h] at hd
  cases hd
  have hi := (List.getElem?_eq_some_iff.mp hp).1
  refine ⟨_, hee i hi, contrib_sorted _ _ _ (element2Edges_nodup n ts c d h hok), ?_⟩
  intro e
  rw [mem_contrib]
  simp only [Nat.zero_le, Nat.sub_zero, true_and]
  constructor
  · rintro ⟨is, his, hm⟩
    have he' : e < ts.length := by rw [← hlen]; exact (List.getElem?_eq_some_iff.mp his).1
    exact ⟨_, List.getElem?_eq_getElem he', (mem_element2Edges n ts c d h e _
      (List.getElem?_eq_getElem he') is his i p hp).mp hm⟩
  · rintro ⟨t, ht, hs⟩
    obtain ⟨is, his, -⟩ := C31_element2Edges n ts c d h e t ht
    exact ⟨is, his, (mem_element2Edges n ts c d h e t ht is his i p hp).mpr hs⟩

theorem verts_nodup (t : Tri) (h : t.Proper) : t.verts.Nodup := by
  obtain ⟨h1, h2, h3⟩ := h
  simp only [Tri.verts, List.nodup_cons, List.mem_cons, List.not_mem_nil, or_false]
  simp; omega

/-- **C31** `node2Elements` of a vertex lists, in increasing order and each once, exactly the elements
with that vertex. -/
theorem C31_node2Elements (n : Nat) (ts : List Tri) (c : Nat) (d : DataContainer)
    (h : DataContainer.init n ts c = some d) (hok : MeshOk n ts) (v : Nat) (hv : v < n) :
    ∃ l, d.node2Elements[v]? = some l ∧ l.Pairwise (· < ·) ∧
      ∀ e, e ∈ l ↔ ∃ t, ts[e]? = some t ∧ v ∈ t.verts := by
  obtain ⟨d', hd, hn, he, hnd, hord, h2e, -, -, -, -, hne, -⟩ := init_spec n ts c (init_valid n ts c d h)
  rw [h] at hd
  cases hd
  refine ⟨_, hne v hv, contrib_sorted _ _ _ ?_, ?_⟩
  · intro ks hks
    obtain ⟨t, ht, rfl⟩ := List.mem_map.mp hks
    exact verts_nodup t (hok.proper t ht)
  · intro e
    rw [mem_contrib]
    simp only [Nat.zero_le, Nat.sub_zero, true_and, List.getElem?_map]
    constructor
    · rintro ⟨ks, hks, hm⟩
      obtain ⟨t, ht, rfl⟩ := Option.map_eq_some_iff.mp hks
      exact ⟨t, ht, hm⟩
    · rintro ⟨t, ht, hm⟩
      exact ⟨t.verts, by rw [ht]; rfl, hm⟩

/-- **C31** `node2Edges` of a vertex lists, in increasing order and each once, exactly the edges with that
end point. -/
theorem C31_node2Edges (n : Nat) (ts : List Tri) (c : Nat) (d : DataContainer)
    (h : DataContainer.init n ts c = some d) (hok : MeshOk n ts) (v : Nat) (hv : v < n) :
    ∃ l, d.node2Edges[v]? = some l ∧ l.Pairwise (· < ·) ∧
      ∀ i, i ∈ l ↔ ∃ p, d.edges[i]? = some p ∧ v ∈ side p := by
  obtain ⟨d', hd, hn, he, hnd, hord, h2e, -, -, -, -, -, hne, -⟩ :=
    init_spec n ts c (init_valid n ts c d h)
  rw [h] at hd
  cases hd
  refine ⟨_, hne v hv, contrib_sorted _ _ _ ?_, ?_⟩
  · intro ks hks
    obtain ⟨p, hp, rfl⟩ := List.mem_map.mp hks
    have : side p ∈ d.edges.map side := List.mem_map.mpr ⟨p, hp, rfl⟩
    obtain ⟨t, ht, hs⟩ := ((C31_edges n ts c d h).2 _).mp this
    obtain ⟨h1, h2, h3⟩ := hok.proper t ht
    simp only [Tri.sides, List.mem_cons, List.not_mem_nil, or_false, side, Sym2.eq_iff] at hs
    simp
    omega
  · intro i
    rw [mem_contrib]
    simp only [Nat.zero_le, Nat.sub_zero, true_and, List.getElem?_map]
    constructor
    · rintro ⟨ks, hks, hm⟩
      obtain ⟨p, hp, rfl⟩ := Option.map_eq_some_iff.mp hks
      exact ⟨p, hp, by simpa [side] using hm⟩
    · rintro ⟨p, hp, hm⟩
      exact ⟨[p.1, p.2], by rw [hp]; rfl, by simpa [side] using hm⟩

/-- Non-vacuity of C31: two triangles sharing the edge {1,2} have five edges, and the shared edge lists
both elements. -/
example : MeshOk 4 [⟨0, 1, 2⟩, ⟨1, 3, 2⟩] ∧
    ((DataContainer.init 4 [⟨0, 1, 2⟩, ⟨1, 3, 2⟩]).map fun d => (d.edges, d.element2Edges, d.edge2Elements)) =
      some ([(1, 0), (2, 0), (2, 1), (3, 1), (3, 2)], [[0, 1, 2], [3, 2, 4]],
        [[0], [0], [0, 1], [1], [1]]) := by
  refine ⟨⟨by decide, ?_⟩, by decide⟩
  intro t ht
  simp only [List.mem_cons, List.not_mem_nil, or_false] at ht
  rcases ht with rfl | rfl <;> simp [Tri.Proper]

/-! ### C32 -/

/-- **C32** All vertices, elements and edges have pairwise different ids (as long as there are at most
`2^32` of them, the range of `unsigned int`), there is one id per entity, and the ids are
`0, 1, 2, ...`. -/
theorem C32_ids_unique (n : Nat) (ts : List Tri) (d : DataContainer)
    (h : DataContainer.init n ts 0 = some d)
    (hsize : n + ts.length + d.edges.length ≤ 2 ^ 32) :
    (d.nodeIds ++ d.elementIds ++ d.edgeIds).Nodup ∧
    d.nodeIds.length = n ∧ d.elementIds.length = ts.length ∧ d.edgeIds.length = d.edges.length ∧
    (d.nodeIds ++ d.elementIds ++ d.edgeIds).map BitVec.toNat =
      List.range (n + ts.length + d.edges.length) := by
  obtain ⟨d', hd, hn, he, hnd, hord, h2e, -, -, -, -, -, -, h1, h2, h3⟩ :=
    init_spec n ts 0 (init_valid n ts 0 d h)
  rw [h] at hd
  cases hd
  have hmap : (d.nodeIds ++ d.elementIds ++ d.edgeIds).map BitVec.toNat =
      List.range (n + ts.length + d.edges.length) := by
    rw [h1, h2, h3]
    generalize hm : d.edges.length = m at *
    unfold ids
    rw [List.map_append, List.map_append, List.map_map, List.map_map, List.map_map,
      List.range_add, List.range_add]
    have hf : ∀ (c k : Nat), c + k ≤ 2 ^ 32 →
        (List.range k).map (BitVec.toNat ∘ fun k => BitVec.ofNat 32 (c + k)) =
          (List.range k).map (fun x => c + x) := by
      intro c k hck
      apply List.map_congr_left
      intro x hx
      have := List.mem_range.mp hx
      simp only [Function.comp_apply, BitVec.toNat_ofNat]
      exact Nat.mod_eq_of_lt (by omega)
    rw [hf 0 n (by omega), hf (0 + n) ts.length (by omega), hf (0 + n + ts.length) m (by omega)]
    simp
  refine ⟨?_, by rw [h1]; simp [ids], by rw [h2]; simp [ids], by rw [h3]; simp [ids], hmap⟩
  apply List.Nodup.of_map BitVec.toNat
  rw [hmap]
  exact List.nodup_range

/-- Non-vacuity of C32. -/
example : ((DataContainer.init 4 [⟨0, 1, 2⟩, ⟨1, 3, 2⟩]).map fun d =>
    (d.nodeIds ++ d.elementIds ++ d.edgeIds).map BitVec.toNat) =
    some [0, 1, 2, 3, 4, 5, 6, 7, 8, 9, 10] := by decide

/-! ### C59 -/

/-- **C59** The grid view on top of the container is consistent whenever every vertex is used: element,
edge and vertex indices are contiguous from 0 and unique, subentity indices are in range, every entity
belongs to an element (so C30 applies to every such grid). -/
theorem C59_view_consistent (n : Nat) (ts : List Tri) (c : Nat) (d : DataContainer)
    (h : DataContainer.init n ts c = some d) (hok : MeshOk n ts)
    (hused : ∀ v, v < n → ∃ t ∈ ts, v ∈ t.verts) (domain : Nat → Int) : (d.view domain).WF := by
  have hlen := element2Edges_length n ts c d h
  have hnd2 := element2Edges_nodup n ts c d h hok
  obtain ⟨d', hd, hn, he, hnd, hord, h2e, -⟩ := init_spec n ts c hok.range
  rw [h] at hd
  cases hd
  have helem : ∀ e ∈ (d.view domain).elems, ∃ (i : Nat) (hi : i < ts.length), ∃ is,
      d.element2Edges[i]? = some is ∧ e.index = i ∧ e.sub 1 = is ∧ e.sub 2 = ts[i].verts := by
    intro e hem
    simp only [DataContainer.view, List.mem_map, List.mem_range, he] at hem
    obtain ⟨i, hi, rfl⟩ := hem
    have hi2 : i < d.element2Edges.length := by omega
    refine ⟨i, hi, _, List.getElem?_eq_getElem hi2, rfl, ?_, ?_⟩
    · simp [List.getElem?_eq_getElem hi2]
    · simp [List.getElem?_eq_getElem hi]
  have helem' : ∀ i (hi : i < ts.length) is, d.element2Edges[i]? = some is →
      ∃ e ∈ (d.view domain).elems, e.index = i ∧ e.sub 1 = is ∧ e.sub 2 = ts[i].verts := by
    intro i hi is his
    refine ⟨_, List.mem_map.mpr ⟨i, List.mem_range.mpr (by rw [he]; exact hi), rfl⟩, rfl, ?_, ?_⟩
    · simp [his]
    · simp [he, List.getElem?_eq_getElem hi]
  refine ⟨by simp [DataContainer.view], ?_, ?_, ?_, ?_, ?_⟩
  · intro c hc
    have : 2 < c := hc
    simp only [DataContainer.view]
    rw [if_neg (by omega), if_neg (by omega), if_neg (by omega)]
  · simp only [DataContainer.view, List.map_map, Function.comp_def]
    simpa using List.nodup_range
  · intro e hem cd j hcd hh
    obtain ⟨i, hi, is, his, h0, h1, h2⟩ := helem e hem
    have hcd' : cd ≤ 2 := hcd
    rcases hh with ⟨rfl, hh⟩ | ⟨hne, hh⟩
    · simp only [DataContainer.view, if_true, he]
      omega
    · obtain rfl | rfl : cd = 1 ∨ cd = 2 := by omega
      · rw [h1] at hh
        simp only [DataContainer.view]
        simp only [one_ne_zero, if_false, if_true]
        obtain ⟨is', his', hmap⟩ := C31_element2Edges n ts c d h i _ (List.getElem?_eq_getElem hi)
        rw [his] at his'
        cases his'
        have : (d.edges[j]?).map side ∈ is.map (fun i => (d.edges[i]?).map side) :=
          List.mem_map.mpr ⟨j, hh, rfl⟩
        rw [hmap] at this
        obtain ⟨s, _, hs⟩ := List.mem_map.mp this
        obtain ⟨p, hp, _⟩ := Option.map_eq_some_iff.mp hs.symm
        exact (List.getElem?_eq_some_iff.mp hp).1
      · rw [h2] at hh
        have := hok.range _ (List.getElem_mem hi) j hh
        simpa [DataContainer.view, hn] using this
  · intro cd j hcd hj
    have hcd' : cd ≤ 2 := hcd
    obtain rfl | rfl | rfl : cd = 0 ∨ cd = 1 ∨ cd = 2 := by omega
    · have hj' : j < ts.length := by simpa [DataContainer.view, he] using hj
      obtain ⟨e, hem, h0, -⟩ := helem' j hj' _ (List.getElem?_eq_getElem (by omega))
      exact ⟨e, hem, Or.inl ⟨rfl, h0⟩⟩
    · have hj' : j < d.edges.length := by simpa [DataContainer.view] using hj
      obtain ⟨t, ht, hs⟩ := ((C31_edges n ts c d h).2 (side d.edges[j])).mp
        (List.mem_map.mpr ⟨_, List.getElem_mem hj', rfl⟩)
      obtain ⟨i, hi, rfl⟩ := List.getElem_of_mem ht
      have hi2 : i < d.element2Edges.length := by omega
      obtain ⟨e, hem, h0, h1, -⟩ := helem' i hi _ (List.getElem?_eq_getElem hi2)
      refine ⟨e, hem, Or.inr ⟨by omega, ?_⟩⟩
      rw [h1]
      exact (mem_element2Edges n ts c d h i _ (List.getElem?_eq_getElem hi) _
        (List.getElem?_eq_getElem hi2) j _ (List.getElem?_eq_getElem hj')).mpr hs
    · have hj' : j < n := by simpa [DataContainer.view, hn] using hj
      obtain ⟨t, ht, hv⟩ := hused j hj'
      obtain ⟨i, hi, rfl⟩ := List.getElem_of_mem ht
      obtain ⟨e, hem, h0, -, h2⟩ := helem' i hi _ (List.getElem?_eq_getElem (by omega))
      refine ⟨e, hem, Or.inr ⟨by omega, ?_⟩⟩
      rw [h2]; exact hv
  · intro e hem
    obtain ⟨i, hi, is, his, h0, h1, h2⟩ := helem e hem
    rw [h1]
    exact hnd2 _ (List.mem_of_getElem? his)

/-- **C59** The vertices that the reference element assigns to facet `k` of an element are the two end
points of the edge entity that the grid reports as facet `k`. -/
theorem C59_facet_vertices (n : Nat) (ts : List Tri) (c : Nat) (d : DataContainer)
    (h : DataContainer.init n ts c = some d) (domain : Nat → Int) (e : Elem)
    (hem : e ∈ (d.view domain).elems) (k f : Nat) (hf : (e.sub 1)[k]? = some f) :
    ∃ p u v, d.edges[f]? = some p ∧ e.facetChildren k 2 = [u, v] ∧ side p = s(u, v) ∧
      u ∈ e.sub 2 ∧ v ∈ e.sub 2 := by
  have hlen := element2Edges_length n ts c d h
  have he : d.elements = ts := by
    obtain ⟨d', hd, hn, he, -⟩ := init_spec n ts c (init_valid n ts c d h)
    rw [h] at hd; cases hd; exact he
  simp only [DataContainer.view, List.mem_map, List.mem_range, he] at hem
  obtain ⟨i, hi, rfl⟩ := hem
  have hi2 : i < d.element2Edges.length := by omega
  obtain ⟨is, his, hmap⟩ := C31_element2Edges n ts c d h i _ (List.getElem?_eq_getElem hi)
  simp only [if_true, his, Option.getD_some] at hf
  have hk := congrArg (fun l => l[k]?) hmap
  simp only [List.getElem?_map, hf, Option.map_some] at hk
  simp only [List.getElem?_eq_getElem hi, Option.map_some, Option.getD_some, if_true]
  generalize ts[i] = t at hk
  simp only [Tri.sides] at hk
  have hk3 : k = 0 ∨ k = 1 ∨ k = 2 := by
    by_contra hc
    have hnone : ([s(t.a, t.b), s(t.a, t.c), s(t.b, t.c)] : List (Sym2 Nat))[k]? = none :=
      List.getElem?_eq_none (by show 3 ≤ k; omega)
    rw [hnone] at hk
    simp at hk
  rcases hk3 with rfl | rfl | rfl
  · simp only [List.getElem?_cons_zero, Option.map_some, Option.some.injEq] at hk
    obtain ⟨p, hp, hs⟩ := Option.map_eq_some_iff.mp hk
    exact ⟨p, t.a, t.b, hp, rfl, hs, by simp [Tri.verts], by simp [Tri.verts]⟩
  · simp only [List.getElem?_cons_zero, List.getElem?_cons_succ, Option.map_some, Option.some.injEq] at hk
    obtain ⟨p, hp, hs⟩ := Option.map_eq_some_iff.mp hk
    exact ⟨p, t.a, t.c, hp, rfl, hs, by simp [Tri.verts], by simp [Tri.verts]⟩
  · simp only [List.getElem?_cons_zero, List.getElem?_cons_succ, Option.map_some, Option.some.injEq] at hk
    obtain ⟨p, hp, hs⟩ := Option.map_eq_some_iff.mp hk
    exact ⟨p, t.b, t.c, hp, rfl, hs, by simp [Tri.verts], by simp [Tri.verts]⟩

/-- Non-vacuity of C59. -/
example : ∃ d, DataContainer.init 4 [⟨0, 1, 2⟩, ⟨1, 3, 2⟩] = some d ∧
    (∀ v, v < 4 → ∃ t ∈ [(⟨0, 1, 2⟩ : Tri), ⟨1, 3, 2⟩], v ∈ t.verts) ∧
    ((d.view fun _ => 0).elems.map fun e => (e.sub 1)) = [[0, 1, 2], [3, 2, 4]] :=
  ⟨_, rfl, by decide, by decide⟩

end Verif.Grid
