import Verif.Lemmas.Barycentric
import Verif.Spec.Geometry
import Mathlib.Tactic.FieldSimp
import Mathlib.Tactic.LinearCombination
import Mathlib.Tactic.Linarith
import Mathlib.Tactic.NormNum
/-
Property C34: barycentric refinement.
-/
namespace Verif.Grid

variable {K : Type} [Field K]

/-- **C34** The refinement of a valid grid never fails; its vertices are the old vertices, then the edge
midpoints in edge order, then the element centroids in element order; there are six sons per element, all
proper triangles with valid indices; the refined grid is again a valid grid. -/
theorem C34_structure (g : GridData K) (hg : g.Valid) :
    ∃ b s, barycentricGridSonPair g = .ok (b, s) ∧ b.Valid ∧
      b.nodes.length = g.nodes.length + g.data.edges.length + g.data.elements.length ∧
      (∀ i < g.nodes.length, b.nodes[i]? = g.nodes[i]?) ∧
      (∀ i p, g.data.edges[i]? = some p → ∃ x y, g.nodes[p.1]? = some x ∧ g.nodes[p.2]? = some y ∧
        b.nodes[g.nodes.length + i]? = some (x.mid y)) ∧
      (∀ e t, g.data.elements[e]? = some t → ∃ x y z, g.nodes[t.a]? = some x ∧ g.nodes[t.b]? = some y ∧
        g.nodes[t.c]? = some z ∧
        b.nodes[g.nodes.length + g.data.edges.length + e]? = some (x.centroid y z)) ∧
      b.data.elements.length = 6 * g.data.elements.length := by
  obtain ⟨b, s, h, hn, he, hdm, -, hnn, hinit⟩ := bary_spec g hg
  have hlen := baryVertices_length g hg
  refine ⟨b, s, h, ⟨⟨0, hinit⟩, by rw [hn, hnn], ?_, ?_⟩, ?_, ?_, ?_, ?_, ?_⟩
  · rw [hdm, he, baryElements_length]
    unfold baryDomains
    rw [flatMap_block_length 6 _ (by intro a; simp), List.length_range]
  · rw [hnn, hlen, he]; exact baryMesh g hg
  · rw [hn, hlen, hg.nodes]
  · intro i hi
    rw [hn]; unfold baryVertices
    rw [List.append_assoc, List.getElem?_append_left hi]
  · intro i p hp
    obtain ⟨c, hc⟩ := hg.init
    obtain ⟨d', hd', -, -, -, hord, -⟩ := init_spec _ _ c hg.mesh.range
    rw [hc] at hd'
    cases hd'
    obtain ⟨h1, h2, -⟩ := hord p (List.mem_of_getElem? hp)
    rw [← hg.nodes] at h2
    have h3 : p.2 < g.nodes.length := by omega
    refine ⟨_, _, List.getElem?_eq_getElem h2, List.getElem?_eq_getElem h3, ?_⟩
    rw [hn]; unfold baryVertices
    have hil := edge_lt g hp
    rw [List.append_assoc, List.getElem?_append_right (by omega),
      List.getElem?_append_left (by simp; omega), Nat.add_sub_cancel_left, List.getElem?_map, hp]
    simp [nodeAt, List.getElem?_eq_getElem h2, List.getElem?_eq_getElem h3]
  · intro e t ht
    have hr := hg.mesh.range t (List.mem_of_getElem? ht)
    rw [← hg.nodes] at hr
    have ra := hr t.a (by simp [Tri.verts])
    have rb := hr t.b (by simp [Tri.verts])
    have rc := hr t.c (by simp [Tri.verts])
    refine ⟨_, _, _, List.getElem?_eq_getElem ra, List.getElem?_eq_getElem rb,
      List.getElem?_eq_getElem rc, ?_⟩
    rw [hn]; unfold baryVertices
    rw [List.getElem?_append_right (by simp only [List.length_append, List.length_map]; omega)]
    simp only [List.length_append, List.length_map]
    rw [Nat.add_sub_cancel_left, List.getElem?_map, ht]
    simp [nodeAt, List.getElem?_eq_getElem ra, List.getElem?_eq_getElem rb, List.getElem?_eq_getElem rc]
  · rw [he, baryElements_length]

/-- **C34** The son map lists for element `e` exactly the elements made from it, `6 e .. 6 e + 5`; every
refined element is the son of exactly one element; sons inherit the domain index. -/
theorem C34_sons (g : GridData K) (hg : g.Valid) (b : GridData K) (s : Nat → Nat → Nat)
    (h : barycentricGridSonPair g = .ok (b, s)) :
    (∀ e < g.data.elements.length, ∀ k < 6, s e k < b.data.elements.length ∧
      b.domains[s e k]? = g.domains[e]?) ∧
    (∀ q < b.data.elements.length, ∃! ek : Nat × Nat,
      ek.1 < g.data.elements.length ∧ ek.2 < 6 ∧ s ek.1 ek.2 = q) ∧
    ∀ e < g.data.elements.length, ∀ k < 6, s e k = 6 * e + k := by
  obtain ⟨b', s', h', hn, he, hdm, hs, -⟩ := bary_spec g hg
  rw [h] at h'
  cases h'
  have hval : ∀ e < g.data.elements.length, ∀ k < 6, s e k = 6 * e + k := by
    intro e he' k hk
    rw [hs]
    exact barySonMap_get _ _ le_rfl e k hk (by omega)
  refine ⟨?_, ?_, hval⟩
  · intro e he' k hk
    rw [hval e he' k hk, he, baryElements_length]
    refine ⟨by omega, ?_⟩
    rw [hdm]; unfold baryDomains
    rw [flatMap_block_get 6 _ (by intro a; simp) _ _ _ hk, List.getElem?_range he']
    have hd : e < g.domains.length := by rw [hg.domains]; exact he'
    rw [Option.bind_some, List.getElem?_replicate, if_pos hk, List.getElem?_eq_getElem hd]
    rfl
  · intro q hq
    rw [he, baryElements_length] at hq
    refine ⟨(q / 6, q % 6), ⟨by simp only; omega, Nat.mod_lt _ (by omega), ?_⟩, ?_⟩
    · rw [hval _ (by omega) _ (Nat.mod_lt _ (by omega))]; omega
    · rintro ⟨e, k⟩ ⟨h1, h2, h3⟩
      simp only at h1 h2 h3
      rw [hval e h1 k h2] at h3
      rw [Prod.mk.injEq]; omega

/-- The corner points of the sons of element `e`: two sons per vertex, made of the vertex, the centroid and
the midpoint of one of the two sides at this vertex. -/
theorem son_points (g : GridData K) (hg : g.Valid) (b : GridData K) (s : Nat → Nat → Nat)
    (h : barycentricGridSonPair g = .ok (b, s)) (e : Nat) (t : Tri) (ht : g.data.elements[e]? = some t)
    (A B C : P3 K) (hA : g.nodes[t.a]? = some A) (hB : g.nodes[t.b]? = some B)
    (hC : g.nodes[t.c]? = some C) :
    ∀ k < 6, ∃ son, b.data.elements[s e k]? = some son ∧
      [(A, A.centroid B C, A.mid C), (A, A.mid B, A.centroid B C), (B, A.centroid B C, A.mid B),
       (B, B.mid C, A.centroid B C), (C, A.centroid B C, B.mid C), (C, A.mid C, A.centroid B C)][k]? =
        some (nodeAt b.nodes son.a, nodeAt b.nodes son.b, nodeAt b.nodes son.c) := by
  intro k hk
  have hlt := (List.getElem?_eq_some_iff.mp ht).1
  obtain ⟨b', s', h', -, -, hold, hmid, hcen, -⟩ := C34_structure g hg
  rw [h] at h'
  cases h'
  have hsek := (C34_sons g hg b s h).2.2 e hlt k hk
  obtain ⟨b', s', h', -, hel, -⟩ := bary_spec g hg
  rw [h] at h'
  cases h'
  obtain ⟨f0, f1, f2, p0, p1, p2, hf, e0, s0, e1, s1, e2, s2, -⟩ := element_edges g hg e t ht
  have hget := baryElements_get g hg e t ht f0 f1 f2 hf k hk
  rw [hsek, hel, hget]
  have midc : ∀ x y : P3 K, x.mid y = y.mid x := by
    intro x y; simp only [P3.mid]; congr 1 <;> ring
  -- coordinates of the three kinds of vertices
  have vA : nodeAt b.nodes t.a = A := by
    unfold nodeAt
    rw [hold _ (List.getElem?_eq_some_iff.mp hA).1, hA]; rfl
  have vB : nodeAt b.nodes t.b = B := by
    unfold nodeAt
    rw [hold _ (List.getElem?_eq_some_iff.mp hB).1, hB]; rfl
  have vC : nodeAt b.nodes t.c = C := by
    unfold nodeAt
    rw [hold _ (List.getElem?_eq_some_iff.mp hC).1, hC]; rfl
  have edgeMid : ∀ (i : Nat) (p : Nat × Nat) (x y : Nat) (X Y : P3 K), g.data.edges[i]? = some p →
      side p = s(x, y) → g.nodes[x]? = some X → g.nodes[y]? = some Y →
      nodeAt b.nodes (g.nodes.length + i) = X.mid Y := by
    intro i p x y X Y hp hs hX hY
    obtain ⟨X', Y', hX', hY', hm⟩ := hmid i p hp
    unfold nodeAt
    rw [hm]
    simp only [Option.getD_some]
    rcases Sym2.eq_iff.mp hs with ⟨h1, h2⟩ | ⟨h1, h2⟩
    · rw [h1, hX] at hX'; rw [h2, hY] at hY'
      cases hX'; cases hY'; rfl
    · rw [h1, hY] at hX'; rw [h2, hX] at hY'
      cases hX'; cases hY'; exact midc _ _
  have m0 := edgeMid f0 p0 _ _ A B e0 s0 hA hB
  have m1 := edgeMid f1 p1 _ _ A C e1 s1 hA hC
  have m2 := edgeMid f2 p2 _ _ B C e2 s2 hB hC
  obtain ⟨x, y, z, hx, hy, hz, hcc⟩ := hcen e t ht
  rw [hA] at hx; rw [hB] at hy; rw [hC] at hz
  cases hx; cases hy; cases hz
  have cc : nodeAt b.nodes (g.nodes.length + g.data.edges.length + e) = A.centroid B C := by
    unfold nodeAt; rw [hcc]; rfl
  rw [hg.nodes] at m0 m1 m2 cc
  obtain rfl | rfl | rfl | rfl | rfl | rfl : k = 0 ∨ k = 1 ∨ k = 2 ∨ k = 3 ∨ k = 4 ∨ k = 5 := by omega
  all_goals
    refine ⟨_, rfl, ?_⟩
    simp only [vA, vB, vC, m0, m1, m2, cc]
    rfl

/-- **C34** Each son has one sixth of the vector area of its father: the areas add up, and the
orientation is the same. -/
theorem C34_area (h2 : (2 : K) ≠ 0) (h3 : (3 : K) ≠ 0) (g : GridData K) (hg : g.Valid) (b : GridData K)
    (s : Nat → Nat → Nat) (h : barycentricGridSonPair g = .ok (b, s)) (e : Nat) (t : Tri)
    (ht : g.data.elements[e]? = some t) :
    ∀ k < 6, ∃ son, b.data.elements[s e k]? = some son ∧
      areaVector (nodeAt b.nodes son.a) (nodeAt b.nodes son.b) (nodeAt b.nodes son.c) =
        (areaVector (nodeAt g.nodes t.a) (nodeAt g.nodes t.b) (nodeAt g.nodes t.c)).smul (1 / 6) := by
  intro k hk
  have hr := hg.mesh.range t (List.mem_of_getElem? ht)
  rw [← hg.nodes] at hr
  have ra := hr t.a (by simp [Tri.verts])
  have rb := hr t.b (by simp [Tri.verts])
  have rc := hr t.c (by simp [Tri.verts])
  obtain ⟨son, hson, hp⟩ := son_points g hg b s h e t ht _ _ _ (List.getElem?_eq_getElem ra)
    (List.getElem?_eq_getElem rb) (List.getElem?_eq_getElem rc) k hk
  refine ⟨son, hson, ?_⟩
  have na : nodeAt g.nodes t.a = g.nodes[t.a] := by simp [nodeAt, List.getElem?_eq_getElem ra]
  have nb : nodeAt g.nodes t.b = g.nodes[t.b] := by simp [nodeAt, List.getElem?_eq_getElem rb]
  have nc : nodeAt g.nodes t.c = g.nodes[t.c] := by simp [nodeAt, List.getElem?_eq_getElem rc]
  rw [← na, ← nb, ← nc] at hp
  generalize nodeAt g.nodes t.a = A at *
  generalize nodeAt g.nodes t.b = B at *
  generalize nodeAt g.nodes t.c = C at *
  have h6 : (6 : K) ≠ 0 := by
    have : (6 : K) = 2 * 3 := by norm_num
    rw [this]; exact mul_ne_zero h2 h3
  obtain rfl | rfl | rfl | rfl | rfl | rfl : k = 0 ∨ k = 1 ∨ k = 2 ∨ k = 3 ∨ k = 4 ∨ k = 5 := by omega
  all_goals
    simp only [List.getElem?_cons_zero, List.getElem?_cons_succ, Option.some.injEq, Prod.mk.injEq] at hp
    obtain ⟨q1, q2, q3⟩ := hp
    rw [← q1, ← q2, ← q3]
    simp only [areaVector, P3.smul, P3.mid, P3.centroid]
    congr 1 <;> field_simp <;> ring

/-- **C34** Conformity across shared edges: let `i` be an old edge and `u` one of its end points.  The half
edge from `u` to the midpoint of `i` is a side of exactly one son of each element that has `i` as a side,
and of no son of any other element. -/
theorem C34_conforming (g : GridData K) (hg : g.Valid) (b : GridData K) (s : Nat → Nat → Nat)
    (h : barycentricGridSonPair g = .ok (b, s)) (i : Nat) (p : Nat × Nat)
    (hp : g.data.edges[i]? = some p) (u : Nat) (hu : u = p.1 ∨ u = p.2) (e : Nat) (t : Tri)
    (ht : g.data.elements[e]? = some t) :
    (side p ∈ t.sides → ∃! k, k < 6 ∧ ∃ son, b.data.elements[s e k]? = some son ∧
      s(u, g.nodes.length + i) ∈ son.sides) ∧
    (side p ∉ t.sides → ¬ ∃ k < 6, ∃ son, b.data.elements[s e k]? = some son ∧
      s(u, g.nodes.length + i) ∈ son.sides) := by
  have hlt := (List.getElem?_eq_some_iff.mp ht).1
  have hsek := (C34_sons g hg b s h).2.2 e hlt
  obtain ⟨b', s', h', -, hel, -⟩ := bary_spec g hg
  rw [h] at h'
  cases h'
  obtain ⟨c, hc⟩ := hg.init
  obtain ⟨f0, f1, f2, p0, p1, p2, hf, e0, s0, e1, s1, e2, s2, d01, d02, d12⟩ := element_edges g hg e t ht
  have hmem := mem_element2Edges _ _ c _ hc e t ht _ hf i p hp
  have hget := baryElements_get g hg e t ht f0 f1 f2 hf
  have hr := hg.mesh.range t (List.mem_of_getElem? ht)
  have hpr := hg.mesh.proper t (List.mem_of_getElem? ht)
  have ra := hr t.a (by simp [Tri.verts])
  have rb := hr t.b (by simp [Tri.verts])
  have rc := hr t.c (by simp [Tri.verts])
  have l0 := edge_lt g e0
  have l1 := edge_lt g e1
  have l2 := edge_lt g e2
  have li := edge_lt g hp
  obtain ⟨hab, hac, hbc⟩ := hpr
  rw [hg.nodes]
  have hup : u < g.data.nnodes := by
    obtain ⟨d', hd', -, -, -, hord, -⟩ := init_spec _ _ c hg.mesh.range
    rw [hc] at hd'
    cases hd'
    obtain ⟨h1, h2, -⟩ := hord p (List.mem_of_getElem? hp)
    omega
  -- the half edge is a side of son `k` iff it is the one from the son's vertex to its edge midpoint
  have hson : ∀ k < 6, (∃ son, b.data.elements[s e k]? = some son ∧
      s(u, g.data.nnodes + i) ∈ son.sides) ↔
      ((k = 0 ∧ u = t.a ∧ i = f1) ∨ (k = 1 ∧ u = t.a ∧ i = f0) ∨ (k = 2 ∧ u = t.b ∧ i = f0) ∨
       (k = 3 ∧ u = t.b ∧ i = f2) ∨ (k = 4 ∧ u = t.c ∧ i = f2) ∨ (k = 5 ∧ u = t.c ∧ i = f1)) := by
    intro k hk
    rw [hsek k hk, hel, hget k hk]
    exact half_side _ _ _ _ _ _ _ _ _ _ hk hup li ra rb rc l0 l1 l2
  have hcases : i = f0 → u = t.a ∨ u = t.b := by
    rintro rfl
    rw [hp] at e0; cases e0
    rcases Sym2.eq_iff.mp s0 with ⟨h1, h2⟩ | ⟨h1, h2⟩ <;> omega
  have hcases1 : i = f1 → u = t.a ∨ u = t.c := by
    rintro rfl
    rw [hp] at e1; cases e1
    rcases Sym2.eq_iff.mp s1 with ⟨h1, h2⟩ | ⟨h1, h2⟩ <;> omega
  have hcases2 : i = f2 → u = t.b ∨ u = t.c := by
    rintro rfl
    rw [hp] at e2; cases e2
    rcases Sym2.eq_iff.mp s2 with ⟨h1, h2⟩ | ⟨h1, h2⟩ <;> omega
  constructor
  · intro hin
    have hi := hmem.mpr hin
    simp only [List.mem_cons, List.not_mem_nil, or_false] at hi
    have hex : ∃ k < 6, ((k = 0 ∧ u = t.a ∧ i = f1) ∨ (k = 1 ∧ u = t.a ∧ i = f0) ∨
       (k = 2 ∧ u = t.b ∧ i = f0) ∨
       (k = 3 ∧ u = t.b ∧ i = f2) ∨ (k = 4 ∧ u = t.c ∧ i = f2) ∨ (k = 5 ∧ u = t.c ∧ i = f1)) := by
      rcases hi with rfl | rfl | rfl
      · rcases hcases rfl with rfl | rfl
        · exact ⟨1, by omega, by simp⟩
        · exact ⟨2, by omega, by simp⟩
      · rcases hcases1 rfl with rfl | rfl
        · exact ⟨0, by omega, by simp⟩
        · exact ⟨5, by omega, by simp⟩
      · rcases hcases2 rfl with rfl | rfl
        · exact ⟨3, by omega, by simp⟩
        · exact ⟨4, by omega, by simp⟩
    obtain ⟨k, hk, hk'⟩ := hex
    refine ⟨k, ⟨hk, (hson k hk).mpr hk'⟩, ?_⟩
    rintro k2 ⟨hk2, hk2'⟩
    have := (hson k2 hk2).mp hk2'
    omega
  · rintro hnin ⟨k, hk, hk'⟩
    apply hnin
    apply hmem.mp
    have := (hson k hk).mp hk'
    simp only [List.mem_cons, List.not_mem_nil, or_false]
    omega

/-- **C34** Every side of a refined element is half of an old edge of its father, or it contains the
centroid of its father; in the second case it is shared by exactly two sons of the father and is a side of no
other element. -/
theorem C34_sides (g : GridData K) (hg : g.Valid) (b : GridData K) (s : Nat → Nat → Nat)
    (h : barycentricGridSonPair g = .ok (b, s)) (e k : Nat) (he : e < g.data.elements.length) (hk : k < 6)
    (son : Tri) (hson : b.data.elements[s e k]? = some son) (σ : Sym2 Nat) (hσ : σ ∈ son.sides) :
    (∃ i p u, g.data.edges[i]? = some p ∧ (u = p.1 ∨ u = p.2) ∧ σ = s(u, g.nodes.length + i)) ∨
    ((g.nodes.length + g.data.edges.length + e) ∈ σ ∧ ∃ k' < 6, k' ≠ k ∧
      ∀ e2 < g.data.elements.length, ∀ k2 < 6, (∃ son2, b.data.elements[s e2 k2]? = some son2 ∧
        σ ∈ son2.sides) ↔ (e2 = e ∧ (k2 = k ∨ k2 = k'))) := by
  have hsek := (C34_sons g hg b s h).2.2
  obtain ⟨b', s', h', -, hel, -⟩ := bary_spec g hg
  rw [h] at h'
  cases h'
  obtain ⟨t, ht⟩ : ∃ t, g.data.elements[e]? = some t := ⟨_, List.getElem?_eq_getElem he⟩
  obtain ⟨f0, f1, f2, p0, p1, p2, hf, e0, s0, e1, s1, e2, s2, d01, d02, d12⟩ := element_edges g hg e t ht
  have hget := baryElements_get g hg e t ht f0 f1 f2 hf k hk
  have hr := hg.mesh.range t (List.mem_of_getElem? ht)
  have ra := hr t.a (by simp [Tri.verts])
  have rb := hr t.b (by simp [Tri.verts])
  have rc := hr t.c (by simp [Tri.verts])
  have l0 := edge_lt g e0
  have l1 := edge_lt g e1
  have l2 := edge_lt g e2
  obtain ⟨hab, hac, hbc⟩ := hg.mesh.proper t (List.mem_of_getElem? ht)
  rw [hg.nodes]
  rw [hsek e he k hk, hel, hget] at hson
  have c0 : (t.a = p0.1 ∨ t.a = p0.2) ∧ (t.b = p0.1 ∨ t.b = p0.2) := by
    rcases Sym2.eq_iff.mp s0 with ⟨h1, h2⟩ | ⟨h1, h2⟩ <;> omega
  have c1 : (t.a = p1.1 ∨ t.a = p1.2) ∧ (t.c = p1.1 ∨ t.c = p1.2) := by
    rcases Sym2.eq_iff.mp s1 with ⟨h1, h2⟩ | ⟨h1, h2⟩ <;> omega
  have c2 : (t.b = p2.1 ∨ t.b = p2.2) ∧ (t.c = p2.1 ∨ t.c = p2.2) := by
    rcases Sym2.eq_iff.mp s2 with ⟨h1, h2⟩ | ⟨h1, h2⟩ <;> omega
  have ip := fun x k2 => inner_pair g.data.nnodes t.a t.b t.c f0 f1 f2 x k k2 hab hac hbc d01 d02 d12 ra rb rc
  -- an interior side `{x, centroid}`
  have interior : ∀ x k', k' < 6 → k' ≠ k → x < g.data.nnodes + g.data.edges.length →
      σ = s(x, g.data.nnodes + g.data.edges.length + e) →
      (∀ k2 < 6, (((k2 = 0 ∨ k2 = 1) ∧ x = t.a) ∨ ((k2 = 2 ∨ k2 = 3) ∧ x = t.b) ∨
        ((k2 = 4 ∨ k2 = 5) ∧ x = t.c) ∨ ((k2 = 1 ∨ k2 = 2) ∧ x = g.data.nnodes + f0) ∨
        ((k2 = 0 ∨ k2 = 5) ∧ x = g.data.nnodes + f1) ∨ ((k2 = 3 ∨ k2 = 4) ∧ x = g.data.nnodes + f2)) ↔
        (k2 = k ∨ k2 = k')) →
      ((g.data.nnodes + g.data.edges.length + e) ∈ σ ∧ ∃ k' < 6, k' ≠ k ∧
      ∀ e2 < g.data.elements.length, ∀ k2 < 6, (∃ son2, b.data.elements[s e2 k2]? = some son2 ∧
        σ ∈ son2.sides) ↔ (e2 = e ∧ (k2 = k ∨ k2 = k'))) := by
    intro x k' hk' hne hx hσx hiff
    refine ⟨by rw [hσx]; exact Sym2.mem_mk_right _ _, k', hk', hne, ?_⟩
    intro e2 he2 k2 hk2
    rw [hsek e2 he2 k2 hk2, hel]
    obtain ⟨t', ht'⟩ : ∃ t, g.data.elements[e2]? = some t := ⟨_, List.getElem?_eq_getElem he2⟩
    obtain ⟨g0, g1, g2, q0, q1, q2, hgg, w0, -, w1, -, w2, -⟩ := element_edges g hg e2 t' ht'
    have hr' := hg.mesh.range t' (List.mem_of_getElem? ht')
    rw [baryElements_get g hg e2 t' ht' g0 g1 g2 hgg k2 hk2, hσx,
      inner_side _ _ _ _ _ _ _ _ _ _ hk2 hx (hr' t'.a (by simp [Tri.verts])) (hr' t'.b (by simp [Tri.verts]))
        (hr' t'.c (by simp [Tri.verts])) (edge_lt g w0) (edge_lt g w1) (edge_lt g w2)]
    constructor
    · rintro ⟨rfl, hh⟩
      rw [ht] at ht'
      cases ht'
      rw [hf] at hgg
      cases hgg
      exact ⟨rfl, (hiff k2 hk2).mp hh⟩
    · rintro ⟨rfl, hh⟩
      rw [ht] at ht'
      cases ht'
      rw [hf] at hgg
      cases hgg
      exact ⟨rfl, (hiff k2 hk2).mpr hh⟩
  obtain rfl | rfl | rfl | rfl | rfl | rfl : k = 0 ∨ k = 1 ∨ k = 2 ∨ k = 3 ∨ k = 4 ∨ k = 5 := by omega
  all_goals
    simp only [sonList, List.getElem?_cons_zero, List.getElem?_cons_succ, Option.some.injEq] at hson
    subst hson
    simp only [Tri.sides, List.mem_cons, List.not_mem_nil, or_false] at hσ
  · rcases hσ with hσ | hσ | hσ
    · exact Or.inr (interior t.a 1 (by omega) (by omega) (by omega) hσ (ip _ _ (by simp)))
    · exact Or.inl ⟨f1, p1, t.a, e1, c1.1, hσ⟩
    · exact Or.inr (interior (g.data.nnodes + f1) 5 (by omega) (by omega) (by omega)
        (by rw [hσ, Sym2.eq_swap]) (ip _ _ (by simp)))
  · rcases hσ with hσ | hσ | hσ
    · exact Or.inl ⟨f0, p0, t.a, e0, c0.1, hσ⟩
    · exact Or.inr (interior t.a 0 (by omega) (by omega) (by omega) hσ (ip _ _ (by simp)))
    · exact Or.inr (interior (g.data.nnodes + f0) 2 (by omega) (by omega) (by omega) hσ (ip _ _ (by simp)))
  · rcases hσ with hσ | hσ | hσ
    · exact Or.inr (interior t.b 3 (by omega) (by omega) (by omega) hσ (ip _ _ (by simp)))
    · exact Or.inl ⟨f0, p0, t.b, e0, c0.2, hσ⟩
    · exact Or.inr (interior (g.data.nnodes + f0) 1 (by omega) (by omega) (by omega)
        (by rw [hσ, Sym2.eq_swap]) (ip _ _ (by simp)))
  · rcases hσ with hσ | hσ | hσ
    · exact Or.inl ⟨f2, p2, t.b, e2, c2.1, hσ⟩
    · exact Or.inr (interior t.b 2 (by omega) (by omega) (by omega) hσ (ip _ _ (by simp)))
    · exact Or.inr (interior (g.data.nnodes + f2) 4 (by omega) (by omega) (by omega) hσ (ip _ _ (by simp)))
  · rcases hσ with hσ | hσ | hσ
    · exact Or.inr (interior t.c 5 (by omega) (by omega) (by omega) hσ (ip _ _ (by simp)))
    · exact Or.inl ⟨f2, p2, t.c, e2, c2.2, hσ⟩
    · exact Or.inr (interior (g.data.nnodes + f2) 3 (by omega) (by omega) (by omega)
        (by rw [hσ, Sym2.eq_swap]) (ip _ _ (by simp)))
  · rcases hσ with hσ | hσ | hσ
    · exact Or.inl ⟨f1, p1, t.c, e1, c1.2, hσ⟩
    · exact Or.inr (interior t.c 4 (by omega) (by omega) (by omega) hσ (ip _ _ (by simp)))
    · exact Or.inr (interior (g.data.nnodes + f1) 0 (by omega) (by omega) (by omega) hσ (ip _ _ (by simp)))

/-! ### The sons tile the father -/

section Tile

variable [LinearOrder K] [IsStrictOrderedRing K]

theorem comb_mid_centroid (A B C p : P3 K) (x y z u v w : K) (hu : u = x + y / 2 + z / 3)
    (hv : v = y / 2 + z / 3) (hw : w = z / 3) :
    Comb A (A.mid B) (A.centroid B C) p x y z ↔ Comb A B C p u v w := by
  subst hu hv hw
  unfold Comb P3.mid P3.centroid
  simp only
  have e : x + y / 2 + z / 3 + (y / 2 + z / 3) + z / 3 = x + y + z := by field_simp; ring
  have ex : ∀ a b c : K, x * a + y * ((a + b) / 2) + z * ((a + b + c) / 3) =
      (x + y / 2 + z / 3) * a + (y / 2 + z / 3) * b + z / 3 * c := by
    intro a b c; field_simp; ring
  rw [e, ex, ex, ex]

theorem inTriangle_son (A B C p : P3 K) : InTriangle A (A.mid B) (A.centroid B C) p ↔
    ∃ u v w, v ≤ u ∧ w ≤ v ∧ 0 ≤ w ∧ Comb A B C p u v w := by
  constructor
  · rintro ⟨x, y, z, hx, hy, hz, h⟩
    exact ⟨_, _, _, by linarith, by linarith, by linarith, (comb_mid_centroid A B C p x y z _ _ _ rfl rfl rfl).mp h⟩
  · rintro ⟨u, v, w, h1, h2, h3, h⟩
    refine ⟨u - v, 2 * (v - w), 3 * w, by linarith, by linarith, by linarith,
      (comb_mid_centroid A B C p _ _ _ u v w ?_ ?_ ?_).mpr h⟩ <;> ring

theorem insideTriangle_son (A B C p : P3 K) : InsideTriangle A (A.mid B) (A.centroid B C) p ↔
    ∃ u v w, v < u ∧ w < v ∧ 0 < w ∧ Comb A B C p u v w := by
  constructor
  · rintro ⟨x, y, z, hx, hy, hz, h⟩
    exact ⟨_, _, _, by linarith, by linarith, by linarith, (comb_mid_centroid A B C p x y z _ _ _ rfl rfl rfl).mp h⟩
  · rintro ⟨u, v, w, h1, h2, h3, h⟩
    refine ⟨u - v, 2 * (v - w), 3 * w, by linarith, by linarith, by linarith,
      (comb_mid_centroid A B C p _ _ _ u v w ?_ ?_ ?_).mpr h⟩ <;> ring

theorem inTriangle_swap (A B C p : P3 K) : InTriangle A B C p ↔ InTriangle A C B p := by
  constructor <;>
  · rintro ⟨u, v, w, h1, h2, h3, h4, h5, h6, h7⟩
    exact ⟨u, w, v, h1, h3, h2, by linarith, by linarith, by linarith, by linarith⟩

theorem insideTriangle_swap (A B C p : P3 K) : InsideTriangle A B C p ↔ InsideTriangle A C B p := by
  constructor <;>
  · rintro ⟨u, v, w, h1, h2, h3, h4, h5, h6, h7⟩
    exact ⟨u, w, v, h1, h3, h2, by linarith, by linarith, by linarith, by linarith⟩

theorem comb_rot (A B C p : P3 K) (u v w : K) : (Comb A C B p u v w ↔ Comb A B C p u w v) ∧
    (Comb B A C p u v w ↔ Comb A B C p v u w) ∧ (Comb B C A p u v w ↔ Comb A B C p w u v) ∧
    (Comb C A B p u v w ↔ Comb A B C p v w u) ∧ (Comb C B A p u v w ↔ Comb A B C p w v u) := by
  unfold Comb
  refine ⟨?_, ?_, ?_, ?_, ?_⟩ <;> constructor <;>
  · rintro ⟨h4, h5, h6, h7⟩
    exact ⟨by linarith, by linarith, by linarith, by linarith⟩

theorem mid_comm (A B : P3 K) : A.mid B = B.mid A := by
  simp only [P3.mid]; congr 1 <;> ring

theorem centroid_perm (A B C : P3 K) : A.centroid B C = A.centroid C B ∧ A.centroid B C = B.centroid A C ∧
    A.centroid B C = B.centroid C A ∧ A.centroid B C = C.centroid A B ∧ A.centroid B C = C.centroid B A := by
  simp only [P3.centroid]
  refine ⟨?_, ?_, ?_, ?_, ?_⟩ <;> congr 1 <;> ring

/-- The order of the barycentric coordinates that characterises the points of son `k`. -/
def sonOrder (lt : K → K → Prop) (k : Nat) (u v w : K) : Prop :=
  match k with
  | 0 => lt w u ∧ lt v w ∧ lt 0 v
  | 1 => lt v u ∧ lt w v ∧ lt 0 w
  | 2 => lt u v ∧ lt w u ∧ lt 0 w
  | 3 => lt w v ∧ lt u w ∧ lt 0 u
  | 4 => lt v w ∧ lt u v ∧ lt 0 u
  | _ => lt u w ∧ lt v u ∧ lt 0 v

theorem son_tile (A B C p P Q R : P3 K) (k : Nat) (hk : k < 6)
    (h : [(A, A.centroid B C, A.mid C), (A, A.mid B, A.centroid B C), (B, A.centroid B C, A.mid B),
       (B, B.mid C, A.centroid B C), (C, A.centroid B C, B.mid C), (C, A.mid C, A.centroid B C)][k]? =
        some (P, Q, R)) :
    (InTriangle P Q R p ↔ ∃ u v w, sonOrder (· ≤ ·) k u v w ∧ Comb A B C p u v w) ∧
    (InsideTriangle P Q R p ↔ ∃ u v w, sonOrder (· < ·) k u v w ∧ Comb A B C p u v w) := by
  obtain ⟨c1, c2, c3, c4, c5⟩ := centroid_perm A B C
  have rot := comb_rot A B C p
  obtain rfl | rfl | rfl | rfl | rfl | rfl : k = 0 ∨ k = 1 ∨ k = 2 ∨ k = 3 ∨ k = 4 ∨ k = 5 := by omega
  all_goals
    simp only [List.getElem?_cons_zero, List.getElem?_cons_succ, Option.some.injEq, Prod.mk.injEq] at h
    obtain ⟨rfl, rfl, rfl⟩ := h
    simp only [sonOrder]
  · rw [inTriangle_swap, insideTriangle_swap, c1, inTriangle_son, insideTriangle_son]
    constructor <;> constructor <;>
    · rintro ⟨u, v, w, h⟩
      first
      | exact ⟨u, w, v, ⟨h.1, h.2.1, h.2.2.1⟩, (rot u v w).1.mp h.2.2.2⟩
      | exact ⟨u, w, v, h.1.1, h.1.2.1, h.1.2.2, (rot u w v).1.mpr h.2⟩
  · rw [inTriangle_son, insideTriangle_son]
    simp only [and_assoc, and_self]
  · rw [inTriangle_swap, insideTriangle_swap, c2, mid_comm A B, inTriangle_son, insideTriangle_son]
    constructor <;> constructor <;>
    · rintro ⟨u, v, w, h⟩
      first
      | exact ⟨v, u, w, ⟨h.1, h.2.1, h.2.2.1⟩, (rot u v w).2.1.mp h.2.2.2⟩
      | exact ⟨v, u, w, h.1.1, h.1.2.1, h.1.2.2, (rot v u w).2.1.mpr h.2⟩
  · rw [c3, inTriangle_son, insideTriangle_son]
    constructor <;> constructor <;>
    · rintro ⟨u, v, w, h⟩
      first
      | exact ⟨w, u, v, ⟨h.1, h.2.1, h.2.2.1⟩, (rot u v w).2.2.1.mp h.2.2.2⟩
      | exact ⟨v, w, u, h.1.1, h.1.2.1, h.1.2.2, (rot v w u).2.2.1.mpr h.2⟩
  · rw [inTriangle_swap, insideTriangle_swap, c5, mid_comm B C, inTriangle_son, insideTriangle_son]
    constructor <;> constructor <;>
    · rintro ⟨u, v, w, h⟩
      first
      | exact ⟨w, v, u, ⟨h.1, h.2.1, h.2.2.1⟩, (rot u v w).2.2.2.2.mp h.2.2.2⟩
      | exact ⟨w, v, u, h.1.1, h.1.2.1, h.1.2.2, (rot w v u).2.2.2.2.mpr h.2⟩
  · rw [c4, mid_comm A C, inTriangle_son, insideTriangle_son]
    constructor <;> constructor <;>
    · rintro ⟨u, v, w, h⟩
      first
      | exact ⟨v, w, u, ⟨h.1, h.2.1, h.2.2.1⟩, (rot u v w).2.2.2.1.mp h.2.2.2⟩
      | exact ⟨w, u, v, h.1.1, h.1.2.1, h.1.2.2, (rot w u v).2.2.2.1.mpr h.2⟩

/-- Barycentric coordinates with respect to a non-degenerate triangle are unique. -/
theorem comb_unique (A B C p : P3 K) (hn : areaVector A B C ≠ ⟨0, 0, 0⟩) (u v w u' v' w' : K)
    (h : Comb A B C p u v w) (h' : Comb A B C p u' v' w') : u = u' ∧ v = v' ∧ w = w' := by
  obtain ⟨h1, h2, h3, h4⟩ := h
  obtain ⟨g1, g2, g3, g4⟩ := h'
  have hu : u = 1 - v - w := by linarith
  have hu' : u' = 1 - v' - w' := by linarith
  subst hu hu'
  have ex : (v - v') * (B.x - A.x) + (w - w') * (C.x - A.x) = 0 := by linear_combination g2 - h2
  have ey : (v - v') * (B.y - A.y) + (w - w') * (C.y - A.y) = 0 := by linear_combination g3 - h3
  have ez : (v - v') * (B.z - A.z) + (w - w') * (C.z - A.z) = 0 := by linear_combination g4 - h4
  have hv : v = v' := by
    by_contra hne
    have hd : v - v' ≠ 0 := sub_ne_zero.mpr hne
    apply hn
    simp only [areaVector, P3.mk.injEq]
    refine ⟨mul_left_cancel₀ hd ?_, mul_left_cancel₀ hd ?_, mul_left_cancel₀ hd ?_⟩
    · linear_combination (C.z - A.z) * ey - (C.y - A.y) * ez
    · linear_combination (C.x - A.x) * ez - (C.z - A.z) * ex
    · linear_combination (C.y - A.y) * ex - (C.x - A.x) * ey
  have hw : w = w' := by
    by_contra hne
    have hd : w - w' ≠ 0 := sub_ne_zero.mpr hne
    apply hn
    simp only [areaVector, P3.mk.injEq]
    refine ⟨mul_left_cancel₀ hd ?_, mul_left_cancel₀ hd ?_, mul_left_cancel₀ hd ?_⟩
    · linear_combination (B.y - A.y) * ez - (B.z - A.z) * ey
    · linear_combination (B.z - A.z) * ex - (B.x - A.x) * ez
    · linear_combination (B.x - A.x) * ey - (B.y - A.y) * ex
  subst hv hw
  exact ⟨rfl, rfl, rfl⟩

/-- **C34** The six sons tile the father: a point lies in the father iff it lies in one of the sons, and
(for a non-degenerate father) no point lies inside two different sons. -/
theorem C34_tile (g : GridData K) (hg : g.Valid) (b : GridData K)
    (s : Nat → Nat → Nat) (h : barycentricGridSonPair g = .ok (b, s)) (e : Nat) (t : Tri)
    (ht : g.data.elements[e]? = some t) (p : P3 K) :
    (InTriangle (nodeAt g.nodes t.a) (nodeAt g.nodes t.b) (nodeAt g.nodes t.c) p ↔
      ∃ k < 6, ∃ son, b.data.elements[s e k]? = some son ∧
        InTriangle (nodeAt b.nodes son.a) (nodeAt b.nodes son.b) (nodeAt b.nodes son.c) p) ∧
    (areaVector (nodeAt g.nodes t.a) (nodeAt g.nodes t.b) (nodeAt g.nodes t.c) ≠ ⟨0, 0, 0⟩ →
      ∀ k < 6, ∀ k' < 6, ∀ son son', b.data.elements[s e k]? = some son →
        b.data.elements[s e k']? = some son' →
        InsideTriangle (nodeAt b.nodes son.a) (nodeAt b.nodes son.b) (nodeAt b.nodes son.c) p →
        InsideTriangle (nodeAt b.nodes son'.a) (nodeAt b.nodes son'.b) (nodeAt b.nodes son'.c) p →
        k = k') := by
  have hr := hg.mesh.range t (List.mem_of_getElem? ht)
  rw [← hg.nodes] at hr
  have ra := hr t.a (by simp [Tri.verts])
  have rb := hr t.b (by simp [Tri.verts])
  have rc := hr t.c (by simp [Tri.verts])
  have hpts := son_points g hg b s h e t ht _ _ _ (List.getElem?_eq_getElem ra)
    (List.getElem?_eq_getElem rb) (List.getElem?_eq_getElem rc)
  have na : nodeAt g.nodes t.a = g.nodes[t.a] := by simp [nodeAt, List.getElem?_eq_getElem ra]
  have nb : nodeAt g.nodes t.b = g.nodes[t.b] := by simp [nodeAt, List.getElem?_eq_getElem rb]
  have nc : nodeAt g.nodes t.c = g.nodes[t.c] := by simp [nodeAt, List.getElem?_eq_getElem rc]
  rw [← na, ← nb, ← nc] at hpts
  generalize nodeAt g.nodes t.a = A at *
  generalize nodeAt g.nodes t.b = B at *
  generalize nodeAt g.nodes t.c = C at *
  constructor
  · constructor
    · rintro ⟨u, v, w, hu, hv, hw, hcomb⟩
      have hk : ∃ k < 6, sonOrder (· ≤ ·) k u v w := by
        rcases le_total u v with huv | huv <;> rcases le_total v w with hvw | hvw <;>
          rcases le_total u w with huw | huw
        · exact ⟨4, by omega, hvw, huv, hu⟩
        · exact ⟨5, by omega, by simp only [sonOrder]; exact ⟨by linarith, by linarith, hv⟩⟩
        · exact ⟨3, by omega, hvw, huw, hu⟩
        · exact ⟨2, by omega, huv, huw, hw⟩
        · exact ⟨5, by omega, huw, huv, hv⟩
        · exact ⟨0, by omega, huw, hvw, hv⟩
        · exact ⟨1, by omega, huv, hvw, hw⟩
        · exact ⟨1, by omega, huv, hvw, hw⟩
      obtain ⟨k, hk, hord⟩ := hk
      obtain ⟨son, hson, hp⟩ := hpts k hk
      exact ⟨k, hk, son, hson, (son_tile A B C p _ _ _ k hk hp).1.mpr ⟨u, v, w, hord, hcomb⟩⟩
    · rintro ⟨k, hk, son, hson, hin⟩
      obtain ⟨son', hson', hp⟩ := hpts k hk
      rw [hson] at hson'
      cases hson'
      obtain ⟨u, v, w, hord, hcomb⟩ := (son_tile A B C p _ _ _ k hk hp).1.mp hin
      refine ⟨u, v, w, ?_, ?_, ?_, hcomb⟩ <;>
      · obtain rfl | rfl | rfl | rfl | rfl | rfl : k = 0 ∨ k = 1 ∨ k = 2 ∨ k = 3 ∨ k = 4 ∨ k = 5 := by omega
        all_goals
          simp only [sonOrder] at hord
          obtain ⟨h1, h2, h3⟩ := hord
          linarith
  · intro hnd k hk k' hk' son son' hson hson' hin hin'
    obtain ⟨x, hx, hp⟩ := hpts k hk
    rw [hson] at hx
    cases hx
    obtain ⟨x, hx, hp'⟩ := hpts k' hk'
    rw [hson'] at hx
    cases hx
    obtain ⟨u, v, w, hord, hcomb⟩ := (son_tile A B C p _ _ _ k hk hp).2.mp hin
    obtain ⟨u', v', w', hord', hcomb'⟩ := (son_tile A B C p _ _ _ k' hk' hp').2.mp hin'
    obtain ⟨rfl, rfl, rfl⟩ := comb_unique A B C p hnd _ _ _ _ _ _ hcomb hcomb'
    clear hp hp' hin hin' hson hson' hcomb hcomb' hpts
    obtain rfl | rfl | rfl | rfl | rfl | rfl : k = 0 ∨ k = 1 ∨ k = 2 ∨ k = 3 ∨ k = 4 ∨ k = 5 := by omega
    all_goals
      obtain rfl | rfl | rfl | rfl | rfl | rfl :
        k' = 0 ∨ k' = 1 ∨ k' = 2 ∨ k' = 3 ∨ k' = 4 ∨ k' = 5 := by omega
      all_goals first
        | rfl
        | (exfalso
           simp only [sonOrder] at hord hord'
           obtain ⟨h1, h2, -⟩ := hord
           obtain ⟨g1, g2, -⟩ := hord'
           linarith)

end Tile

/-- Non-vacuity of C34: two triangles sharing an edge form a valid grid with 5 edges. -/
example : ∃ d, DataContainer.init 4 [⟨0, 1, 2⟩, ⟨1, 3, 2⟩] = some d ∧ d.edges.length = 5 ∧
    GridData.Valid (K := ℚ) ⟨[⟨0, 0, 0⟩, ⟨1, 0, 0⟩, ⟨0, 1, 0⟩, ⟨1, 1, 1⟩], d, [3, 4]⟩ := by
  refine ⟨_, rfl, rfl, ⟨0, rfl⟩, rfl, rfl, ?_, ?_⟩ <;>
  · intro t ht
    simp only [List.mem_cons, List.not_mem_nil, or_false] at ht
    rcases ht with rfl | rfl <;> simp [Tri.verts, Tri.Proper]

end Verif.Grid
