import Verif.Lemmas.ClusterTree
import Verif.Lemmas.BoundingBox
import Verif.Model.BlockClusterTree
/-
Property theorems C01 - C04: cluster trees.
-/
namespace Verif.HMat
open CTree

/-- A sorter used in the examples: it reverses its input (a legal outcome of sorting by a
decreasing projection). -/
def revSorter (G : Type) : Sorter G := ⟨fun _ l => l.reverse, fun _ l => List.reverse_perm l⟩

/-! ### C01 -/

/-- **C01** For every number of dofs `n`, every geometry (`geo`), every outcome of the sorts and
every `minBlockSize`, building the cluster tree never writes outside the two maps, both maps are
permutations of `0..n-1`, and they are inverse to each other. -/
theorem C01_dof_permutation_bijective {G : Type} (geo : List Nat → G) (srt : Sorter G)
    (minBlockSize : Int) (n : Nat) :
    ∃ p, dofPermutation geo srt minBlockSize n = some p ∧
      p.o2h.length = n ∧ p.h2o.length = n ∧
      p.o2h.Perm (List.range n) ∧ p.h2o.Perm (List.range n) ∧
      (∀ i, i < n → ∃ j, j < n ∧ p.o2h[i]? = some j ∧ p.h2o[j]? = some i) ∧
      (∀ j, j < n → ∃ i, i < n ∧ p.h2o[j]? = some i ∧ p.o2h[i]? = some j) := by
  have hg := clusterTree_good geo srt minBlockSize n
  have hd : (clusterTree geo srt minBlockSize n).data = ⟨0, n, geo (List.range n)⟩ :=
    (splitTree_data _ _ _ _ _ _).1
  have hix : (clusterTree geo srt minBlockSize n).ix = List.range n := (splitTree_data _ _ _ _ _ _).2
  have hp : (order (clusterTree geo srt minBlockSize n)).Perm (List.range n) := hix ▸ order_perm hg
  have hl : (order (clusterTree geo srt minBlockSize n)).length = n := by
    rw [hp.length_eq]; simp
  unfold dofPermutation
  rw [writes_eq hg, hd]
  generalize order (clusterTree geo srt minBlockSize n) = L at hp hl
  obtain ⟨q, e, l1, l2, c, _, _⟩ := writeSeq_spec L 0 (DofPermutation.init n)
    (hp.nodup_iff.mpr List.nodup_range)
    (by intro o ho; simpa [DofPermutation.init] using hp.mem_iff.mp ho)
    (by simp [DofPermutation.init, hl])
  simp only [DofPermutation.init, List.length_replicate] at l1 l2
  have hqL : q.h2o = L := by
    apply List.ext_getElem?
    intro k
    by_cases hk : k < L.length
    · have := (c k hk).1
      rw [Nat.zero_add] at this
      rw [this, List.getElem?_eq_getElem hk]
    · rw [List.getElem?_eq_none (by omega), List.getElem?_eq_none (by omega)]
  have inv2 : ∀ j, j < n → ∃ i, i < n ∧ q.h2o[j]? = some i ∧ q.o2h[i]? = some j := by
    intro j hj
    have := c j (by omega)
    rw [Nat.zero_add] at this
    refine ⟨L[j], ?_, this.1, this.2⟩
    simpa using hp.mem_iff.mp (List.getElem_mem (h := by omega))
  have inv1 : ∀ i, i < n → ∃ j, j < n ∧ q.o2h[i]? = some j ∧ q.h2o[j]? = some i := by
    intro i hi
    have hm : i ∈ L := hp.mem_iff.mpr (by simpa using hi)
    obtain ⟨j, hj, hji⟩ := List.getElem_of_mem hm
    have := c j hj
    rw [Nat.zero_add, hji] at this
    exact ⟨j, by omega, this.2, this.1⟩
  refine ⟨q, e, l1, l2, ?_, hqL ▸ hp, inv1, inv2⟩
  -- o2h is injective with values below n, hence a permutation
  have hnd : q.o2h.Nodup := by
    rw [List.nodup_iff_getElem?_ne_getElem?]
    intro i j hij hj heq
    obtain ⟨a, _, ha, ha'⟩ := inv1 i (by omega)
    obtain ⟨b, _, hb, hb'⟩ := inv1 j (by omega)
    rw [ha, hb] at heq
    injection heq with heq
    subst heq
    rw [ha'] at hb'
    injection hb' with hb'
    omega
  have hsub : q.o2h ⊆ List.range n := by
    intro x hx
    obtain ⟨i, hi, hix⟩ := List.getElem_of_mem hx
    obtain ⟨a, han, ha, _⟩ := inv1 i (by omega)
    rw [List.getElem?_eq_getElem hi] at ha
    injection ha with ha
    simp; omega
  exact (List.subperm_of_subset hnd hsub).perm_of_length_le (by simp [l1])

/-- Example: five dofs, leaves of one dof: the map is not the identity. -/
example : dofPermutation (fun _ => ()) (revSorter Unit) 1 5 = 
    some ⟨[4, 3, 1, 0, 2], [3, 2, 4, 1, 0]⟩ := by
  simp [dofPermutation, clusterTree, splitTree, deal_eq, revSorter, toSizeT, List.range_succ, writes,
    leafWrites, DofPermutation.init, DofPermutation.add]

/-! ### C02 -/

/-- **C02** The root has range `[0,n)`; the two children of every inner node are non-empty and
their ranges are consecutive and make up the parent's range; the leaves from left to right tile
`[0,n)`. -/
theorem C02_ranges_tile {G : Type} (geo : List Nat → G) (srt : Sorter G) (minBlockSize : Int)
    (n : Nat) :
    let t := clusterTree geo srt minBlockSize n
    (t.data.lo = 0 ∧ t.data.hi = n) ∧
    (∀ d ix l r, CTree.node d ix l r ∈ t.subtrees →
      l.data.lo = d.lo ∧ l.data.hi = r.data.lo ∧ r.data.hi = d.hi ∧
      l.data.lo < l.data.hi ∧ r.data.lo < r.data.hi) ∧
    t.leaves.flatMap rangeList = List.range n := by
  intro t
  have hg : Good geo minBlockSize t := clusterTree_good geo srt minBlockSize n
  have hd : t.data = ⟨0, n, geo (List.range n)⟩ := (splitTree_data _ _ _ _ _ _).1
  refine ⟨by simp [hd], ?_, ?_⟩
  · intro d ix l r hm
    obtain ⟨_, _, _, _, h1, h2, h3, h4, h5, _⟩ := good_sub hg _ hm
    exact ⟨h1, h2, h3, h4, h5⟩
  · rw [good_leaves_tile hg, rangeList, hd, List.range_eq_range']
    simp

/-- Example: with five dofs and `minBlockSize = 2` the root really is an inner node. -/
example : (clusterTree (fun _ => ()) (revSorter Unit) 2 5).leaves.map rangeList =
    [[0, 1], [2], [3, 4]] := by
  simp [clusterTree, splitTree, deal_eq, revSorter, toSizeT, List.range_succ, leaves, rangeList,
    CTree.data, List.range'_succ]

/-! ### C03 -/

/-- **C03** For a positive `minBlockSize` (a C++ `int`): every leaf has at most `minBlockSize` dofs,
every inner node has more than `minBlockSize`, the first child of an inner node has ⌈m/2⌉ and the
second ⌊m/2⌋ of its m dofs, and the depth is at most ⌈log₂ n⌉. -/
theorem C03_leaf_size_and_balance {G : Type} (geo : List Nat → G) (srt : Sorter G)
    (minBlockSize : Int) (n : Nat) (h1 : 1 ≤ minBlockSize) (h2 : minBlockSize < 2 ^ 31) :
    let t := clusterTree geo srt minBlockSize n
    (∀ s ∈ t.leaves, (s.size : Int) ≤ minBlockSize) ∧
    (∀ d ix l r, CTree.node d ix l r ∈ t.subtrees →
      minBlockSize < ((d.hi - d.lo : Nat) : Int) ∧
      l.size = (d.hi - d.lo + 1) / 2 ∧ r.size = (d.hi - d.lo) / 2) ∧
    (∀ k, n ≤ 2 ^ k → t.depth ≤ k) := by
  intro t
  have hg : Good geo minBlockSize t := clusterTree_good geo srt minBlockSize n
  have hs : (toSizeT minBlockSize : Int) = minBlockSize := by unfold toSizeT; omega
  refine ⟨?_, ?_, ?_⟩
  · intro s hs'
    have hgs := good_sub hg s (leaf_mem_subtrees hs')
    have hlf := leaf_isLeaf hs'
    cases s with
    | leaf d ix =>
      obtain ⟨a, b, c, e⟩ := hgs
      simp only [CTree.size, data_leaf]
      omega
    | node d ix l r => simp [CTree.isLeaf] at hlf
  · intro d ix l r hm
    obtain ⟨a1, a2, a3, a4, h1, h2, h3, h4, h5, a5, a6, _, gl, gr⟩ := good_sub hg _ hm
    have := (good_len gl).1
    have := (good_len gr).1
    simp only [CTree.size]
    omega
  · have hdp : ∀ (s : CTree G), Good geo minBlockSize s → ∀ k, s.ix.length ≤ 2 ^ k → s.depth ≤ k := by
      intro s
      induction s with
      | leaf d ix => intro _ k _; simp [depth]
      | node d ix l r ihl ihr =>
        intro hgs k hk
        obtain ⟨a1, a2, a3, a4, h1, h2, h3, h4, h5, a5, a6, _, gl, gr⟩ := id hgs
        simp only [ix_node] at hk
        cases k with
        | zero => simp at hk; omega
        | succ k =>
          rw [Nat.pow_succ] at hk
          have := ihl gl k (by omega)
          have := ihr gr k (by omega)
          simp only [depth]; omega
    intro k hk
    apply hdp t hg k
    have : t.ix = List.range n := (splitTree_data _ _ _ _ _ _).2
    rw [this]; simpa using hk

/-- Example for C03: the hypotheses hold for `minBlockSize = 20` (the default). -/
example : (1 : Int) ≤ 20 ∧ (20 : Int) < 2 ^ 31 := by decide
/-- Depth really grows: 5 dofs with leaves of at most two dofs have depth 2. -/
example : (clusterTree (fun _ => ()) (revSorter Unit) 2 5).depth = 2 := by
  simp [clusterTree, splitTree, deal_eq, revSorter, toSizeT, List.range_succ, depth]

/-- C03, other values of the `int`: with `minBlockSize = 0` leaves have at most one dof, and a
negative `minBlockSize` is converted to a huge unsigned number, so the tree is never split (as long
as n fits in 32 bits). -/
theorem C03_nonpositive_minBlockSize {G : Type} (geo : List Nat → G) (srt : Sorter G) (n : Nat)
    (hn : n < 2 ^ 32) (minBlockSize : Int) (hm : -2 ^ 31 ≤ minBlockSize) :
    (minBlockSize = 0 → ∀ s ∈ (clusterTree geo srt minBlockSize n).leaves, s.size ≤ 1) ∧
    (minBlockSize < 0 → (clusterTree geo srt minBlockSize n).isLeaf = true) := by
  constructor
  · rintro rfl s hs
    have hgs := good_sub (clusterTree_good geo srt 0 n) s (leaf_mem_subtrees hs)
    have hlf := leaf_isLeaf hs
    cases s with
    | leaf d ix =>
      obtain ⟨a, b, c, e⟩ := hgs
      have : toSizeT 0 = 0 := by decide
      simp only [CTree.size, data_leaf]
      omega
    | node d ix l r => simp [CTree.isLeaf] at hlf
  · intro h
    unfold clusterTree
    rw [splitTree, if_pos]
    · rfl
    · unfold toSizeT; simp; omega

/-- Example: both cases of the previous theorem occur. -/
example : (clusterTree (fun _ => ()) (revSorter Unit) (-1) 5).leaves.length = 1 ∧
    (clusterTree (fun _ => ()) (revSorter Unit) 0 3).leaves.length = 3 := by
  simp [clusterTree, splitTree, deal_eq, revSorter, toSizeT, List.range_succ, leaves]

/-! ### C04 -/

/-- **C04** For every node, the stored bounding box is the smallest box containing the bounding
boxes of exactly those original dofs whose H-matrix index lies in the node's range. -/
theorem C04_node_box_is_hull_of_range {K : Type} [LinearOrder K] (boxes : Nat → Box K)
    (diam : List Nat → K) (srt : Sorter (GeoData K)) (minBlockSize : Int) (n : Nat) (hn : 0 < n)
    (hv : ∀ i, i < n → (boxes i).Valid) (p : DofPermutation)
    (hp : dofPermutation (geoOf boxes diam) srt minBlockSize n = some p) :
    ∀ s ∈ (clusterTree (geoOf boxes diam) srt minBlockSize n).subtrees,
      ∃ b, s.data.geo.box = some b ∧
        b.IsHull (fun i => ∃ j, p.o2h[i]? = some j ∧ s.data.lo ≤ j ∧ j < s.data.hi) boxes := by
  intro s hs
  set geo := geoOf boxes diam with hgeo
  have hg := clusterTree_good geo srt minBlockSize n
  have hgs := good_sub hg s hs
  obtain ⟨hlen, hle, hgs2⟩ := good_len hgs
  have hd : (clusterTree geo srt minBlockSize n).data = ⟨0, n, geo (List.range n)⟩ :=
    (splitTree_data _ _ _ _ _ _).1
  have hix : (clusterTree geo srt minBlockSize n).ix = List.range n := (splitTree_data _ _ _ _ _ _).2
  have hpm : (order (clusterTree geo srt minBlockSize n)).Perm (List.range n) := hix ▸ order_perm hg
  -- membership in the node's index set
  have hmem : ∀ i, i ∈ s.ix ↔ ∃ j, p.o2h[i]? = some j ∧ s.data.lo ≤ j ∧ j < s.data.hi := by
    obtain ⟨a, b, hab, hal⟩ := order_sub_range hg s hs
    rw [hd] at hal
    simp only [Nat.zero_add] at hal
    have hsl : (order s).length = s.data.hi - s.data.lo := order_length hgs
    unfold dofPermutation at hp
    rw [writes_eq hg, hd] at hp
    simp only at hp
    generalize order (clusterTree geo srt minBlockSize n) = L at hpm hab hp
    obtain ⟨q, e, l1, l2, c, _, _⟩ := writeSeq_spec L 0 (DofPermutation.init n)
      (hpm.nodup_iff.mpr List.nodup_range)
      (by intro o ho; simpa [DofPermutation.init] using hpm.mem_iff.mp ho)
      (by simp [DofPermutation.init, hpm.length_eq])
    rw [hp] at e
    injection e with e
    subst e
    have hnd : L.Nodup := hpm.nodup_iff.mpr List.nodup_range
    intro i
    rw [← (order_perm hgs).mem_iff]
    constructor
    · intro hi
      obtain ⟨k, hk, hki⟩ := List.getElem_of_mem hi
      have hkL : a.length + k < L.length := by rw [hab]; simp; omega
      have hL : L[a.length + k] = i := by
        simp only [hab, List.append_assoc]
        rw [List.getElem_append_right (by omega)]
        rw [List.getElem_append_left (by omega)]
        simpa using hki
      have := (c _ hkL).2
      rw [hL, Nat.zero_add] at this
      exact ⟨_, this, by omega, by omega⟩
    · rintro ⟨j, hj, hj1, hj2⟩
      have hi : i < n := by
        have := (List.getElem?_eq_some_iff.mp hj).1
        simp only [l1, DofPermutation.init, List.length_replicate] at this
        exact this
      have hm : i ∈ L := hpm.mem_iff.mpr (by simpa using hi)
      obtain ⟨k, hk, hki⟩ := List.getElem_of_mem hm
      have := (c k hk).2
      rw [hki, Nat.zero_add, hj] at this
      injection this with this
      subst this
      rw [List.mem_iff_getElem]
      refine ⟨j - a.length, by omega, ?_⟩
      rw [← hki]
      simp only [hab, List.append_assoc]
      rw [List.getElem_append_right (by omega)]
      rw [List.getElem_append_left (by omega)]
  -- the node is not empty
  have hpos : s.data.lo < s.data.hi := by
    have : ∀ (t : CTree (GeoData K)), Good geo minBlockSize t → t.data.lo < t.data.hi →
        ∀ u ∈ t.subtrees, u.data.lo < u.data.hi := by
      intro t
      induction t with
      | leaf d ix => intro _ h u hu; simp [subtrees] at hu; subst hu; exact h
      | node d ix l r ihl ihr =>
        intro hgt h u hu
        obtain ⟨a1, a2, a3, a4, h1, h2, h3, h4, h5, a5, a6, _, gl, gr⟩ := id hgt
        simp only [subtrees, List.mem_cons, List.mem_append] at hu
        rcases hu with rfl | hu | hu
        · exact h
        · exact ihl gl h4 u hu
        · exact ihr gr h5 u hu
    exact this _ hg (by rw [hd]; exact hn) s hs
  have hne : s.ix ≠ [] := by
    intro h; rw [h] at hlen; simp at hlen; omega
  have hsub : ∀ i ∈ s.ix, i < n := by
    intro i hi
    obtain ⟨j, hj, _⟩ := (hmem i).mp hi
    obtain ⟨p', hp', hl, _⟩ := C01_dof_permutation_bijective geo srt minBlockSize n
    rw [hp] at hp'; injection hp' with hp'; subst hp'
    have := (List.getElem?_eq_some_iff.mp hj).1
    omega
  obtain ⟨b, hb, hh⟩ := clusterBox_isHull boxes s.ix hne (fun i hi => hv i (hsub i hi))
  refine ⟨b, by rw [hgs2]; exact hb, ?_⟩
  simpa only [hmem] using hh

/-- **C04**, second part: the box of a child is contained in the box of its parent. -/
theorem C04_child_box_inside_parent {K : Type} [LinearOrder K] (boxes : Nat → Box K)
    (diam : List Nat → K) (srt : Sorter (GeoData K)) (minBlockSize : Int) (n : Nat)
    (d : NodeData (GeoData K)) (ix : List Nat) (l r : CTree (GeoData K))
    (hm : CTree.node d ix l r ∈ (clusterTree (geoOf boxes diam) srt minBlockSize n).subtrees)
    (hv : ∀ i, i < n → (boxes i).Valid) :
    ∃ b bl br, d.geo.box = some b ∧ l.data.geo.box = some bl ∧ r.data.geo.box = some br ∧
      bl.Valid ∧ br.Valid ∧ bl.Sub b ∧ br.Sub b := by
  have hg := clusterTree_good (geoOf boxes diam) srt minBlockSize n
  obtain ⟨a1, a2, a3, a4, h1, h2, h3, h4, h5, a5, a6, hperm, gl, gr⟩ := good_sub hg _ hm
  have hn : 0 < n := by
    by_contra h
    have : n = 0 := by omega
    subst this
    have : clusterTree (geoOf boxes diam) srt minBlockSize 0 = .leaf ⟨0, 0, geoOf boxes diam []⟩ [] := by
      unfold clusterTree; rw [splitTree]; simp
    rw [this] at hm
    simp [subtrees] at hm
  obtain ⟨p, hp, _⟩ := C01_dof_permutation_bijective (geoOf boxes diam) srt minBlockSize n
  have key : ∀ s ∈ (clusterTree (geoOf boxes diam) srt minBlockSize n).subtrees,
      (∀ i ∈ s.ix, i < n) := by
    have : ∀ t : CTree (GeoData K), Good (geoOf boxes diam) minBlockSize t →
        (∀ i ∈ t.ix, i < n) → ∀ s ∈ t.subtrees, ∀ i ∈ s.ix, i < n := by
      intro t
      induction t with
      | leaf d ix => intro _ h s hs; simp [subtrees] at hs; subst hs; exact h
      | node d ix l r ihl ihr =>
        intro hgt h s hs
        obtain ⟨_, _, _, _, _, _, _, _, _, _, _, hpp, gl, gr⟩ := id hgt
        simp only [subtrees, List.mem_cons, List.mem_append] at hs
        rcases hs with rfl | hs | hs
        · exact h
        · exact ihl gl (fun i hi => h i (hpp.mem_iff.mp (by simp [hi]))) s hs
        · exact ihr gr (fun i hi => h i (hpp.mem_iff.mp (by simp [hi]))) s hs
    apply this _ hg
    have : (clusterTree (geoOf boxes diam) srt minBlockSize n).ix = List.range n :=
      (splitTree_data _ _ _ _ _ _).2
    rw [this]; simp
  have hixn := key _ hm
  simp only [ix_node] at hixn
  have hln : l.ix ≠ [] := by intro h; have := (good_len gl).1; rw [h] at this; simp at this; omega
  have hrn : r.ix ≠ [] := by intro h; have := (good_len gr).1; rw [h] at this; simp at this; omega
  have hn' : ix ≠ [] := by intro h; rw [h] at a1; simp at a1; omega
  obtain ⟨b, hb, hh⟩ := clusterBox_isHull boxes ix hn' (fun i hi => hv i (hixn i hi))
  have hl' : ∀ i ∈ l.ix, i ∈ ix := fun i hi => hperm.mem_iff.mp (by simp [hi])
  have hr' : ∀ i ∈ r.ix, i ∈ ix := fun i hi => hperm.mem_iff.mp (by simp [hi])
  obtain ⟨bl, hbl, hhl⟩ := clusterBox_isHull boxes l.ix hln (fun i hi => hv i (hixn i (hl' i hi)))
  obtain ⟨br, hbr, hhr⟩ := clusterBox_isHull boxes r.ix hrn (fun i hi => hv i (hixn i (hr' i hi)))
  have subOf : ∀ (S : List Nat) (c : Box K), (∀ i ∈ S, i ∈ ix) → c.IsHull (fun i => i ∈ S) boxes →
      c.Valid ∧ c.Sub b := by
    intro S c hS hc
    constructor
    · intro e
      obtain ⟨⟨i, hi, e1⟩, _⟩ := hc.2 e
      rw [e1]
      exact le_trans (hv i (hixn i (hS i hi)) e) ((hc.1 i hi e).2)
    · intro e
      obtain ⟨⟨i, hi, e1⟩, ⟨j, hj, e2⟩⟩ := hc.2 e
      rw [e1, e2]
      exact ⟨(hh.1 i (hS i hi) e).1, (hh.1 j (hS j hj) e).2⟩
  refine ⟨b, bl, br, ?_, ?_, ?_, (subOf _ _ hl' hhl).1, (subOf _ _ hr' hhr).1, (subOf _ _ hl' hhl).2,
    (subOf _ _ hr' hhr).2⟩
  · rw [a3]; exact hb
  · rw [(good_len gl).2.2]; exact hbl
  · rw [(good_len gr).2.2]; exact hbr

/-- Example: three unit cubes on a line are valid boxes, and the tree over them has an inner node. -/
example : (∀ i, i < 3 → (Box.mk6 (K := ℚ) i (i + 1) 0 1 0 1).Valid) ∧
    (clusterTree (geoOf (fun i => Box.mk6 (K := ℚ) i (i + 1) 0 1 0 1) (fun _ => 0))
      (revSorter _) 1 3).isLeaf = false := by
  constructor
  · intro i _ d; fin_cases d <;> simp [Box.mk6]
  · simp [clusterTree, splitTree, deal_eq, revSorter, toSizeT, List.range_succ, CTree.isLeaf]

end Verif.HMat
