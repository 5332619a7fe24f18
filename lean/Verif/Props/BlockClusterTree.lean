import Verif.Props.ClusterTree
import Verif.Props.TreeNode
import Verif.Lemmas.BlockClusterTree
/-
Properties C05 - C08: block cluster trees.
-/
namespace Verif.HMat
open CTree NTree

/-! ### C05 -/

/-- **C05** For any two cluster trees built by the library (any geometry, any outcome of the sorts,
any minimal block sizes), any admissibility function and any `maxBlockSize`: every pair of a row
index and a column index lies in exactly one leaf block. -/
theorem C05_leaves_tile_matrix {G : Type} (geoR geoC : List Nat → G) (srtR srtC : Sorter G)
    (minR minC : Int) (rows cols : Nat) (admFun : NodeData G → NodeData G → Bool) (maxB : Int)
    (i j : Nat) (hi : i < rows) (hj : j < cols) :
    (leafNodes (blockClusterTree admFun maxB (clusterTree geoR srtR minR rows)
      (clusterTree geoC srtC minC cols))).countP (fun b => b.data.covers i j) = 1 := by
  rw [(leafNodes_perm _).countP_eq]
  unfold blockClusterTree
  rw [splitBlock_cover _ _ _ _ (clusterTree_good geoR srtR minR rows)
    (clusterTree_good geoC srtC minC cols)]
  have h1 : (clusterTree geoR srtR minR rows).data = ⟨0, rows, geoR (List.range rows)⟩ :=
    (splitTree_data _ _ _ _ _ _).1
  have h2 : (clusterTree geoC srtC minC cols).data = ⟨0, cols, geoC (List.range cols)⟩ :=
    (splitTree_data _ _ _ _ _ _).1
  rw [h1, h2]
  exact if_pos ⟨Nat.zero_le _, hi, Nat.zero_le _, hj⟩

/-- **C05** No leaf block reaches outside the matrix: a pair outside is in no leaf. -/
theorem C05_leaves_inside_matrix {G : Type} (geoR geoC : List Nat → G) (srtR srtC : Sorter G)
    (minR minC : Int) (rows cols : Nat) (admFun : NodeData G → NodeData G → Bool) (maxB : Int)
    (i j : Nat) (h : rows ≤ i ∨ cols ≤ j) :
    ∀ b ∈ leafNodes (blockClusterTree admFun maxB (clusterTree geoR srtR minR rows)
      (clusterTree geoC srtC minC cols)), b.data.covers i j = false := by
  have := splitBlock_cover admFun maxB _ _ (clusterTree_good geoR srtR minR rows)
    (clusterTree_good geoC srtC minC cols) (admFun (clusterTree geoR srtR minR rows).data
      (clusterTree geoC srtC minC cols).data) i j
  have h1 : (clusterTree geoR srtR minR rows).data = ⟨0, rows, geoR (List.range rows)⟩ :=
    (splitTree_data _ _ _ _ _ _).1
  have h2 : (clusterTree geoC srtC minC cols).data = ⟨0, cols, geoC (List.range cols)⟩ :=
    (splitTree_data _ _ _ _ _ _).1
  rw [if_neg (by rw [h1, h2]; simp only; omega), List.countP_eq_zero] at this
  intro b hb
  have := this b ((leafNodes_perm _).mem_iff.mp hb)
  simpa using this

/-- Example: a matrix with 5 rows and 3 columns where blocks are refined (nothing is admissible);
the four leaf blocks are listed by row and column range. -/
example : (leafNodes (blockClusterTree (fun _ _ => false) 100
      (clusterTree (fun _ => ()) (revSorter Unit) 3 5)
      (clusterTree (fun _ => ()) (revSorter Unit) 2 3))).map
      (fun b => (b.data.row.data.lo, b.data.row.data.hi, b.data.col.data.lo, b.data.col.data.hi)) =
    [(0, 3, 0, 2), (0, 3, 2, 3), (3, 5, 0, 2), (3, 5, 2, 3)] := by
  simp [blockClusterTree, splitBlock, clusterTree, splitTree, deal_eq, revSorter, toSizeT,
    List.range_succ, leafNodes, leafLoop, NTree.isLeaf, children, NTree.data, CTree.data]

/-! ### C06 -/

/-- **C06 is false of the code**: the test against `maxBlockSize` sets `admissible` in a local copy
of the node data, so a block whose row or column cluster is a leaf keeps its flag.  Here a single
5 × 5 block stays marked admissible although `maxBlockSize` is 2. -/
theorem C06_oversized_admissible_leaf_counterexample :
    ∃ (geo : List Nat → Unit) (srt : Sorter Unit) (minB maxB : Int) (n : Nat),
      1 ≤ minB ∧ 1 ≤ maxB ∧
      ∃ b ∈ leafNodes (blockClusterTree (fun _ _ => true) maxB (clusterTree geo srt minB n)
        (clusterTree geo srt minB n)), b.data.adm = true ∧ maxB < (b.data.row.size : Int) := by
  refine ⟨fun _ => (), revSorter Unit, 10, 2, 5, by decide, by decide, ?_⟩
  simp [blockClusterTree, splitBlock, clusterTree, splitTree, deal_eq, revSorter, toSizeT,
    List.range_succ, leafNodes, leafLoop, NTree.isLeaf, children, NTree.data, CTree.data, oversized,
    CTree.size]

/-- **C06**, partial: an admissible leaf block larger than `maxBlockSize` has a row or a column
cluster that is a leaf of its cluster tree (hence has at most `minBlockSize` dofs).  Missing for the
full property: the other cluster may exceed `maxBlockSize`, see the counterexample. -/
theorem C06_oversized_only_at_leaf_clusters_partial {G : Type} (geoR geoC : List Nat → G)
    (srtR srtC : Sorter G) (minR minC : Int) (rows cols : Nat)
    (admFun : NodeData G → NodeData G → Bool) (maxB : Int) (h0 : 0 ≤ maxB) (h1 : maxB < 2 ^ 31) :
    ∀ b ∈ leafNodes (blockClusterTree admFun maxB (clusterTree geoR srtR minR rows)
      (clusterTree geoC srtC minC cols)), b.data.adm = true →
      ((b.data.row.size : Int) ≤ maxB ∧ (b.data.col.size : Int) ≤ maxB) ∨
      b.data.row.isLeaf = true ∨ b.data.col.isLeaf = true := by
  intro b hb _
  have := (splitBlock_leaves admFun maxB (fun _ _ _ => True) (by simp) _ _ _ trivial b
    ((leafNodes_perm _).mem_iff.mp hb)).2
  rcases this with ⟨_, h⟩ | h | h
  · left
    rw [oversized_false] at h; simp only [toSizeT] at h
    omega
  · exact Or.inr (Or.inl h)
  · exact Or.inr (Or.inr h)

/-- **C06**, partial: the full bound holds when both cluster trees have the same number of dofs and
the same `minBlockSize`, and `minBlockSize < maxBlockSize` (the situation of a square operator
with the default options 20 and 2048). -/
theorem C06_square_case_partial {G : Type} (geoR geoC : List Nat → G)
    (srtR srtC : Sorter G) (minB maxB : Int) (n : Nat)
    (admFun : NodeData G → NodeData G → Bool) (h0 : 1 ≤ minB) (h1 : minB < maxB)
    (h2 : maxB < 2 ^ 31) :
    ∀ b ∈ leafNodes (blockClusterTree admFun maxB (clusterTree geoR srtR minB n)
      (clusterTree geoC srtC minB n)), b.data.adm = true →
      (b.data.row.size : Int) ≤ maxB ∧ (b.data.col.size : Int) ≤ maxB := by
  intro b hb _
  have hd1 : (clusterTree geoR srtR minB n).ix = List.range n := (splitTree_data _ _ _ _ _ _).2
  have hd2 : (clusterTree geoC srtC minB n).ix = List.range n := (splitTree_data _ _ _ _ _ _).2
  obtain ⟨⟨gr, gc, q1, q2⟩, h⟩ := splitBlock_leaves admFun maxB
    (fun r c _ => Good geoR minB r ∧ Good geoC minB c ∧
      r.ix.length ≤ c.ix.length + 1 ∧ c.ix.length ≤ r.ix.length + 1)
    (by
      intro d ix r0 r1 d' ix' c0 c1 f ⟨g1, g2, e1, e2⟩
      obtain ⟨_, _, _, _, _, _, _, _, _, u1, u2, _, hr0, hr1⟩ := id g1
      obtain ⟨_, _, _, _, _, _, _, _, _, v1, v2, _, hc0, hc1⟩ := id g2
      simp only [ix_node] at e1 e2
      refine ⟨⟨hr0, hc0, ?_, ?_⟩, ⟨hr0, hc1, ?_, ?_⟩, ⟨hr1, hc0, ?_, ?_⟩, ⟨hr1, hc1, ?_, ?_⟩⟩ <;> omega)
    _ _ _ ⟨clusterTree_good geoR srtR minB n, clusterTree_good geoC srtC minB n,
      by rw [hd1, hd2]; simp, by rw [hd1, hd2]; simp⟩ b ((leafNodes_perm _).mem_iff.mp hb)
  have lr := (good_len gr).1
  have lc := (good_len gc).1
  have leafBound : ∀ (geo : List Nat → G) (t : CTree G), Good geo minB t → t.isLeaf = true →
      (t.ix.length : Int) ≤ minB := by
    intro geo t hg hl
    cases t with
    | leaf d ix => obtain ⟨_, _, _, h⟩ := hg; simp only [ix_leaf]; unfold toSizeT at h; omega
    | node d ix l r => simp [CTree.isLeaf] at hl
  rcases h with ⟨_, h⟩ | h | h
  · rw [oversized_false] at h; simp only [toSizeT] at h
    omega
  · have := leafBound _ _ gr h
    simp only [CTree.size]; omega
  · have := leafBound _ _ gc h
    simp only [CTree.size]; omega

/-- Example: with 5 dofs on both sides, `minBlockSize = 2`, `maxBlockSize = 3` and everything
admissible, the oversized 5 × 5 root is refined. -/
example : (leafNodes (blockClusterTree (fun _ _ => true) 3
      (clusterTree (fun _ => ()) (revSorter Unit) 2 5)
      (clusterTree (fun _ => ()) (revSorter Unit) 2 5))).map (fun b => b.data.row.size) =
    [3, 3, 2, 2] := by
  simp [blockClusterTree, splitBlock, clusterTree, splitTree, deal_eq, revSorter, toSizeT,
    List.range_succ, leafNodes, leafLoop, NTree.isLeaf, children, NTree.data, CTree.data, oversized,
    CTree.size]

/-! ### C07 and C08 -/

/-- **C08**, partial: the flag of the root block is the admissibility function of its own clusters,
and if the admissibility function is inherited by sub-clusters (as the weak one is, see
`C07_weak_separation`), every leaf marked admissible satisfies the condition on its own clusters.
Missing: the converse, see the counterexample. -/
theorem C08_flag_sound_for_monotone_partial {G : Type} (admFun : NodeData G → NodeData G → Bool)
    (maxB : Int) (row col : CTree G)
    (mono : ∀ d ix r0 r1 d' ix' c0 c1, CTree.node d ix r0 r1 ∈ row.subtrees →
      CTree.node d' ix' c0 c1 ∈ col.subtrees → admFun d d' = true →
      ∀ r ∈ [r0, r1], ∀ c ∈ [c0, c1], admFun r.data c.data = true) :
    (blockClusterTree admFun maxB row col).data.adm = admFun row.data col.data ∧
    ∀ b ∈ leafNodes (blockClusterTree admFun maxB row col), b.data.adm = true →
      admFun b.data.row.data b.data.col.data = true := by
  constructor
  · unfold blockClusterTree
    rw [splitBlock_data]
  · intro b hb hadm
    have := (splitBlock_leaves admFun maxB (fun r c f => r ∈ row.subtrees ∧ c ∈ col.subtrees ∧
        (f = true → admFun r.data c.data = true)) ?_ row col _
        ⟨self_mem_subtrees row, self_mem_subtrees col, fun h => h⟩ b
        ((leafNodes_perm _).mem_iff.mp hb)).1
    · exact this.2.2 hadm
    · intro d ix r0 r1 d' ix' c0 c1 f ⟨h1, h2, _⟩
      have m1 := child_mem_subtrees h1
      have m2 := child_mem_subtrees h2
      have := mono d ix r0 r1 d' ix' c0 c1 h1 h2
      exact ⟨⟨m1.1, m2.1, fun h => this h _ (by simp) _ (by simp)⟩,
        ⟨m1.1, m2.2, fun h => this h _ (by simp) _ (by simp)⟩,
        ⟨m1.2, m2.1, fun h => this h _ (by simp) _ (by simp)⟩,
        ⟨m1.2, m2.2, fun h => this h _ (by simp) _ (by simp)⟩⟩

/-- **C08**, partial: what the flag really is: the value of the admissibility function on the two
clusters of the *parent* block. -/
theorem C08_flag_is_parents_partial {G : Type} (admFun : NodeData G → NodeData G → Bool)
    (maxB : Int) (row col : CTree G) :
    ∀ s ∈ allNodes (blockClusterTree admFun maxB row col), ∀ c ∈ s.children,
      c.data.adm = admFun s.data.row.data s.data.col.data :=
  splitBlock_children_adm _ _ _ _ _

/-- **C08 is false of the code**: the flag of a block is computed from the clusters of its
*parent*.  Here single-dof clusters are admissible when they are different; the four 1 × 1 leaves
get the flag of the 2 × 2 root (`false`), although the off-diagonal ones satisfy the condition. -/
theorem C08_flag_is_parents_counterexample :
    ∃ (admFun : NodeData Unit → NodeData Unit → Bool) (row col : CTree Unit),
      row = clusterTree (fun _ => ()) (revSorter Unit) 1 2 ∧
      col = clusterTree (fun _ => ()) (revSorter Unit) 1 2 ∧
      ∃ b ∈ leafNodes (blockClusterTree admFun 100 row col),
        b.data.adm = false ∧ admFun b.data.row.data b.data.col.data = true := by
  refine ⟨fun a b => decide (a.hi ≤ b.lo) || decide (b.hi ≤ a.lo), _, _, rfl, rfl, ?_⟩
  simp [blockClusterTree, splitBlock, clusterTree, splitTree, deal_eq, revSorter, toSizeT,
    List.range_succ, leafNodes, leafLoop, NTree.isLeaf, children, NTree.data, CTree.data, oversized,
    CTree.size]

theorem weakAdm_true {c1 c2 : NodeData (GeoData ℝ)} (h : weakAdm c1 c2 = true) :
    ∃ a b, c1.geo.box = some a ∧ c2.geo.box = some b ∧ 0 < a.distance b := by
  unfold weakAdm at h
  split at h
  · rename_i a b ha hb
    exact ⟨a, b, ha, hb, by simpa using h⟩
  · simp at h

theorem strongAdm_true {eta : ℝ} {c1 c2 : NodeData (GeoData ℝ)} (h : strongAdm eta c1 c2 = true) :
    ∃ a b, c1.geo.box = some a ∧ c2.geo.box = some b ∧
      min c1.geo.diameter c2.geo.diameter < eta * a.distance b := by
  unfold strongAdm at h
  split at h
  · rename_i a b ha hb
    exact ⟨a, b, ha, hb, by simpa using h⟩
  · simp at h

/-- **C07**, weak admissibility: the bounding boxes of the two clusters of a leaf block marked
admissible are at positive distance. -/
theorem C07_weak_separation (boxR boxC : Nat → Box ℝ) (diamR diamC : List Nat → ℝ)
    (srtR srtC : Sorter (GeoData ℝ)) (minR minC : Int) (rows cols : Nat) (maxB : Int)
    (hvR : ∀ i, i < rows → (boxR i).Valid) (hvC : ∀ i, i < cols → (boxC i).Valid) :
    ∀ b ∈ leafNodes (blockClusterTree weakAdm maxB
        (clusterTree (geoOf boxR diamR) srtR minR rows)
        (clusterTree (geoOf boxC diamC) srtC minC cols)), b.data.adm = true →
      ∃ x y, b.data.row.data.geo.box = some x ∧ b.data.col.data.geo.box = some y ∧
        0 < x.distance y := by
  intro b hb hadm
  apply weakAdm_true
  refine (C08_flag_sound_for_monotone_partial weakAdm maxB _ _ ?_).2 b hb hadm
  intro d ix r0 r1 d' ix' c0 c1 h1 h2 had r hr c hc
  obtain ⟨x, y, hx, hy, hpos⟩ := weakAdm_true had
  obtain ⟨bx, bl, br, e1, e2, e3, v1, v2, s1, s2⟩ :=
    C04_child_box_inside_parent boxR diamR srtR minR rows d ix r0 r1 h1 hvR
  obtain ⟨by', cl, cr, f1, f2, f3, w1, w2, t1, t2⟩ :=
    C04_child_box_inside_parent boxC diamC srtC minC cols d' ix' c0 c1 h2 hvC
  rw [hx] at e1; injection e1 with e1; subst e1
  rw [hy] at f1; injection f1 with f1; subst f1
  have key : ∀ (u v : Box ℝ), u.Valid → v.Valid → u.Sub x → v.Sub y → 0 < u.distance v := by
    intro u v hu hv su sv
    exact lt_of_lt_of_le hpos (Real.sqrt_le_sqrt (Box.distSq_mono _ _ _ _ hu hv su sv))
  simp only [List.mem_cons, List.not_mem_nil, or_false] at hr hc
  rcases hr with rfl | rfl <;> rcases hc with rfl | rfl <;> simp only [weakAdm, e2, e3, f2, f3] <;>
    simp only [gt_iff_lt, decide_eq_true_eq]
  · exact key _ _ v1 w1 s1 t1
  · exact key _ _ v1 w2 s1 t2
  · exact key _ _ v2 w1 s2 t1
  · exact key _ _ v2 w2 s2 t2

/-- **C07**, strong admissibility: the clusters of a leaf block marked admissible lie inside two
clusters `R`, `C` with `min (diam R) (diam C) < eta * dist R C`, and the boxes of the block itself
are at least that far apart. -/
theorem C07_strong_separation (eta : ℝ) (boxR boxC : Nat → Box ℝ) (diamR diamC : List Nat → ℝ)
    (srtR srtC : Sorter (GeoData ℝ)) (minR minC : Int) (rows cols : Nat) (maxB : Int)
    (hvR : ∀ i, i < rows → (boxR i).Valid) (hvC : ∀ i, i < cols → (boxC i).Valid) :
    let rowTree := clusterTree (geoOf boxR diamR) srtR minR rows
    let colTree := clusterTree (geoOf boxC diamC) srtC minC cols
    ∀ b ∈ leafNodes (blockClusterTree (strongAdm eta) maxB rowTree colTree), b.data.adm = true →
      ∃ R ∈ rowTree.subtrees, ∃ C ∈ colTree.subtrees, b.data.row.Inside R ∧ b.data.col.Inside C ∧
      ∃ X Y x y, R.data.geo.box = some X ∧ C.data.geo.box = some Y ∧
        b.data.row.data.geo.box = some x ∧ b.data.col.data.geo.box = some y ∧
        min R.data.geo.diameter C.data.geo.diameter < eta * X.distance Y ∧
        X.distance Y ≤ x.distance y := by
  intro rowTree colTree b hb hadm
  have := (splitBlock_leaves (strongAdm eta) maxB (fun r c f => r ∈ rowTree.subtrees ∧
      c ∈ colTree.subtrees ∧ (f = true →
      ∃ R ∈ rowTree.subtrees, ∃ C ∈ colTree.subtrees, r.Inside R ∧ c.Inside C ∧
      ∃ X Y x y, R.data.geo.box = some X ∧ C.data.geo.box = some Y ∧
        r.data.geo.box = some x ∧ c.data.geo.box = some y ∧
        min R.data.geo.diameter C.data.geo.diameter < eta * X.distance Y ∧
        X.distance Y ≤ x.distance y)) ?_ rowTree colTree _
        ⟨self_mem_subtrees _, self_mem_subtrees _, ?_⟩ b ((leafNodes_perm _).mem_iff.mp hb)).1
  · exact this.2.2 hadm
  · intro d ix r0 r1 d' ix' c0 c1 f ⟨h1, h2, _⟩
    have m1 := child_mem_subtrees h1
    have m2 := child_mem_subtrees h2
    obtain ⟨bx, bl, br, e1, e2, e3, v1, v2, s1, s2⟩ :=
      C04_child_box_inside_parent boxR diamR srtR minR rows d ix r0 r1 h1 hvR
    obtain ⟨by', cl, cr, f1, f2, f3, w1, w2, t1, t2⟩ :=
      C04_child_box_inside_parent boxC diamC srtC minC cols d' ix' c0 c1 h2 hvC
    obtain ⟨_, _, _, _, i1, i2, i3, i4, i5, _⟩ :=
      good_sub (clusterTree_good (geoOf boxR diamR) srtR minR rows) _ h1
    obtain ⟨_, _, _, _, j1, j2, j3, j4, j5, _⟩ :=
      good_sub (clusterTree_good (geoOf boxC diamC) srtC minC cols) _ h2
    have key : ∀ (r c : CTree (GeoData ℝ)) (u v : Box ℝ), r.Inside (.node d ix r0 r1) →
        c.Inside (.node d' ix' c0 c1) → r.data.geo.box = some u → c.data.geo.box = some v →
        u.Valid → v.Valid → u.Sub bx → v.Sub by' → strongAdm eta d d' = true →
        ∃ R ∈ rowTree.subtrees, ∃ C ∈ colTree.subtrees, r.Inside R ∧ c.Inside C ∧
        ∃ X Y x y, R.data.geo.box = some X ∧ C.data.geo.box = some Y ∧
          r.data.geo.box = some x ∧ c.data.geo.box = some y ∧
          min R.data.geo.diameter C.data.geo.diameter < eta * X.distance Y ∧
          X.distance Y ≤ x.distance y := by
      intro r c u v ir ic hr hc hu hv su sv had
      obtain ⟨x, y, hx, hy, hlt⟩ := strongAdm_true had
      have e1' := e1; have f1' := f1
      rw [hx] at e1'; injection e1' with e1'; subst e1'
      rw [hy] at f1'; injection f1' with f1'; subst f1'
      exact ⟨_, h1, _, h2, ir, ic, _, _, u, v, hx, hy, hr, hc, hlt,
        Real.sqrt_le_sqrt (Box.distSq_mono _ _ _ _ hu hv su sv)⟩
    have a0 : r0.Inside (.node d ix r0 r1) := ⟨by simp only [data_node]; omega, by simp only [data_node]; omega⟩
    have a1 : r1.Inside (.node d ix r0 r1) := ⟨by simp only [data_node]; omega, by simp only [data_node]; omega⟩
    have b0 : c0.Inside (.node d' ix' c0 c1) := ⟨by simp only [data_node]; omega, by simp only [data_node]; omega⟩
    have b1 : c1.Inside (.node d' ix' c0 c1) := ⟨by simp only [data_node]; omega, by simp only [data_node]; omega⟩
    exact ⟨⟨m1.1, m2.1, key _ _ _ _ a0 b0 e2 f2 v1 w1 s1 t1⟩,
      ⟨m1.1, m2.2, key _ _ _ _ a0 b1 e2 f3 v1 w2 s1 t2⟩,
      ⟨m1.2, m2.1, key _ _ _ _ a1 b0 e3 f2 v2 w1 s2 t1⟩,
      ⟨m1.2, m2.2, key _ _ _ _ a1 b1 e3 f3 v2 w2 s2 t2⟩⟩
  · intro had
    obtain ⟨x, y, hx, hy, hlt⟩ := strongAdm_true had
    exact ⟨_, self_mem_subtrees _, _, self_mem_subtrees _, ⟨le_refl _, le_refl _⟩,
      ⟨le_refl _, le_refl _⟩, x, y, x, y, hx, hy, hx, hy, hlt, le_refl _⟩

/-- Example for C07: two unit cubes at distance 9, one dof on each side: the single leaf block is
marked admissible. -/
example : ∃ b ∈ leafNodes (blockClusterTree weakAdm 100
        (clusterTree (geoOf (fun _ => Box.mk6 (K := ℝ) 0 1 0 1 0 1) (fun _ => 1)) (revSorter _) 1 1)
        (clusterTree (geoOf (fun _ => Box.mk6 (K := ℝ) 10 11 0 1 0 1) (fun _ => 1)) (revSorter _) 1 1)),
      b.data.adm = true := by
  have h : ∀ x : ℝ, clusterBox (fun _ : Nat => Box.mk6 (K := ℝ) x (x + 1) 0 1 0 1) [0] =
      some (Box.mk6 x (x + 1) 0 1 0 1) := by
    intro x
    simp only [clusterBox, List.flatMap_cons, List.flatMap_nil, List.append_nil, Box.corners,
      boxOfPoints, List.foldl]
    congr 1
    simp only [Box.mk6, Box.mk.injEq]
    constructor <;> funext d <;> fin_cases d <;> simp
  have h0 := h 0
  have h10 := h 10
  norm_num at h0 h10
  have one : ∀ (geo : List Nat → GeoData ℝ) (srt : Sorter (GeoData ℝ)),
      clusterTree geo srt 1 1 = .leaf ⟨0, 1, geo [0]⟩ [0] := by
    intro geo srt
    rw [clusterTree, splitTree, if_pos (by simp [toSizeT])]
    rfl
  rw [one, one]
  simp [blockClusterTree, geoOf, splitBlock, leafNodes, leafLoop, NTree.isLeaf, children, NTree.data, CTree.data, weakAdm, h0,
    h10]
  simp [Box.distance, Box.distSq, Box.intervalDistance, Box.mk6]
  norm_num

end Verif.HMat
