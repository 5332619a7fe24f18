import Verif.Props.DofBoxesBary
import Verif.Props.BlockClusterTree
import Verif.Props.BoundingBox
/-
Property C115, continued: the boxes of the dofs in the H-matrix code.
-/
namespace Verif.DofGeo
open Verif.Grid Verif.HMat Verif.HMat.NTree
noncomputable section

theorem leaf_subtrees {G : Type} (adm : NodeData G → NodeData G → Bool) (maxB : Int) (row col : CTree G) :
    ∀ b ∈ leafNodes (blockClusterTree adm maxB row col), b.data.row ∈ row.subtrees ∧ b.data.col ∈ col.subtrees := by
  intro b hb
  refine (splitBlock_leaves adm maxB (fun r c _ => r ∈ row.subtrees ∧ c ∈ col.subtrees) ?_ row col _
    ⟨self_mem_subtrees row, self_mem_subtrees col⟩ b ((leafNodes_perm _).mem_iff.mp hb)).1
  intro d ix r0 r1 d' ix' c0 c1 f ⟨h1, h2⟩
  have m1 := child_mem_subtrees h1
  have m2 := child_mem_subtrees h2
  exact ⟨⟨m1.1, m2.1⟩, ⟨m1.1, m2.2⟩, ⟨m1.2, m2.1⟩, ⟨m1.2, m2.2⟩⟩

theorem box_nonempty {b : BBox} {S : P3 ℝ → Prop} (h : IsBoundingBox b S) : ∃ p, S p := by
  by_contra hn
  have hn : ∀ p, ¬ S p := fun p hp => hn ⟨p, hp⟩
  have h1 := (h.least ⟨0, 0, 0⟩ ⟨0, 0, 0⟩ fun p hp => absurd hp (hn p)).1
  have h2 := (h.least ⟨1, 1, 1⟩ ⟨1, 1, 1⟩ fun p hp => absurd hp (hn p)).1
  have h3 := h1.2.1
  have h4 := h2.1
  simp only at h3 h4
  linarith

theorem hmat_has (boxes : List BBox) (S : Nat → P3 ℝ → Prop) (h : BoxesOf boxes S) (i : Nat) (hi : i < boxes.length) (p : P3 ℝ)
    (hp : S i p) : (hmatBoxes boxes i).Has (vec p) := by
  have hb := List.getElem?_eq_getElem hi
  have := (h i _ hb).holds p hp
  unfold hmatBoxes
  rw [List.getD_eq_getElem?_getD, hb, Option.getD_some]
  obtain ⟨h1, h2, h3, h4, h5, h6⟩ := this
  intro d
  fin_cases d
  · exact ⟨h1, h2⟩
  · exact ⟨h3, h4⟩
  · exact ⟨h5, h6⟩

theorem hmat_valid (boxes : List BBox) (S : Nat → P3 ℝ → Prop) (h : BoxesOf boxes S) (i : Nat) (hi : i < boxes.length) :
    (hmatBoxes boxes i).Valid := by
  obtain ⟨p, hp⟩ := box_nonempty (h i _ (List.getElem?_eq_getElem hi))
  have := hmat_has boxes S h i hi p hp
  exact fun d => (this d).1.trans (this d).2

theorem in_cluster_lt (boxes : List BBox) (diam : List Nat → ℝ) (srt : Sorter (GeoData ℝ)) (minB : Int) (p : DofPermutation)
    (hp : dofPermutation (geoOf (hmatBoxes boxes) diam) srt minB boxes.length = some p) (c : CTree (GeoData ℝ)) (i : Nat)
    (hi : InCluster p c i) : i < boxes.length := by
  obtain ⟨p', hp', hlen, -⟩ := C01_dof_permutation_bijective (geoOf (hmatBoxes boxes) diam) srt minB boxes.length
  rw [hp] at hp'
  cases hp'
  obtain ⟨j, hj, -⟩ := hi
  have := (List.getElem?_eq_some_iff.mp hj).1
  omega

theorem cluster_has (boxes : List BBox) (S : Nat → P3 ℝ → Prop) (h : BoxesOf boxes S) (diam : List Nat → ℝ) (srt : Sorter (GeoData ℝ))
    (minB : Int) (p : DofPermutation) (hp : dofPermutation (geoOf (hmatBoxes boxes) diam) srt minB boxes.length = some p)
    (c : CTree (GeoData ℝ)) (hc : c ∈ (clusterTree (geoOf (hmatBoxes boxes) diam) srt minB boxes.length).subtrees) (hn : 0 < boxes.length)
    (X : Box ℝ) (hX : c.data.geo.box = some X) (i : Nat) (hi : InCluster p c i) (q : P3 ℝ) (hq : S i q) : X.Has (vec q) := by
  obtain ⟨X', hX', hhull⟩ := C04_node_box_is_hull_of_range (hmatBoxes boxes) diam srt minB boxes.length hn
    (hmat_valid boxes S h) p hp c hc
  rw [hX] at hX'
  cases hX'
  have hil : i < boxes.length := by
    obtain ⟨p', hp', hlen, -⟩ := C01_dof_permutation_bijective (geoOf (hmatBoxes boxes) diam) srt minB boxes.length
    rw [hp] at hp'
    cases hp'
    obtain ⟨j, hj, -⟩ := hi
    have := (List.getElem?_eq_some_iff.mp hj).1
    omega
  have h1 := hmat_has boxes S h i hil q hq
  have h2 := hhull.1 i hi
  exact fun d => ⟨(h2 d).1.trans (h1 d).1, (h1 d).2.trans (h2 d).2⟩

/-- **C115** (weak admissibility) Cluster trees of the dofs of two spaces, with the boxes of the dofs: for every block that is stored in
low-rank form there is a positive distance that separates the supports of all dofs of its rows from those of all dofs of its columns.  The
kernel has no singularity there. -/
theorem C115_weak_admissible_supports (boxesR boxesC : List BBox) (SR SC : Nat → P3 ℝ → Prop) (hR : BoxesOf boxesR SR)
    (hC : BoxesOf boxesC SC) (diamR diamC : List Nat → ℝ) (srtR srtC : Sorter (GeoData ℝ)) (minR minC maxB : Int)
    (pR pC : DofPermutation) (hpR : dofPermutation (geoOf (hmatBoxes boxesR) diamR) srtR minR boxesR.length = some pR)
    (hpC : dofPermutation (geoOf (hmatBoxes boxesC) diamC) srtC minC boxesC.length = some pC) :
    ∀ b ∈ leafNodes (blockClusterTree weakAdm maxB (clusterTree (geoOf (hmatBoxes boxesR) diamR) srtR minR boxesR.length)
        (clusterTree (geoOf (hmatBoxes boxesC) diamC) srtC minC boxesC.length)), b.data.adm = true →
      ∃ d > 0, ∀ i k, InCluster pR b.data.row i → InCluster pC b.data.col k → ∀ x y, SR i x → SC k y →
        d ≤ Real.sqrt (Box.sqDist (vec x) (vec y)) := by
  intro b hb hadm
  obtain ⟨X, Y, hX, hY, hpos⟩ := C07_weak_separation (hmatBoxes boxesR) (hmatBoxes boxesC) diamR diamC srtR srtC minR minC
    boxesR.length boxesC.length maxB (hmat_valid boxesR SR hR) (hmat_valid boxesC SC hC) b hb hadm
  obtain ⟨m1, m2⟩ := leaf_subtrees _ _ _ _ b hb
  refine ⟨_, hpos, ?_⟩
  intro i k hi hk x y hx hy
  have hiR := in_cluster_lt boxesR diamR srtR minR pR hpR _ i hi
  have hkC := in_cluster_lt boxesC diamC srtC minC pC hpC _ k hk
  have h1 := cluster_has boxesR SR hR diamR srtR minR pR hpR _ m1 (by omega) X hX i hi x hx
  have h2 := cluster_has boxesC SC hC diamC srtC minC pC hpC _ m2 (by omega) Y hY k hk y hy
  exact (C10_distance_is_set_distance X Y (fun d => (h1 d).1.trans (h1 d).2) (fun d => (h2 d).1.trans (h2 d).2)).1 _ _ h1 h2

/-- **C115** (strong admissibility) The same for the condition with parameter `eta`: the distance of the supports, times `eta`, is larger
than the smaller of the diameters of two clusters that contain those of the block. -/
theorem C115_strong_admissible_supports (eta : ℝ) (boxesR boxesC : List BBox) (SR SC : Nat → P3 ℝ → Prop) (hR : BoxesOf boxesR SR)
    (hC : BoxesOf boxesC SC) (diamR diamC : List Nat → ℝ) (srtR srtC : Sorter (GeoData ℝ)) (minR minC maxB : Int)
    (pR pC : DofPermutation) (hpR : dofPermutation (geoOf (hmatBoxes boxesR) diamR) srtR minR boxesR.length = some pR)
    (hpC : dofPermutation (geoOf (hmatBoxes boxesC) diamC) srtC minC boxesC.length = some pC) :
    let rowTree := clusterTree (geoOf (hmatBoxes boxesR) diamR) srtR minR boxesR.length
    let colTree := clusterTree (geoOf (hmatBoxes boxesC) diamC) srtC minC boxesC.length
    ∀ b ∈ leafNodes (blockClusterTree (strongAdm eta) maxB rowTree colTree), b.data.adm = true →
      ∃ R ∈ rowTree.subtrees, ∃ C ∈ colTree.subtrees, b.data.row.Inside R ∧ b.data.col.Inside C ∧
      ∃ d ≥ 0, min R.data.geo.diameter C.data.geo.diameter < eta * d ∧
        ∀ i k, InCluster pR R i → InCluster pC C k → ∀ x y, SR i x → SC k y → d ≤ Real.sqrt (Box.sqDist (vec x) (vec y)) := by
  intro rowTree colTree b hb hadm
  obtain ⟨R, mR, C, mC, iR, iC, X, Y, x, y, hX, hY, hx, hy, hlt, hle⟩ := C07_strong_separation eta (hmatBoxes boxesR) (hmatBoxes boxesC)
    diamR diamC srtR srtC minR minC boxesR.length boxesC.length maxB (hmat_valid boxesR SR hR) (hmat_valid boxesC SC hC) b hb hadm
  refine ⟨R, mR, C, mC, iR, iC, _, Real.sqrt_nonneg _, hlt, ?_⟩
  intro i k hi hk x y hx hy
  have hiR := in_cluster_lt boxesR diamR srtR minR pR hpR _ i hi
  have hkC := in_cluster_lt boxesC diamC srtC minC pC hpC _ k hk
  have h1 := cluster_has boxesR SR hR diamR srtR minR pR hpR _ mR (by omega) X hX i hi x hx
  have h2 := cluster_has boxesC SC hC diamC srtC minC pC hpC _ mC (by omega) Y hY k hk y hy
  exact (C10_distance_is_set_distance X Y (fun d => (h1 d).1.trans (h1 d).2) (fun d => (h2 d).1.trans (h2 d).2)).1 _ _ h1 h2

/-- Non-vacuity: the continuous piecewise linear functions and the RWG functions on the two triangles `kite`; the boxes of all dofs exist,
and that of the RWG function is not the box of a single triangle. -/
example (junk : P3 ℝ) : ∃ mr mp bp, Verif.Space.assignRWG (kite.data.view fun _ => 1) (Verif.Grid.wholeGrid (kite.data.view fun _ => 1)) ⟨true, false⟩ false = .ok mr ∧
    Verif.Space.assignP1 (kite.data.view fun _ => 1) (Verif.Grid.wholeGrid (kite.data.view fun _ => 1)) false = .ok mp ∧
    defaultBoxes 2 junk (kite.data.view fun _ => 1) (nodeAt kite.nodes) mp.global2local = some bp ∧ bp.length = 4 ∧
    BoxesOf bp (InSupport (kite.data.view fun _ => 1) (nodeAt kite.nodes) mp) ∧
    BoxesOf (rwgBoxes 2 junk (kite.data.view fun _ => 1) (nodeAt kite.nodes) (Verif.Grid.wholeGrid (kite.data.view fun _ => 1)) ⟨true, false⟩ false)
      (InSupport (kite.data.view fun _ => 1) (nodeAt kite.nodes) mr) ∧
    ∃ b : BBox, (rwgBoxes 2 junk (kite.data.view fun _ => 1) (nodeAt kite.nodes) (Verif.Grid.wholeGrid (kite.data.view fun _ => 1))
      ⟨true, false⟩ false)[0]? = some b ∧ Between b.lbound ⟨2, 2, 0⟩ b.ubound ∧ Between b.lbound ⟨0, 0, 0⟩ b.ubound := by
  obtain ⟨mr, hmr, hcr, hat⟩ := kite_rwg
  obtain ⟨mp, hmp, hcp⟩ : ∃ mp, Verif.Space.assignP1 (kite.data.view fun _ => 1) (Verif.Grid.wholeGrid (kite.data.view fun _ => 1)) false = .ok mp ∧
    mp.globalDofCount = 4 := ⟨_, rfl, by decide +kernel⟩
  obtain ⟨bp, hbp, hlen, hall, -⟩ := C115_p1_boxes 2 junk _ kite_mesh.wf (Or.inr rfl) (nodeAt kite.nodes) (kite_finite 2 (le_refl _))
    (Verif.Grid.wholeGrid (kite.data.view fun _ => 1)) (fun _ => rfl) false mp hmp
  obtain ⟨rlen, rall⟩ := C115_rwg_boxes 2 junk _ kite_mesh (nodeAt kite.nodes) (kite_finite 2 (le_refl _))
    (Verif.Grid.wholeGrid (kite.data.view fun _ => 1)) ⟨true, false⟩ false mr hmr
  refine ⟨mr, mp, bp, hmr, hmp, hbp, hlen.trans hcp, hall, fun i b h => (rall i b h).1, ?_⟩
  have h0 := List.getElem?_eq_getElem (show 0 < (rwgBoxes 2 junk (kite.data.view fun _ => 1) (nodeAt kite.nodes)
    (Verif.Grid.wholeGrid (kite.data.view fun _ => 1)) ⟨true, false⟩ false).length by rw [rlen, hcr]; decide)
  refine ⟨_, h0, ?_, ?_⟩
  · refine (rall 0 _ h0).1.holds _ ?_
    obtain ⟨e, he, hi, hsub⟩ := view_elem_intro kite.data (fun _ => 1) 1 ⟨2, 1, 3⟩ rfl
    refine ⟨e, he, 0, ?_, ?_⟩
    · rw [hi]
      cases hmr
      rfl
    · refine corner_in_hull _ _ (List.mem_map.mpr ⟨3, ?_, rfl⟩)
      show 3 ∈ e.sub 2
      rw [hsub]; decide
  · refine (rall 0 _ h0).1.holds _ ?_
    obtain ⟨e, he, hi, hsub⟩ := view_elem_intro kite.data (fun _ => 1) 0 ⟨0, 1, 2⟩ rfl
    refine ⟨e, he, 2, ?_, ?_⟩
    · rw [hi]; exact hat
    · refine corner_in_hull _ _ (List.mem_map.mpr ⟨0, ?_, rfl⟩)
      show 0 ∈ e.sub 2
      rw [hsub]; decide

end
end Verif.DofGeo
