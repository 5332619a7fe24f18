import Verif.Props.DofBoxes
import Verif.Props.BuffaChristiansen
import Verif.Props.SpaceVector
import Verif.Props.SpacePolyDisc
/-
Property C115, continued: the spaces on the barycentric refinement.
-/
namespace Verif.DofGeo
open Verif.Grid Verif.Space
noncomputable section

theorem view_elem {d : DataContainer} {domain : Nat → Int} {e : Elem} (he : e ∈ (d.view domain).elems) :
    ∃ t, d.elements[e.index]? = some t ∧ e.sub 2 = t.verts := by
  simp only [DataContainer.view, List.mem_map, List.mem_range] at he
  obtain ⟨i, hi, rfl⟩ := he
  exact ⟨d.elements[i], by simp [hi], by simp [hi]⟩

theorem view_elem_intro (d : DataContainer) (domain : Nat → Int) (F : Nat) (t : Tri) (h : d.elements[F]? = some t) :
    ∃ e ∈ (d.view domain).elems, e.index = F ∧ e.sub 2 = t.verts := by
  have hi := (List.getElem?_eq_some_iff.mp h).1
  refine ⟨_, List.mem_map.mpr ⟨F, List.mem_range.mpr hi, rfl⟩, rfl, ?_⟩
  simp [h]

/-- **C115** (Buffa-Christiansen and rotated Buffa-Christiansen spaces) On an oriented surface the box of the dof of each shared side is
the smallest box containing the triangles of the refinement at the two ends of the side, on which the basis function lives; the position
is the midpoint of a side of one of these triangles. -/
theorem C115_bc_boxes (big : ℝ) (junk : P3 ℝ) (g : GridData ℝ) (hg : g.Valid) (hs : OrientedSurface g) (b : GridData ℝ) (son : Nat → Nat → Nat)
    (h : barycentricGridSonPair g = .ok (b, son)) (dom dom' : Nat → Int) (checked : Bool) (seg : GridSegment) (mode : DofMode)
    (hmode : mode.edgeOnSegment = true ∨ mode.elementOnSegment = true) (hfin : Finite big (b.data.view dom') (nodeAt b.nodes)) :
    ∃ st dof, assignBC ℝ checked (g.data.view dom) (b.data.view dom') son seg mode false = .ok st ∧ BcBasis g b st dof ∧
      (bcBoxes big junk st.maps.globalDofCount (b.data.view dom') (nodeAt b.nodes) st.local2global).length = st.maps.globalDofCount ∧
      ∀ a z e0 e1, SharedSide g a z e0 e1 →
        ∃ bb : BBox, (bcBoxes big junk st.maps.globalDofCount (b.data.view dom') (nodeAt b.nodes) st.local2global)[dof s(a, z)]? = some bb ∧
          IsBoundingBox bb (fun p => ∃ (F : Nat) (t : Tri), b.data.elements[F]? = some t ∧ (a ∈ t.verts ∨ z ∈ t.verts) ∧
            InHull (t.verts.map (nodeAt b.nodes)) p) ∧
          ∃ (F : Nat) (t : Tri), b.data.elements[F]? = some t ∧ (a ∈ t.verts ∨ z ∈ t.verts) ∧
            bb.reference = middle (nodeAt b.nodes t.a) (nodeAt b.nodes t.b) := by
  obtain ⟨st, dof, h1, hcons, hbas⟩ := C96_basis g hg hs b son h dom dom' checked seg mode hmode
  obtain ⟨hb, hbe, hson⟩ := bc_grid g hg b son h
  refine ⟨st, dof, h1, hbas, loopBoxes_length .., ?_⟩
  intro a z e0 e1 hsh
  have hlt := (hbas.range (dof s(a, z))).mpr ⟨a, z, e0, e1, hsh, rfl⟩
  have hocc : ∀ F t, b.data.elements[F]? = some t →
      ((∃ i, st.maps.At ⟨F, i⟩ (dof s(a, z) : Nat)) ↔ a ∈ t.verts ∨ z ∈ t.verts) := by
    intro F t ht
    have h3 := hbas.occurs a z e0 e1 hsh F t ht
    have h4 : (∃ i, st.maps.At ⟨F, i⟩ (dof s(a, z) : Nat)) ↔ ((dof s(a, z) : Nat) : Int) ∈ st.maps.getGlobalDofs F := by
      rw [List.mem_iff_getElem?]; rfl
    rw [h4, ← List.count_pos_iff, h3]
    split <;> simp_all
  have hused : ∃ e ∈ (b.data.view dom').elems, ∃ i, st.maps.At ⟨e.index, i⟩ (dof s(a, z) : Nat) := by
    obtain ⟨t, ht, htr⟩ := hsh.first
    obtain ⟨x, hx, -, hxa, -⟩ := traverses_corner g e0 t ht a z htr
    have hf := fine_elem g hg b hb hbe (2 * x) (by omega)
    obtain ⟨e, he, hei, -⟩ := view_elem_intro b.data dom' _ _ hf
    refine ⟨e, he, ?_⟩
    rw [hei]
    refine (hocc _ _ hf).mpr (Or.inl ?_)
    rw [fineTri_even, ← hxa]
    exact List.mem_cons_self
  obtain ⟨bb, hbb, hbox, e, he, q, hq, hr⟩ := loop_box' big junk (b.data.view dom')
    (by
      intro e he i hi
      obtain ⟨t, ht, hsub⟩ := view_elem he
      have hi' : i ∈ e.sub 2 := hi
      rw [hsub] at hi'
      exact hb.mesh.range t (List.mem_of_getElem? ht) i hi')
    (by
      intro e he hnil
      obtain ⟨t, ht, hsub⟩ := view_elem he
      have : e.sub 2 = [] := hnil
      rw [hsub] at this
      simp [Tri.verts] at this)
    (nodeAt b.nodes) hfin st.maps
    (fun e => (st.local2global.getD e.index []).map fun g => (g, midpoint (cornersOf (b.data.view dom') (nodeAt b.nodes) e) 0 1))
    (by
      intro e he g
      constructor
      · rintro ⟨q, hq⟩
        obtain ⟨w, hw, hwq⟩ := List.mem_map.mp hq
        simp only [Prod.mk.injEq] at hwq
        obtain ⟨i, hi⟩ := List.mem_iff_getElem?.mp hw
        exact ⟨i, by rw [← hwq.1]; exact hi⟩
      · rintro ⟨i, hi⟩
        exact ⟨_, List.mem_map.mpr ⟨_, List.mem_of_getElem? hi, rfl⟩⟩)
    _ _ hlt hused
  refine ⟨bb, hbb, ?_, ?_⟩
  · have : InSupport (b.data.view dom') (nodeAt b.nodes) st.maps (dof s(a, z)) =
        fun p => ∃ (F : Nat) (t : Tri), b.data.elements[F]? = some t ∧ (a ∈ t.verts ∨ z ∈ t.verts) ∧ InHull (t.verts.map (nodeAt b.nodes)) p := by
      funext p
      apply propext
      constructor
      · rintro ⟨e, he, i, hat, hp⟩
        obtain ⟨t, ht, hsub⟩ := view_elem he
        refine ⟨_, t, ht, (hocc _ _ ht).mp ⟨i, hat⟩, ?_⟩
        rw [← hsub]; exact hp
      · rintro ⟨F, t, ht, hv, hp⟩
        obtain ⟨e, he, hei, hsub⟩ := view_elem_intro b.data dom' _ _ ht
        obtain ⟨i, hi⟩ := (hocc _ _ ht).mpr hv
        refine ⟨e, he, i, by rw [hei]; exact hi, ?_⟩
        show InHull ((e.sub 2).map _) p
        rw [hsub]; exact hp
    rw [← this]
    exact hbox
  · obtain ⟨w, hw, hwq⟩ := List.mem_map.mp hq
    simp only [Prod.mk.injEq] at hwq
    obtain ⟨i, hi⟩ := List.mem_iff_getElem?.mp hw
    obtain ⟨t, ht, hsub⟩ := view_elem he
    refine ⟨_, t, ht, (hocc _ _ ht).mp ⟨i, by rw [← hwq.1]; exact hi⟩, ?_⟩
    rw [hr, ← hwq.2]
    have : cornersOf (b.data.view dom') (nodeAt b.nodes) e = t.verts.map (nodeAt b.nodes) := by
      unfold cornersOf
      show (e.sub 2).map _ = _
      rw [hsub]
    rw [this]
    simp only [midpoint, middle, Tri.verts, List.map_cons, List.getD_cons_zero, List.getD_cons_succ, P3.mk.injEq]
    norm_num
    refine ⟨?_, ?_, ?_⟩ <;> ring

/-- **C115, partial** (the four vector spaces on the barycentric refinement) On a triangular mesh of which no edge has more than two
neighbours there is a box for each dof of the coarse space; its position is the midpoint of the edge of the dof, and the box is the bounding
box of the triangle with the lowest number of those on which the dof lives.  Missing: the other triangle, see
`C115_counterexample_barycentric`. -/
theorem C115_barycentric_vector_partial (big : ℝ) (junk : P3 ℝ) (v : View) (hv : TriMesh v) (coord : Nat → P3 ℝ)
    (hfin : Finite big v coord) (hman : ∀ f, (adjacentElems v f).length ≤ 2) (mode : DofMode) (pb : Bool) (m : DofMaps)
    (hm : assignRWG v (wholeGrid v) mode pb = .ok m) :
    (baryVectorBoxes big junk v coord pb).length = m.globalDofCount ∧
    ∀ (g : Nat) b, (baryVectorBoxes big junk v coord pb)[g]? = some b → ∃ e ∈ v.elems, ∃ i, m.At ⟨e.index, i⟩ (g : Int) ∧
      (∀ e' ∈ v.elems, ∀ i', m.At ⟨e'.index, i'⟩ (g : Int) → e.index ≤ e'.index) ∧
      IsBoundingBox b (InHull ((e.sub 2).map coord)) ∧
      ∀ p q, edgeEnds e i = s(p, q) → b.reference = middle (coord p) (coord q) := by
  classical
  have ht : Triangular v := ⟨hv.dim, hv.corners⟩
  have hnum := numbering_whole v hv.wf hv.dim mode pb hman
  obtain ⟨m', h1, hcons, hcount, hel⟩ := C43_dof_maps v hv.wf ht (wholeGrid v) mode pb
  rw [hm] at h1
  cases h1
  have hc0 : (baryNumbering v pb).2 = m.globalDofCount := by rw [← hnum, rwgNumbering_count v hv.wf, hcount]
  have hwhole : ∀ e ∈ v.elems, mode.elementOnSegment = true → (wholeGrid v).contains 0 e.index = .ok true := by
    intro e he _
    exact contains_wholeGrid v 0 e.index (by omega) (hv.wf.has_lt e he 0 e.index (by omega) (Or.inl ⟨rfl, rfl⟩))
  refine ⟨by rw [← hc0]; exact loopBoxes_length .., ?_⟩
  intro g b hb
  have hglt : g < (baryNumbering v pb).2 := by
    rw [← loopBoxes_length big junk (baryNumbering v pb).2 v.elems (cornersOf v coord) (baryVectorUses v coord pb)]
    exact (List.getElem?_eq_some_iff.mp hb).1
  obtain ⟨f, hflt, hf, hcf⟩ := countBelow_surj _ _ _ (by rw [← hcount, ← hc0]; exact hglt)
  have hedge : ∀ e ∈ v.elems, ∀ (i f' : Nat), (e.sub 1)[i]? = some f' → f' < v.count 1 := by
    intro e he i f' h
    exact hv.wf.has_lt e he 1 f' (by rw [hv.dim]; decide) (Or.inr ⟨by decide, List.mem_of_getElem? h⟩)
  have hN : ∀ f', f' < v.count 1 → ((baryNumbering v pb).1.getD f' (-1) = (g : Int) ↔ f' = f) := by
    intro f' h'
    rw [← hnum, rwgNumbering_get v hv.wf _ mode pb f' h']
    constructor
    · intro h
      by_cases hp : RWGEdge v (wholeGrid v) mode pb f'
      · rw [if_pos hp] at h
        exact countBelow_inj _ hp hf ((Nat.cast_inj.mp h).trans hcf.symm)
      · rw [if_neg hp] at h; omega
    · rintro rfl
      rw [if_pos hf, hcf]
  -- the triangle with the lowest number
  have hlow : ∃ k, (baryScan v)[f]?.bind (·.lowest) = some k := by
    unfold baryScan
    rw [rwgScan_get v hv.wf _ _ f hflt, Option.bind_some, countedElems_eq v (wholeGrid v) ⟨false, false⟩ f (fun h => by cases h)]
    cases hl : ((adjacentElems v f).foldl (scanUpdate (wholeGrid v)) ⟨0, true, none⟩).lowest with
    | none =>
      have := scan_lowest_none _ _ _ hl
      have h2 := hf.2.1
      rw [this] at h2
      simp at h2
    | some k => exact ⟨k, rfl⟩
  obtain ⟨k, hk⟩ := hlow
  have hk2 := hk
  unfold baryScan at hk2
  rw [rwgScan_get v hv.wf _ _ f hflt, Option.bind_some, countedElems_eq v (wholeGrid v) ⟨false, false⟩ f (fun h => by cases h)] at hk2
  obtain ⟨hmin, -, hex⟩ := scan_lowest _ _ _ _ hk2
  obtain ⟨e0, he0, hek⟩ : ∃ e ∈ adjacentElems v f, e.index = k := by
    rcases hex with h | h
    · exact h
    · cases h
  have he0' := List.mem_filter.mp he0
  have hf0 : f ∈ e0.sub 1 := by simpa using he0'.2
  obtain ⟨i0, hi0⟩ := List.mem_iff_getElem?.mp hf0
  have hi3 : i0 < 3 := by rw [← hv.edges e0 he0'.1]; exact (List.getElem?_eq_some_iff.mp hi0).1
  have hbasis : ∀ j < 3, element2Basis 0 j = j := by decide
  have hgetD : ∀ e ∈ v.elems, ∀ j < 3, (e.sub 1)[j]? = some ((e.sub 1).getD j 0) := by
    intro e he j hj
    have : j < (e.sub 1).length := by rw [hv.edges e he]; exact hj
    rw [List.getD_eq_getElem?_getD, List.getElem?_eq_getElem this]; rfl
  -- only this triangle is used
  have huse : ∀ e ∈ v.elems, ∀ q, ((g : Int), q) ∈ baryVectorUses v coord pb e →
      e = e0 ∧ q = edgePosition (cornersOf v coord e0) i0 := by
    intro e he q hq
    unfold baryVectorUses at hq
    obtain ⟨j, hj, hjq⟩ := List.mem_map.mp hq
    obtain ⟨hj3, hjl⟩ := List.mem_filter.mp hj
    have hj3 := List.mem_range.mp hj3
    rw [hbasis j hj3] at hjl hjq
    simp only [Prod.mk.injEq] at hjq
    have hfj := hgetD e he j hj3
    have hff : (e.sub 1).getD j 0 = f := (hN _ (hedge e he j _ hfj)).mp hjq.1
    rw [hff, hk] at hjl
    have hidx : e.index = e0.index := by rw [hek]; exact (Option.some.inj (by simpa using hjl)).symm
    have hee : e = e0 := List.inj_on_of_nodup_map hv.wf.index_nodup he he0'.1 hidx
    subst hee
    refine ⟨rfl, ?_⟩
    rw [hff] at hfj
    have : j = i0 := by
      have h1 := (List.getElem?_eq_some_iff.mp hfj)
      have h2 := (List.getElem?_eq_some_iff.mp hi0)
      exact ((hv.wf.facets_nodup e he).getElem_inj_iff).mp (h1.2.trans h2.2.symm)
    rw [← hjq.2, this]
  have huse0 : ((g : Int), edgePosition (cornersOf v coord e0) i0) ∈ baryVectorUses v coord pb e0 := by
    unfold baryVectorUses
    have hff : (e0.sub 1).getD i0 0 = f := by rw [List.getD_eq_getElem?_getD, hi0]; rfl
    refine List.mem_map.mpr ⟨i0, List.mem_filter.mpr ⟨List.mem_range.mpr hi3, ?_⟩, ?_⟩
    · rw [hbasis i0 hi3, hff, hk, hek]; simp
    · rw [hbasis i0 hi3, hff, (hN f hflt).mpr rfl]
  obtain ⟨b', hb', hin, href⟩ := loopBoxes_get big junk (baryNumbering v pb).2 v.elems (cornersOf v coord) (baryVectorUses v coord pb) g hglt
  unfold baryVectorBoxes at hb
  rw [hb] at hb'
  cases hb'
  have hat0 : m.At ⟨e0.index, i0⟩ (g : Int) := by
    rw [← hcf]
    exact (hel e0 he0'.1 i0 f hi0).1 ⟨hf, hwhole e0 he0'.1⟩
  refine ⟨e0, he0'.1, i0, hat0, ?_, ?_, ?_⟩
  · intro e' he' i' hat'
    rw [hek]
    refine hmin e' (List.mem_filter.mpr ⟨he', ?_⟩)
    have hlen : ∃ f', (e'.sub 1)[i']? = some f' := by
      have hmeq := hm
      rw [assignRWG_ok v ht] at hmeq
      rw [← Except.ok.inj hmeq, writeElements_at (rwg_good v hv.wf hv.dim (wholeGrid v) mode pb)] at hat'
      obtain ⟨e2, he2, hi2, hw⟩ := hat'
      have : e2 = e' := List.inj_on_of_nodup_map hv.wf.index_nodup he2 he' hi2
      subst this
      unfold rwgWrites at hw
      rw [mem_zipIdx_map] at hw
      obtain ⟨f', hf', -⟩ := hw
      exact ⟨f', hf'⟩
    obtain ⟨f', hf'⟩ := hlen
    have h5 := hel e' he' i' f' hf'
    unfold DofMaps.At at hat' h5
    by_cases hp : RWGEdge v (wholeGrid v) mode pb f' ∧ (mode.elementOnSegment = true → (wholeGrid v).contains 0 e'.index = .ok true)
    · have h7 := hat'.symm.trans (h5.1 hp)
      simp only [Option.some.injEq, Nat.cast_inj] at h7
      have : f' = f := countBelow_inj _ hp.1 hf (h7.symm.trans hcf.symm)
      rw [← this]
      simpa using List.mem_of_getElem? hf'
    · have h7 := hat'.symm.trans (h5.2 hp)
      simp only [Option.some.injEq] at h7
      omega
  · have hset : (fun p => ∃ pts, pts = cornersOf v coord e0 ∧ InHull pts p) = InHull ((e0.sub 2).map coord) := by
      funext p
      apply propext
      have : cornersOf v coord e0 = (e0.sub 2).map coord := by unfold cornersOf; rw [hv.dim]
      rw [this]
      constructor
      · rintro ⟨_, rfl, h⟩; exact h
      · intro h; exact ⟨_, rfl, h⟩
    rw [← hset]
    refine isBoundingBox_of_corners big junk b _ ?_ ?_ ?_
    · intro lo hi
      rw [hin]
      refine and_congr_right fun _ => forall_congr' fun pts => ?_
      have : (∃ e ∈ v.elems, (∃ q, ((g : Int), q) ∈ baryVectorUses v coord pb e) ∧ pts = cornersOf v coord e) ↔ pts = cornersOf v coord e0 := by
        constructor
        · rintro ⟨e, he, ⟨q, hq⟩, rfl⟩
          rw [(huse e he q hq).1]
        · rintro rfl
          exact ⟨e0, he0'.1, ⟨_, huse0⟩, rfl⟩
      rw [this]
    · have h3 := hv.corners e0 he0'.1
      obtain ⟨i, hi⟩ := List.exists_mem_of_length_pos (l := e0.sub 2) (by omega)
      refine ⟨_, coord i, rfl, List.mem_map.mpr ⟨i, ?_, rfl⟩⟩
      rw [hv.dim]; exact hi
    · rintro _ rfl p hp
      exact coord_finite hv.wf (by rw [hv.dim]; decide) hfin he0'.1 hp
  · intro p q hends
    obtain ⟨e, he, q', hq', hr⟩ := href ⟨e0, he0'.1, _, huse0⟩
    rw [hr, (huse e he q' hq').2]
    unfold cornersOf
    rw [hv.dim]
    exact edgePosition_ends coord e0 (hv.corners e0 he0'.1) i0 hi3 p q hends

/-- Two triangles; the corner of the second one that does not belong to the first is far from it. -/
def kite : GridData ℝ := ⟨[⟨0, 0, 0⟩, ⟨1, 0, 0⟩, ⟨0, 1, 0⟩, ⟨2, 2, 0⟩], (DataContainer.init 4 twoTris).get rfl, [1, 1]⟩

theorem kite_valid : kite.Valid := by
  refine ⟨⟨0, rfl⟩, rfl, rfl, ?_, ?_⟩ <;>
  · intro t ht
    have ht : t ∈ [(⟨0, 1, 2⟩ : Tri), ⟨2, 1, 3⟩] := ht
    simp only [List.mem_cons, List.not_mem_nil, or_false] at ht
    rcases ht with rfl | rfl <;> simp [Tri.verts, Tri.Proper] <;> decide

theorem kite_mesh : TriMesh (kite.data.view fun _ => 1) :=
  triMesh_view 4 twoTris 0 _ rfl kite_valid.mesh (by simp [twoTris]) (by decide) _

theorem kite_finite (big : ℝ) (h : 2 ≤ big) : Finite big (kite.data.view fun _ => 1) (nodeAt kite.nodes) := by
  intro i hi
  have hi : i < 4 := hi
  interval_cases i <;> norm_num [nodeAt, kite, Between] <;> (repeat' apply And.intro) <;> linarith

theorem kite_manifold : ∀ f, (adjacentElems (kite.data.view fun _ => 1) f).length ≤ 2 := by
  intro f
  exact le_trans (List.length_filter_le _ _) (le_of_eq rfl)

theorem kite_rwg : ∃ m, assignRWG (kite.data.view fun _ => 1) (wholeGrid (kite.data.view fun _ => 1)) ⟨true, false⟩ false = .ok m ∧
    m.globalDofCount = 1 ∧ m.At ⟨0, 2⟩ 0 := ⟨_, rfl, by decide, rfl⟩

/-- **C115 is false for the vector spaces on the barycentric refinement**: on two triangles with a common edge the dof of this edge lives
on all parts of both triangles, among them one with the vertex `(2, 2, 0)` as corner, but its box, that of the first triangle only, does
not contain this vertex. -/
theorem C115_counterexample_barycentric (big : ℝ) (hbig : 2 ≤ big) (junk : P3 ℝ) :
    ∃ (b : GridData ℝ) (s : Nat → Nat → Nat), barycentricGridSonPair kite = .ok (b, s) ∧
      ∃ mb w types, assignVectorBary (kite.data.view fun _ => 1) b.data.elements.length s (wholeGrid (kite.data.view fun _ => 1))
        ⟨true, false⟩ false (fun _ => (1 : ℝ)) = .ok (mb, w, types) ∧ mb.globalDofCount = 1 ∧
      ∃ (F : Nat) (t : Tri) (j : Nat), b.data.elements[F]? = some t ∧ mb.At ⟨F, j⟩ 0 ∧ 3 ∈ t.verts ∧
      ∃ bb : BBox, (baryVectorBoxes big junk (kite.data.view fun _ => 1) (nodeAt kite.nodes) false)[0]? = some bb ∧
        ¬ Between bb.lbound (nodeAt b.nodes 3) bb.ubound := by
  obtain ⟨b, s, hbs, hnodes, helems, -, hs, -⟩ := bary_spec kite kite_valid
  refine ⟨b, s, hbs, ?_⟩
  subst hs
  rw [helems, hnodes]
  refine ⟨_, _, _, rfl, by decide, 10, _, 2, rfl, rfl, by decide, ?_⟩
  obtain ⟨m, hm, hcount, hat⟩ := kite_rwg
  obtain ⟨hlen, hall⟩ := C115_barycentric_vector_partial big junk _ kite_mesh (nodeAt kite.nodes) (kite_finite big hbig) kite_manifold
    ⟨true, false⟩ false m hm
  have h0 : 0 < (baryVectorBoxes big junk (kite.data.view fun _ => 1) (nodeAt kite.nodes) false).length := by rw [hlen, hcount]; decide
  have hbb := List.getElem?_eq_getElem h0
  refine ⟨_, hbb, ?_⟩
  obtain ⟨e, he, i, -, hmin, hbox, -⟩ := hall 0 _ hbb
  obtain ⟨e', he', hi', -⟩ := view_elem_intro kite.data (fun _ => 1) 0 ⟨0, 1, 2⟩ rfl
  have h1 : e.index = 0 := by
    have := hmin e' he' 2 (by rw [hi']; exact hat)
    omega
  obtain ⟨t, ht, hsub⟩ := view_elem he
  rw [h1] at ht
  have ht' : t = ⟨0, 1, 2⟩ := (Option.some.inj ht).symm
  rw [hsub, ht'] at hbox
  have h2 := (hbox.least ⟨0, 0, 0⟩ ⟨1, 1, 0⟩ (fun p hp => hull_between _ p _ _ hp (by
    intro q hq
    simp only [Tri.verts, List.map_cons, List.map_nil, List.mem_cons, List.not_mem_nil, or_false] at hq
    rcases hq with rfl | rfl | rfl <;> norm_num [nodeAt, kite, Between]))).2
  intro h3
  have h4 : nodeAt (baryVertices kite) 3 = ⟨2, 2, 0⟩ := rfl
  rw [h4] at h3
  have h5 := h3.2.1
  have h6 := h2.2.1
  simp only at h5 h6
  linarith

end
end Verif.DofGeo
