import Verif.Spec.DofNormals
import Verif.Props.DofBoxesBary
import Verif.Props.ShapeTransformation
import Verif.Props.SpaceBarycentric
/-
Property C116: interpolation points and normals of the scalar spaces.
-/
namespace Verif.DofGeo
open Verif.Grid Verif.Space
noncomputable section

/-- The corner of the reference triangle with number `k`. -/
def refCorner (k : Nat) : ℝ × ℝ := if k = 0 then (0, 0) else if k = 1 then (1, 0) else (0, 1)

theorem pointAt_corner (coord : Nat → P3 ℝ) (e : Elem) (hc : (e.sub 2).length = 3) (k u : Nat) (hk : (e.sub 2)[k]? = some u) :
    pointAt coord e (refCorner k) = coord u := by
  obtain ⟨a, b, c, hl⟩ := List.length_eq_three.mp hc
  rw [hl] at hk
  have h3 : k < 3 := by simpa using (List.getElem?_eq_some_iff.mp hk).1
  unfold pointAt refMap
  rw [hl]
  interval_cases k <;> simp at hk <;> subst hk <;> simp [refCorner]

theorem refCorner_in (k : Nat) : InReference (refCorner k) := by
  unfold InReference refCorner
  split_ifs <;> norm_num

/-- A function of a P1 space at a corner of an element. -/
theorem expand_corner (l : List Int) (hl : l.length = 3) (k j : Nat) (hk : l[k]? = some (j : Int)) (c : Nat → ℝ) :
    expand l c (fun a => p1Shape a (refCorner k)) = c j := by
  obtain ⟨a, b, d, rfl⟩ := List.length_eq_three.mp hl
  have h3 : k < 3 := by simpa using (List.getElem?_eq_some_iff.mp hk).1
  unfold expand
  interval_cases k <;> simp at hk <;> subst hk <;> simp [refCorner, p1Shape, List.zipIdx]

theorem interpolatory_corner {v : View} (hv : TriMesh v) (coord : Nat → P3 ℝ) (m : DofMaps) (x : List (P3 ℝ))
    (hlen : x.length = m.globalDofCount) (hrow : ∀ e ∈ v.elems, (m.getGlobalDofs e.index).length = 3)
    (hused : ∀ j, j < m.globalDofCount → ∃ e ∈ v.elems, ∃ i, m.At ⟨e.index, i⟩ (j : Int))
    (hpos : ∀ (j : Nat) X, x[j]? = some X → ∀ e ∈ v.elems, ∀ i u, m.At ⟨e.index, i⟩ (j : Int) → (e.sub 2)[i]? = some u → X = coord u) :
    Interpolatory v coord m (fun _ a p => p1Shape a p) x := by
  have hcor : ∀ e ∈ v.elems, ∀ i (j : Int), m.At ⟨e.index, i⟩ j → ∃ u, (e.sub 2)[i]? = some u := by
    intro e he i j h
    have h1 := (List.getElem?_eq_some_iff.mp h).1
    have h2 := hrow e he
    have h3 := hv.corners e he
    unfold DofMaps.getGlobalDofs at h2
    have : i < (e.sub 2).length := by
      rw [h3, ← h2]; exact h1
    exact ⟨_, List.getElem?_eq_getElem this⟩
  refine ⟨hlen, ?_, ?_⟩
  · intro j X hX
    obtain ⟨e, he, i, hi⟩ := hused j (by rw [← hlen]; exact (List.getElem?_eq_some_iff.mp hX).1)
    obtain ⟨u, hu⟩ := hcor e he i j hi
    exact ⟨e, he, ⟨i, hi⟩, refCorner i, refCorner_in i, by rw [pointAt_corner coord e (hv.corners e he) i u hu, hpos j X hX e he i u hi hu]⟩
  · rintro j X hX e he ⟨i, hi⟩ hn p - hp c
    obtain ⟨u, hu⟩ := hcor e he i j hi
    have h1 : pointAt coord e (refCorner i) = X := by
      rw [pointAt_corner coord e (hv.corners e he) i u hu, hpos j X hX e he i u hi hu]
    have : p = refCorner i := refMap_inj _ _ _ hn _ _ (hp.trans h1.symm)
    subst this
    exact expand_corner _ (hrow e he) i j hi c

/-- **C116** (continuous P1) On every triangular mesh, every segment and in both modes: the interpolation points are the vertices that carry
the dofs and they interpolate. -/
theorem C116_p1 (big : ℝ) (junk : P3 ℝ) (v : View) (hv : TriMesh v) (coord : Nat → P3 ℝ) (hfin : Finite big v coord) (s : GridSegment)
    (hs : SegmentOf v s) (strict : Bool) (m : DofMaps) (hm : assignP1 v s strict = .ok m) :
    ∃ bs, defaultBoxes big junk v coord m.global2local = some bs ∧
      Interpolatory v coord m (fun _ a p => p1Shape a p) (positionsOf bs) := by
  have hd : v.dim = 1 ∨ v.dim = 2 := Or.inr hv.dim
  obtain ⟨m', h1, h2, h3, h4⟩ := C39_dof_maps v hv.wf hd s hs strict
  rw [hm] at h1
  cases h1
  obtain ⟨bs, e1, e2, -, e4⟩ := C115_p1_boxes big junk v hv.wf hd coord hfin s hs strict m hm
  rw [hv.dim] at h4 h3 e4
  refine ⟨bs, e1, interpolatory_corner hv coord m _ (by simp [positionsOf, e2]) ?_ ?_ ?_⟩
  · intro e he
    rw [(h4 e he).1, hv.corners e he]
  · intro j hj
    obtain ⟨ld, hld⟩ := List.exists_mem_of_ne_nil _ (C39_no_orphan_dof v hv.wf hd s hs strict m hm j hj)
    have hat := (h2.inverse j hj ld).mp hld
    have hgood := p1_good v hv.wf (by omega) s hs strict
    rw [assignP1_ok v hd s strict] at hm
    cases hm
    obtain ⟨e, he, hidx, -⟩ := (writeElements_at hgood ld j).mp hat
    exact ⟨e, he, ld.dofIndex, by rw [hidx]; exact hat⟩
  · intro j X hX e he i u hi hu
    by_cases hp : P1Vertex v s strict u ∧ (strict = true → s.contains 0 e.index = .ok true)
    · have h6 := ((h4 e he).2 i u hu).1 hp
      have h7 : some (j : Int) = some ((countBelow (P1Vertex v s strict) u : Nat) : Int) := hi.symm.trans h6
      simp only [Option.some.injEq, Nat.cast_inj] at h7
      have hlt : u < v.count 2 := by
        have := sub_lt hv.wf (by rw [hv.dim]; decide) e he u
        rw [hv.dim] at this
        exact this (List.mem_of_getElem? hu)
      have h8 := e4 u hlt hp.1
      rw [← h7, hX] at h8
      exact Option.some.inj h8
    · have h6 := ((h4 e he).2 i u hu).2 hp
      have h7 : some (j : Int) = some (-1) := hi.symm.trans h6
      simp only [Option.some.injEq] at h7
      omega

/-- **C116** (affine functions) The interpolant of an affine function by the continuous P1 space is the function itself on every triangle
all of whose vertices carry dofs there. -/
theorem C116_p1_affine (big : ℝ) (junk : P3 ℝ) (v : View) (hv : TriMesh v) (coord : Nat → P3 ℝ) (hfin : Finite big v coord) (s : GridSegment)
    (hs : SegmentOf v s) (strict : Bool) (m : DofMaps) (hm : assignP1 v s strict = .ok m) (u : P3 ℝ → ℝ) (hu : IsAffine u) :
    ∃ bs, defaultBoxes big junk v coord m.global2local = some bs ∧
      ∀ e ∈ v.elems, (∀ i, i < 3 → ∃ j : Nat, m.At ⟨e.index, i⟩ (j : Int)) → Nondegenerate coord e → ∀ p,
        expand (m.getGlobalDofs e.index) (fun j => u ((positionsOf bs).getD j ⟨0, 0, 0⟩)) (fun a => p1Shape a p) = u (pointAt coord e p) := by
  obtain ⟨bs, e1, hint⟩ := C116_p1 big junk v hv coord hfin s hs strict m hm
  obtain ⟨m', h1, -, -, h4⟩ := C39_dof_maps v hv.wf (Or.inr hv.dim) s hs strict
  rw [hm] at h1
  cases h1
  obtain ⟨bs', e1', e2, -, e4⟩ := C115_p1_boxes big junk v hv.wf (Or.inr hv.dim) coord hfin s hs strict m hm
  rw [e1] at e1'
  cases e1'
  rw [hv.dim] at h4 e4
  refine ⟨bs, e1, ?_⟩
  intro e he hall hn p
  obtain ⟨a, b, c, hl⟩ := List.length_eq_three.mp (hv.corners e he)
  have hrow : (m.getGlobalDofs e.index).length = 3 := by rw [(h4 e he).1, hl]; rfl
  have key : ∀ i, i < 3 → ∃ j : Nat, (m.getGlobalDofs e.index)[i]? = some (j : Int) ∧
      (positionsOf bs).getD j ⟨0, 0, 0⟩ = coord ((e.sub 2).getD i 0) := by
    intro i hi
    obtain ⟨j, hj⟩ := hall i hi
    refine ⟨j, hj, ?_⟩
    have hui : (e.sub 2)[i]? = some ((e.sub 2).getD i 0) := by
      rw [List.getD_eq_getElem?_getD, List.getElem?_eq_getElem (by rw [hl]; simpa using hi)]; rfl
    by_cases hp : P1Vertex v s strict ((e.sub 2).getD i 0) ∧ (strict = true → s.contains 0 e.index = .ok true)
    · have h6 := ((h4 e he).2 i _ hui).1 hp
      have h7 : some (j : Int) = some ((countBelow (P1Vertex v s strict) ((e.sub 2).getD i 0) : Nat) : Int) := hj.symm.trans h6
      simp only [Option.some.injEq, Nat.cast_inj] at h7
      have hlt : (e.sub 2).getD i 0 < v.count 2 := by
        have := sub_lt hv.wf (by rw [hv.dim]; decide) e he ((e.sub 2).getD i 0)
        rw [hv.dim] at this
        exact this (List.mem_of_getElem? hui)
      have h8 := e4 _ hlt hp.1
      rw [← h7] at h8
      rw [List.getD_eq_getElem?_getD, h8]; rfl
    · have h6 := ((h4 e he).2 i _ hui).2 hp
      have h7 : some (j : Int) = some (-1) := hj.symm.trans h6
      simp only [Option.some.injEq] at h7
      omega
  obtain ⟨g0, g1, g2, hg⟩ := List.length_eq_three.mp hrow
  obtain ⟨j0, a0, b0⟩ := key 0 (by decide)
  obtain ⟨j1, a1, b1⟩ := key 1 (by decide)
  obtain ⟨j2, a2, b2⟩ := key 2 (by decide)
  rw [hg] at a0 a1 a2 ⊢
  simp at a0 a1 a2
  subst a0 a1 a2
  obtain ⟨k0, k1, k2, k3, hk⟩ := hu
  unfold expand pointAt refMap
  simp only [List.zipIdx, List.map_cons, List.map_nil, List.sum_cons, List.sum_nil, Int.natCast_nonneg, if_true, Int.toNat_natCast, b0, b1, b2,
    hk, p1Shape]
  simp
  ring

/-- **C116** (discontinuous P1) The interpolation point of a dof is the corner of its triangle to which it belongs, and these points interpolate. -/
theorem C116_p1_discontinuous (big : ℝ) (junk : P3 ℝ) (v : View) (hv : TriMesh v) (coord : Nat → P3 ℝ) (hfin : Finite big v coord)
    (s : GridSegment) (strict : Bool) (m : DofMaps) (hm : assignP1Disc v s strict = .ok m) :
    ∃ bs, defaultBoxes big junk v coord m.global2local = some bs ∧
      Interpolatory v coord m (fun _ a p => p1Shape a p) (positionsOf bs) := by
  obtain ⟨bs, e1, e2, e3⟩ := C115_p1_discontinuous_boxes big junk v hv.wf (Or.inr hv.dim) coord hfin s strict m hm
  have hgood : GoodUses v (p1dUses v s strict) := p1d_good v hv.wf s strict
  have hmeq : m = pushElements v (p1dUses v s strict) := by
    unfold assignP1Disc at hm
    rw [if_neg (by have := hv.dim; omega)] at hm
    cases hm
    rfl
  subst hmeq
  refine ⟨bs, e1, interpolatory_corner hv coord _ _ (by simp [positionsOf, e2]) ?_ ?_ ?_⟩
  · intro e he
    have hall : ∀ i, (∃ g, ((pushElements v (p1dUses v s strict)).getGlobalDofs e.index)[i]? = some g) ↔ i < 3 := by
      intro i
      have hat : ∀ g, ((pushElements v (p1dUses v s strict)).getGlobalDofs e.index)[i]? = some g ↔
          (pushElements v (p1dUses v s strict)).At ⟨e.index, i⟩ g := fun g => Iff.rfl
      constructor
      · rintro ⟨g, hg⟩
        obtain ⟨e', he', hidx, hw⟩ := (pushElements_at hgood _ _).mp ((hat g).mp hg)
        have : e' = e := List.inj_on_of_nodup_map hv.wf.index_nodup he' he hidx
        subst this
        have hmem : ∃ b, (i, b) ∈ p1dUses v s strict e' := by
          rcases hw with ⟨hw, -⟩ | ⟨hw, -⟩
          · exact ⟨_, hw⟩
          · exact ⟨_, hw⟩
        obtain ⟨b, hb⟩ := hmem
        unfold p1dUses at hb
        rw [mem_zipIdx_map] at hb
        obtain ⟨u, hu, -⟩ := hb
        have := (List.getElem?_eq_some_iff.mp hu).1
        rwa [hv.dim, hv.corners e' he'] at this
      · intro hi
        have hu : (e.sub v.dim)[i]? = some ((e.sub v.dim)[i]'(by rw [hv.dim, hv.corners e he]; exact hi)) := List.getElem?_eq_getElem _
        have hmem : ∃ b, (i, b) ∈ p1dUses v s strict e := by
          unfold p1dUses
          simp only [mem_zipIdx_map]
          exact ⟨_, _, hu, rfl⟩
        obtain ⟨b, hb⟩ := hmem
        cases b with
        | false => exact ⟨-1, (hat _).mpr ((pushElements_at hgood ⟨e.index, i⟩ (-1)).mpr ⟨e, he, rfl, Or.inr ⟨hb, rfl⟩⟩)⟩
        | true =>
          have hin : (⟨e.index, i⟩ : LocalDof) ∈ v.elems.flatMap (usedOf (p1dUses v s strict)) := by
            refine List.mem_flatMap.mpr ⟨e, he, ?_⟩
            unfold usedOf
            simpa using hb
          obtain ⟨n, hn⟩ := List.mem_iff_getElem?.mp hin
          exact ⟨(n : Int), (hat _).mpr ((pushElements_at hgood ⟨e.index, i⟩ (n : Int)).mpr ⟨e, he, rfl, Or.inl ⟨hb, by omega, by simpa using hn⟩⟩)⟩
    have h2 := hall ((pushElements v (p1dUses v s strict)).getGlobalDofs e.index).length
    have h3 := hall 2
    by_contra hne
    rcases Nat.lt_or_gt_of_ne hne with h | h
    · obtain ⟨g, hg⟩ := h2.mpr h
      simp at hg
    · have := (hall 3).mp ⟨_, List.getElem?_eq_getElem h⟩
      omega
  · intro j hj
    obtain ⟨ld, h1, h2⟩ := pushElements_globalToLocal hj
    have hcons := pushElements_consistent hgood
    have hat := (hcons.inverse j hj ld).mp (by rw [h1]; simp)
    obtain ⟨e, he, hidx, -⟩ := (pushElements_at hgood ld j).mp hat
    exact ⟨e, he, ld.dofIndex, by rw [hidx]; exact hat⟩
  · intro j X hX e he i u hi hu
    unfold positionsOf at hX
    rw [List.getElem?_map] at hX
    obtain ⟨b, hb, rfl⟩ := Option.map_eq_some_iff.mp hX
    exact (e3 j b hb).2 e he i u hi (by rw [hv.dim]; exact hu)

/-- **C116** (P0) The interpolation point of a dof is the centroid of its triangle, a point of its interior, and these points interpolate. -/
theorem C116_p0 (big : ℝ) (junk : P3 ℝ) (v : View) (hv : TriMesh v) (coord : Nat → P3 ℝ) (hfin : Finite big v coord) (s : GridSegment) :
    ∃ bs, p0Boxes big junk v coord (assignP0 v s).global2local = some bs ∧
      Interpolatory v coord (assignP0 v s) (fun _ _ _ => 1) (positionsOf bs) ∧
      ∀ e ∈ v.elems, ∀ j : Nat, (assignP0 v s).At ⟨e.index, 0⟩ (j : Int) → (positionsOf bs)[j]? = some (pointAt coord e (1 / 3, 1 / 3)) := by
  obtain ⟨hm, hcount, hel⟩ := C40_dof_maps_partial v hv.wf s
  obtain ⟨bs, e1, e2, -, e4⟩ := C115_p0_boxes big junk v hv.wf (by rw [hv.dim]; decide)
    (by intro e he h; have := hv.corners e he; rw [hv.dim] at h; rw [h] at this; simp at this) coord hfin s
  have hcen : ∀ e ∈ v.elems, centerOf ((e.sub v.dim).map coord) = pointAt coord e (1 / 3, 1 / 3) := by
    intro e he
    obtain ⟨a, b, c, hl⟩ := List.length_eq_three.mp (hv.corners e he)
    rw [hv.dim]
    unfold pointAt refMap centerOf
    rw [hl]
    simp only [List.map_cons, List.map_nil, List.sum_cons, List.sum_nil, List.length_cons, List.length_nil, List.getD_cons_zero,
      List.getD_cons_succ, P3.mk.injEq]
    refine ⟨?_, ?_, ?_⟩ <;> · push_cast; ring
  have hdof : ∀ e ∈ v.elems, ∀ i (j : Nat), (assignP0 v s).At ⟨e.index, i⟩ (j : Int) →
      i = 0 ∧ (assignP0 v s).getGlobalDofs e.index = [(j : Int)] ∧ (positionsOf bs)[j]? = some (pointAt coord e (1 / 3, 1 / 3)) := by
    intro e he i j hat
    by_cases hc : s.contains 0 e.index = .ok true
    · obtain ⟨g, h1, h2⟩ := e4 e he hc
      have h3 : ((assignP0 v s).getGlobalDofs e.index)[i]? = some (j : Int) := hat
      rw [h1] at h3
      have hi : i = 0 := by
        have := (List.getElem?_eq_some_iff.mp h3).1
        simpa using this
      subst hi
      simp only [List.getElem?_cons_zero, Option.some.injEq, Nat.cast_inj] at h3
      subst h3
      exact ⟨rfl, h1, by rw [h2, hcen e he]⟩
    · have h1 := (hel e he).2 hc
      have h3 : ((assignP0 v s).getGlobalDofs e.index)[i]? = some (j : Int) := hat
      rw [h1] at h3
      have := List.mem_of_getElem? h3
      simp at this
  refine ⟨bs, e1, ⟨by simp [positionsOf, e2], ?_, ?_⟩, fun e he j hat => (hdof e he 0 j hat).2.2⟩
  · intro j X hX
    have hj : j < (assignP0 v s).globalDofCount := by
      rw [← e2]
      have := (List.getElem?_eq_some_iff.mp hX).1
      simpa [positionsOf] using this
    obtain ⟨ld, h1, -⟩ := pushElements_globalToLocal (v := v) (uses := fun e => [(0, inSegment s 0 e.index)]) hj
    have hat := (hm.inverse j hj ld).mp (by
      have : (assignP0 v s).globalToLocal j = [ld] := h1
      rw [this]; simp)
    obtain ⟨e, he, hidx, -⟩ := (pushElements_at (p0_good v hv.wf s) ld j).mp hat
    have hat' : (assignP0 v s).At ⟨e.index, ld.dofIndex⟩ (j : Int) := by rw [hidx]; exact hat
    refine ⟨e, he, ⟨_, hat'⟩, (1 / 3, 1 / 3), by norm_num [InReference], ?_⟩
    have := (hdof e he _ j hat').2.2
    rw [hX] at this
    exact (Option.some.inj this).symm
  · rintro j X hX e he ⟨i, hat⟩ - p - - c
    rw [(hdof e he i j hat).2.1]
    simp [expand, List.zipIdx]

/-! ### Normals -/

theorem elementNormals_get (v : View) (hv : v.WF) (coord : Nat → P3 ℝ) (e : Elem) (he : e ∈ v.elems) :
    (elementNormals v coord).getD e.index ⟨0, 0, 0⟩ = elementNormal (cornersOf v coord e) := by
  have hlt := index_lt v hv he
  have hnd := hv.index_nodup
  unfold elementNormals
  have : ∀ (es : List Elem) (l : List (P3 ℝ)), (es.map (·.index)).Nodup → e.index < l.length → e ∈ es →
      (es.foldl (fun (l : List (P3 ℝ)) e => l.set e.index (elementNormal (cornersOf v coord e))) l)[e.index]? =
        some (elementNormal (cornersOf v coord e)) := by
    intro es
    induction es with
    | nil => intro l _ _ h; cases h
    | cons w ws ih =>
      intro l hn hl hm
      rw [List.map_cons, List.nodup_cons] at hn
      rw [List.foldl_cons]
      rcases List.mem_cons.mp hm with h | h
      · subst h
        rw [set_rows_get (fun e : Elem => e.index) (fun e => elementNormal (cornersOf v coord e)) ws _ _ hn.1, List.getElem?_set_self hl]
      · exact ih _ hn.2 (by simpa using hl) h
  rw [List.getD_eq_getElem?_getD, this v.elems _ hnd (by simpa using hlt) he]
  rfl

/-- The unit normal is unique. -/
theorem normal_unique (A B C n m : P3 ℝ) (hn : Shape.IsNormal A B C n) (hm : Shape.IsNormal A B C m) : n = m := by
  have hA : areaVector A B C ≠ ⟨0, 0, 0⟩ := by
    intro h
    have := hn.rightHanded
    rw [h] at this
    simp [P3.dot] at this
  have hstd := Shape.C71_normal A B C hA
  have key : ∀ q, Shape.IsNormal A B C q → q = (Shape.fullData A B C).normal := by
    intro q hq
    generalize hc : q.dot (Shape.fullData A B C).normal = c
    have h1 := hq.orthogonal 1 0
    have h2 := hq.orthogonal 0 1
    have k1 := hstd.orthogonal 1 0
    have k2 := hstd.orthogonal 0 1
    have hu := hstd.unit
    have heq : q = P3.smul c (Shape.fullData A B C).normal := by
      apply Shape.eq_of_dots A B C hA
      · show q.dot (B.sub A) = P3.dot _ (B.sub A)
        simp only [Shape.displacement, P3.dot, P3.sub, P3.smul] at h1 k1 ⊢
        linear_combination h1 - c * k1
      · show q.dot (C.sub A) = P3.dot _ (C.sub A)
        simp only [Shape.displacement, P3.dot, P3.sub, P3.smul] at h2 k2 ⊢
        linear_combination h2 - c * k2
      · rw [hc]
        simp only [P3.dot, P3.smul] at hu ⊢
        linear_combination -c * hu
    have hcc : c * c = 1 := by
      have := hq.unit
      rw [heq] at this
      simp only [P3.dot, P3.smul] at hu this
      linear_combination this - c * c * hu
    have hpos : 0 < c := by
      have h3 := hq.rightHanded
      have h4 := hstd.rightHanded
      rw [heq] at h3
      have h5 : (areaVector A B C).dot (P3.smul c (Shape.fullData A B C).normal) = c * (areaVector A B C).dot (Shape.fullData A B C).normal := by
        simp only [P3.dot, P3.smul]; ring
      rw [h5] at h3
      exact (pos_iff_pos_of_mul_pos h3).mpr h4
    have h1c : c = 1 := by nlinarith
    rw [heq, h1c]
    simp [P3.smul]
  rw [key n hn, key m hm]

theorem elementNormal_eq (v : View) (hv : TriMesh v) (coord : Nat → P3 ℝ) (e : Elem) (he : e ∈ v.elems) (n : P3 ℝ)
    (hn : NormalOf coord e n) : elementNormal (cornersOf v coord e) = n := by
  obtain ⟨a, b, c, hl⟩ := List.length_eq_three.mp (hv.corners e he)
  have hA : areaVector (coord a) (coord b) (coord c) ≠ ⟨0, 0, 0⟩ := by
    intro h
    have := hn.rightHanded
    rw [hl] at this
    simp only [List.getD_cons_zero, List.getD_cons_succ] at this
    rw [h] at this
    simp [P3.dot] at this
  unfold NormalOf at hn
  rw [hl] at hn
  refine normal_unique _ _ _ _ _ ?_ hn
  have := Shape.C71_normal (coord a) (coord b) (coord c) hA
  unfold elementNormal cornersOf
  rw [hv.dim, hl]
  exact this

/-- Sum of vectors. -/
def vecSum (l : List (P3 ℝ)) : P3 ℝ := ⟨(l.map P3.x).sum, (l.map P3.y).sum, (l.map P3.z).sum⟩

theorem normalSum_eq (normals : List (P3 ℝ)) (lds : List LocalDof) (N : Nat → P3 ℝ)
    (h : ∀ ld ∈ lds, normals.getD ld.entityIndex ⟨0, 0, 0⟩ = N ld.entityIndex) :
    normalSum normals lds = vecSum (lds.map fun ld => N ld.entityIndex) := by
  unfold normalSum
  have : ∀ s : P3 ℝ, lds.foldl (fun (s : P3 ℝ) ld =>
      let n := normals.getD ld.entityIndex ⟨0, 0, 0⟩
      ⟨s.x + n.x, s.y + n.y, s.z + n.z⟩) s =
      let t := vecSum (lds.map fun ld => N ld.entityIndex)
      ⟨s.x + t.x, s.y + t.y, s.z + t.z⟩ := by
    induction lds with
    | nil => intro s; simp [vecSum]
    | cons a l ih =>
      intro s
      rw [List.foldl_cons, ih (fun ld hld => h ld (List.mem_cons_of_mem _ hld))]
      have h0 := h a (List.mem_cons_self ..)
      simp only [h0, vecSum, List.map_cons, List.sum_cons, P3.mk.injEq]
      refine ⟨?_, ?_, ?_⟩ <;> ring
  rw [this]
  simp

/-- Length of a vector. -/
theorem normalize_spec (s : P3 ℝ) :
    (s = ⟨0, 0, 0⟩ → normalize s = none) ∧
    (s ≠ ⟨0, 0, 0⟩ → ∃ n, normalize s = some n ∧ n.dot n = 1 ∧ ∃ r : ℝ, 0 < r ∧ s = P3.smul r n) := by
  constructor
  · rintro rfl
    simp [normalize]
  · intro hs
    have hpos : 0 < s.x * s.x + s.y * s.y + s.z * s.z := by
      by_contra h
      have h1 := mul_self_nonneg s.x
      have h2 := mul_self_nonneg s.y
      have h3 := mul_self_nonneg s.z
      apply hs
      obtain ⟨x, y, z⟩ := s
      simp only at *
      have e1 : x * x = 0 := by linarith
      have e2 : y * y = 0 := by linarith
      have e3 : z * z = 0 := by linarith
      rw [mul_self_eq_zero] at e1 e2 e3
      rw [e1, e2, e3]
    have hl := Real.sqrt_pos.mpr hpos
    have hsq := Real.sq_sqrt hpos.le
    unfold normalize
    simp only
    generalize Real.sqrt (s.x * s.x + s.y * s.y + s.z * s.z) = r at *
    rw [if_neg hl.ne']
    refine ⟨_, rfl, ?_, r, hl, ?_⟩
    · simp only [P3.dot]
      field_simp
      linarith
    · obtain ⟨x, y, z⟩ := s
      simp only [P3.smul, P3.mk.injEq]
      refine ⟨?_, ?_, ?_⟩ <;> field_simp

/-- The sum of the vectors `N` over the triangles on which the global dof `g` lives. -/
def normalsAround (v : View) (m : DofMaps) (N : Nat → P3 ℝ) (g : Nat) : P3 ℝ :=
  open Classical in vecSum ((v.elems.filter fun e => ∃ i, m.At ⟨e.index, i⟩ (g : Int)).map fun e => N e.index)

theorem vecSum_perm {l l' : List (P3 ℝ)} (h : l.Perm l') : vecSum l = vecSum l' := by
  unfold vecSum
  rw [(h.map P3.x).sum_eq, (h.map P3.y).sum_eq, (h.map P3.z).sum_eq]

theorem localDofs_perm {v : View} (hv : v.WF) (m : DofMaps) (hm : m.Consistent) (g : Nat) (hg : g < m.globalDofCount)
    (hloc : ∀ ld, m.At ld (g : Int) → ∃ e ∈ v.elems, e.index = ld.entityIndex)
    (hone : ∀ e ∈ v.elems, ∀ i i', m.At ⟨e.index, i⟩ (g : Int) → m.At ⟨e.index, i'⟩ (g : Int) → i = i') :
    open Classical in ((m.globalToLocal g).map (·.entityIndex)).Perm
      ((v.elems.filter fun e => ∃ i, m.At ⟨e.index, i⟩ (g : Int)).map (·.index)) := by
  classical
  rw [List.perm_ext_iff_of_nodup]
  · intro k
    simp only [List.mem_map, List.mem_filter, decide_eq_true_eq]
    constructor
    · rintro ⟨ld, hld, rfl⟩
      have hat := (hm.inverse g hg ld).mp hld
      obtain ⟨e, he, hidx⟩ := hloc ld hat
      exact ⟨e, ⟨he, ld.dofIndex, by rw [hidx]; exact hat⟩, hidx⟩
    · rintro ⟨e, ⟨he, i, hi⟩, rfl⟩
      exact ⟨⟨e.index, i⟩, (hm.inverse g hg _).mpr hi, rfl⟩
  · refine List.Nodup.map_on ?_ (hm.once g hg)
    intro a ha b hb hab
    have h1 := (hm.inverse g hg a).mp ha
    have h2 := (hm.inverse g hg b).mp hb
    obtain ⟨e, he, hidx⟩ := hloc a h1
    obtain ⟨a1, a2⟩ := a
    obtain ⟨b1, b2⟩ := b
    simp only at hab hidx
    subst hab
    subst hidx
    rw [hone e he a2 b2 h1 h2]
  · exact (hv.index_nodup.sublist (List.filter_sublist.map _))

theorem defaultNormals_get (v : View) (hv : TriMesh v) (coord : Nat → P3 ℝ) (m : DofMaps) (hm : m.Consistent) {g : Nat}
    (hloc : ∀ ld, m.At ld (g : Int) → ∃ e ∈ v.elems, e.index = ld.entityIndex)
    (N : Nat → P3 ℝ) (hN : ∀ e ∈ v.elems, NormalOf coord e (N e.index)) (hg : g < m.globalDofCount) :
    (defaultNormals v coord m.global2local)[g]? = some (normalize (vecSum ((m.globalToLocal g).map fun ld => N ld.entityIndex))) := by
  unfold defaultNormals
  have hgl : m.global2local[g]? = some (m.globalToLocal g) := by
    unfold DofMaps.globalToLocal
    rw [List.getD_eq_getElem?_getD, List.getElem?_eq_getElem hg]; rfl
  rw [List.getElem?_map, hgl, Option.map_some]
  congr 2
  rw [normalSum_eq _ _ N]
  intro ld hld
  obtain ⟨e, he, hidx⟩ := hloc ld ((hm.inverse g hg ld).mp hld)
  rw [← hidx, elementNormals_get v hv.wf coord e he]
  exact elementNormal_eq v hv coord e he _ (hN e he)

/-- **C116** (normals, default implementation) For consistent dof maps in which a dof has at most one local dof on a triangle: there is one
entry for each global dof.  It is the unit vector in the direction of the sum of the unit normals of the triangles on which the dof lives,
and is not a number exactly if this sum is zero. -/
theorem C116_normals (v : View) (hv : TriMesh v) (coord : Nat → P3 ℝ) (m : DofMaps) (hm : m.Consistent)
    (hloc : ∀ ld (g : Nat), m.At ld (g : Int) → ∃ e ∈ v.elems, e.index = ld.entityIndex)
    (hone : ∀ g : Nat, ∀ e ∈ v.elems, ∀ i i', m.At ⟨e.index, i⟩ (g : Int) → m.At ⟨e.index, i'⟩ (g : Int) → i = i')
    (N : Nat → P3 ℝ) (hN : ∀ e ∈ v.elems, NormalOf coord e (N e.index)) :
    (defaultNormals v coord m.global2local).length = m.globalDofCount ∧
    ∀ g, g < m.globalDofCount →
      (normalsAround v m N g = ⟨0, 0, 0⟩ → (defaultNormals v coord m.global2local)[g]? = some none) ∧
      (normalsAround v m N g ≠ ⟨0, 0, 0⟩ → ∃ n, (defaultNormals v coord m.global2local)[g]? = some (some n) ∧ n.dot n = 1 ∧
        ∃ r : ℝ, 0 < r ∧ normalsAround v m N g = P3.smul r n) := by
  classical
  refine ⟨by simp [defaultNormals, DofMaps.globalDofCount], ?_⟩
  intro g hg
  have hget : (defaultNormals v coord m.global2local)[g]? = some (normalize (normalsAround v m N g)) := by
    rw [defaultNormals_get v hv coord m hm (fun ld => hloc ld g) N hN hg]
    congr 2
    unfold normalsAround
    have := (localDofs_perm hv.wf m hm g hg (fun ld => hloc ld g) (hone g)).map N
    rw [List.map_map, List.map_map] at this
    exact vecSum_perm this
  rw [hget]
  obtain ⟨h1, h2⟩ := normalize_spec (normalsAround v m N g)
  constructor
  · intro h; rw [h1 h]
  · intro h
    obtain ⟨n, h3, h4⟩ := h2 h
    exact ⟨n, by rw [h3], h4⟩

theorem unit_of_smul (n k : P3 ℝ) (r s : ℝ) (hr : 0 < r) (hs : 0 < s) (hn : n.dot n = 1) (hk : k.dot k = 1)
    (h : P3.smul r n = P3.smul s k) : n = k := by
  obtain ⟨a, b, c⟩ := n
  obtain ⟨d, e, f⟩ := k
  simp only [P3.smul, P3.mk.injEq, P3.dot] at *
  obtain ⟨h1, h2, h3⟩ := h
  have hrs : r * r = s * s := by
    linear_combination (-(r * r)) * hn + (s * s) * hk + (r * a + s * d) * h1 + (r * b + s * e) * h2 + (r * c + s * f) * h3
  have : r = s := by
    rcases mul_self_eq_mul_self_iff.mp hrs with h | h
    · exact h
    · linarith
  subst this
  exact ⟨mul_left_cancel₀ hr.ne' h1, mul_left_cancel₀ hr.ne' h2, mul_left_cancel₀ hr.ne' h3⟩

/-- **C116** (flat parts) If all triangles on which a dof lives have the same normal, then the entry of the dof is this normal. -/
theorem C116_normals_flat (v : View) (hv : TriMesh v) (coord : Nat → P3 ℝ) (m : DofMaps) (hm : m.Consistent)
    (hloc : ∀ ld (g : Nat), m.At ld (g : Int) → ∃ e ∈ v.elems, e.index = ld.entityIndex)
    (hone : ∀ g : Nat, ∀ e ∈ v.elems, ∀ i i', m.At ⟨e.index, i⟩ (g : Int) → m.At ⟨e.index, i'⟩ (g : Int) → i = i')
    (hall : ∀ e ∈ v.elems, Nondegenerate coord e)
    (g : Nat) (hg : g < m.globalDofCount) (hused : ∃ e ∈ v.elems, ∃ i, m.At ⟨e.index, i⟩ (g : Int)) (ν : P3 ℝ)
    (hν : ∀ e ∈ v.elems, (∃ i, m.At ⟨e.index, i⟩ (g : Int)) → NormalOf coord e ν) :
    (defaultNormals v coord m.global2local)[g]? = some (some ν) := by
  classical
  have hex : ∀ k, ∃ n, ∀ e ∈ v.elems, e.index = k → NormalOf coord e n := by
    intro k
    by_cases h : ∃ e ∈ v.elems, e.index = k
    · obtain ⟨e, he, hk⟩ := h
      obtain ⟨n, hn⟩ : ∃ n, NormalOf coord e n := ⟨_, Shape.C71_normal _ _ _ (hall e he)⟩
      refine ⟨n, fun e' he' hk' => ?_⟩
      have : e' = e := List.inj_on_of_nodup_map hv.wf.index_nodup he' he (hk'.trans hk.symm)
      subst this
      exact hn
    · exact ⟨⟨0, 0, 0⟩, fun e he hk => absurd ⟨e, he, hk⟩ h⟩
  choose N hN using hex
  have hsum : ∃ r : ℝ, 0 < r ∧ normalsAround v m N g = P3.smul r ν := by
    unfold normalsAround
    have hmap : ((v.elems.filter fun e => ∃ i, m.At ⟨e.index, i⟩ (g : Int)).map fun e => N e.index) =
        (v.elems.filter fun e => ∃ i, m.At ⟨e.index, i⟩ (g : Int)).map fun _ => ν := by
      refine List.map_congr_left fun e he => ?_
      rw [List.mem_filter] at he
      simp only [decide_eq_true_eq] at he
      exact normal_unique _ _ _ _ _ (hN e.index e he.1 rfl) (hν e he.1 he.2)
    rw [hmap, List.map_const']
    obtain ⟨e, he, hi⟩ := hused
    refine ⟨((v.elems.filter fun e => ∃ i, m.At ⟨e.index, i⟩ (g : Int)).length : ℝ), ?_, ?_⟩
    · have : e ∈ (v.elems.filter fun e => ∃ i, m.At ⟨e.index, i⟩ (g : Int)) := by
        rw [List.mem_filter]; exact ⟨he, by simpa using hi⟩
      exact_mod_cast List.length_pos_of_mem this
    · generalize (v.elems.filter fun e => ∃ i, m.At ⟨e.index, i⟩ (g : Int)).length = k
      simp [vecSum, P3.smul]
  obtain ⟨r, hr, hs⟩ := hsum
  obtain ⟨e, he, hi⟩ := hused
  have hunit := (hν e he hi).unit
  obtain ⟨-, hmain⟩ := C116_normals v hv coord m hm hloc hone N (fun e he => hN e.index e he rfl)
  obtain ⟨n, h1, h2, s, hs', h3⟩ := (hmain g hg).2 (by
    rw [hs]
    intro h0
    simp only [P3.smul, P3.mk.injEq, mul_eq_zero, hr.ne', false_or] at h0
    simp [P3.dot, h0.1, h0.2.1, h0.2.2] at hunit)
  rw [h1, unit_of_smul n ν s r hs' hr h2 hunit (h3.symm.trans hs)]

theorem p1_local (v : View) (hv : TriMesh v) (s : GridSegment) (hs : SegmentOf v s) (strict : Bool) (m : DofMaps)
    (hm : assignP1 v s strict = .ok m) :
    m.Consistent ∧ (∀ ld (g : Nat), m.At ld (g : Int) → ∃ e ∈ v.elems, e.index = ld.entityIndex) ∧
    (∀ g : Nat, ∀ e ∈ v.elems, ∀ i i', m.At ⟨e.index, i⟩ (g : Int) → m.At ⟨e.index, i'⟩ (g : Int) → i = i') ∧
    ∀ g, g < m.globalDofCount → ∃ e ∈ v.elems, ∃ i, m.At ⟨e.index, i⟩ (g : Int) := by
  have hd : v.dim = 1 ∨ v.dim = 2 := Or.inr hv.dim
  obtain ⟨m', h1, h2, h3, h4⟩ := C39_dof_maps v hv.wf hd s hs strict
  rw [hm] at h1
  cases h1
  rw [hv.dim] at h4
  have hloc : ∀ ld (g : Nat), m.At ld (g : Int) → ∃ e ∈ v.elems, e.index = ld.entityIndex := by
    intro ld g hat
    have hgood := p1_good v hv.wf (by omega) s hs strict
    have hm' := hm
    rw [assignP1_ok v hd s strict] at hm'
    cases hm'
    obtain ⟨e, he, hidx, -⟩ := (writeElements_at hgood ld g).mp hat
    exact ⟨e, he, hidx⟩
  refine ⟨h2, hloc, ?_, ?_⟩
  · intro g e he i i' hi hi'
    have key : ∀ i, m.At ⟨e.index, i⟩ (g : Int) → ∃ u, (e.sub 2)[i]? = some u ∧ P1Vertex v s strict u ∧
        g = countBelow (P1Vertex v s strict) u := by
      intro i hi
      have hlen : i < (e.sub 2).length := by
        rw [← (h4 e he).1]; exact (List.getElem?_eq_some_iff.mp hi).1
      refine ⟨_, List.getElem?_eq_getElem hlen, ?_⟩
      by_cases hp : P1Vertex v s strict (e.sub 2)[i] ∧ (strict = true → s.contains 0 e.index = .ok true)
      · have h6 := ((h4 e he).2 i _ (List.getElem?_eq_getElem hlen)).1 hp
        have h7 : some (g : Int) = some ((countBelow (P1Vertex v s strict) (e.sub 2)[i] : Nat) : Int) := hi.symm.trans h6
        simp only [Option.some.injEq, Nat.cast_inj] at h7
        exact ⟨hp.1, h7⟩
      · have h6 := ((h4 e he).2 i _ (List.getElem?_eq_getElem hlen)).2 hp
        have h7 : some (g : Int) = some (-1) := hi.symm.trans h6
        simp only [Option.some.injEq] at h7
        omega
    obtain ⟨u, a1, a2, a3⟩ := key i hi
    obtain ⟨u', b1, b2, b3⟩ := key i' hi'
    have huu : u = u' := countBelow_inj _ a2 b2 (a3.symm.trans b3)
    subst huu
    exact (List.getElem?_inj (List.getElem?_eq_some_iff.mp a1).1 (hv.proper e he)).mp (a1.trans b1.symm)
  · intro g hg
    obtain ⟨ld, hld⟩ := List.exists_mem_of_ne_nil _ (C39_no_orphan_dof v hv.wf hd s hs strict m hm g hg)
    have hat := (h2.inverse g hg ld).mp hld
    obtain ⟨e, he, hidx⟩ := hloc ld g hat
    exact ⟨e, he, ld.dofIndex, by rw [hidx]; exact hat⟩

/-- **C116** (normals of the continuous P1 space) On every triangular mesh without degenerate triangles, every segment and in both modes. -/
theorem C116_p1_normals (v : View) (hv : TriMesh v) (coord : Nat → P3 ℝ) (s : GridSegment) (hs : SegmentOf v s) (strict : Bool) (m : DofMaps)
    (hm : assignP1 v s strict = .ok m) (N : Nat → P3 ℝ) (hN : ∀ e ∈ v.elems, NormalOf coord e (N e.index)) :
    (defaultNormals v coord m.global2local).length = m.globalDofCount ∧
    ∀ g, g < m.globalDofCount →
      (normalsAround v m N g = ⟨0, 0, 0⟩ → (defaultNormals v coord m.global2local)[g]? = some none) ∧
      (normalsAround v m N g ≠ ⟨0, 0, 0⟩ → ∃ n, (defaultNormals v coord m.global2local)[g]? = some (some n) ∧ n.dot n = 1 ∧
        ∃ r : ℝ, 0 < r ∧ normalsAround v m N g = P3.smul r n) := by
  obtain ⟨h1, h2, h3, -⟩ := p1_local v hv s hs strict m hm
  exact C116_normals v hv coord m h1 h2 h3 N hN

theorem push_normals (v : View) (hv : TriMesh v) (coord : Nat → P3 ℝ) (hall : ∀ e ∈ v.elems, Nondegenerate coord e)
    (uses : Elem → List (Nat × Bool)) (hgood : GoodUses v uses) :
    ∀ g, g < (pushElements v uses).globalDofCount → ∃ e ∈ v.elems, ∃ i ν, (pushElements v uses).At ⟨e.index, i⟩ (g : Int) ∧
      NormalOf coord e ν ∧ (defaultNormals v coord (pushElements v uses).global2local)[g]? = some (some ν) := by
  intro g hg
  have hcons := pushElements_consistent hgood
  obtain ⟨ld, h1, h2⟩ := pushElements_globalToLocal hg
  have hat := (hcons.inverse g hg ld).mp (by rw [h1]; simp)
  have hloc : ∀ ld (g : Nat), (pushElements v uses).At ld (g : Int) → ∃ e ∈ v.elems, e.index = ld.entityIndex := by
    intro ld g hat
    obtain ⟨e, he, hidx, -⟩ := (pushElements_at hgood ld g).mp hat
    exact ⟨e, he, hidx⟩
  have hone : ∀ (g : Nat) (ld ld' : LocalDof), (pushElements v uses).At ld (g : Int) → (pushElements v uses).At ld' (g : Int) → ld = ld' := by
    intro g ld ld' h h'
    obtain ⟨e, he, -, h3⟩ := (pushElements_at hgood ld g).mp h
    obtain ⟨e', he', -, h3'⟩ := (pushElements_at hgood ld' g).mp h'
    rcases h3 with ⟨-, -, h3⟩ | ⟨-, h3⟩
    · rcases h3' with ⟨-, -, h3'⟩ | ⟨-, h3'⟩
      · exact Option.some.inj (h3.symm.trans h3')
      · omega
    · omega
  obtain ⟨e, he, hidx⟩ := hloc ld g hat
  have hat' : (pushElements v uses).At ⟨e.index, ld.dofIndex⟩ (g : Int) := by rw [hidx]; exact hat
  have hν : NormalOf coord e (Shape.fullData _ _ _).normal := Shape.C71_normal _ _ _ (hall e he)
  refine ⟨e, he, ld.dofIndex, _, hat', hν, ?_⟩
  refine C116_normals_flat v hv coord _ hcons hloc ?_ hall g hg ⟨e, he, _, hat'⟩ _ ?_
  · intro g e he i i' h h'
    have := hone g _ _ h h'
    simpa using this
  · rintro e' he' ⟨i, hi⟩
    have h5 := hone g _ _ hi hat'
    simp only [LocalDof.mk.injEq] at h5
    have : e' = e := List.inj_on_of_nodup_map hv.wf.index_nodup he' he h5.1
    subst this
    exact hν

/-- **C116** (normals of the discontinuous P1 space) The entry of a dof is the unit normal of its triangle. -/
theorem C116_p1_discontinuous_normals (v : View) (hv : TriMesh v) (coord : Nat → P3 ℝ) (hall : ∀ e ∈ v.elems, Nondegenerate coord e)
    (s : GridSegment) (strict : Bool) (m : DofMaps) (hm : assignP1Disc v s strict = .ok m) :
    ∀ g, g < m.globalDofCount → ∃ e ∈ v.elems, ∃ i ν, m.At ⟨e.index, i⟩ (g : Int) ∧ NormalOf coord e ν ∧
      (defaultNormals v coord m.global2local)[g]? = some (some ν) := by
  have hmeq : m = pushElements v (p1dUses v s strict) := by
    unfold assignP1Disc at hm
    rw [if_neg (by have := hv.dim; omega)] at hm
    cases hm
    rfl
  subst hmeq
  exact push_normals v hv coord hall _ (p1d_good v hv.wf s strict)

/-- **C116** (normals of the P0 space) The entry of a dof is the unit normal of its triangle. -/
theorem C116_p0_normals (v : View) (hv : TriMesh v) (coord : Nat → P3 ℝ) (hall : ∀ e ∈ v.elems, Nondegenerate coord e) (s : GridSegment) :
    ∀ g, g < (assignP0 v s).globalDofCount → ∃ e ∈ v.elems, ∃ i ν, (assignP0 v s).At ⟨e.index, i⟩ (g : Int) ∧ NormalOf coord e ν ∧
      (defaultNormals v coord (assignP0 v s).global2local)[g]? = some (some ν) :=
  push_normals v hv coord hall _ (p0_good v hv.wf s)

/-- **C116** (the matrix) Column `j` of the returned matrix holds the coordinates of point `j`. -/
theorem C116_columns (points : List (P3 ℝ)) (j : Nat) (p : P3 ℝ) (h : points[j]? = some p) :
    pointMatrix points 0 j = p.x ∧ pointMatrix points 1 j = p.y ∧ pointMatrix points 2 j = p.z := by
  unfold pointMatrix
  rw [List.getD_eq_getElem?_getD, h]
  simp

end
end Verif.DofGeo
