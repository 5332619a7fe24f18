import Verif.Props.DofNormals
/-
Property C116: the spaces on the barycentric refinement, folded surfaces and curves.
-/
namespace Verif.DofGeo
open Verif.Grid Verif.Space
noncomputable section

theorem mapM_get {α β : Type} (f : α → Option β) : ∀ (l : List α) (r : List β), l.mapM f = some r → ∀ (j : Nat) (x : α), l[j]? = some x →
    ∃ y, f x = some y ∧ r[j]? = some y := by
  intro l
  induction l with
  | nil => intro r _ j x hx; simp at hx
  | cons a l ih =>
    intro r hr j x hx
    rw [List.mapM_cons] at hr
    simp only [Option.bind_eq_bind, Option.bind_eq_some_iff, Option.pure_def, Option.some.injEq] at hr
    obtain ⟨y, hy, r', hr', rfl⟩ := hr
    cases j with
    | zero =>
      simp only [List.getElem?_cons_zero, Option.some.injEq] at hx
      subst hx
      exact ⟨y, hy, rfl⟩
    | succ j => exact ih r' hr' j x (by simpa using hx)

/-- The position of a dof is the corner of the element of its first local dof with the number of that local dof. -/
theorem position_first (big : ℝ) (junk : P3 ℝ) (v : View) (hv : v.WF) (coord : Nat → P3 ℝ) (g2l : List (List LocalDof)) (bs : List BBox)
    (hbs : defaultBoxes big junk v coord g2l = some bs) (j : Nat) (first : LocalDof) (rest : List LocalDof) (hj : g2l[j]? = some (first :: rest))
    (e : Elem) (he : e ∈ v.elems) (hidx : e.index = first.entityIndex) (u : Nat) (hu : (e.sub v.dim)[first.dofIndex]? = some u) :
    (positionsOf bs)[j]? = some (coord u) := by
  unfold defaultBoxes at hbs
  obtain ⟨b, h1, h2⟩ := mapM_get _ _ _ hbs j _ hj
  simp only [List.head?_cons, Option.bind_some, Option.map_eq_some_iff] at h1
  obtain ⟨p, h3, rfl⟩ := h1
  rw [← hidx, elementCorners_get v hv coord e he] at h3
  unfold cornersOf at h3
  rw [List.getElem?_map, hu] at h3
  cases h3
  unfold positionsOf
  rw [List.getElem?_map, h2]
  rfl

theorem some_intro {α : Type} {o : Option α} {P : α → Prop} (h1 : ∃ x, o = some x) (h2 : ∀ x, o = some x → P x) :
    ∃ x, o = some x ∧ P x := by
  obtain ⟨x, hx⟩ := h1
  exact ⟨x, hx, h2 x hx⟩

/-- The refinement of `kite`. -/
theorem kite_bary : ∃ (b : GridData ℝ) (s : Nat → Nat → Nat), barycentricGridSonPair kite = .ok (b, s) ∧ b.nodes = baryVertices kite ∧
    b.data = (DataContainer.init 11 (baryElements kite)).get rfl ∧ TriMesh (b.data.view fun _ => 1) ∧
    s = barySonMap (tempSonMap 2) 12 := by
  obtain ⟨b, s, hbs, hnodes, helems, -, hs, hn, hinit⟩ := bary_spec kite kite_valid
  refine ⟨b, s, hbs, hnodes, ?_, ?_, hs⟩
  · have hn' : b.data.nnodes = 11 := hn
    rw [hn', helems] at hinit
    exact ((Option.some_get _).trans hinit |> Option.some.inj).symm
  · refine triMesh_view _ _ 0 _ hinit ?_ ?_ ?_ _
    · rw [helems, hn]; exact baryMesh kite kite_valid
    · rw [helems]; decide
    · rw [helems, hn]; decide

/-- **C116 is false for the continuous P1 functions on the barycentric refinement**: on two triangles, the point returned for the vertex 1
is the barycentre of the first triangle, where the basis function of this vertex has the value 1/3. -/
theorem C116_counterexample_barycentric_p1 (big : ℝ) (junk : P3 ℝ) :
    ∃ (b : GridData ℝ) (s : Nat → Nat → Nat), barycentricGridSonPair kite = .ok (b, s) ∧
      ∃ m types, assignP1Bary (kite.data.view fun _ => 1) b.data.elements.length s (wholeGrid (kite.data.view fun _ => 1)) false
        = .ok (m, types) ∧
      ∃ bs, defaultBoxes big junk (b.data.view fun _ => 1) (nodeAt b.nodes) m.global2local = some bs ∧
        (positionsOf bs)[1]? = some ⟨1 / 3, 1 / 3, 0⟩ ∧ nodeAt kite.nodes 1 = ⟨1, 0, 0⟩ ∧
        ¬ Interpolatory (b.data.view fun _ => 1) (nodeAt b.nodes) m (fun e a p => linearBaryShape (shapesetType types e.index) a p)
          (positionsOf bs) := by
  obtain ⟨b, s, hbs, hnodes, hdata, hmesh, hs⟩ := kite_bary
  refine ⟨b, s, hbs, ?_⟩
  subst hs
  rw [hdata] at hmesh ⊢
  rw [hnodes]
  refine ⟨_, _, rfl, some_intro ⟨_, rfl⟩ ?_⟩
  intro bs hb
  obtain ⟨e, he, hidx, hsub⟩ := view_elem_intro ((DataContainer.init 11 (baryElements kite)).get rfl) (fun _ => 1) 0 ⟨0, 9, 5⟩ rfl
  have hpos : (positionsOf bs)[1]? = some (nodeAt (baryVertices kite) 9) :=
    position_first big junk _ hmesh.wf _ _ bs hb 1 ⟨0, 1⟩ _ rfl e he hidx 9 (by
      show (e.sub 2)[1]? = some 9
      rw [hsub]; rfl)
  have hpt : nodeAt (baryVertices kite) 9 = ⟨1 / 3, 1 / 3, 0⟩ := by
    show (⟨0, 0, 0⟩ : P3 ℝ).centroid ⟨1, 0, 0⟩ ⟨0, 1, 0⟩ = _
    norm_num [P3.centroid]
  refine ⟨by rw [hpos, hpt], rfl, ?_⟩
  intro hint
  have hA : Nondegenerate (nodeAt (baryVertices kite)) e := by
    unfold Nondegenerate
    rw [hsub]
    show areaVector (⟨0, 0, 0⟩ : P3 ℝ) (nodeAt (baryVertices kite) 9) ((⟨0, 1, 0⟩ : P3 ℝ).mid ⟨0, 0, 0⟩) ≠ _
    rw [hpt]
    norm_num [areaVector, P3.mid]
  have hv := hint.value 1 _ hpos e he ⟨1, by rw [hidx]; rfl⟩ hA (1, 0) (by norm_num [InReference]) (by
    have := pointAt_corner (nodeAt (baryVertices kite)) e (by rw [hsub]; rfl) 1 9 (by rw [hsub]; rfl)
    simpa [refCorner] using this) (fun j => if j = 1 then 1 else 0)
  rw [hidx] at hv
  have hv' : expand [0, 1, 2] (fun j => if j = 1 then (1 : ℝ) else 0) (fun a => linearBaryShape .TYPE1 a (1, 0)) = 1 := by
    exact hv
  simp [expand, List.zipIdx, linearBaryShape, List.range, List.range.loop, linearCoeffs, p1Shape] at hv'

/-- Two triangles that both begin with the vertex 0. -/
def fan : GridData ℝ := ⟨[⟨0, 0, 0⟩, ⟨1, 0, 0⟩, ⟨1, 1, 0⟩, ⟨0, 1, 0⟩], (DataContainer.init 4 [⟨0, 1, 2⟩, ⟨0, 2, 3⟩]).get rfl, [1, 1]⟩

theorem fan_valid : fan.Valid := by
  refine ⟨⟨0, rfl⟩, rfl, rfl, ?_, ?_⟩ <;>
  · intro t ht
    have ht : t ∈ [(⟨0, 1, 2⟩ : Tri), ⟨0, 2, 3⟩] := ht
    simp only [List.mem_cons, List.not_mem_nil, or_false] at ht
    rcases ht with rfl | rfl <;> simp [Tri.verts, Tri.Proper] <;> decide

theorem fan_bary : ∃ (b : GridData ℝ) (s : Nat → Nat → Nat), barycentricGridSonPair fan = .ok (b, s) ∧ b.nodes = baryVertices fan ∧
    b.data = (DataContainer.init 11 (baryElements fan)).get rfl ∧ TriMesh (b.data.view fun _ => 1) ∧
    s = barySonMap (tempSonMap 2) 12 := by
  obtain ⟨b, s, hbs, hnodes, helems, -, hs, hn, hinit⟩ := bary_spec fan fan_valid
  refine ⟨b, s, hbs, hnodes, ?_, ?_, hs⟩
  · have hn' : b.data.nnodes = 11 := hn
    rw [hn', helems] at hinit
    exact ((Option.some_get _).trans hinit |> Option.some.inj).symm
  · refine triMesh_view _ _ 0 _ hinit ?_ ?_ ?_ _
    · rw [helems, hn]; exact baryMesh fan fan_valid
    · rw [helems]; decide
    · rw [helems, hn]; decide

/-- **C116 is false for the piecewise constant functions on the barycentric refinement**: on two triangles that begin with the same vertex,
this vertex is returned as the interpolation point of both dofs. -/
theorem C116_counterexample_barycentric_p0 (big : ℝ) (junk : P3 ℝ) :
    ∃ (b : GridData ℝ) (s : Nat → Nat → Nat), barycentricGridSonPair fan = .ok (b, s) ∧
      ∃ bs, defaultBoxes big junk (b.data.view fun _ => 1) (nodeAt b.nodes)
        (assignP0Bary (fan.data.view fun _ => 1) b.data.elements.length s (wholeGrid (fan.data.view fun _ => 1))).global2local = some bs ∧
        bs.length = 2 ∧ (positionsOf bs)[0]? = some ⟨0, 0, 0⟩ ∧ (positionsOf bs)[1]? = some ⟨0, 0, 0⟩ := by
  obtain ⟨b, s, hbs, hnodes, hdata, hmesh, hs⟩ := fan_bary
  refine ⟨b, s, hbs, ?_⟩
  subst hs
  rw [hdata] at hmesh ⊢
  rw [hnodes]
  exact ⟨_, rfl, rfl, rfl, rfl⟩

/-! ### Folded surfaces and curves -/

/-- The corners of two triangles, the second one folded back over the first. -/
def folded (i : Nat) : P3 ℝ := [⟨0, 0, 0⟩, ⟨1, 0, 0⟩, ⟨0, 1, 0⟩, ⟨1 / 4, 1 / 4, 0⟩].getD i ⟨0, 0, 0⟩

theorem folded_normals : ∀ e ∈ (kite.data.view fun _ => 1).elems,
    NormalOf folded e (if e.index = 0 then ⟨0, 0, 1⟩ else ⟨0, 0, -1⟩) := by
  intro e he
  obtain ⟨t, ht, hsub⟩ := view_elem he
  have hlt : e.index < 2 := (List.getElem?_eq_some_iff.mp ht).1
  have hcases : e.index = 0 ∨ e.index = 1 := by omega
  unfold NormalOf
  rcases hcases with h | h
  · rw [h] at ht ⊢
    have ht' : t = ⟨0, 1, 2⟩ := (Option.some.inj ht).symm
    rw [hsub, ht']
    refine ⟨by norm_num [P3.dot], ?_, ?_⟩
    · intro s t
      simp [P3.dot, Shape.displacement, folded, Tri.verts]
    · norm_num [P3.dot, areaVector, folded, Tri.verts]
  · rw [h] at ht ⊢
    have ht' : t = ⟨2, 1, 3⟩ := (Option.some.inj ht).symm
    rw [hsub, ht']
    refine ⟨by norm_num [P3.dot], ?_, ?_⟩
    · intro s t
      simp [P3.dot, Shape.displacement, folded, Tri.verts]
    · norm_num [P3.dot, areaVector, folded, Tri.verts]

/-- **C116** (limit) At a vertex where the surface is folded back onto itself the continuous P1 space returns no number; at the other
vertices of the same mesh it returns the normal. -/
theorem C116_counterexample_folded : ∃ m, assignP1 (kite.data.view fun _ => 1) (wholeGrid (kite.data.view fun _ => 1)) false = .ok m ∧
    m.globalDofCount = 4 ∧ (defaultNormals (kite.data.view fun _ => 1) folded m.global2local)[1]? = some none ∧
    (defaultNormals (kite.data.view fun _ => 1) folded m.global2local)[0]? = some (some ⟨0, 0, 1⟩) := by
  obtain ⟨m, hm, h4, g1, g0⟩ : ∃ m, assignP1 (kite.data.view fun _ => 1) (wholeGrid (kite.data.view fun _ => 1)) false = .ok m ∧
      m.globalDofCount = 4 ∧ m.globalToLocal 1 = [⟨0, 1⟩, ⟨1, 1⟩] ∧ m.globalToLocal 0 = [⟨0, 0⟩] := ⟨_, rfl, by decide +kernel, by decide +kernel, by decide +kernel⟩
  obtain ⟨h1, h2, -, -⟩ := p1_local _ kite_mesh _ (fun _ => rfl) false m hm
  refine ⟨m, hm, h4, ?_, ?_⟩
  · rw [defaultNormals_get _ kite_mesh folded m h1 (fun ld => h2 ld 1) (fun k => if k = 0 then ⟨0, 0, 1⟩ else ⟨0, 0, -1⟩) folded_normals
      (by omega), g1]
    norm_num [vecSum, normalize]
  · rw [defaultNormals_get _ kite_mesh folded m h1 (fun ld => h2 ld 0) (fun k => if k = 0 then ⟨0, 0, 1⟩ else ⟨0, 0, -1⟩) folded_normals
      (by omega), g0]
    norm_num [vecSum, normalize]

/-- **C116 is false for curves**: the code divides by the square root of `x² y²` instead of `x² + y²`, so that a normal parallel to an axis
gives no number and any other normal a vector of the wrong length. -/
theorem C116_counterexample_line : normalizeLine 0 1 = none ∧ ∃ n, normalizeLine (3 / 5) (4 / 5) = some n ∧ n.1 * n.1 + n.2 * n.2 ≠ 1 := by
  have h : Real.sqrt (3 / 5 * (3 / 5) * (4 / 5) * (4 / 5)) = 12 / 25 := by
    rw [show (3 / 5 * (3 / 5) * (4 / 5) * (4 / 5) : ℝ) = (12 / 25) ^ 2 by norm_num]
    exact Real.sqrt_sq (by norm_num)
  refine ⟨by norm_num [normalizeLine], (3 / 5 / (12 / 25), 4 / 5 / (12 / 25)), ?_, by norm_num⟩
  unfold normalizeLine
  simp only [h]
  norm_num

/-- Non-vacuity: the hypotheses of the interpolation and normal theorems hold for the two triangles `kite` in the plane. -/
example (junk : P3 ℝ) : ∃ m bs, assignP1 (kite.data.view fun _ => 1) (wholeGrid (kite.data.view fun _ => 1)) false = .ok m ∧
    defaultBoxes 2 junk (kite.data.view fun _ => 1) (nodeAt kite.nodes) m.global2local = some bs ∧
    Interpolatory (kite.data.view fun _ => 1) (nodeAt kite.nodes) m (fun _ a p => p1Shape a p) (positionsOf bs) ∧
    (defaultNormals (kite.data.view fun _ => 1) (nodeAt kite.nodes) m.global2local)[1]? = some (some ⟨0, 0, 1⟩) := by
  obtain ⟨m, hm, h4⟩ : ∃ m, assignP1 (kite.data.view fun _ => 1) (wholeGrid (kite.data.view fun _ => 1)) false = .ok m ∧
      m.globalDofCount = 4 := ⟨_, rfl, by decide +kernel⟩
  obtain ⟨bs, hb, hi⟩ := C116_p1 2 junk _ kite_mesh _ (kite_finite 2 (le_refl _)) _ (fun _ => rfl) false m hm
  have hn : ∀ e ∈ (kite.data.view fun _ => 1).elems, NormalOf (nodeAt kite.nodes) e ⟨0, 0, 1⟩ := by
    intro e he
    obtain ⟨t, ht, hsub⟩ := view_elem he
    have hlt : e.index < 2 := (List.getElem?_eq_some_iff.mp ht).1
    have hcases : e.index = 0 ∨ e.index = 1 := by omega
    unfold NormalOf
    rcases hcases with h | h
    · rw [h] at ht
      have ht' : t = ⟨0, 1, 2⟩ := (Option.some.inj ht).symm
      rw [hsub, ht']
      refine ⟨by norm_num [P3.dot], ?_, ?_⟩
      · intro s t
        simp [P3.dot, Shape.displacement, nodeAt, kite, Tri.verts]
      · norm_num [P3.dot, areaVector, nodeAt, kite, Tri.verts]
    · rw [h] at ht
      have ht' : t = ⟨2, 1, 3⟩ := (Option.some.inj ht).symm
      rw [hsub, ht']
      refine ⟨by norm_num [P3.dot], ?_, ?_⟩
      · intro s t
        simp [P3.dot, Shape.displacement, nodeAt, kite, Tri.verts]
      · norm_num [P3.dot, areaVector, nodeAt, kite, Tri.verts]
  obtain ⟨h1, h2, h3, h5⟩ := p1_local _ kite_mesh _ (fun _ => rfl) false m hm
  refine ⟨m, bs, hm, hb, hi, C116_normals_flat _ kite_mesh _ m h1 h2 h3 ?_ 1 (by omega) (h5 1 (by omega)) _ (fun e he _ => hn e he)⟩
  intro e he h0
  have := (hn e he).rightHanded
  rw [h0] at this
  simp [P3.dot] at this

end
end Verif.DofGeo
