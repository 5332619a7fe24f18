import Verif.Lemmas.RefineCount
import Mathlib.Data.Nat.Pairing
/-
C92: local refinement of grids.
-/
namespace Verif.Refine
open Verif.Grid
noncomputable section

/-- The loop of `refine` never looks up an edge without elements and ends after at most (number of elements + number of marked elements)
passes, in whatever order the marks are popped; the refined grid always exists. -/
theorem C92_terminates (v : View) (hv : v.Valid) (M : Finset Nat) (hM : ∀ e ∈ M, e < v.elementCount) :
    (∀ n s, v.Steps n (v.start M) s → n ≤ v.elementCount + M.card ∧
      ∀ i ∈ s.marked, (v.visit { s with marked := s.marked.erase i } i).isSome) ∧ ∃ g, v.Refines M g := by
  constructor
  · intro n s h
    obtain ⟨h1, h2⟩ := h.inv hv (Inv.init hM)
    have := measure_start v M
    refine ⟨by omega, fun i hi => ?_⟩
    obtain ⟨s', hs', -⟩ := h1.pop hv hi
    rw [hs']
    rfl
  · obtain ⟨n, s, h, hs⟩ := Inv.finish hv _ (View.Steps.zero (v.start M)) (Inv.init hM) le_rfl
    exact ⟨_, n, s, h, hs, rfl⟩

theorem coord_midpoint {v : View} (hv : v.Valid) {e j a b : Nat} (he : e < v.elementCount) (hj : j < 3) (h : v.ends e j = s(a, b)) :
    midpoint (v.edgeCorners (v.edge e j)) = midpoint (v.coord a, v.coord b) := by
  have hc := hv.edge_coord e he j hj
  rw [h, Sym2.map_mk] at hc
  rcases Sym2.eq_iff.1 hc with ⟨h1, h2⟩ | ⟨h1, h2⟩
  · unfold midpoint
    rw [h1, h2]
  · unfold midpoint
    rw [h1, h2]
    dsimp only
    rw [add_comm (v.coord b).x, add_comm (v.coord b).y, add_comm (v.coord b).z]

theorem Inv.good {v : View} (hv : v.Valid) {M : Finset Nat} {s : State} (H : Inv v M s) (hd : s.marked = ∅) : Good v.vertexCount (cutOf v s) := by
  have hN := H.numbering hv hd
  refine ⟨fun a b k h => ?_, fun p k h => (hN.range p k h).1, hN.injective⟩
  obtain ⟨e, j, he, hj, hp, -⟩ := cutOf_some h
  have h0 := hv.corner_lt e he 0 (by omega)
  have h1 := hv.corner_lt e he 1 (by omega)
  have h2 := hv.corner_lt e he 2 (by omega)
  unfold View.ends at hp
  split at hp
  · rw [Sym2.eq_iff] at hp; omega
  · split at hp <;> rw [Sym2.eq_iff] at hp <;> omega

theorem View.Valid.old {v : View} (hv : v.Valid) {e : Nat} (he : e < v.elementCount) : (v.triangle e).Old v.vertexCount := by
  have h0 := hv.corner_lt e he 0 (by omega)
  have h1 := hv.corner_lt e he 1 (by omega)
  have h2 := hv.corner_lt e he 2 (by omega)
  obtain ⟨n1, n2, n3⟩ := hv.corner_ne e he
  unfold RefTriangle.Old View.triangle refTriangle
  split
  · exact ⟨h0, h1, h2, n1, n2, n3⟩
  · split
    · exact ⟨h2, h0, h1, n2.symm, n3.symm, n1⟩
    · exact ⟨h1, h2, h0, n3, n1.symm, n2.symm⟩

theorem hasEdge_triangle (v : View) (e : Nat) (p : Sym2 Nat) : v.HasEdge e p ↔ p ∈ (v.triangle e).edges := by
  rw [View.hasEdge_iff, View.triangle, mem_edges_refTriangle]
  rfl

theorem ends_reference {v : View} {e : Nat} (hr : v.referenceEdge e < 3) :
    v.ends e (v.referenceEdge e) = s((v.triangle e).a, (v.triangle e).b) := by
  unfold View.ends View.triangle refTriangle
  generalize v.referenceEdge e = r at hr ⊢
  interval_cases r
  · rfl
  · exact Sym2.eq_swap
  · rfl

theorem Inv.fine {v : View} (hv : v.Valid) {M : Finset Nat} {s : State} (H : Inv v M s) (hd : s.marked = ∅) :
    Fine v.vertexCount (cutOf v s) ((List.range v.elementCount).map v.triangle) := by
  have hN := H.numbering hv hd
  refine ⟨H.good hv hd, ?_, ?_, ?_⟩
  · intro t ht
    obtain ⟨e, he, rfl⟩ := List.mem_map.1 ht
    exact hv.old (List.mem_range.1 he)
  · intro t ht
    obtain ⟨e, he, rfl⟩ := List.mem_map.1 ht
    have he := List.mem_range.1 he
    intro hn
    rw [← ends_reference (hv.reference_lt e he)] at hn
    have key : ∀ p, p ∈ (v.triangle e).edges → cutOf v s p = none := by
      intro p hp
      by_contra hne
      have hc : v.Cut M p := (hN.isSome p).1 (Option.isSome_iff_ne_none.2 hne)
      have := (hN.isSome _).2 (.spread he ((hasEdge_triangle v e p).2 hp) hc)
      rw [hn] at this
      cases this
    exact ⟨key _ (by simp [RefTriangle.edges]), key _ (by simp [RefTriangle.edges])⟩
  · rw [List.pairwise_map]
    refine List.Pairwise.imp_of_mem ?_ List.nodup_range
    intro e e' he he' hne hv'
    unfold View.triangle at hv'
    rw [verts_refTriangle, verts_refTriangle] at hv'
    exact hne (hv.distinct e (List.mem_range.1 he) e' (List.mem_range.1 he') hv')

theorem split_domain (v : View) (R : Nat → Nat → Option Nat) (e : Nat) : ∀ k ∈ v.split R e, k.domain = v.domain e := by
  unfold View.split
  dsimp only
  cases h0 : R e (v.referenceEdge e) with
  | none => simp only [List.mem_singleton, forall_eq]
  | some m =>
    dsimp only
    cases h1 : R e ((v.referenceEdge e + 1) % 3) <;> cases h2 : R e ((v.referenceEdge e + 2) % 3) <;>
      simp only [List.mem_cons, List.not_mem_nil, or_false, forall_eq_or_imp, forall_eq, and_self]

theorem split_reference {v : View} {R : Nat → Nat → Option Nat} {e : Nat} (hr : v.referenceEdge e < 3) : ∀ k ∈ v.split R e, k.reference < 3 := by
  unfold View.split
  dsimp only
  cases h0 : R e (v.referenceEdge e) with
  | none =>
    simp only [List.mem_singleton, forall_eq]
    exact hr
  | some m =>
    dsimp only
    cases h1 : R e ((v.referenceEdge e + 1) % 3) <;> cases h2 : R e ((v.referenceEdge e + 2) % 3) <;>
      simp only [List.mem_cons, List.not_mem_nil, or_false, forall_eq_or_imp, forall_eq] <;> omega

theorem kids_length (cut : Sym2 Nat → Option Nat) (t : RefTriangle) : (kids cut t).length ≤ 4 ∧ (cut s(t.a, t.b) ≠ none → 2 ≤ (kids cut t).length) := by
  unfold kids
  rcases cut s(t.a, t.b) with _ | m <;> rcases cut s(t.a, t.c) with _ | n1 <;> rcases cut s(t.b, t.c) with _ | n2 <;> simp

theorem Inv.vertices {v : View} (hv : v.Valid) {M : Finset Nat} {s : State} (H : Inv v M s) (hd : s.marked = ∅) :
    RefinedVertices v M (v.result s) (cutOf v s) := by
  have hN := H.numbering hv hd
  have hlen : (v.result s).vertices.length = v.vertexCount + s.newVertices.length := by
    simp [View.result]
  refine ⟨?_, by omega, ?_, ?_⟩
  · rw [hlen, Nat.add_sub_cancel_left]
    exact hN
  · intro i hi
    show ((List.range v.vertexCount).map v.coord ++ s.newVertices)[i]? = _
    rw [List.getElem?_append_left (by simpa using hi), List.getElem?_map, List.getElem?_range hi]
    rfl
  · intro a b m hm
    obtain ⟨e, j, he, hj, hp, hr⟩ := cutOf_some hm
    have := (hN.range _ _ hm).1
    show ((List.range v.vertexCount).map v.coord ++ s.newVertices)[m]? = _
    rw [List.getElem?_append_right (by simpa using this), List.length_map, List.length_range, H.coord e j m hr, coord_midpoint hv he hj hp]

/-- The refined grid, whatever the order of the marks: exactly the edges that have to be cut are cut, old vertices keep their numbers and
coordinates, the new vertices are the midpoints of the cut edges, one for each, and every element is replaced, in order, by its newest
vertex bisection, with its domain index; marked elements are split; elements without cut edges do not change. -/
theorem C92_refines (v : View) (hv : v.Valid) (M : Finset Nat) (hM : ∀ e ∈ M, e < v.elementCount) (g : NewGrid) (h : v.Refines M g) :
    ∃ cut children, RefinedVertices v M g cut ∧ RefinedElements v M g cut children := by
  obtain ⟨n, s, hs, hd, rfl⟩ := h
  have H := (hs.inv hv (Inv.init hM)).1
  have hN := H.numbering hv hd
  refine ⟨cutOf v s, v.split s.refinement, H.vertices hv hd, ⟨rfl, ?_, fun e _ => split_domain v _ e, ?_, ?_, ?_⟩⟩
  · intro e he
    rw [split_triangles (cut := cutOf v s) (hv.reference_lt e he) fun j hj => (H.cutOf_ends he hj).symm]
    exact bisection_kids (H.good hv hd) _
  · intro e he hm
    rw [← List.length_map (f := NewElement.triangle),
      split_triangles (cut := cutOf v s) (hv.reference_lt e he) fun j hj => (H.cutOf_ends he hj).symm]
    apply (kids_length _ _).2
    rw [← ends_reference (hv.reference_lt e he)]
    exact Option.isSome_iff_ne_none.1 ((hN.isSome _).2 (.marked he hm))
  · intro e he
    rw [← List.length_map (f := NewElement.triangle),
      split_triangles (cut := cutOf v s) (hv.reference_lt e he) fun j hj => (H.cutOf_ends he hj).symm]
    exact (kids_length _ _).1
  · intro e he hp
    have hr := hv.reference_lt e he
    have : s.refinement e (v.referenceEdge e) = none := by
      rw [← H.cutOf_ends he hr]
      by_contra hne
      exact hp _ ⟨_, hr, rfl⟩ ((hN.isSome _).1 (Option.isSome_iff_ne_none.2 hne))
    unfold View.split
    dsimp only
    rw [this]

theorem half_area {x : Nat → P3 ℝ} {a b m : Nat} (hm : x m = midpoint (x a, x b)) (c : Nat) :
    P3.IsFraction 1 (RefTriangle.area x ⟨c, a, m⟩) (RefTriangle.area x ⟨a, b, c⟩) ∧
      P3.IsFraction 1 (RefTriangle.area x ⟨b, c, m⟩) (RefTriangle.area x ⟨a, b, c⟩) := by
  unfold P3.IsFraction RefTriangle.area P3.cross P3.sub
  rw [hm]
  unfold midpoint
  dsimp only
  refine ⟨⟨?_, ?_, ?_⟩, ?_, ?_, ?_⟩ <;> ring

theorem P3.IsFraction.trans {t u w : P3 ℝ} (h : P3.IsFraction 1 t u) (h' : P3.IsFraction 1 u w) : P3.IsFraction 2 t w := by
  obtain ⟨h1, h2, h3⟩ := h
  obtain ⟨h4, h5, h6⟩ := h'
  refine ⟨?_, ?_, ?_⟩
  · rw [h1, h4]; ring
  · rw [h2, h5]; ring
  · rw [h3, h6]; ring

theorem kids_area {cut : Sym2 Nat → Option Nat} {x : Nat → P3 ℝ} (hx : ∀ a b m, cut s(a, b) = some m → x m = midpoint (x a, x b))
    (t : RefTriangle) : ∀ k ∈ kids cut t, ∃ g ≤ 2, P3.IsFraction g (k.area x) (t.area x) := by
  obtain ⟨a, b, c⟩ := t
  unfold kids
  dsimp only
  rcases h0 : cut s(a, b) with _ | m
  · simp only [List.mem_singleton, forall_eq]
    exact ⟨0, by omega, by simp, by simp, by simp⟩
  · obtain ⟨e1, e2⟩ := half_area (hx a b m h0) c
    have q1 : ∀ n1, cut s(a, c) = some n1 → _ := fun n1 h1 => half_area (x := x) (hx c a n1 (by rw [Sym2.eq_swap]; exact h1)) m
    have q2 : ∀ n2, cut s(b, c) = some n2 → _ := fun n2 h2 => half_area (x := x) (hx b c n2 h2) m
    rcases h1 : cut s(a, c) with _ | n1 <;> rcases h2 : cut s(b, c) with _ | n2 <;>
      simp only [List.mem_cons, List.not_mem_nil, or_false, forall_eq_or_imp, forall_eq]
    · exact ⟨⟨1, by omega, e1⟩, 1, by omega, e2⟩
    · exact ⟨⟨2, by omega, (q2 n2 h2).1.trans e2⟩, ⟨2, by omega, (q2 n2 h2).2.trans e2⟩, 1, by omega, e1⟩
    · exact ⟨⟨2, by omega, (q1 n1 h1).2.trans e1⟩, ⟨2, by omega, (q1 n1 h1).1.trans e1⟩, 1, by omega, e2⟩
    · exact ⟨⟨2, by omega, (q1 n1 h1).2.trans e1⟩, ⟨2, by omega, (q1 n1 h1).1.trans e1⟩, ⟨2, by omega, (q2 n2 h2).1.trans e2⟩,
        2, by omega, (q2 n2 h2).2.trans e2⟩

theorem Bisection.area {cut : Sym2 Nat → Option Nat} {x : Nat → P3 ℝ} (hx : ∀ a b m, cut s(a, b) = some m → x m = midpoint (x a, x b))
    {t : RefTriangle} {l : List RefTriangle} (h : Bisection cut t l) :
    ((l.map fun k => (k.area x).x).sum = (t.area x).x ∧ (l.map fun k => (k.area x).y).sum = (t.area x).y ∧
      (l.map fun k => (k.area x).z).sum = (t.area x).z) := by
  induction h with
  | keep h => exact ⟨by simp, by simp, by simp⟩
  | @halve a b c m l1 l2 l h h1 h2 hl ih1 ih2 =>
    obtain ⟨⟨e1, e2, e3⟩, e4, e5, e6⟩ := half_area (hx a b m h) c
    refine ⟨?_, ?_, ?_⟩
    · rw [(hl.map _).sum_eq, List.map_append, List.sum_append, ih1.1, ih2.1, e1, e4]; ring
    · rw [(hl.map _).sum_eq, List.map_append, List.sum_append, ih1.2.1, ih2.2.1, e2, e5]; ring
    · rw [(hl.map _).sum_eq, List.map_append, List.sum_append, ih1.2.2, ih2.2.2, e3, e6]; ring

/-- The children of every element cover it: their area vectors (normal times area) sum up to that of the element, and each is the element's,
half of it or a quarter of it, so that no normal changes direction. -/
theorem C92_area (v : View) (hv : v.Valid) (M : Finset Nat) (hM : ∀ e ∈ M, e < v.elementCount) (g : NewGrid) (h : v.Refines M g) :
    ∃ children : Nat → List NewElement, g.elements = (List.range v.elementCount).flatMap children ∧
      ∀ x : Nat → P3 ℝ, (∀ i y, g.vertices[i]? = some y → x i = y) → ∀ e < v.elementCount,
        (((children e).map fun k => (k.triangle.area x).x).sum = ((v.triangle e).area v.coord).x ∧
          ((children e).map fun k => (k.triangle.area x).y).sum = ((v.triangle e).area v.coord).y ∧
          ((children e).map fun k => (k.triangle.area x).z).sum = ((v.triangle e).area v.coord).z) ∧
        ∀ k ∈ children e, ∃ g ≤ 2, P3.IsFraction g (k.triangle.area x) ((v.triangle e).area v.coord) := by
  obtain ⟨n, s, hs, hd, rfl⟩ := h
  have H := (hs.inv hv (Inv.init hM)).1
  have hN := H.numbering hv hd
  have hG := H.good hv hd
  refine ⟨v.split s.refinement, rfl, fun x hx e he => ?_⟩
  have hV := H.vertices hv hd
  have hold : ∀ i < v.vertexCount, x i = v.coord i := fun i hi => hx i _ (hV.old i hi)
  have hnew : ∀ a b m, cutOf v s s(a, b) = some m → x m = midpoint (x a, x b) := fun a b m hm => by
    obtain ⟨ha, hb⟩ := hG.old a b m hm
    rw [hold a ha, hold b hb]
    exact hx m _ (hV.new a b m hm)
  have hsame : (v.triangle e).area x = (v.triangle e).area v.coord := by
    obtain ⟨h1, h2, h3, -⟩ := hv.old he
    unfold RefTriangle.area
    rw [hold _ h1, hold _ h2, hold _ h3]
  have hk := split_triangles (cut := cutOf v s) (R := s.refinement) (hv.reference_lt e he) fun j hj => (H.cutOf_ends he hj).symm
  rw [← hsame]
  constructor
  · have hb := (bisection_kids hG (v.triangle e)).area hnew
    rw [← hk] at hb
    simp only [List.map_map] at hb
    exact hb
  · intro k hkm
    exact kids_area hnew _ _ (hk ▸ List.mem_map_of_mem hkm)

/-- The triangles of a view of the refined grid. -/
theorem IsView.triangles {v : View} {g : NewGrid} (h : IsView v g) :
    (List.range v.elementCount).map v.triangle = g.elements.map NewElement.triangle := by
  apply List.ext_getElem?
  intro i
  rw [List.getElem?_map, List.getElem?_map]
  by_cases hi : i < v.elementCount
  · rw [List.getElem?_range hi]
    rw [h.elementCount] at hi
    rw [List.getElem?_eq_getElem hi]
    obtain ⟨h1, h2, h3, h4, -⟩ := h.corner i _ (List.getElem?_eq_getElem hi)
    show some (refTriangle _ _ _ _) = some (refTriangle _ _ _ _)
    rw [h1, h2, h3, h4]
  · rw [List.getElem?_eq_none (by simpa using hi), List.getElem?_eq_none (by rw [← h.elementCount]; omega)]
    rfl

/-- The refined grid is again a conforming surface grid: no cut edge remains; an edge of the refined grid is an edge of the grid or a half
of one, and belongs to as many elements as this did, or it lies inside an element, and belongs to two elements.  So it can be refined again,
as often as one likes. -/
theorem C92_conforming (v : View) (hv : v.Valid) (M : Finset Nat) (hM : ∀ e ∈ M, e < v.elementCount) (g : NewGrid) (h : v.Refines M g) :
    ∃ cut, RefinedVertices v M g cut ∧ ∀ v', IsView v' g → v'.Valid ∧ (∀ p, v.Cut M p → v'.edgeCount p = 0) ∧
      ∀ p, v'.edgeCount p = 0 ∨ v'.edgeCount p = 2 ∨
        ∃ a b, v.edgeCount s(a, b) = v'.edgeCount p ∧ (p = s(a, b) ∨ ∃ m, cut s(a, b) = some m ∧ (p = s(a, m) ∨ p = s(b, m))) := by
  obtain ⟨n, s, hs, hd, rfl⟩ := h
  have H := (hs.inv hv (Inv.init hM)).1
  have hV := H.vertices hv hd
  have hN := hV.numbering
  have hF := H.fine hv hd
  refine ⟨cutOf v s, hV, fun v' h' => ?_⟩
  set T := (List.range v.elementCount).map v.triangle with hT
  have hT' : (List.range v'.elementCount).map v'.triangle = T.flatMap (kids (cutOf v s)) := by
    rw [h'.triangles, hT, List.flatMap_map]
    show ((List.range v.elementCount).flatMap (v.split s.refinement)).map NewElement.triangle = _
    rw [List.map_flatMap]
    apply List.flatMap_congr
    intro e he
    have he := List.mem_range.1 he
    exact split_triangles (hv.reference_lt e he) fun j hj => (H.cutOf_ends he hj).symm
  have hmem : ∀ e < v'.elementCount, ∃ t ∈ T, v'.triangle e ∈ kids (cutOf v s) t := fun e he => by
    have : v'.triangle e ∈ T.flatMap (kids (cutOf v s)) := hT' ▸ List.mem_map_of_mem (List.mem_range.2 he)
    exact List.mem_flatMap.1 this
  have hne : ∀ e < v'.elementCount, v'.corner e 0 ≠ v'.corner e 1 ∧ v'.corner e 0 ≠ v'.corner e 2 ∧ v'.corner e 1 ≠ v'.corner e 2 := fun e he => by
    obtain ⟨t, ht, hk⟩ := hmem e he
    exact (ne_refTriangle _ _ _ _).1 (hF.good.kids_verts (hF.old t ht) hk).1
  have hcount : ∀ p, v'.edgeCount p = ((T.flatMap (kids (cutOf v s))).flatMap RefTriangle.edges).count p := fun p => by
    rw [v'.edgeCount_eq hne, hT']
  have hcount0 : ∀ p, v.edgeCount p = (T.flatMap RefTriangle.edges).count p := fun p => v.edgeCount_eq hv.corner_ne p
  have hcases : ∀ p, v'.edgeCount p = 0 ∨ v'.edgeCount p = 2 ∨
        ∃ a b, v.edgeCount s(a, b) = v'.edgeCount p ∧ (p = s(a, b) ∨ ∃ m, cutOf v s s(a, b) = some m ∧ (p = s(a, m) ∨ p = s(b, m))) := by
    intro p
    rw [hcount p]
    rcases hF.count p with h0 | ⟨h2, -⟩ | ⟨t, -, q, -, ⟨a, b, rfl, hp⟩, hc⟩
    · exact Or.inl h0
    · exact Or.inr (Or.inl h2)
    · refine Or.inr (Or.inr ⟨a, b, by rw [hcount0, hc], ?_⟩)
      unfold halves at hp
      cases hm : cutOf v s s(a, b) with
      | none =>
        rw [hm] at hp
        exact Or.inl (List.mem_singleton.1 hp)
      | some m =>
        rw [hm] at hp
        simp only [List.mem_cons, List.not_mem_nil, or_false] at hp
        exact Or.inr ⟨m, rfl, hp⟩
  refine ⟨⟨?_, hne, ?_, h'.edge_iff, h'.edge_coord, ?_, ?_⟩, ?_, hcases⟩
  · intro e he i hi
    obtain ⟨t, ht, hk⟩ := hmem e he
    have hx : v'.corner e i ∈ (v'.triangle e).verts := by
      unfold View.triangle
      rw [verts_refTriangle]
      interval_cases i <;> simp
    rw [h'.vertexCount]
    have hl := hV.length
    rcases (hF.good.kids_verts (hF.old t ht) hk).2.2 _ hx with h1 | ⟨p, hp⟩
    · omega
    · have := (hN.range p _ hp).2
      omega
  · intro e he e' he' hvs
    by_contra hee
    have hpw := hF.refined_pairwise
    rw [← hT', List.pairwise_map] at hpw
    have hpw := List.pairwise_iff_getElem.1 hpw
    have hvs : (v'.triangle e).verts = (v'.triangle e').verts := by
      unfold View.triangle
      rw [verts_refTriangle, verts_refTriangle]
      exact hvs
    rcases Nat.lt_or_gt_of_ne hee with hlt | hlt
    · exact hpw e e' (by simpa using he) (by simpa using he') hlt (by simpa using hvs)
    · exact hpw e' e (by simpa using he') (by simpa using he) hlt (by simpa using hvs.symm)
  · intro e he
    rw [h'.elementCount] at he
    obtain ⟨-, -, -, h4, -⟩ := h'.corner e _ (List.getElem?_eq_getElem he)
    rw [h4]
    have : (v.result s).elements[e] ∈ (List.range v.elementCount).flatMap (v.split s.refinement) := List.getElem_mem he
    obtain ⟨i, hi, hk⟩ := List.mem_flatMap.1 this
    exact split_reference (hv.reference_lt i (List.mem_range.1 hi)) _ hk
  · intro p
    rcases hcases p with h0 | h2 | ⟨a, b, hc, -⟩
    · omega
    · omega
    · rw [← hc]
      exact hv.manifold _
  · intro p hp
    obtain ⟨k, hk⟩ := Option.isSome_iff_exists.1 ((hN.isSome p).2 hp)
    rw [hcount p]
    exact hF.cut_gone hk

/-- A closed surface (no edge belongs to just one element) stays closed. -/
theorem C92_closed (v : View) (hv : v.Valid) (M : Finset Nat) (hM : ∀ e ∈ M, e < v.elementCount) (g : NewGrid) (h : v.Refines M g)
    (v' : View) (h' : IsView v' g) (hc : ∀ p, v.edgeCount p ≠ 1) : ∀ p, v'.edgeCount p ≠ 1 := by
  obtain ⟨cut, -, hall⟩ := C92_conforming v hv M hM g h
  intro p
  rcases (hall v' h').2.2 p with h0 | h2 | ⟨a, b, hab, -⟩
  · omega
  · omega
  · rw [← hab]
    exact hc _

/-- Any number of refinements, with any marks, gives conforming surface grids; closed ones stay closed. -/
theorem C92_again (v : View) (hv : v.Valid) (v' : View) (h : Refinements v v') :
    v'.Valid ∧ ((∀ p, v.edgeCount p ≠ 1) → ∀ p, v'.edgeCount p ≠ 1) := by
  induction h with
  | refl => exact ⟨hv, id⟩
  | step _ hm hr hview ih =>
    obtain ⟨cut, -, hall⟩ := C92_conforming _ ih.1 _ hm _ hr
    exact ⟨(hall _ hview).1, fun hc => C92_closed _ ih.1 _ hm _ hr _ hview (ih.2 hc)⟩

/-- A number for every pair of vertices. -/
def pairNumber : Sym2 Nat → Nat := Sym2.lift ⟨fun a b => Nat.pair (min a b) (max a b), fun a b => by dsimp only; rw [min_comm, max_comm]⟩

theorem pairNumber_inj {p q : Sym2 Nat} (h : pairNumber p = pairNumber q) : p = q := by
  induction p using Sym2.ind with
  | _ a b =>
    induction q using Sym2.ind with
    | _ c d =>
      have := Nat.pair_eq_pair.1 h
      rw [Sym2.eq_iff]
      omega

/-- Every refined grid has a view. -/
theorem C92_view (g : NewGrid) : ∃ v, IsView v g := by
  refine ⟨⟨g.elements.length, g.vertices.length, fun e i => match g.elements[e]? with
      | some k => if i = 0 then k.a else if i = 1 then k.b else k.c
      | none => 0, fun e j => match g.elements[e]? with
      | some k => pairNumber (if j = 0 then s(k.a, k.b) else if j = 1 then s(k.a, k.c) else s(k.b, k.c))
      | none => 0, fun i => (g.vertices[i]?).getD ⟨0, 0, 0⟩,
      fun n => ((g.vertices[n.unpair.1]?).getD ⟨0, 0, 0⟩, (g.vertices[n.unpair.2]?).getD ⟨0, 0, 0⟩), fun e => match g.elements[e]? with
      | some k => k.domain
      | none => 0, fun e => match g.elements[e]? with
      | some k => k.reference
      | none => 0⟩, rfl, rfl, ?_, ?_, ?_, ?_⟩
  · intro e k h
    simp [h]
  · intro i x h
    simp [h]
  · intro e he e' he' j hj j' hj'
    dsimp only at he he'
    simp only [View.ends, List.getElem?_eq_getElem he, List.getElem?_eq_getElem he']
    constructor
    · intro h
      have := pairNumber_inj h
      simpa using this
    · intro h
      congr 1
  · intro e he j hj
    dsimp only at he
    simp only [View.ends, List.getElem?_eq_getElem he]
    have key : ∀ a b : Nat, s((g.vertices[(pairNumber s(a, b)).unpair.1]?).getD ⟨0, 0, 0⟩,
        (g.vertices[(pairNumber s(a, b)).unpair.2]?).getD ⟨0, 0, 0⟩) =
        s((g.vertices[a]?).getD ⟨0, 0, 0⟩, (g.vertices[b]?).getD ⟨0, 0, 0⟩) := by
      intro a b
      show s((g.vertices[(Nat.pair (min a b) (max a b)).unpair.1]?).getD ⟨0, 0, 0⟩,
        (g.vertices[(Nat.pair (min a b) (max a b)).unpair.2]?).getD ⟨0, 0, 0⟩) = _
      rw [Nat.unpair_pair]
      dsimp only
      rcases Nat.le_total a b with hab | hab
      · rw [min_eq_left hab, max_eq_right hab]
      · rw [min_eq_right hab, max_eq_left hab]
        exact Sym2.eq_swap
    interval_cases j
    · exact key _ _
    · exact key _ _
    · exact key _ _

/-- Two triangles; the reference edge of the first is the common edge, that of the second another one. -/
def twoTriangles : View where
  elementCount := 2
  vertexCount := 4
  corner e i := ([[0, 1, 2], [2, 1, 3]].getD e []).getD i 0
  edge e j := ([[0, 1, 2], [2, 3, 4]].getD e []).getD j 0
  coord i := [⟨0, 0, 0⟩, ⟨1, 0, 0⟩, ⟨0, 1, 0⟩, ⟨1, 1, 0⟩].getD i ⟨0, 0, 0⟩
  edgeCorners n := ([(⟨0, 0, 0⟩, ⟨1, 0, 0⟩), (⟨0, 0, 0⟩, ⟨0, 1, 0⟩), (⟨1, 0, 0⟩, ⟨0, 1, 0⟩), (⟨0, 1, 0⟩, ⟨1, 1, 0⟩), (⟨1, 0, 0⟩, ⟨1, 1, 0⟩)] :
    List (P3 ℝ × P3 ℝ)).getD n (⟨0, 0, 0⟩, ⟨0, 0, 0⟩)
  domain e := e
  referenceEdge e := [2, 1].getD e 0

theorem twoTriangles_valid : twoTriangles.Valid := by
  constructor
  · show ∀ e < 2, ∀ i < 3, ([[0, 1, 2], [2, 1, 3]].getD e []).getD i 0 < 4
    decide
  · intro e (he : e < 2)
    interval_cases e <;> decide
  · intro e (he : e < 2) e' (he' : e' < 2)
    interval_cases e <;> interval_cases e' <;> decide
  · intro e (he : e < 2) e' (he' : e' < 2) j hj j' hj'
    interval_cases e <;> interval_cases e' <;> interval_cases j <;> interval_cases j' <;> decide
  · intro e (he : e < 2) j hj
    interval_cases e <;> interval_cases j
    · rfl
    · rfl
    · rfl
    · exact Sym2.eq_swap
    · rfl
    · rfl
  · intro e (he : e < 2)
    interval_cases e <;> decide
  · intro p
    exact List.countP_le_length

/-- Marking the first of the two triangles also cuts the reference edge of the second: five triangles. -/
theorem C92_example : ∃ g, twoTriangles.Refines {0} g ∧ g.elements = [⟨4, 0, 1, 2, 0⟩, ⟨4, 2, 0, 2, 0⟩, ⟨2, 4, 5, 1, 1⟩, ⟨4, 1, 5, 2, 1⟩, ⟨1, 3, 5, 0, 1⟩] ∧
    g.vertices.length = 6 := by
  refine ⟨_, ⟨2, _, .succ (.succ (.zero _) ⟨0, by simp [View.start], rfl⟩) ⟨1, ?_, rfl⟩, ?_, rfl⟩, ?_, ?_⟩
  · decide
  · decide
  · rfl
  · rfl

/-- Three triangles with a common edge, the reference edge of all of them. -/
def threeTriangles : View where
  elementCount := 3
  vertexCount := 5
  corner e i := ([[0, 1, 2], [0, 1, 3], [0, 1, 4]].getD e []).getD i 0
  edge e j := ([[0, 1, 2], [0, 3, 4], [0, 5, 6]].getD e []).getD j 0
  coord i := [⟨0, 0, 0⟩, ⟨1, 0, 0⟩, ⟨0, 1, 0⟩, ⟨0, -1, 0⟩, ⟨0, 0, 1⟩].getD i ⟨0, 0, 0⟩
  edgeCorners n := ([(⟨0, 0, 0⟩, ⟨1, 0, 0⟩), (⟨0, 0, 0⟩, ⟨0, 1, 0⟩), (⟨1, 0, 0⟩, ⟨0, 1, 0⟩), (⟨0, 0, 0⟩, ⟨0, -1, 0⟩), (⟨1, 0, 0⟩, ⟨0, -1, 0⟩),
    (⟨0, 0, 0⟩, ⟨0, 0, 1⟩), (⟨1, 0, 0⟩, ⟨0, 0, 1⟩)] : List (P3 ℝ × P3 ℝ)).getD n (⟨0, 0, 0⟩, ⟨0, 0, 0⟩)
  domain _ := 0
  referenceEdge _ := 0

/-- If an edge belongs to three elements, the third is not told that it is cut: an element keeps a cut edge, the new vertex hangs on it. -/
theorem C92_counterexample_three : ∃ g, threeTriangles.Refines {0} g ∧ threeTriangles.Cut {0} s(0, 1) ∧ g.elements =
    [⟨5, 2, 0, 2, 0⟩, ⟨5, 1, 2, 2, 0⟩, ⟨5, 3, 0, 2, 0⟩, ⟨5, 1, 3, 2, 0⟩, ⟨0, 1, 4, 0, 0⟩] := by
  refine ⟨_, ⟨2, _, .succ (.succ (.zero _) ⟨0, by simp [View.start], rfl⟩) ⟨1, ?_, rfl⟩, ?_, rfl⟩, ?_, ?_⟩
  · decide
  · decide
  · exact View.Cut.marked (v := threeTriangles) (e := 0) (by decide) (by decide)
  · rfl

/-- Once an element is marked, `get_mark` fails for every element; before that `clear_marks` and `refine` fail. -/
theorem C92_counterexample_marks (marks : Option (Finset Nat)) (i j : Nat) : getMark (mark marks i) j = .error .TypeError ∧
    clearMarks none = .error .AttributeError ∧ copyMarks none = .error .AttributeError := ⟨rfl, rfl, rfl⟩

/-- Marks add up, in any order; they are what `refine` reads. -/
theorem C92_marks (l : List Nat) (hl : l ≠ []) : ∃ m, l.foldl mark none = some m ∧ copyMarks (some m) = .ok m ∧ ∀ i, i ∈ m ↔ i ∈ l := by
  have key : ∀ (l : List Nat) (m : Finset Nat), ∃ m', l.foldl mark (some m) = some m' ∧ ∀ i, i ∈ m' ↔ i ∈ m ∨ i ∈ l := by
    intro l
    induction l with
    | nil => intro m; exact ⟨m, rfl, fun i => by simp⟩
    | cons a l ih =>
      intro m
      obtain ⟨m', h1, h2⟩ := ih (insert a m)
      refine ⟨m', h1, fun i => ?_⟩
      rw [h2, Finset.mem_insert, List.mem_cons]
      tauto
  cases l with
  | nil => exact absurd rfl hl
  | cons a l =>
    obtain ⟨m', h1, h2⟩ := key l (insert a ∅)
    refine ⟨m', h1, rfl, fun i => ?_⟩
    rw [h2, Finset.mem_insert, List.mem_cons]
    simp

end
end Verif.Refine
