import Verif.Lemmas.SpaceBarycentric
/-
Property C68: the spaces on the barycentric refinement represent the same functions as the coarse spaces.
-/
namespace Verif.Space
open Verif.Grid

/-! ### Facts about the view of a grid -/

theorem view_elem (d : DataContainer) (domain : Nat → Int) (n : Nat) (t : Tri)
    (ht : d.elements[n]? = some t) : ∃ e, (d.view domain).elems[n]? = some e ∧ e.index = n ∧
      e.sub 2 = [t.a, t.b, t.c] ∧ e.sub 1 = (d.element2Edges[n]?).getD [] := by
  have hlt := (List.getElem?_eq_some_iff.mp ht).1
  have h1 : (d.view domain).elems[n]? = some ((d.view domain).elems[n]'(by simpa [DataContainer.view] using hlt)) :=
    List.getElem?_eq_getElem _
  refine ⟨_, h1, ?_, ?_, ?_⟩
  · simp [DataContainer.view]
  · simp [DataContainer.view, ht, Tri.verts]
  · simp [DataContainer.view]

theorem view_elem' (d : DataContainer) (domain : Nat → Int) (n : Nat) (e : Elem)
    (he : (d.view domain).elems[n]? = some e) : ∃ t, d.elements[n]? = some t ∧ e.index = n ∧
      e.sub 2 = [t.a, t.b, t.c] ∧ e.sub 1 = (d.element2Edges[n]?).getD [] := by
  have hlt : n < d.elements.length := by
    have := (List.getElem?_eq_some_iff.mp he).1
    simpa [DataContainer.view] using this
  obtain ⟨e', h1, h2⟩ := view_elem d domain n _ (List.getElem?_eq_getElem hlt)
  rw [he] at h1
  cases h1
  exact ⟨_, List.getElem?_eq_getElem hlt, h2⟩

theorem contains_wholeGrid (v : View) (c i : Nat) (hc : c ≤ 3) (hi : i < v.count c) :
    (wholeGrid v).contains c i = .ok true := by
  unfold GridSegment.contains wholeGrid
  rw [if_neg (by omega)]
  simp [hi]

theorem countBelow_all (p : Nat → Prop) (k : Nat) (h : ∀ i < k, p i) : countBelow p k = k := by
  classical
  unfold countBelow
  rw [Finset.filter_true_of_mem (fun i hi => h i (Finset.mem_range.mp hi)), Finset.card_range]

theorem row_eq_three {m : DofMaps} {e : Nat} {a b c : Int} (hl : (m.getGlobalDofs e).length = 3)
    (h0 : m.At ⟨e, 0⟩ a) (h1 : m.At ⟨e, 1⟩ b) (h2 : m.At ⟨e, 2⟩ c) : m.getGlobalDofs e = [a, b, c] := by
  unfold DofMaps.At at h0 h1 h2
  simp only at h0 h1 h2
  match hm : m.getGlobalDofs e, hl with
  | [x, y, z], _ =>
    rw [hm] at h0 h1 h2
    simp at h0 h1 h2
    subst h0 h1 h2
    rfl

theorem row_length_three {m : DofMaps} {e : Nat} {c : Int} (h2 : m.At ⟨e, 2⟩ c) (h3 : ∀ x, ¬ m.At ⟨e, 3⟩ x) :
    (m.getGlobalDofs e).length = 3 := by
  unfold DofMaps.At at h2 h3
  have h4 := (List.getElem?_eq_some_iff.mp h2).1
  have h5 : (m.getGlobalDofs e)[3]? = none := by
    cases hx : (m.getGlobalDofs e)[3]? with
    | none => rfl
    | some x => exact absurd hx (h3 x)
  have h6 := List.getElem?_eq_none_iff.mp h5
  simp only at h4
  omega

/-- All vertices of the grid are corners of elements. -/
def AllUsed {K : Type} (g : GridData K) : Prop :=
  ∀ v, v < g.data.nnodes → ∃ t ∈ g.data.elements, v ∈ t.verts

section
variable {K : Type} (g : GridData K) (hg : g.Valid) (hused : AllUsed g) (domain : Nat → Int)
include hg hused

theorem gridView_wf : (g.data.view domain).WF := by
  obtain ⟨c, hc⟩ := hg.init
  exact C59_view_consistent _ _ c _ hc hg.mesh hused domain

/-- The dofs of the coarse continuous P1 space on the whole grid are the vertices. -/
theorem coarse_p1 (strict : Bool) : ∃ m, assignP1 (g.data.view domain) (wholeGrid (g.data.view domain)) strict = .ok m ∧
    m.globalDofCount = g.data.nnodes ∧
    ∀ e t, g.data.elements[e]? = some t → m.getGlobalDofs e = [(t.a : Int), (t.b : Int), (t.c : Int)] := by
  have hv := gridView_wf g hg hused domain
  obtain ⟨m, h1, -, h3, h4⟩ := C39_dof_maps (g.data.view domain) hv (Or.inr rfl)
    (wholeGrid (g.data.view domain)) (fun _ => rfl) strict
  have helem : ∀ e ∈ (g.data.view domain).elems, (wholeGrid (g.data.view domain)).contains 0 e.index = .ok true := by
    intro e he
    exact contains_wholeGrid _ 0 _ (by omega) (index_lt _ hv he)
  have hall : ∀ i < g.data.nnodes, P1Vertex (g.data.view domain) (wholeGrid (g.data.view domain)) strict i := by
    intro i hi
    refine ⟨contains_wholeGrid _ 2 _ (by omega) hi, fun _ => ?_⟩
    obtain ⟨t, ht, hit⟩ := hused i hi
    obtain ⟨n, hn⟩ := List.getElem?_of_mem ht
    obtain ⟨e, he, -, hs, -⟩ := view_elem g.data domain n t hn
    exact ⟨e, List.mem_of_getElem? he, helem e (List.mem_of_getElem? he), by
      show i ∈ e.sub 2
      rw [hs]; simpa [Tri.verts] using hit⟩
  refine ⟨m, h1, ?_, ?_⟩
  · rw [h3]
    exact countBelow_all _ _ hall
  · intro n t ht
    obtain ⟨e, he, hidx, hs, -⟩ := view_elem g.data domain n t ht
    have hem := List.mem_of_getElem? he
    obtain ⟨hl, hat⟩ := h4 e hem
    have hr := hg.mesh.range t (List.mem_of_getElem? ht)
    have key : ∀ i vtx : Nat, ([t.a, t.b, t.c] : List Nat)[i]? = some vtx → m.At ⟨n, i⟩ (vtx : Int) := by
      intro i vtx hi
      have hlt := hr vtx (by have := List.mem_of_getElem? hi; simpa [Tri.verts] using this)
      have := (hat i vtx (by show (e.sub 2)[i]? = _; rw [hs]; exact hi)).1 ⟨hall vtx hlt, fun _ => helem e hem⟩
      rw [countBelow_all _ _ (fun i hi => hall i (by omega)), hidx] at this
      exact this
    refine row_eq_three ?_ (key 0 _ rfl) (key 1 _ rfl) (key 2 _ rfl)
    rw [hidx] at hl
    rw [hl]
    show (e.sub 2).length = 3
    rw [hs]; rfl

/-- The dofs of the coarse discontinuous P1 space on the whole grid. -/
theorem coarse_p1disc (strict : Bool) :
    ∃ m, assignP1Disc (g.data.view domain) (wholeGrid (g.data.view domain)) strict = .ok m ∧
    m.globalDofCount = 3 * g.data.elements.length ∧
    ∀ e t, g.data.elements[e]? = some t →
      m.getGlobalDofs e = [((3 * e : Nat) : Int), ((3 * e + 1 : Nat) : Int), ((3 * e + 2 : Nat) : Int)] := by
  have hv := gridView_wf g hg hused domain
  have hgood := p1d_good (g.data.view domain) hv (wholeGrid (g.data.view domain)) strict
  have huse : ∀ e ∈ (g.data.view domain).elems, p1dUses (g.data.view domain) (wholeGrid (g.data.view domain))
      strict e = [(0, true), (1, true), (2, true)] := by
    intro e he
    obtain ⟨n, hn⟩ := List.getElem?_of_mem he
    obtain ⟨t, ht, -, hs, -⟩ := view_elem' g.data domain n e hn
    have hr := hg.mesh.range t (List.mem_of_getElem? ht)
    have h0 : inSegment (wholeGrid (g.data.view domain)) 0 e.index = true :=
      (inSegment_iff _ _ _).mpr (contains_wholeGrid _ 0 _ (by omega) (index_lt _ hv he))
    have h2 : ∀ i ∈ t.verts, inSegment (wholeGrid (g.data.view domain)) 2 i = true := by
      intro i hi
      exact (inSegment_iff _ _ _).mpr (contains_wholeGrid _ 2 _ (by omega) (hr i hi))
    unfold p1dUses
    show ((e.sub 2).zipIdx.map fun q => (q.2, (strict && inSegment _ 0 e.index) || (!strict && inSegment _ 2 q.1))) = _
    rw [hs]
    simp only [List.zipIdx_cons, List.zipIdx_nil, List.map_cons, List.map_nil, h0, h2 t.a (by simp [Tri.verts]),
      h2 t.b (by simp [Tri.verts]), h2 t.c (by simp [Tri.verts])]
    cases strict <;> rfl
  have hflat : (g.data.view domain).elems.flatMap (usedOf (p1dUses (g.data.view domain)
      (wholeGrid (g.data.view domain)) strict)) =
      (g.data.view domain).elems.flatMap fun e => [⟨e.index, 0⟩, ⟨e.index, 1⟩, ⟨e.index, 2⟩] := by
    refine List.flatMap_congr fun e he => ?_
    unfold usedOf
    rw [huse e he]
    rfl
  have hlen : (g.data.view domain).elems.length = g.data.elements.length := by simp [DataContainer.view]
  refine ⟨pushElements (g.data.view domain) (p1dUses (g.data.view domain) (wholeGrid (g.data.view domain)) strict),
    by unfold assignP1Disc; rw [if_neg (by simp [DataContainer.view])], ?_, ?_⟩
  · rw [pushElements_count, hflat, List.length_flatMap]
    simp [hlen, Nat.mul_comm]
  · intro n t ht
    obtain ⟨e, he, hidx, hs, -⟩ := view_elem g.data domain n t ht
    have hem := List.mem_of_getElem? he
    have key : ∀ j < 3, (pushElements (g.data.view domain) (p1dUses (g.data.view domain)
        (wholeGrid (g.data.view domain)) strict)).At ⟨n, j⟩ ((3 * n + j : Nat) : Int) := by
      intro j hj
      rw [pushElements_at hgood]
      refine ⟨e, hem, hidx, Or.inl ⟨?_, by omega, ?_⟩⟩
      · rw [huse e hem]; interval_cases j <;> simp
      · rw [hflat, Int.toNat_natCast, flatMap_block_get 3 _ (by intro a; rfl) _ _ _ hj, he, ← hidx]
        interval_cases j <;> rfl
    refine row_eq_three ?_ (key 0 (by omega)) (key 1 (by omega)) (key 2 (by omega))
    refine row_length_three (key 2 (by omega)) ?_
    intro x hx
    rw [pushElements_at hgood] at hx
    obtain ⟨e', he', -, h⟩ := hx
    rw [huse e' he'] at h
    simp at h

end

/-! ### The barycentric side -/

theorem sons_ok {K : Type} [Field K] (g : GridData K) (hg : g.Valid) (b : GridData K) (s : Nat → Nat → Nat)
    (h : barycentricGridSonPair g = .ok (b, s)) (domain : Nat → Int) :
    SonsOk (g.data.view domain) b.data.elements.length s := by
  obtain ⟨h1, -, h3⟩ := C34_sons g hg b s h
  have hidx : ∀ e ∈ (g.data.view domain).elems, e.index < g.data.elements.length := by
    intro e he
    obtain ⟨n, hn⟩ := List.getElem?_of_mem he
    obtain ⟨t, ht, h2, -⟩ := view_elem' g.data domain n e hn
    rw [h2]
    exact (List.getElem?_eq_some_iff.mp ht).1
  constructor
  · intro e he e' he' i hi j hj hij
    rw [h3 _ (hidx e he) i hi, h3 _ (hidx e' he') j hj] at hij
    omega
  · intro e he i hi
    exact (h1 _ (hidx e he) i hi).1

theorem view_index_nodup (d : DataContainer) (domain : Nat → Int) :
    ((d.view domain).elems.map (·.index)).Nodup := by
  simp only [DataContainer.view, List.map_map, Function.comp_def]
  simpa using List.nodup_range

section Rows
variable {coarse : View} {fineCount : Nat} {sonMap : Nat → Nat → Nat} {fd : Elem → Nat → List Nat} {count : Nat}

theorem baryP1_good (hn : (coarse.elems.map (·.index)).Nodup) (hs : SonsOk coarse fineCount sonMap)
    (hr : ∀ n e, coarse.elems[n]? = some e → ∀ j < 3, (fd e n).getD j 0 < count) :
    GoodWrites (sonLoop coarse fineCount sonMap fd) count (fun _ => 3) baryP1Writes := by
  refine sonLoop_good hn hs ?_ ?_
  · intro x hx
    obtain ⟨e, n, -, i, hi, rfl⟩ := (mem_sonLoop x).mp hx
    unfold baryP1Writes
    rw [List.map_map]
    exact element2Basis_perm i hi
  · intro x hx w hw
    obtain ⟨e, n, he, i, hi, rfl⟩ := (mem_sonLoop x).mp hx
    unfold baryP1Writes at hw
    obtain ⟨j, hj, rfl⟩ := List.mem_map.mp hw
    have := hr n e he j (List.mem_range.mp hj)
    refine Or.inr ⟨by simp, by simp only; omega⟩

/-- The function with coefficients `c` on a son: the dofs of the father's list with the shape functions chosen by the
table. -/
theorem expand_baryP1 {K : Type} [Field K] (hn : (coarse.elems.map (·.index)).Nodup)
    (hs : SonsOk coarse fineCount sonMap)
    (hr : ∀ n e, coarse.elems[n]? = some e → ∀ j < 3, (fd e n).getD j 0 < count)
    (n : Nat) (e : Elem) (he : coarse.elems[n]? = some e) (k : Nat) (hk : k < 6) (c : Nat → K) (shape : Nat → K) :
    expand ((writeElements (sonLoop coarse fineCount sonMap fd) count (fun _ => 3) baryP1Writes).getGlobalDofs
      (sonMap e.index k)) c shape =
      c ((fd e n).getD 0 0) * shape (element2Basis k 0) + c ((fd e n).getD 1 0) * shape (element2Basis k 1) +
        c ((fd e n).getD 2 0) * shape (element2Basis k 2) := by
  have hgood := baryP1_good hn hs hr
  have hm : (Elem.mk (sonMap e.index k) (k : Int) (fun _ => fd e n) (fun _ _ => [])) ∈
      (sonLoop coarse fineCount sonMap fd).elems := (mem_sonLoop _).mpr ⟨e, n, he, k, hk, rfl⟩
  have hrow := writeElements_row hgood hm
  simp only at hrow
  have hat : ∀ j < 3, (writeElements (sonLoop coarse fineCount sonMap fd) count (fun _ => 3) baryP1Writes).At
      ⟨sonMap e.index k, element2Basis k j⟩ (((fd e n).getD j 0 : Nat) : Int) := by
    intro j hj
    rw [writeElements_at hgood]
    exact ⟨_, hm, rfl, List.mem_map.mpr ⟨j, List.mem_range.mpr hj, by simp⟩⟩
  have hl : ((writeElements (sonLoop coarse fineCount sonMap fd) count (fun _ => 3) baryP1Writes).getGlobalDofs
      (sonMap e.index k)).length = 3 := by rw [hrow, rowOf_length]
  have h0 := hat 0 (by omega)
  have h1 := hat 1 (by omega)
  have h2 := hat 2 (by omega)
  interval_cases k
  · rw [row_eq_three hl h0 h1 h2]; simp [expand, element2Basis]; ring
  · rw [row_eq_three hl h0 h1 h2]; simp [expand, element2Basis]; ring
  · rw [row_eq_three hl h1 h2 h0]; simp [expand, element2Basis]; ring
  · rw [row_eq_three hl h1 h2 h0]; simp [expand, element2Basis]; ring
  · rw [row_eq_three hl h2 h0 h1]; simp [expand, element2Basis]; ring
  · rw [row_eq_three hl h2 h0 h1]; simp [expand, element2Basis]; ring

end Rows

/-! ### C68 -/

section C68
variable {K : Type} [Field K] [LinearOrder K] [IsStrictOrderedRing K]

/-- A point of son `k` of element `e`, given by its coordinates `p` in the son and `q` in the element. -/
structure SamePoint (g b : GridData K) (s : Nat → Nat → Nat) (e : Nat) (t : Tri) (k : Nat) (p q : K × K) :
    Prop where
  son_number : k < 6
  element : g.data.elements[e]? = some t
  nondegenerate : areaVector (nodeAt g.nodes t.a) (nodeAt g.nodes t.b) (nodeAt g.nodes t.c) ≠ ⟨0, 0, 0⟩
  same : ∃ son, b.data.elements[s e k]? = some son ∧
    refMap (nodeAt b.nodes son.a) (nodeAt b.nodes son.b) (nodeAt b.nodes son.c) p =
      refMap (nodeAt g.nodes t.a) (nodeAt g.nodes t.b) (nodeAt g.nodes t.c) q

theorem SamePoint.coord {g b : GridData K} {s : Nat → Nat → Nat} {e : Nat} {t : Tri} {k : Nat} {p q : K × K}
    (h : SamePoint g b s e t k p q) (hg : g.Valid) (hb : barycentricGridSonPair g = .ok (b, s)) :
    q = sonCoord k p := by
  obtain ⟨son, h1, h2⟩ := h.same
  exact son_coord_of_eq g hg b s hb e t h.element h.nondegenerate k h.son_number son h1 p q h2

/-- **C68 (continuous P1)** On the whole of a valid grid in which every vertex belongs to an element, the
continuous P1 space and its barycentric version have the same global dofs, the dof maps of the barycentric
version are consistent, and every coefficient vector stands for the same function: at each point of each
barycentric element the value of the barycentric representation is the value of the coarse one. -/
theorem C68_p1_continuous_partial (g : GridData K) (hg : g.Valid) (hused : AllUsed g) (b : GridData K)
    (s : Nat → Nat → Nat) (hb : barycentricGridSonPair g = .ok (b, s)) (domain : Nat → Int) (strict : Bool) :
    ∃ m mb types, assignP1 (g.data.view domain) (wholeGrid (g.data.view domain)) strict = .ok m ∧
      assignP1Bary (g.data.view domain) b.data.elements.length s (wholeGrid (g.data.view domain)) strict =
        .ok (mb, types) ∧
      mb.Consistent ∧ mb.globalDofCount = m.globalDofCount ∧
      ∀ (c : Nat → K) e t k p q, SamePoint g b s e t k p q →
        expand (mb.getGlobalDofs (s e k)) c (fun a => linearBaryShape (shapesetType types (s e k)) a p) =
          expand (m.getGlobalDofs e) c (fun a => p1Shape a q) := by
  obtain ⟨m, hm, hcount, hrow⟩ := coarse_p1 g hg hused domain strict
  have hn := view_index_nodup g.data domain
  have hs := sons_ok g hg b s hb domain
  have hr : ∀ (n : Nat) (e : Elem), (g.data.view domain).elems[n]? = some e → ∀ j < 3, (e.sub 2).getD j 0 < g.data.nnodes := by
    intro n e he j hj
    obtain ⟨t, ht, -, hsub, -⟩ := view_elem' g.data domain n e he
    have hr := hg.mesh.range t (List.mem_of_getElem? ht)
    rw [hsub]
    interval_cases j <;> exact hr _ (by simp [Tri.verts])
  have hgood := baryP1_good (fd := fun (e : Elem) _ => e.sub 2) hn hs hr
  refine ⟨m, writeElements (sonLoop (g.data.view domain) b.data.elements.length s fun (e : Elem) _ => e.sub 2)
      g.data.nnodes (fun _ => 3) baryP1Writes,
    sonTypes (sonLoop (g.data.view domain) b.data.elements.length s fun (e : Elem) _ => e.sub 2), hm,
    by unfold assignP1Bary; rw [if_neg (by simp [DataContainer.view])]; rfl,
    writeElements_consistent hgood, ?_, ?_⟩
  · rw [writeElements_count, hcount]
  · intro c e t k p q hpq
    obtain ⟨x, hx, hidx, hsub, -⟩ := view_elem g.data domain e t hpq.element
    have hty := sonTypes_get (fd := fun (e : Elem) _ => e.sub 2) hn hs (List.mem_of_getElem? hx) hpq.son_number
    have hexp := expand_baryP1 (fd := fun (e : Elem) _ => e.sub 2) hn hs hr e x hx k hpq.son_number c
    rw [hidx] at hty hexp
    have hq := hpq.coord hg hb
    rw [hrow e t hpq.element]
    refine (hexp _).trans ?_
    rw [hsub]
    simp only [hty, linearBary_son k hpq.son_number _ (show 0 < 3 by omega),
      linearBary_son k hpq.son_number _ (show 1 < 3 by omega),
      linearBary_son k hpq.son_number _ (show 2 < 3 by omega), ← hq]
    simp [expand]
    ring

/-- **C68 (discontinuous P1)** The same for the discontinuous P1 space. -/
theorem C68_p1_discontinuous_partial (g : GridData K) (hg : g.Valid) (hused : AllUsed g) (b : GridData K)
    (s : Nat → Nat → Nat) (hb : barycentricGridSonPair g = .ok (b, s)) (domain : Nat → Int) (strict : Bool) :
    ∃ m mb types, assignP1Disc (g.data.view domain) (wholeGrid (g.data.view domain)) strict = .ok m ∧
      assignP1DiscBary (g.data.view domain) b.data.elements.length s (wholeGrid (g.data.view domain)) strict =
        .ok (mb, types) ∧
      mb.Consistent ∧ mb.globalDofCount = m.globalDofCount ∧
      ∀ (c : Nat → K) e t k p q, SamePoint g b s e t k p q →
        expand (mb.getGlobalDofs (s e k)) c (fun a => linearBaryShape (shapesetType types (s e k)) a p) =
          expand (m.getGlobalDofs e) c (fun a => p1Shape a q) := by
  obtain ⟨m, hm, hcount, hrow⟩ := coarse_p1disc g hg hused domain strict
  have hn := view_index_nodup g.data domain
  have hs := sons_ok g hg b s hb domain
  have hr : ∀ (n : Nat) (e : Elem), (g.data.view domain).elems[n]? = some e → ∀ j < 3,
      ([3 * n, 3 * n + 1, 3 * n + 2] : List Nat).getD j 0 < 3 * g.data.elements.length := by
    intro n e he j hj
    obtain ⟨t, ht, -, hsub, -⟩ := view_elem' g.data domain n e he
    have := (List.getElem?_eq_some_iff.mp ht).1
    interval_cases j <;> simp <;> omega
  have hgood := baryP1_good (fd := fun _ n => [3 * n, 3 * n + 1, 3 * n + 2]) hn hs hr
  refine ⟨m, writeElements (sonLoop (g.data.view domain) b.data.elements.length s
      fun _ n => [3 * n, 3 * n + 1, 3 * n + 2]) (3 * g.data.elements.length) (fun _ => 3) baryP1Writes,
    sonTypes (sonLoop (g.data.view domain) b.data.elements.length s fun _ n => [3 * n, 3 * n + 1, 3 * n + 2]), hm,
    by unfold assignP1DiscBary; rw [if_neg (by simp [DataContainer.view])]; rfl,
    writeElements_consistent hgood, ?_, ?_⟩
  · rw [writeElements_count, hcount]
  · intro c e t k p q hpq
    obtain ⟨x, hx, hidx, hsub, -⟩ := view_elem g.data domain e t hpq.element
    have hty := sonTypes_get (fd := fun _ n => [3 * n, 3 * n + 1, 3 * n + 2]) hn hs
      (List.mem_of_getElem? hx) hpq.son_number
    have hexp := expand_baryP1 (fd := fun _ n => [3 * n, 3 * n + 1, 3 * n + 2]) hn hs hr e x hx k hpq.son_number c
    rw [hidx] at hty hexp
    have hq := hpq.coord hg hb
    rw [hrow e t hpq.element]
    refine (hexp _).trans ?_
    simp only [hty, linearBary_son k hpq.son_number _ (show 0 < 3 by omega),
      linearBary_son k hpq.son_number _ (show 1 < 3 by omega),
      linearBary_son k hpq.son_number _ (show 2 < 3 by omega), ← hq]
    simp only [expand, List.zipIdx_cons, List.zipIdx_nil, List.map_cons, List.map_nil, List.sum_cons, List.sum_nil,
      Int.toNat_natCast, Int.natCast_nonneg, if_true, List.getD_cons_zero, List.getD_cons_succ]
    ring

/-- **C68 (P0)** The same for the space of piecewise constant functions. -/
theorem C68_p0_partial (g : GridData K) (hg : g.Valid) (hused : AllUsed g) (b : GridData K)
    (s : Nat → Nat → Nat) (hb : barycentricGridSonPair g = .ok (b, s)) (domain : Nat → Int) :
    let m := assignP0 (g.data.view domain) (wholeGrid (g.data.view domain))
    let mb := assignP0Bary (g.data.view domain) b.data.elements.length s (wholeGrid (g.data.view domain))
    mb.Consistent ∧ mb.globalDofCount = m.globalDofCount ∧
      ∀ (c : Nat → K) (e k : Nat), e < g.data.elements.length → k < 6 →
        expand (mb.getGlobalDofs (s e k)) c (fun _ => 1) = expand (m.getGlobalDofs e) c (fun _ => 1) := by
  have hv := gridView_wf g hg hused domain
  have hn := view_index_nodup g.data domain
  have hs := sons_ok g hg b s hb domain
  have hgood : GoodWrites (sonLoop (g.data.view domain) b.data.elements.length s fun (e : Elem) _ => [e.index])
      ((g.data.view domain).count 0) (fun _ => 1) fun (e : Elem) => [(0, (((e.sub 0).getD 0 0 : Nat) : Int))] := by
    refine sonLoop_good hn hs ?_ ?_
    · intro x _; exact List.Perm.refl _
    · intro x hx w hw
      obtain ⟨e, n, he, i, hi, rfl⟩ := (mem_sonLoop x).mp hx
      simp only [List.mem_singleton] at hw
      subst hw
      have := index_lt _ hv (List.mem_of_getElem? he)
      refine Or.inr ⟨by simp, by simpa using this⟩
  have hin : ∀ e ∈ (g.data.view domain).elems,
      inSegment (wholeGrid (g.data.view domain)) 0 e.index = true := fun e he =>
    (inSegment_iff _ _ _).mpr (contains_wholeGrid _ 0 _ (by omega) (index_lt _ hv he))
  have hflat : (g.data.view domain).elems.flatMap (usedOf fun e =>
      [(0, inSegment (wholeGrid (g.data.view domain)) 0 e.index)]) =
      (g.data.view domain).elems.map fun e => ⟨e.index, 0⟩ := by
    rw [p0_used, List.filter_eq_self.mpr hin]
  refine ⟨writeElements_consistent hgood, ?_, ?_⟩
  · refine (writeElements_count).trans ?_
    unfold assignP0
    rw [pushElements_count, hflat]
    simp [DataContainer.view]
  · intro c e k he hk
    obtain ⟨x, hx, hidx, -, -⟩ := view_elem g.data domain e _ (List.getElem?_eq_getElem he)
    have hxm := List.mem_of_getElem? hx
    have hm : (Elem.mk (s x.index k) (k : Int) (fun _ => [x.index]) (fun _ _ => [])) ∈
        (sonLoop (g.data.view domain) b.data.elements.length s fun (e : Elem) _ => [e.index]).elems :=
      (mem_sonLoop _).mpr ⟨x, e, hx, k, hk, rfl⟩
    have hrow := writeElements_row hgood hm
    simp only [hidx] at hrow
    have h1 : (assignP0Bary (g.data.view domain) b.data.elements.length s
        (wholeGrid (g.data.view domain))).getGlobalDofs (s e k) = [(e : Int)] := by
      refine hrow.trans ?_
      simp [rowOf]
    have hmem : (assignP0 (g.data.view domain) (wholeGrid (g.data.view domain))).At ⟨e, 0⟩ (e : Int) := by
      unfold assignP0
      rw [pushElements_at (p0_good _ hv _)]
      refine ⟨x, hxm, hidx, Or.inl ⟨by simp [hin x hxm], by omega, ?_⟩⟩
      rw [hflat, Int.toNat_natCast, List.getElem?_map, hx]
      simp [hidx]
    have h2 : (assignP0 (g.data.view domain) (wholeGrid (g.data.view domain))).getGlobalDofs e = [(e : Int)] := by
      obtain ⟨-, -, h3⟩ := C40_dof_maps_partial (g.data.view domain) hv (wholeGrid (g.data.view domain))
      obtain ⟨gd, h4, -⟩ := (h3 x hxm).1 (contains_wholeGrid _ 0 _ (by omega) (index_lt _ hv hxm))
      rw [hidx] at h4
      unfold DofMaps.At at hmem
      simp only [h4] at hmem
      rw [h4]
      simpa using hmem
    rw [h1, h2]

/-- **C68** The derivatives computed by the barycentric linear shapeset are the derivatives of its values. -/
theorem C68_linear_derivatives (t : BaryType) (dof : Nat) (p h : K × K) :
    linearBaryShape t dof (p.1 + h.1, p.2 + h.2) - linearBaryShape t dof p =
      linearBaryDeriv t dof 0 * h.1 + linearBaryDeriv t dof 1 * h.2 := by
  simp [linearBaryShape, linearBaryDeriv, p1Shape, p1Deriv, List.range_succ]
  ring

end C68

/-- **C68 is false for segments**: the barycentric spaces ignore the segment they are given.  On a grid with
one triangle and the segment `openDomain` (which contains the triangle but none of its vertices), the coarse
continuous P1 space has no dofs, the barycentric one has three; with a segment that contains no element, the
coarse P0 space has no dofs and the barycentric one has one. -/
theorem C68_counterexample_segment :
    (book 1).WF ∧ (∃ m, assignP1 (book 1) (openDomain (book 1) {1}) true = .ok m ∧ m.globalDofCount = 0) ∧
    (∃ m, assignP1Bary (book 1) 6 (fun e k => 6 * e + k) (openDomain (book 1) {1}) true = .ok m ∧
      m.1.globalDofCount = 3) ∧
    (assignP0 (book 1) ⟨fun c => (book 1).count c, fun c => if c = 0 then {0} else ∅⟩).globalDofCount = 0 ∧
    (assignP0Bary (book 1) 6 (fun e k => 6 * e + k)
      ⟨fun c => (book 1).count c, fun c => if c = 0 then {0} else ∅⟩).globalDofCount = 1 := by
  refine ⟨book_WF 1 (by decide), ⟨⟨[[-1, -1, -1]], []⟩, ?_, by decide⟩, ⟨_, rfl, by decide⟩, by decide, by decide⟩
  simp only [assignP1, p1Writes_eq, p1Numbering, p1Marks, excludedMarks_eq _ (book 1).dim (by decide)]; decide

/-- Non-vacuity of C68: two triangles sharing an edge form a valid grid in which all vertices are used, it
can be refined, and the point with coordinates (1/4, 1/4) in son 1 of element 0 is the point (5/24, 1/12) of
element 0. -/
example : ∃ d, DataContainer.init 4 [⟨0, 1, 2⟩, ⟨1, 3, 2⟩] = some d ∧
    ∃ g : GridData ℚ, g = ⟨[⟨0, 0, 0⟩, ⟨1, 0, 0⟩, ⟨0, 1, 0⟩, ⟨1, 1, 1⟩], d, [3, 4]⟩ ∧ g.Valid ∧ AllUsed g ∧
    ∃ b s, barycentricGridSonPair g = .ok (b, s) ∧
      SamePoint g b s 0 ⟨0, 1, 2⟩ 1 (1 / 4, 1 / 4) (5 / 24, 1 / 12) := by
  refine ⟨_, rfl, _, rfl, ?_⟩
  have hv : GridData.Valid (K := ℚ) ⟨[⟨0, 0, 0⟩, ⟨1, 0, 0⟩, ⟨0, 1, 0⟩, ⟨1, 1, 1⟩],
      ((DataContainer.init 4 [⟨0, 1, 2⟩, ⟨1, 3, 2⟩]).get rfl), [3, 4]⟩ := by
    refine ⟨⟨0, rfl⟩, rfl, rfl, ?_, ?_⟩ <;>
    · intro t ht
      have ht : t ∈ [(⟨0, 1, 2⟩ : Tri), ⟨1, 3, 2⟩] := ht
      simp only [List.mem_cons, List.not_mem_nil, or_false] at ht
      rcases ht with rfl | rfl <;> simp [Tri.verts, Tri.Proper] <;> decide
  refine ⟨hv, ?_, ?_⟩
  · intro v hv
    have hv : v < 4 := hv
    interval_cases v
    · exact ⟨⟨0, 1, 2⟩, by decide, by decide⟩
    · exact ⟨⟨0, 1, 2⟩, by decide, by decide⟩
    · exact ⟨⟨0, 1, 2⟩, by decide, by decide⟩
    · exact ⟨⟨1, 3, 2⟩, by decide, by decide⟩
  · obtain ⟨b, s, hb, -⟩ := C34_structure _ hv
    refine ⟨b, s, hb, by decide, rfl, ?_, ?_⟩
    · intro h
      have := congrArg P3.z h
      simp [areaVector, nodeAt] at this
    · obtain ⟨son, hson, -⟩ := C34_area (by norm_num) (by norm_num) _ hv b s hb 0 ⟨0, 1, 2⟩ rfl 1 (by decide)
      refine ⟨son, hson, ?_⟩
      rw [son_refMap _ hv b s hb 0 ⟨0, 1, 2⟩ rfl 1 (by decide) son hson]
      simp [sonCoord]
      norm_num

end Verif.Space
