import Verif.Lemmas.BcNext
import Verif.Props.SpaceVector
/-
The tables of the coarse grid of a Buffa-Christiansen space on an oriented surface.
-/
namespace Verif.Space
open Verif.Grid

variable {K : Type}

/-- The corner from which the side of a step leads. -/
def stepCorner (p : Elem × Nat) : Nat := 3 * p.1.index + (if p.2 = 0 then 0 else if p.2 = 1 then 2 else 1)

section
variable (g : GridData K) (hg : g.Valid) (dom : Nat → Int)
include hg

omit hg in
theorem mem_steps (p : Elem × Nat) : p ∈ bcEdgeSteps (g.data.view dom) ↔ p.1 ∈ (g.data.view dom).elems ∧ p.2 < 3 := by
  unfold bcEdgeSteps
  rw [List.mem_flatMap]
  constructor
  · rintro ⟨e, he, hp⟩
    simp only [List.mem_cons, List.not_mem_nil, or_false] at hp
    rcases hp with rfl | rfl | rfl <;> exact ⟨he, by simp⟩
  · rintro ⟨he, h3⟩
    refine ⟨p.1, he, ?_⟩
    obtain ⟨e, i⟩ := p
    simp only at h3 ⊢
    obtain rfl | rfl | rfl : i = 0 ∨ i = 1 ∨ i = 2 := by omega
    all_goals simp

theorem step_spec (p : Elem × Nat) (hp : p ∈ bcEdgeSteps (g.data.view dom)) :
    stepCorner p < 3 * g.data.elements.length ∧ stepCorner p / 3 = p.1.index ∧ subIndex p.1 p.2 1 = outEdge g (stepCorner p) ∧
      subIndex p.1 (if p.2 = 0 then 1 else if p.2 = 1 then 0 else 2) 2 = cornerAt g (nextCorner (stepCorner p)) ∧
      subIndex p.1 (if p.2 = 0 then 0 else if p.2 = 1 then 2 else 1) 2 = cornerAt g (stepCorner p) := by
  obtain ⟨he, h3⟩ := (mem_steps g dom p).mp hp
  obtain ⟨t, ht, h1, h2⟩ := view_sub g dom p.1 he
  have hlt := (List.getElem?_eq_some_iff.mp ht).1
  obtain ⟨e, i⟩ := p
  simp only at *
  have hi : i = 0 ∨ i = 1 ∨ i = 2 := by omega
  have hdiv : stepCorner (e, i) / 3 = e.index := by
    unfold stepCorner
    rcases hi with rfl | rfl | rfl <;> simp <;> omega
  have hmod : stepCorner (e, i) % 3 = if i = 0 then 0 else if i = 1 then 2 else 1 := by
    unfold stepCorner
    rcases hi with rfl | rfl | rfl <;> simp <;> omega
  have hlt' : stepCorner (e, i) < 3 * g.data.elements.length := by omega
  refine ⟨hlt', hdiv, ?_, ?_, ?_⟩
  · rw [h1, outEdge_side g hg, hdiv, hmod]
    rcases hi with rfl | rfl | rfl <;> simp
  · rw [h2 _ (by split_ifs <;> omega), cornerAt_eq g _ t (by rw [next_div, hdiv]; exact ht)]
    have : nextCorner (stepCorner (e, i)) % 3 = ((if i = 0 then 0 else if i = 1 then 2 else 1) + 1) % 3 := by
      rw [← hmod]; unfold nextCorner; omega
    rw [this]
    rcases hi with rfl | rfl | rfl <;> simp [vertAt]
  · rw [h2 _ (by split_ifs <;> omega), cornerAt_eq g _ t (by rw [hdiv]; exact ht), hmod]
    rcases hi with rfl | rfl | rfl <;> simp [vertAt]

omit hg in
/-- Every corner belongs to a step. -/
theorem step_of (x : Nat) (hx : x < 3 * g.data.elements.length) : ∃ p ∈ bcEdgeSteps (g.data.view dom), stepCorner p = x := by
  obtain ⟨e, he, hi⟩ := view_has g dom (x / 3) (by omega)
  refine ⟨(e, if x % 3 = 0 then 0 else if x % 3 = 1 then 2 else 1), (mem_steps g dom _).mpr ⟨he, by simp only; split_ifs <;> omega⟩, ?_⟩
  unfold stepCorner
  simp only
  have : x % 3 = 0 ∨ x % 3 = 1 ∨ x % 3 = 2 := by omega
  rcases this with h | h | h <;> simp [h] <;> omega

theorem mem_sub1 (e : Elem) (he : e ∈ (g.data.view dom).elems) (f : Nat) :
    f ∈ e.sub 1 ↔ ∃ x < 3 * g.data.elements.length, x / 3 = e.index ∧ outEdge g x = f := by
  obtain ⟨n, hn⟩ := List.getElem?_of_mem he
  obtain ⟨t, ht, hi, -, h1⟩ := view_elem' g.data dom n e hn
  subst hi
  have hlt := (List.getElem?_eq_some_iff.mp ht).1
  obtain ⟨f0, f1, f2, p0, p1, p2, hf, -⟩ := element_edges g hg _ t ht
  rw [h1, hf]
  simp only [Option.getD_some, List.mem_cons, List.not_mem_nil, or_false]
  have ho : ∀ x, x / 3 = e.index → outEdge g x = if x % 3 = 0 then f0 else if x % 3 = 1 then f2 else f1 := by
    intro x hx
    rw [outEdge_side g hg, hx]
    unfold sideEdge
    rw [hf]
    have : x % 3 = 0 ∨ x % 3 = 1 ∨ x % 3 = 2 := by omega
    rcases this with h | h | h <;> simp [h]
  constructor
  · rintro (rfl | rfl | rfl)
    · exact ⟨3 * e.index, by omega, by omega, by rw [ho _ (by omega), if_pos (by omega)]⟩
    · exact ⟨3 * e.index + 2, by omega, by omega, by rw [ho _ (by omega), if_neg (by omega), if_neg (by omega)]⟩
    · exact ⟨3 * e.index + 1, by omega, by omega, by rw [ho _ (by omega), if_neg (by omega), if_pos (by omega)]⟩
  · rintro ⟨x, -, hx, rfl⟩
    rw [ho x hx]
    split_ifs <;> simp

variable (hs : OrientedSurface g)
include hs

omit hg in
theorem surface_used : AllUsed g := by
  intro v hv
  obtain ⟨l, hne, hl, -⟩ := hs v hv
  obtain ⟨x, hx⟩ := List.exists_mem_of_ne_nil l hne
  obtain ⟨h1, h2⟩ := (hl.mem x).mp hx
  obtain ⟨t, ht⟩ := elem_get g x h1
  refine ⟨t, List.mem_of_getElem? ht, ?_⟩
  rw [← h2, cornerAt_eq g x t ht]
  simp only [Tri.verts]
  split_ifs <;> simp

theorem scan_get (f : Nat) (hf : f < g.data.edges.length) :
    (baryScan (g.data.view dom))[f]? = some ((adjacentElems (g.data.view dom) f).foldl (scanUpdate (wholeGrid (g.data.view dom))) ⟨0, true, none⟩) := by
  unfold baryScan
  rw [rwgScan_get _ (gridView_wf g hg (surface_used g hs) dom) _ _ f hf, countedElems_eq _ _ _ _ (by intro h; cases h)]

omit hs in
theorem mem_adjacent (f : Nat) (e : Elem) : e ∈ adjacentElems (g.data.view dom) f ↔
    e ∈ (g.data.view dom).elems ∧ ∃ x < 3 * g.data.elements.length, x / 3 = e.index ∧ outEdge g x = f := by
  unfold adjacentElems
  rw [List.mem_filter, decide_eq_true_eq]
  constructor
  · rintro ⟨he, h⟩; exact ⟨he, (mem_sub1 g hg dom e he f).mp h⟩
  · rintro ⟨he, h⟩; exact ⟨he, (mem_sub1 g hg dom e he f).mpr h⟩

/-- The number of neighbours. -/
theorem adjacent_one (f : Nat) (hf : f < g.data.edges.length) : faceCountNextToCoarseEdge (g.data.view dom) f = 1 ↔
    ∀ x < 3 * g.data.elements.length, ∀ y < 3 * g.data.elements.length, outEdge g x = f → outEdge g y = f → x = y := by
  have hv := gridView_wf g hg (surface_used g hs) dom
  unfold faceCountNextToCoarseEdge
  rw [scan_get g hg dom hs f hf]
  simp only [Option.map_some, Option.getD_some]
  rw [scan_adjacent]
  show 0 + _ = 1 ↔ _
  rw [Nat.zero_add]
  have hmem := mem_adjacent g hg dom f
  have hidx : ((adjacentElems (g.data.view dom) f).map (·.index)).Nodup :=
    hv.index_nodup.sublist (List.Sublist.map _ List.filter_sublist)
  constructor
  · intro h x hx y hy hxf hyf
    obtain ⟨e, he⟩ := List.length_eq_one_iff.mp h
    obtain ⟨e1, he1, hi1⟩ := view_has g dom (x / 3) (by omega)
    obtain ⟨e2, he2, hi2⟩ := view_has g dom (y / 3) (by omega)
    have m1 := (hmem e1).mpr ⟨he1, x, hx, hi1.symm, hxf⟩
    have m2 := (hmem e2).mpr ⟨he2, y, hy, hi2.symm, hyf⟩
    rw [he, List.mem_singleton] at m1 m2
    exact outEdge_inj_elem g hg x y hx (by rw [← hi1, ← hi2, m1, m2]) (hxf.trans hyf.symm)
  · intro h
    obtain ⟨x, hx, hxf⟩ := edge_corner g hg f hf
    obtain ⟨e1, he1, hi1⟩ := view_has g dom (x / 3) (by omega)
    have m1 := (hmem e1).mpr ⟨he1, x, hx, hi1.symm, hxf⟩
    have hall : ∀ i ∈ (adjacentElems (g.data.view dom) f).map (·.index), i = x / 3 := by
      intro i hi
      obtain ⟨e, he, rfl⟩ := List.mem_map.mp hi
      obtain ⟨-, y, hy, hyi, hyf⟩ := (hmem e).mp he
      rw [← hyi, h x hx y hy hxf hyf]
    have hp : ((adjacentElems (g.data.view dom) f).map (·.index)).Perm [x / 3] := by
      rw [List.perm_ext_iff_of_nodup hidx (by simp)]
      intro i
      rw [List.mem_singleton]
      constructor
      · exact hall i
      · rintro rfl; exact List.mem_map.mpr ⟨e1, m1, hi1⟩
    simpa using hp.length_eq

/-- The step whose element has the lowest index. -/
theorem isLowest_iff (p : Elem × Nat) (hp : p ∈ bcEdgeSteps (g.data.view dom)) : isLowest (g.data.view dom) p = true ↔
    ∀ y < 3 * g.data.elements.length, outEdge g y = outEdge g (stepCorner p) → stepCorner p / 3 ≤ y / 3 := by
  obtain ⟨hlt, hdiv, hedge, -⟩ := step_spec g hg dom p hp
  obtain ⟨he, h3⟩ := (mem_steps g dom p).mp hp
  unfold isLowest
  rw [hedge, scan_get g hg dom hs _ (outEdge_lt g hg _ hlt)]
  simp only [Option.bind_some, beq_iff_eq]
  have hmem := mem_adjacent g hg dom (outEdge g (stepCorner p))
  have m0 := (hmem p.1).mpr ⟨he, _, hlt, hdiv, rfl⟩
  cases hl : ((adjacentElems (g.data.view dom) (outEdge g (stepCorner p))).foldl (scanUpdate (wholeGrid (g.data.view dom))) ⟨0, true, none⟩).lowest with
  | none =>
    have := scan_lowest_none _ _ _ hl
    rw [this] at m0
    cases m0
  | some k =>
    obtain ⟨h1, -, h2⟩ := scan_lowest _ _ _ k hl
    rw [Option.some.injEq]
    constructor
    · intro hk y hy hyf
      obtain ⟨e2, he2, hi2⟩ := view_has g dom (y / 3) (by omega)
      have := h1 e2 ((hmem e2).mpr ⟨he2, y, hy, hi2.symm, hyf⟩)
      omega
    · intro h
      have hk := h1 _ m0
      rcases h2 with ⟨e, he', hek⟩ | h2
      · obtain ⟨-, y, hy, hyi, hyf⟩ := (hmem e).mp he'
        have := h y hy hyf
        omega
      · cases h2

/-- Entries of the tables of the edges. -/
theorem edge_table (val : Elem × Nat → Nat) (low : Bool) (x : Nat) (a : Nat) (hx : x < 3 * g.data.elements.length)
    (hlow : ∀ p ∈ bcEdgeSteps (g.data.view dom), stepCorner p = x → isLowest (g.data.view dom) p = low)
    (huniq : ∀ p ∈ bcEdgeSteps (g.data.view dom), isLowest (g.data.view dom) p = low → outEdge g (stepCorner p) = outEdge g x → stepCorner p = x)
    (hval : ∀ p ∈ bcEdgeSteps (g.data.view dom), stepCorner p = x → val p = a) :
    (table (g.data.edges.length) none (((bcEdgeSteps (g.data.view dom)).filter fun p => isLowest (g.data.view dom) p == low).map
      fun p => (subIndex p.1 p.2 1, some (val p))))[outEdge g x]? = some (some a) := by
  refine table_get _ _ _ _ _ (outEdge_lt g hg x hx) ?_ (Or.inr ?_)
  · intro w hw hk
    obtain ⟨p, hp, rfl⟩ := List.mem_map.mp hw
    obtain ⟨hp, hpl⟩ := List.mem_filter.mp hp
    rw [beq_iff_eq] at hpl
    simp only at hk ⊢
    rw [(step_spec g hg dom p hp).2.2.1] at hk
    rw [hval p hp (huniq p hp hpl hk)]
  · obtain ⟨p, hp, hpx⟩ := step_of g dom x hx
    refine ⟨_, List.mem_map.mpr ⟨p, List.mem_filter.mpr ⟨hp, ?_⟩, rfl⟩, ?_⟩
    · rw [beq_iff_eq]; exact hlow p hp hpx
    · simp only
      rw [(step_spec g hg dom p hp).2.2.1, hpx]

/-- The corner of the element with the lowest index. -/
theorem lowest_corner (f : Nat) (hf : f < g.data.edges.length) : ∃ x < 3 * g.data.elements.length, outEdge g x = f ∧
    ∀ y < 3 * g.data.elements.length, outEdge g y = f → x / 3 ≤ y / 3 := by
  classical
  have hex : ∃ e, ∃ x < 3 * g.data.elements.length, outEdge g x = f ∧ x / 3 = e := by
    obtain ⟨x, hx, hxf⟩ := edge_corner g hg f hf
    exact ⟨_, x, hx, hxf, rfl⟩
  obtain ⟨x, hx, hxf, hxe⟩ := Nat.find_spec hex
  refine ⟨x, hx, hxf, ?_⟩
  intro y hy hyf
  rw [hxe]
  exact Nat.find_min' hex ⟨y, hy, hyf, rfl⟩

section
variable (x : Nat) (hx : x < 3 * g.data.elements.length)
  (hxl : ∀ y < 3 * g.data.elements.length, outEdge g y = outEdge g x → x / 3 ≤ y / 3)
include hx hxl

theorem low_unique (p : Elem × Nat) (hp : p ∈ bcEdgeSteps (g.data.view dom)) (h : isLowest (g.data.view dom) p = true)
    (he : outEdge g (stepCorner p) = outEdge g x) : stepCorner p = x := by
  obtain ⟨hlt, -⟩ := step_spec g hg dom p hp
  have h1 := (isLowest_iff g hg dom hs p hp).mp h x hx he.symm
  have h2 := hxl _ hlt he
  exact outEdge_inj_elem g hg _ _ hlt (by omega) he

theorem low_true (p : Elem × Nat) (hp : p ∈ bcEdgeSteps (g.data.view dom)) (h : stepCorner p = x) : isLowest (g.data.view dom) p = true := by
  rw [isLowest_iff g hg dom hs p hp, h]
  exact hxl

theorem vertex0_get : (coarseVerticesonEdge0 (g.data.view dom))[outEdge g x]? = some (some (cornerAt g (nextCorner x))) := by
  have := edge_table g hg dom hs (fun p => subIndex p.1 (if p.2 = 0 then 1 else if p.2 = 1 then 0 else 2) 2) true x (cornerAt g (nextCorner x)) hx
    (low_true g hg dom hs x hx hxl) (low_unique g hg dom hs x hx hxl)
    (fun p hp hpx => by rw [(step_spec g hg dom p hp).2.2.2.1, hpx])
  simpa [coarseVerticesonEdge0, DataContainer.view] using this

theorem vertex1_get : (coarseVerticesonEdge1 (g.data.view dom))[outEdge g x]? = some (some (cornerAt g x)) := by
  have := edge_table g hg dom hs (fun p => subIndex p.1 (if p.2 = 0 then 0 else if p.2 = 1 then 2 else 1) 2) true x (cornerAt g x) hx
    (low_true g hg dom hs x hx hxl) (low_unique g hg dom hs x hx hxl)
    (fun p hp hpx => by rw [(step_spec g hg dom p hp).2.2.2.2, hpx])
  simpa [coarseVerticesonEdge1, DataContainer.view] using this

omit hx hxl in
omit hg hs in
theorem sideSon_eq (sonMap : Nat → Nat → Nat) (hson : ∀ e k, e < g.data.elements.length → k < 6 → sonMap e k = 6 * e + k) (p : Elem × Nat)
    (hp : p ∈ bcEdgeSteps (g.data.view dom)) : sideSon sonMap p = 2 * nextCorner (stepCorner p) := by
  obtain ⟨he, h3⟩ := (mem_steps g dom p).mp hp
  obtain ⟨t, ht, -⟩ := view_sub g dom p.1 he
  have hlt := (List.getElem?_eq_some_iff.mp ht).1
  unfold sideSon
  rw [hson _ _ hlt (by split_ifs <;> omega)]
  obtain ⟨e, i⟩ := p
  simp only at *
  unfold stepCorner nextCorner
  have hi : i = 0 ∨ i = 1 ∨ i = 2 := by omega
  rcases hi with rfl | rfl | rfl <;> simp <;> omega

theorem face0_get (sonMap : Nat → Nat → Nat) (hson : ∀ e k, e < g.data.elements.length → k < 6 → sonMap e k = 6 * e + k) :
    (fineFacesonEdge0 (g.data.view dom) sonMap)[outEdge g x]? = some (some (2 * nextCorner x)) := by
  have := edge_table g hg dom hs (sideSon sonMap) true x (2 * nextCorner x) hx
    (low_true g hg dom hs x hx hxl) (low_unique g hg dom hs x hx hxl)
    (fun p hp hpx => by rw [sideSon_eq g dom sonMap hson p hp, hpx])
  simpa [fineFacesonEdge0, DataContainer.view] using this

theorem face1_get (sonMap : Nat → Nat → Nat) (hson : ∀ e k, e < g.data.elements.length → k < 6 → sonMap e k = 6 * e + k) (x1 : Nat)
    (hx1 : x1 < 3 * g.data.elements.length) (hne : x1 ≠ x) (he : outEdge g x1 = outEdge g x) :
    (fineFacesonEdge1 (g.data.view dom) sonMap)[outEdge g x]? = some (some (2 * nextCorner x1)) := by
  have hno : ∀ p ∈ bcEdgeSteps (g.data.view dom), stepCorner p = x1 → isLowest (g.data.view dom) p = false := by
    intro p hp hpx
    cases h : isLowest (g.data.view dom) p with
    | false => rfl
    | true =>
      have := low_unique g hg dom hs x hx hxl p hp h (by rw [hpx, he])
      omega
  have := edge_table g hg dom hs (sideSon sonMap) false x1 (2 * nextCorner x1) hx1 hno
    (fun p hp hl he' => by
      obtain ⟨hlt, -⟩ := step_spec g hg dom p hp
      refine at_most_two g hg hs x (stepCorner p) x1 hx hlt hx1 (he'.trans he).symm he.symm ?_ (Ne.symm hne)
      intro hc
      have := low_true g hg dom hs x hx hxl p hp hc.symm
      rw [this] at hl; cases hl)
    (fun p hp hpx => by rw [sideSon_eq g dom sonMap hson p hp, hpx])
  rw [he] at this
  have e : (fun p : Elem × Nat => isLowest (g.data.view dom) p == false) = fun p => !isLowest (g.data.view dom) p := by
    funext p; cases isLowest (g.data.view dom) p <;> rfl
  rw [e] at this
  exact this

end

/-- The number of triangles at a vertex. -/
theorem edgeCount_get (v : Nat) (hv : v < g.data.nnodes) : (edgeCountNextToCoarseVertex (g.data.view dom))[v]? = some (valence g v) := by
  unfold edgeCountNextToCoarseVertex
  rw [view_flatMap3 g dom (fun e j => cornerAt g (3 * e + j)) _ (by
    intro e he
    obtain ⟨t, ht, -, h2⟩ := view_sub g dom e he
    rw [h2 0 (by omega), h2 1 (by omega), h2 2 (by omega), cornerAt_eq g (3 * e.index + 0) t (by rw [show (3 * e.index + 0) / 3 = e.index by omega]; exact ht),
      cornerAt_eq g (3 * e.index + 1) t (by rw [show (3 * e.index + 1) / 3 = e.index by omega]; exact ht),
      cornerAt_eq g (3 * e.index + 2) t (by rw [show (3 * e.index + 2) / 3 = e.index by omega]; exact ht),
      show (3 * e.index + 0) % 3 = 0 by omega, show (3 * e.index + 1) % 3 = 1 by omega, show (3 * e.index + 2) % 3 = 2 by omega]
    rfl), show (g.data.view dom).count 2 = g.data.nnodes from rfl, counts_get _ _ _ hv, count_map_eq]
  unfold valence
  congr 3
  funext j
  rw [show 3 * (j / 3) + j % 3 = j by omega]

/-- A boundary edge ends at the vertex. -/
theorem fan_open_iff {v : Nat} {l : List Nat} (hv : v < g.data.nnodes) (hl : Fan g v l) (hne : l ≠ []) (hco : FanClosed g l ∨ FanOpen g l) :
    (∃ x < 3 * g.data.elements.length, (∀ y < 3 * g.data.elements.length, outEdge g y = outEdge g x → y = x) ∧
      (v = cornerAt g x ∨ v = cornerAt g (nextCorner x))) ↔ FanOpen g l := by
  have hpos : 0 < l.length := List.length_pos_of_ne_nil hne
  constructor
  · rintro ⟨x, hx, hu, hvx⟩
    rcases hco with hc | ho
    · exfalso
      -- in a closed fan every side has two neighbours
      rcases hvx with hvx | hvx
      · -- the triangle before
        have hxm : x ∈ l := (hl.mem x).mpr ⟨hx, hvx.symm⟩
        obtain ⟨i, hi⟩ := List.getElem?_of_mem hxm
        have hil := (List.getElem?_eq_some_iff.mp hi).1
        have hj : (i + l.length - 1) % l.length < l.length := Nat.mod_lt _ hpos
        have hj2 : ((i + l.length - 1) % l.length + 1) % l.length = i := by
          rw [Nat.mod_add_mod, show i + l.length - 1 + 1 = i + l.length by omega, Nat.add_mod_right, Nat.mod_eq_of_lt hil]
        have hcy := hl.cyclic hc _ _ x (List.getElem?_eq_getElem hj) (by rw [hj2]; exact hi)
        obtain ⟨hyl, hyv⟩ := (hl.mem _).mp (List.getElem_mem hj)
        generalize l[(i + l.length - 1) % l.length] = y at *
        have := hu (prevCorner y) (prev_lt hyl) (by
          rw [outEdge_eq_iff g hg _ _ (prev_lt hyl) hx, next_prev]
          exact Or.inr ⟨hcy, by rw [hyv, hvx]⟩)
        rw [← this] at hvx
        exact corner_prev_ne g hg y hyl (hvx.symm.trans hyv.symm)
      · have hzm : nextCorner x ∈ l := (hl.mem _).mpr ⟨next_lt hx, hvx.symm⟩
        obtain ⟨i, hi⟩ := List.getElem?_of_mem hzm
        have hj : (i + 1) % l.length < l.length := Nat.mod_lt _ hpos
        have hcy := hl.cyclic hc i _ _ hi (List.getElem?_eq_getElem hj)
        obtain ⟨hyl, hyv⟩ := (hl.mem _).mp (List.getElem_mem hj)
        generalize l[(i + 1) % l.length] = y at *
        rw [prev_next] at hcy
        have := hu y hyl (by
          rw [outEdge_eq_iff g hg _ _ hyl hx]
          exact Or.inr ⟨hyv.trans hvx, hcy.symm⟩)
        rw [this] at hyv
        exact corner_next_ne g hg x hx (hvx.symm.trans hyv.symm)
    · exact ho
  · intro ho
    have hz := List.getElem?_eq_getElem (show l.length - 1 < l.length by omega)
    have hzm := List.getElem_mem (show l.length - 1 < l.length by omega)
    generalize l[l.length - 1] = z at *
    obtain ⟨hzl, hzv⟩ := (hl.mem z).mp hzm
    have hgl : l.getLast? = some z := by rw [List.getLast?_eq_getElem?]; exact hz
    refine ⟨prevCorner z, prev_lt hzl, ?_, Or.inr (by rw [next_prev, hzv])⟩
    intro y hy hyf
    by_contra hyz
    obtain ⟨h1, h2⟩ := opposite g hg hs y (prevCorner z) hy (prev_lt hzl) hyf hyz
    rw [next_prev] at h1
    have hym : y ∈ l := (hl.mem y).mpr ⟨hy, h1.trans hzv⟩
    exact ho z hgl (List.mem_map.mpr ⟨y, hym, h2⟩)

/-- The table of the vertices on the boundary. -/
theorem onBoundary_get : ∃ onB, vertexOnBoundary (g.data.view dom) = .ok onB ∧
    ∀ v l, v < g.data.nnodes → Fan g v l → l ≠ [] → (FanClosed g l ∨ FanOpen g l) → ∃ bb, onB[v]? = some bb ∧ (bb = true ↔ FanOpen g l) := by
  classical
  -- the lowest corner of an edge
  have hlow : ∀ f : Nat, ∃ x : Nat, f < g.data.edges.length → x < 3 * g.data.elements.length ∧ outEdge g x = f ∧
      ∀ y < 3 * g.data.elements.length, outEdge g y = f → x / 3 ≤ y / 3 := by
    intro f
    by_cases hf : f < g.data.edges.length
    · obtain ⟨x, h1, h2, h3⟩ := lowest_corner g hg hs f hf
      exact ⟨x, fun _ => ⟨h1, h2, h3⟩⟩
    · exact ⟨0, fun h => absurd h hf⟩
  choose low hlow using hlow
  have hmap : ∀ fs : List Nat, (∀ f ∈ fs, f < g.data.edges.length) → fs.mapM (fun edge => do
      let a ← mget (coarseVerticesonEdge0 (g.data.view dom)) edge
      let b ← mget (coarseVerticesonEdge1 (g.data.view dom)) edge
      return [(a, true), (b, true)]) = (Except.ok (fs.map fun f => [(cornerAt g (nextCorner (low f)), true), (cornerAt g (low f), true)]) :
        Except BcFail (List (List (Nat × Bool)))) := by
    intro fs
    induction fs with
    | nil => intro _; rfl
    | cons f fs ih =>
      intro hfs
      obtain ⟨h1, h2, h3⟩ := hlow f (hfs f (by simp))
      have a := vertex0_get g hg dom hs (low f) h1 (by rw [h2]; exact h3)
      have b := vertex1_get g hg dom hs (low f) h1 (by rw [h2]; exact h3)
      rw [h2] at a b
      rw [List.mapM_cons, mget_ok a, mget_ok b, ih (fun f hf => hfs f (List.mem_cons_of_mem _ hf))]
      rfl
  generalize hfs : (List.range ((g.data.view dom).count 1)).filter (fun edge => faceCountNextToCoarseEdge (g.data.view dom) edge == 1) = fs
  have hfm : ∀ f, f ∈ fs ↔ f < g.data.edges.length ∧ faceCountNextToCoarseEdge (g.data.view dom) f = 1 := by
    intro f
    rw [← hfs, List.mem_filter, List.mem_range, beq_iff_eq]
    rfl
  refine ⟨table ((g.data.view dom).count 2) false (fs.map fun f => [(cornerAt g (nextCorner (low f)), true), (cornerAt g (low f), true)]).flatten, ?_, ?_⟩
  · unfold vertexOnBoundary
    rw [hfs, hmap fs (fun f hf => ((hfm f).mp hf).1)]
    rfl
  · intro v l hv hl hne hco
    have hiff := fan_open_iff g hg hs hv hl hne hco
    refine ⟨decide (FanOpen g l), table_get _ _ _ _ _ hv ?_ ?_, by simp⟩
    · intro w hw hk
      obtain ⟨L, hL, hw⟩ := List.mem_flatten.mp hw
      obtain ⟨f, hf, rfl⟩ := List.mem_map.mp hL
      obtain ⟨hf1, hf2⟩ := (hfm f).mp hf
      obtain ⟨h1, h2, h3⟩ := hlow f hf1
      rw [adjacent_one g hg dom hs f hf1] at hf2
      have ho : FanOpen g l := by
        rw [← hiff]
        refine ⟨low f, h1, fun y hy hyf => hf2 y hy _ h1 (hyf.trans h2) h2, ?_⟩
        simp only [List.mem_cons, List.not_mem_nil, or_false] at hw
        rcases hw with rfl | rfl
        · exact Or.inr hk.symm
        · exact Or.inl hk.symm
      simp only [List.mem_cons, List.not_mem_nil, or_false] at hw
      rcases hw with rfl | rfl <;> simp [ho]
    · by_cases ho : FanOpen g l
      · right
        obtain ⟨x, hx, hu, hvx⟩ := hiff.mpr ho
        have hxe := outEdge_lt g hg x hx
        have hf : outEdge g x ∈ fs := by
          rw [hfm, adjacent_one g hg dom hs _ hxe]
          exact ⟨hxe, fun a ha b hb h1 h2 => (hu a ha h1).trans (hu b hb h2).symm⟩
        obtain ⟨h1, h2, h3⟩ := hlow _ hxe
        have hlx := hu _ h1 h2
        rcases hvx with hvx | hvx
        · exact ⟨(cornerAt g (low (outEdge g x)), true), List.mem_flatten.mpr ⟨_, List.mem_map.mpr ⟨_, hf, rfl⟩, by simp⟩, by
            simp only; rw [hlx, hvx]⟩
        · exact ⟨(cornerAt g (nextCorner (low (outEdge g x))), true), List.mem_flatten.mpr ⟨_, List.mem_map.mpr ⟨_, hf, rfl⟩, by simp⟩, by
            simp only; rw [hlx, hvx]⟩
      · left; simp [ho]

/-- The numbers of the dofs: the edges with two neighbours, in order. -/
theorem numbering_spec (f : Nat) (hf : f < g.data.edges.length) :
    let inner := fun f => ∃ x < 3 * g.data.elements.length, ∃ y < 3 * g.data.elements.length, x ≠ y ∧ outEdge g x = f ∧ outEdge g y = f
    (inner f → (bcNumbering (g.data.view dom)).1[f]? = some (countBelow inner f : Int)) ∧
    (¬ inner f → (bcNumbering (g.data.view dom)).1[f]? = some (-1)) ∧
    (bcNumbering (g.data.view dom)).2 = countBelow inner g.data.edges.length := by
  classical
  intro inner
  have hlen : (baryScan (g.data.view dom)).length = g.data.edges.length := by
    unfold baryScan; rw [rwgScan_length]; rfl
  have hcnt : ∀ f < g.data.edges.length, ∀ X, (baryScan (g.data.view dom))[f]? = some X → (if X.adjacent = 1 then 0 else 1) = if inner f then 1 else 0 := by
    intro f hf X hX
    have h1 := adjacent_one g hg dom hs f hf
    unfold faceCountNextToCoarseEdge at h1
    rw [hX] at h1
    simp only [Option.map_some, Option.getD_some] at h1
    have h2 : X.adjacent = 1 ↔ ¬ inner f := by
      rw [h1]
      constructor
      · rintro h ⟨x, hx, y, hy, hne, h3, h4⟩; exact hne (h x hx y hy h3 h4)
      · intro h x hx y hy h3 h4
        by_contra hne
        exact h ⟨x, hx, y, hy, hne, h3, h4⟩
    by_cases hi : inner f
    · rw [if_neg (by rw [h2]; exact not_not_intro hi), if_pos hi]
    · rw [if_pos (h2.mpr hi), if_neg hi]
  have hmap : ∀ k ≤ g.data.edges.length, (((baryScan (g.data.view dom)).take k).map fun X : EdgeInfo => if X.adjacent = 1 then 0 else 1) =
      (List.range k).map fun f => if inner f then 1 else 0 := by
    intro k hk
    apply List.ext_getElem?
    intro i
    by_cases hi : i < k
    · rw [List.getElem?_map, List.getElem?_take_of_lt hi, List.getElem?_map, List.getElem?_range hi]
      have hX := List.getElem?_eq_getElem (show i < (baryScan (g.data.view dom)).length by omega)
      rw [hX]
      simp only [Option.map_some]
      rw [hcnt i (by omega) _ hX]
    · rw [List.getElem?_eq_none (by simp; omega), List.getElem?_eq_none (by simpa using hi)]
  have hX := List.getElem?_eq_getElem (show f < (baryScan (g.data.view dom)).length by omega)
  refine ⟨?_, ?_, ?_⟩
  · intro hi
    unfold bcNumbering
    rw [numberBlocks_get, hX]
    simp only [Option.map_some]
    rw [hcnt f hf _ hX, if_pos hi, if_pos (by omega), hmap f (by omega), sum_range_countBelow _ inner (fun i => by
      by_cases h : inner i <;> simp [h]), Nat.zero_add]
  · intro hi
    unfold bcNumbering
    rw [numberBlocks_get, hX]
    simp only [Option.map_some]
    rw [hcnt f hf _ hX, if_neg hi, if_neg (by omega)]
  · unfold bcNumbering
    rw [numberBlocks_count, Nat.zero_add, ← List.take_length (l := baryScan (g.data.view dom)), hlen, hmap _ (le_refl _),
      sum_range_countBelow _ inner (fun i => by by_cases h : inner i <;> simp [h])]

end

end Verif.Space
