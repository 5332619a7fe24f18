import Mathlib.Algebra.BigOperators.Ring.Finset
import Mathlib.Tactic.Ring
import Mathlib.Tactic.NormNum
import Verif.Model.Fenics
import Verif.Props.SpacePolyDisc
import Verif.Props.PyGrid
import Mathlib.Data.List.GetD
/-
Property C110: the coupling with FEniCS.
-/
namespace Verif.Fenics
open Verif.Grid Verif.Space Verif.PyGrid

theorem countBelow_true (p : Nat → Prop) (n : Nat) (h : ∀ i, i < n → p i) : countBelow p n = n := by
  classical
  unfold countBelow
  rw [Finset.filter_true_of_mem (fun i hi => h i (Finset.mem_range.mp hi)), Finset.card_range]

/-- On the whole grid vertex `i` carries dof `i`. -/
theorem p1_whole (v : View) (hv : v.WF) (hd : v.dim = 2) : ∃ m, assignP1 v (wholeGrid v) false = .ok m ∧
    m.globalDofCount = v.count 2 ∧
    ∀ e ∈ v.elems, m.getGlobalDofs e.index = (e.sub 2).map (fun vtx : Nat => (vtx : Int)) := by
  obtain ⟨m, h1, -, h3, h4⟩ := C39_dof_maps v hv (Or.inr hd) (wholeGrid v) (fun _ => rfl) false
  rw [hd] at h3 h4
  have hp : ∀ i, i < v.count 2 → P1Vertex v (wholeGrid v) false i := by
    intro i hi
    refine ⟨?_, by simp⟩
    rw [hd]
    unfold GridSegment.contains wholeGrid
    rw [if_neg (by norm_num)]
    simpa using hi
  refine ⟨m, h1, by rw [h3, countBelow_true _ _ hp], ?_⟩
  intro e he
  obtain ⟨hlen, hrow⟩ := h4 e he
  refine List.ext_getElem? ?_
  intro i
  cases hi : (e.sub 2)[i]? with
  | none =>
    rw [List.getElem?_map, hi, Option.map_none]
    refine List.getElem?_eq_none ?_
    rw [hlen]
    exact List.getElem?_eq_none_iff.mp hi
  | some vtx =>
    rw [List.getElem?_map, hi, Option.map_some]
    have hlt : vtx < v.count 2 := hv.has_lt e he 2 vtx (by omega) (Or.inr ⟨by omega, List.mem_of_getElem? hi⟩)
    have := (hrow i vtx hi).1 ⟨hp vtx hlt, by simp⟩
    unfold DofMaps.At at this
    rw [this, countBelow_true _ _ (fun i hi => hp i (by omega))]

/-- All entries written so far are the index of their place. -/
def Placed (m : List Int) (done : Nat → Prop) : Prop := ∀ i, i < m.length → done i → m[i]? = some (i : Int)

theorem writeCorners_ok (dofs : List Int) (rest : List (Nat × Nat)) : ∀ (m : List Int) (done : Nat → Prop), Placed m done →
    (∀ q ∈ rest, q.1 < m.length ∧ dofs[q.2]? = some (q.1 : Int)) →
    ∃ m', writeCorners dofs m rest = .ok m' ∧ m'.length = m.length ∧ Placed m' (fun i => done i ∨ ∃ q ∈ rest, q.1 = i) := by
  induction rest with
  | nil => intro m done h _; exact ⟨m, rfl, rfl, fun i hi hd => h i hi (by simpa using hd)⟩
  | cons q rest ih =>
    intro m done h hq
    obtain ⟨vtx, ind⟩ := q
    obtain ⟨h1, h2⟩ := hq _ (List.mem_cons_self ..)
    simp only at h1 h2
    have hpl : Placed (m.set vtx (vtx : Int)) (fun i => done i ∨ i = vtx) := by
      intro i hi hd
      rw [List.length_set] at hi
      by_cases hc : vtx = i
      · subst hc; exact List.getElem?_set_self hi
      · rw [List.getElem?_set_ne hc]
        rcases hd with hd | hd
        · exact h i hi hd
        · exact absurd hd.symm hc
    obtain ⟨m', e1, e2, e3⟩ := ih (m.set vtx (vtx : Int)) _ hpl (by
      intro q hqm
      rw [List.length_set]
      exact hq q (List.mem_cons_of_mem _ hqm))
    refine ⟨m', ?_, by rw [e2, List.length_set], ?_⟩
    · unfold writeCorners writeDof
      rw [h2]
      dsimp only
      rw [if_pos h1]
      exact e1
    · intro i hi hd
      refine e3 i hi ?_
      rcases hd with hd | ⟨q, hqm, rfl⟩
      · exact Or.inl (Or.inl hd)
      · rcases List.mem_cons.mp hqm with rfl | hqm
        · exact Or.inl (Or.inr rfl)
        · exact Or.inr ⟨q, hqm, rfl⟩

theorem writeElems_ok (space : DofMaps) (es : List Elem) : ∀ (m : List Int) (done : Nat → Prop), Placed m done →
    (∀ e ∈ es, space.getGlobalDofs e.index = (e.sub 2).map (fun vtx : Nat => (vtx : Int))) →
    (∀ e ∈ es, ∀ vtx ∈ e.sub 2, vtx < m.length) →
    ∃ m', writeElems space m es = .ok m' ∧ m'.length = m.length ∧ Placed m' (fun i => done i ∨ ∃ e ∈ es, i ∈ e.sub 2) := by
  induction es with
  | nil => intro m done h _ _; exact ⟨m, rfl, rfl, fun i hi hd => h i hi (by simpa using hd)⟩
  | cons e es ih =>
    intro m done h hrow hlt
    obtain ⟨m1, a1, a2, a3⟩ := writeCorners_ok (space.getGlobalDofs e.index) (e.sub 2).zipIdx m done h (by
      rintro ⟨vtx, ind⟩ hq
      have hq' := List.mem_zipIdx_iff_getElem?.mp hq
      simp only at hq'
      refine ⟨hlt e (List.mem_cons_self ..) vtx (List.mem_of_getElem? hq'), ?_⟩
      rw [hrow e (List.mem_cons_self ..), List.getElem?_map, hq']
      rfl)
    obtain ⟨m2, b1, b2, b3⟩ := ih m1 _ a3 (fun e' he' => hrow e' (List.mem_cons_of_mem _ he'))
      (fun e' he' vtx hvtx => by rw [a2]; exact hlt e' (List.mem_cons_of_mem _ he') vtx hvtx)
    refine ⟨m2, ?_, by rw [b2, a2], ?_⟩
    · show (match writeCorners (space.getGlobalDofs e.index) m (e.sub 2).zipIdx with
        | .error err => Except.error err
        | .ok m' => writeElems space m' es) = _
      rw [a1]
      exact b1
    · intro i hi hd
      refine b3 i hi ?_
      rcases hd with hd | ⟨e', he', hie⟩
      · exact Or.inl (Or.inl hd)
      · rcases List.mem_cons.mp he' with rfl | he'
        · left; right
          obtain ⟨k, hk⟩ := List.mem_iff_getElem?.mp hie
          exact ⟨(i, k), List.mem_zipIdx_iff_getElem?.mpr hk, rfl⟩
        · exact Or.inr ⟨e', he', hie⟩

theorem dofToVertex_eq (v : View) (hv : v.WF) (hd : v.dim = 2) (m : DofMaps) (hm : assignP1 v (wholeGrid v) false = .ok m) :
    dofToVertex v m = .ok (List.range (v.count 2), List.range (v.count 2)) := by
  obtain ⟨m', h1, h2, h3⟩ := p1_whole v hv hd
  rw [hm] at h1
  cases h1
  obtain ⟨r, e1, e2, e3⟩ := writeElems_ok m v.elems (List.replicate m.globalDofCount 0) (fun _ => False)
    (fun i _ hf => hf.elim) h3 (by
      intro e he vtx hvtx
      rw [List.length_replicate, h2]
      exact hv.has_lt e he 2 vtx (by omega) (Or.inr ⟨by omega, hvtx⟩))
  rw [List.length_replicate, h2] at e2
  have hr : r = (List.range (v.count 2)).map (fun i : Nat => (i : Int)) := by
    refine List.ext_getElem? ?_
    intro i
    rw [List.getElem?_map]
    by_cases hi : i < v.count 2
    · rw [List.getElem?_range hi]
      refine e3 i (by omega) (Or.inr ?_)
      obtain ⟨e, he, h | ⟨-, h⟩⟩ := hv.covered 2 i (by omega) hi
      · omega
      · exact ⟨e, he, h⟩
    · rw [List.getElem?_eq_none (by omega), List.getElem?_eq_none (by simpa using hi)]; rfl
  unfold dofToVertex
  rw [e1]
  dsimp only
  rw [if_neg, h2, hr, List.map_map]
  · congr 2
    refine (List.map_congr_left ?_).trans (List.map_id _)
    intro i _
    simp
  · rw [hr]
    simp

theorem inferred_range (n : Nat) : inferred (List.range n) = n := by
  induction n with
  | zero => rfl
  | succ n ih =>
    unfold inferred at ih ⊢
    rw [List.range_succ, List.foldl_append, ih]
    simp

theorem entry_range_left (n : Nat) (l : List Nat) (hl : l.length = n) (i j : Nat) :
    cooEntry (List.range n) l i j = if l[i]? = some j then 1 else 0 := by
  subst hl
  unfold cooEntry
  have hz : (List.range l.length).zip l = l.zipIdx.map fun p => (p.2, p.1) := by
    rw [List.zipIdx_eq_zip_range', ← List.range_eq_range']
    exact (List.zip_swap _ _).symm
  rw [hz]
  have hnd : (l.zipIdx.map fun p => (p.2, p.1)).Nodup := by
    refine List.Nodup.of_map Prod.fst ?_
    rw [List.map_map]
    have : (Prod.fst ∘ fun p : Nat × Nat => (p.2, p.1)) = Prod.snd := rfl
    rw [this, List.zipIdx_map_snd]
    exact List.nodup_range'
  by_cases h : l[i]? = some j
  · rw [if_pos h]
    refine List.count_eq_one_of_mem hnd ?_
    exact List.mem_map.mpr ⟨(j, i), List.mem_zipIdx_iff_getElem?.mpr h, rfl⟩
  · rw [if_neg h]
    refine List.count_eq_zero_of_not_mem ?_
    intro hm
    obtain ⟨⟨a, b⟩, hab, heq⟩ := List.mem_map.mp hm
    injection heq with h1 h2
    simp only at h1 h2
    subst h1 h2
    exact h (List.mem_zipIdx_iff_getElem?.mp hab)

theorem entry_range_right (n : Nat) (l : List Nat) (hl : l.length = n) (i j : Nat) :
    cooEntry l (List.range n) i j = if l[j]? = some i then 1 else 0 := by
  rw [← entry_range_left n l hl j i]
  unfold cooEntry
  rw [← List.zip_swap]
  exact List.count_map_of_injective _ Prod.swap Prod.swap_injective (j, i)

/-- The trace matrix for a grid whose vertex `i` carries dof `i`. -/
theorem p1Trace_eq (v : View) (hv : v.WF) (hd : v.dim = 2) (m : DofMaps) (hm : assignP1 v (wholeGrid v) false = .ok m)
    (N : Nat) (bm d2v : List Nat) (hbm : bm.length = v.count 2) (hlt : ∀ k ∈ bm, k < N) (hp : d2v.Perm (List.range N)) :
    ∃ t, p1Trace v m N bm d2v = .ok (v.count 2, N, t) ∧
      ∀ {K : Type} [CommSemiring K] (c u : Nat → K), (∀ j l, d2v[j]? = some l → c j = u l) →
        ∀ i k, bm[i]? = some k → applyTrace (v.count 2, N, t) c i = u k := by
  unfold p1Trace
  rw [dofToVertex_eq v hv hd m hm]
  dsimp only
  rw [inferred_range, if_neg (by simp [hbm])]
  refine ⟨_, rfl, ?_⟩
  intro K _ c u hcu i k hik
  have hlen : d2v.length = N := by rw [hp.length_eq, List.length_range]
  have hi : i < v.count 2 := by rw [← hbm]; exact (List.getElem?_eq_some_iff.mp hik).1
  have hkN : k < N := hlt k (List.mem_of_getElem? hik)
  obtain ⟨j0, hj0⟩ := List.mem_iff_getElem?.mp (hp.mem_iff.mpr (List.mem_range.mpr hkN))
  have hj0N : j0 < N := by rw [← hlen]; exact (List.getElem?_eq_some_iff.mp hj0).1
  have hent : ∀ j, (∑ k' ∈ Finset.range bm.length, ∑ l ∈ Finset.range N,
      Coo.entry ⟨v.count 2, v.count 2, List.range (v.count 2), List.range (v.count 2)⟩ k' i *
      Coo.entry ⟨bm.length, N, List.range bm.length, bm⟩ k' l * Coo.entry ⟨N, N, d2v, List.range N⟩ l j)
      = if j = j0 then 1 else 0 := by
    intro j
    unfold Coo.entry
    dsimp only
    rw [Finset.sum_eq_single i, Finset.sum_eq_single k]
    · rw [entry_range_left _ _ (List.length_range), entry_range_left _ _ rfl, entry_range_right _ _ hlen,
        if_pos (List.getElem?_range hi), if_pos hik]
      by_cases hj : j = j0
      · subst hj; rw [if_pos hj0, if_pos rfl]
      · rw [if_neg hj, if_neg]
        intro hjk
        refine hj ?_
        have hnd : d2v.Nodup := hp.nodup_iff.mpr List.nodup_range
        exact (List.getElem?_inj (List.getElem?_eq_some_iff.mp hjk).1 hnd).mp (hjk.trans hj0.symm)
    · intro l _ hl
      rw [entry_range_left bm.length bm rfl, if_neg (by rw [hik]; simpa using fun h => hl h.symm)]
      simp
    · intro h; exact absurd (Finset.mem_range.mpr hkN) h
    · intro k' _ hk'
      refine Finset.sum_eq_zero ?_
      intro l _
      rw [entry_range_left (v.count 2) _ (List.length_range), if_neg]
      · simp
      · intro h
        have := List.getElem?_eq_some_iff.mp h
        obtain ⟨h1, h2⟩ := this
        rw [List.getElem_range] at h2
        exact hk' h2
    · intro h; exact absurd (Finset.mem_range.mpr (by omega)) h
  unfold applyTrace
  dsimp only
  rw [Finset.sum_eq_single j0]
  · rw [hent j0, if_pos rfl, Nat.cast_one, one_mul, hcu j0 k hj0]
  · intro j _ hj
    rw [hent j, if_neg hj, Nat.cast_zero, zero_mul]
  · intro h; exact absurd (Finset.mem_range.mpr hj0N) h

/-! ### The theorems -/

theorem allUsed_mesh {K : Type} (g : GridData K) (hg : GridOk g) (hne : g.data.elements ≠ [])
    (hproper : ∀ t ∈ g.data.elements, t.Proper)
    (hused : ∀ x, x < g.nodes.length → ∃ t ∈ g.data.elements, x ∈ t.verts) :
    TriMesh (g.data.view fun _ => 0) ∧ (g.data.view fun _ => 0).count 2 = g.nodes.length ∧
    ∀ (i : Nat) (t : Tri), g.data.elements[i]? = some t → ∃ e ∈ (g.data.view fun _ => 0).elems, e.index = i ∧
      e.sub 2 = t.verts := by
  refine ⟨triMesh_view _ _ 0 _ hg.tables ⟨hg.range, hproper⟩ hne hused _, ?_, ?_⟩
  · obtain ⟨d', hd, hn, -⟩ := init_spec _ _ _ (init_valid _ _ _ _ hg.tables)
    rw [hg.tables] at hd
    cases hd
    exact hn
  · intro i t hi
    have hlt := (List.getElem?_eq_some_iff.mp hi).1
    refine ⟨_, List.mem_map.mpr ⟨i, List.mem_range.mpr hlt, rfl⟩, rfl, ?_⟩
    simp [hi]

/-- **C110, trace** The boundary mesh of a FEniCS mesh with `N` vertices has at least one cell, proper cells, and every vertex of
it is a corner of some cell; `bm` gives for each vertex of the boundary mesh the vertex of the mesh, `d2v` for each FEniCS dof its
vertex.  Then the grid is made, it has one element per cell, the P1 space on it has one dof per boundary vertex, the trace matrix is
made and has one row per dof of that space and one column per FEniCS dof.  The matrix takes the coefficients `c` of a FEniCS
function with the nodal values `u` to the coefficients of its restriction to the boundary: on every cell and at every barycentric
point the two functions agree. -/
theorem C110_trace {K : Type} [CommSemiring K] (coords : Mat K) (cells : Mat Int) (junk : K)
    (hcr : coords.rows = 3) (hce : cells.rows = 3) (hne : cells.cols ≠ 0)
    (hrange : ∀ i < cells.cols, ∀ r < 3, 0 ≤ cells.at_ r i ∧ cells.at_ r i < coords.cols)
    (hproper : ∀ i < cells.cols, cells.at_ 0 i ≠ cells.at_ 1 i ∧ cells.at_ 0 i ≠ cells.at_ 2 i ∧ cells.at_ 1 i ≠ cells.at_ 2 i)
    (hused : ∀ x < coords.cols, ∃ i < cells.cols, ∃ r < 3, cells.at_ r i = x)
    (N : Nat) (bm d2v : List Nat) (hbm : bm.length = coords.cols) (hlt : ∀ k ∈ bm, k < N) (hp : d2v.Perm (List.range N)) :
    ∃ (g : GridData K) (space : DofMaps) (t : Nat × Nat × (Nat → Nat → Nat)),
      gridFromElementData coords cells [] junk = .ok g ∧
      assignP1 (g.data.view fun _ => 0) (wholeGrid (g.data.view fun _ => 0)) false = .ok space ∧
      p1Trace (g.data.view fun _ => 0) space N bm d2v = .ok t ∧
      g.data.elements.length = cells.cols ∧ space.globalDofCount = coords.cols ∧ t.1 = coords.cols ∧ t.2.1 = N ∧
      ∀ (c u : Nat → K), (∀ j l, d2v[j]? = some l → c j = u l) →
        ∀ i < cells.cols, ∃ p0 p1 p2 : Nat, space.getGlobalDofs i = [(p0 : Int), (p1 : Int), (p2 : Int)] ∧
          ∀ l0 l1 l2 : K, l0 * applyTrace t c p0 + l1 * applyTrace t c p1 + l2 * applyTrace t c p2 =
            l0 * u (bm.getD (cells.at_ 0 i).toNat 0) + l1 * u (bm.getD (cells.at_ 1 i).toNat 0) +
              l2 * u (bm.getD (cells.at_ 2 i).toNat 0) := by
  have hcc : coords.cols ≠ 0 := by
    have := hrange 0 (by omega) 0 (by decide)
    omega
  rcases C106_from_element_data coords cells [] junk hcr hce with ⟨hbad, -⟩ | ⟨-, g, hg, hok, hn, -, hel, hcol, -⟩
  · exfalso
    rcases hbad with h | h | ⟨h, -⟩ | ⟨i, hi, r, hr, h⟩
    · exact hcc h
    · exact hne h
    · exact h rfl
    · have := hrange i hi r hr
      omega
  have hgne : g.data.elements ≠ [] := by
    intro h
    rw [h] at hel
    exact hne hel.symm
  obtain ⟨hmesh, hcount, hview⟩ := allUsed_mesh g hok hgne (by
    intro t ht
    obtain ⟨i, hi⟩ := List.mem_iff_getElem?.mp ht
    have hlt' : i < cells.cols := by rw [← hel]; exact (List.getElem?_eq_some_iff.mp hi).1
    obtain ⟨t', ht', ha, hb, hc⟩ := hcol i hlt'
    rw [hi] at ht'
    cases ht'
    have := hproper i hlt'
    rw [← ha, ← hb, ← hc] at this
    unfold Tri.Proper
    omega) (by
    intro x hx
    obtain ⟨i, hi, r, hr, hx'⟩ := hused x (by omega)
    obtain ⟨t, ht, ha, hb, hc⟩ := hcol i hi
    refine ⟨t, List.mem_of_getElem? ht, ?_⟩
    unfold Tri.verts
    have : x = t.a ∨ x = t.b ∨ x = t.c := by
      rcases (by omega : r = 0 ∨ r = 1 ∨ r = 2) with rfl | rfl | rfl
      · left; omega
      · right; left; omega
      · right; right; omega
    simpa using this)
  obtain ⟨space, hs, hdofs, hrow⟩ := p1_whole _ hmesh.wf hmesh.dim
  obtain ⟨t, ht, happ⟩ := p1Trace_eq _ hmesh.wf hmesh.dim space hs N bm d2v (by rw [hcount, hn, hbm]) hlt hp
  refine ⟨g, space, _, hg, hs, ht, hel, by rw [hdofs, hcount, hn], by rw [← hn, ← hcount], rfl, ?_⟩
  intro c u hcu i hi
  obtain ⟨tt, htt, ha, hb, hc⟩ := hcol i hi
  obtain ⟨e, he, hei, hsub⟩ := hview i tt htt
  refine ⟨tt.a, tt.b, tt.c, ?_, ?_⟩
  · have := hrow e he
    rw [hei, hsub] at this
    exact this
  · have key : ∀ x : Nat, x < coords.cols → applyTrace ((g.data.view fun _ => 0).count 2, N, t) c x = u (bm.getD x 0) := by
      intro x hx
      refine happ c u hcu x _ ?_
      rw [List.getD_eq_getElem?_getD]
      have hx' : x < bm.length := by omega
      rw [List.getElem?_eq_getElem hx']
      rfl
    intro l0 l1 l2
    have h0 := hrange i hi 0 (by decide)
    have h1 := hrange i hi 1 (by decide)
    have h2 := hrange i hi 2 (by decide)
    rw [key tt.a (by omega), key tt.b (by omega), key tt.c (by omega), ← ha, ← hb, ← hc]
    rfl

/-- **C110, dispatch** Only Lagrange spaces of degree 1 have a trace; every other family or degree raises. -/
theorem C110_dispatch {α : Type} (family : String) (degree : Nat) (trace : Except PyErr α) :
    (family = "Lagrange" ∧ degree = 1 → traceData family degree trace = trace) ∧
    (¬(family = "Lagrange" ∧ degree = 1) → traceData family degree trace = .error .runtimeError) := by
  unfold traceData
  constructor
  · rintro ⟨h1, h2⟩
    rw [if_pos h1, if_pos h2]
  · intro h
    by_cases h1 : family = "Lagrange"
    · rw [if_pos h1, if_neg (fun h2 => h ⟨h1, h2⟩)]
    · rw [if_neg h1]

/-- **C110, weak form (partial)** If the weak form is obtained, the backend chosen by the user is as before, and every later call
returns the same matrix whatever FEniCS would now assemble.  If FEniCS raises, nothing is stored; the backend is as before if it was
one of the two supported ones.  Missing: for any other backend an exception leaves the backend changed, see
`C110_counterexample_backend`. -/
theorem C110_weak_form_partial {M : Type} (assemble : String → Except PyErr M) (st : OpState M) :
    (∀ m st', weakForm assemble st = (.ok m, st') →
      st'.backend = st.backend ∧
      (st.sparseMat = none → ∃ b, (b = "PETSc" ∨ b = "uBLAS") ∧ assemble b = .ok m ∧
        (st.backend = "PETSc" ∨ st.backend = "uBLAS" → b = st.backend)) ∧
      ∀ (assemble' : String → Except PyErr M) (backend' : String),
        weakForm assemble' { st' with backend := backend' } = (.ok m, { st' with backend := backend' })) ∧
    (∀ err st', weakForm assemble st = (.error err, st') →
      st'.sparseMat = none ∧ (st.backend = "PETSc" ∨ st.backend = "uBLAS" → st' = st)) := by
  obtain ⟨backend, mat⟩ := st
  cases mat with
  | some m0 =>
    constructor
    · intro m st' h
      injection h with h1 h2
      injection h1 with h1
      subst h1 h2
      exact ⟨rfl, fun h => by simp at h, fun _ _ => rfl⟩
    · intro err st' h
      injection h with h1 h2
      exact absurd h1 (by simp)
  | none =>
    have hb : ∀ cur, cur = (if backend = "PETSc" ∨ backend = "uBLAS" then backend else "PETSc") →
        (cur = "PETSc" ∨ cur = "uBLAS") ∧ (backend = "PETSc" ∨ backend = "uBLAS" → cur = backend) := by
      rintro cur rfl
      by_cases h : backend = "PETSc" ∨ backend = "uBLAS"
      · rw [if_pos h]; exact ⟨h, fun _ => rfl⟩
      · rw [if_neg h]; exact ⟨Or.inl rfl, fun h' => absurd h' h⟩
    unfold weakForm
    dsimp only
    generalize hcur : (if backend = "PETSc" ∨ backend = "uBLAS" then backend else "PETSc") = cur
    obtain ⟨hc1, hc2⟩ := hb cur hcur.symm
    cases ha : assemble cur with
    | error e =>
      dsimp only
      constructor
      · intro m st' h
        injection h with h1 h2
        exact absurd h1 (by simp)
      · intro err st' h
        injection h with h1 h2
        subst h2
        exact ⟨rfl, fun h => by rw [hc2 h]⟩
    | ok m0 =>
      dsimp only
      constructor
      · intro m st' h
        injection h with h1 h2
        injection h1 with h1
        subst h1 h2
        exact ⟨rfl, fun _ => ⟨cur, hc1, ha, hc2⟩, fun _ _ => rfl⟩
      · intro err st' h
        injection h with h1 h2
        exact absurd h1 (by simp)

/-- **C110, counterexample** With any other backend, an exception of FEniCS during assembly leaves the global parameter of FEniCS
changed to `PETSc`. -/
theorem C110_counterexample_backend {M : Type} (backend : String) (h : ¬(backend = "PETSc" ∨ backend = "uBLAS")) (err : PyErr) :
    weakForm (fun _ => (.error err : Except PyErr M)) ⟨backend, none⟩ = (.error err, ⟨"PETSc", none⟩) := by
  unfold weakForm
  dsimp only
  rw [if_neg h]

/-- **C110, sizes** A list of boundary vertices whose length is not the number of dofs of the boundary space raises; no matrix of a
wrong size is returned. -/
theorem C110_length_checked (v : View) (hv : v.WF) (hd : v.dim = 2) (m : DofMaps) (hm : assignP1 v (wholeGrid v) false = .ok m)
    (N : Nat) (bm d2v : List Nat) (hbm : bm.length ≠ v.count 2) : p1Trace v m N bm d2v = .error .valueError := by
  unfold p1Trace
  rw [dofToVertex_eq v hv hd m hm]
  dsimp only
  rw [inferred_range, if_pos (fun h => hbm h.symm)]

/-! ### Non-vacuity -/

/-- Two cells sharing an edge, in a mesh with six vertices; the boundary vertices are the mesh vertices 5, 0, 3, 2. -/
def demoCoords : Mat Int := ⟨3, 4, fun r j => ([0, 0, 0, 1, 0, 0, 0, 1, 0, 1, 1, 0].getD (3 * j + r) 0 : Int)⟩
def demoCells : Mat Int := ⟨3, 2, fun r j => ([0, 1, 2, 1, 3, 2].getD (3 * j + r) 0 : Int)⟩

example : ∃ (g : GridData Int) (space : DofMaps) (t : Nat × Nat × (Nat → Nat → Nat)),
    gridFromElementData demoCoords demoCells [] 0 = .ok g ∧
    assignP1 (g.data.view fun _ => 0) (wholeGrid (g.data.view fun _ => 0)) false = .ok space ∧
    p1Trace (g.data.view fun _ => 0) space 6 [5, 0, 3, 2] [3, 1, 0, 5, 4, 2] = .ok t ∧ t.1 = 4 ∧ t.2.1 = 6 := by
  obtain ⟨g, space, t, h1, h2, h3, -, -, h4, h5, -⟩ := C110_trace demoCoords demoCells 0 rfl rfl (by decide)
    (by decide) (by decide) (by decide) 6 [5, 0, 3, 2] [3, 1, 0, 5, 4, 2] rfl (by decide) (by decide)
  exact ⟨g, space, t, h1, h2, h3, h4, h5⟩

example : ∃ st' : OpState Nat, weakForm (fun b => if b = "PETSc" then .ok 7 else .error .valueError) ⟨"Eigen", none⟩ = (.ok 7, st') ∧
    st'.backend = "Eigen" := ⟨⟨"Eigen", some 7⟩, by simp [weakForm], rfl⟩

example : traceData "Lagrange" 2 (.ok 3 : Except PyErr Nat) = .error .runtimeError :=
  (C110_dispatch "Lagrange" 2 (.ok 3)).2 (by simp)

end Verif.Fenics
