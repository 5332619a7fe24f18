import Verif.Props.SpaceBarycentric
/-
Property C70: the piecewise constant space on the dual grid.
-/
namespace Verif.Space
open Verif.Grid

/-- The corners of the sons of an element: the old vertex first, then two new ones. -/
theorem son_corners {K : Type} [Field K] (g : GridData K) (hg : g.Valid) (b : GridData K) (s : Nat → Nat → Nat)
    (h : barycentricGridSonPair g = .ok (b, s)) (e : Nat) (t : Tri) (ht : g.data.elements[e]? = some t)
    (k : Nat) (hk : k < 6) : ∃ son, b.data.elements[s e k]? = some son ∧
      son.a = ([t.a, t.b, t.c] : List Nat).getD (k / 2) 0 ∧ g.data.nnodes ≤ son.b ∧ g.data.nnodes ≤ son.c := by
  have hlt := (List.getElem?_eq_some_iff.mp ht).1
  have hsek := (C34_sons g hg b s h).2.2 e hlt k hk
  obtain ⟨b', s', h', -, hel, -⟩ := bary_spec g hg
  rw [h] at h'
  cases h'
  obtain ⟨f0, f1, f2, p0, p1, p2, hf, -⟩ := element_edges g hg e t ht
  have hget := baryElements_get g hg e t ht f0 f1 f2 hf k hk
  rw [hsek, hel, hget]
  interval_cases k <;> exact ⟨_, rfl, rfl, by simp [Nat.add_assoc], by simp [Nat.add_assoc]⟩

/-- **C70** The dofs of the piecewise constant dual space are the vertices of the coarse grid; its dof maps
are consistent; every element of the barycentric grid carries exactly one dof, the only coarse vertex among
its corners, so that the basis function of a vertex is the characteristic function of the union of the
barycentric elements that touch the vertex; in each coarse element these are two of its six sons (a third of
its area by `C34_area`). -/
theorem C70_dual_cells {K : Type} [Field K] (g : GridData K) (hg : g.Valid) (b : GridData K)
    (s : Nat → Nat → Nat) (hb : barycentricGridSonPair g = .ok (b, s)) (domain : Nat → Int) :
    let m := assignP0Dual (g.data.view domain) b.data.elements.length s
    m.Consistent ∧ m.globalDofCount = g.nodes.length ∧
    (∀ q son, b.data.elements[q]? = some son → ∃ v : Nat, m.getGlobalDofs q = [(v : Int)] ∧
      ∀ u, u ∈ son.verts ∧ u < g.nodes.length ↔ u = v) ∧
    ∀ e t (v : Nat), g.data.elements[e]? = some t → v ∈ t.verts →
      ((List.range 6).filter fun k => decide (m.getGlobalDofs (s e k) = [(v : Int)])).length = 2 := by
  have hn := view_index_nodup g.data domain
  have hs := sons_ok g hg b s hb domain
  have hr : ∀ (n : Nat) (e : Elem), (g.data.view domain).elems[n]? = some e → ∀ j < 3,
      (e.sub 2).getD j 0 < g.data.nnodes := by
    intro n e he j hj
    obtain ⟨t, ht, -, hsub, -⟩ := view_elem' g.data domain n e he
    have hr := hg.mesh.range t (List.mem_of_getElem? ht)
    rw [hsub]
    interval_cases j <;> exact hr _ (by simp [Tri.verts])
  have hgood : GoodWrites (sonLoop (g.data.view domain) b.data.elements.length s fun (e : Elem) _ => e.sub 2)
      g.data.nnodes (fun _ => 1)
      fun (e : Elem) => [(0, (((e.sub 2).getD (e.domain.toNat / 2) 0 : Nat) : Int))] := by
    refine sonLoop_good hn hs ?_ ?_
    · intro x _; exact List.Perm.refl _
    · intro x hx w hw
      obtain ⟨e, n, he, i, hi, rfl⟩ := (mem_sonLoop x).mp hx
      simp only [List.mem_singleton] at hw
      subst hw
      have := hr n e he (i / 2) (by omega)
      refine Or.inr ⟨by simp, by simpa using this⟩
  have hrow : ∀ e t, g.data.elements[e]? = some t → ∀ k < 6,
      (assignP0Dual (g.data.view domain) b.data.elements.length s).getGlobalDofs (s e k) =
        [((([t.a, t.b, t.c] : List Nat).getD (k / 2) 0 : Nat) : Int)] := by
    intro e t ht k hk
    obtain ⟨x, hx, hidx, hsub, -⟩ := view_elem g.data domain e t ht
    have hm : (Elem.mk (s x.index k) (k : Int) (fun _ => x.sub 2) (fun _ _ => [])) ∈
        (sonLoop (g.data.view domain) b.data.elements.length s fun (e : Elem) _ => e.sub 2).elems :=
      (mem_sonLoop _).mpr ⟨x, e, hx, k, hk, rfl⟩
    have hrow := writeElements_row hgood hm
    simp only [hidx] at hrow
    refine hrow.trans ?_
    simp [rowOf, hsub]
  intro m
  refine ⟨writeElements_consistent hgood, ?_, ?_, ?_⟩
  · refine (writeElements_count).trans ?_
    exact hg.nodes.symm
  · intro q son hson
    obtain ⟨-, h2, -⟩ := C34_sons g hg b s hb
    obtain ⟨⟨e, k⟩, ⟨he, hk, hq⟩, -⟩ := h2 q (List.getElem?_eq_some_iff.mp hson).1
    simp only at he hk hq
    subst hq
    have ht := List.getElem?_eq_getElem he
    generalize g.data.elements[e] = t at ht
    obtain ⟨son', h3, ha, hbb, hc⟩ := son_corners g hg b s hb e t ht k hk
    rw [hson] at h3
    cases h3
    refine ⟨_, hrow e t ht k hk, ?_⟩
    have hrr := hg.mesh.range t (List.mem_of_getElem? ht)
    have hlt : ([t.a, t.b, t.c] : List Nat).getD (k / 2) 0 < g.data.nnodes := by
      have : k / 2 < 3 := by omega
      generalize k / 2 = j at this
      interval_cases j <;> exact hrr _ (by simp [Tri.verts])
    rw [hg.nodes]
    intro u
    rw [← ha] at hlt ⊢
    simp only [Tri.verts, List.mem_cons, List.not_mem_nil, or_false]
    omega
  · intro e t v ht hv
    obtain ⟨h1, h2, h3⟩ := hg.mesh.proper t (List.mem_of_getElem? ht)
    have : ∀ k ∈ List.range 6, decide (m.getGlobalDofs (s e k) = [(v : Int)]) =
        decide (([t.a, t.b, t.c] : List Nat).getD (k / 2) 0 = v) := by
      intro k hk
      rw [hrow e t ht k (List.mem_range.mp hk)]
      simp
    rw [List.filter_congr this]
    simp only [Tri.verts, List.mem_cons, List.not_mem_nil, or_false] at hv
    have hl : List.range 6 = [0, 1, 2, 3, 4, 5] := rfl
    rw [hl]
    rcases hv with rfl | rfl | rfl
    · simp [List.filter_cons, h1.symm, h2.symm, Ne.symm h1, Ne.symm h2]
    · simp [List.filter_cons, h1, Ne.symm h3]
    · simp [List.filter_cons, h2, h3]

/-- Non-vacuity of C70: the dual space on a grid with one triangle has three dofs, one for each pair of sons. -/
example : (assignP0Dual (book 1) 6 fun e k => 6 * e + k) =
    ⟨[[0], [0], [1], [1], [2], [2]], [[⟨0, 0⟩, ⟨1, 0⟩], [⟨2, 0⟩, ⟨3, 0⟩], [⟨4, 0⟩, ⟨5, 0⟩]]⟩ := by decide

end Verif.Space
