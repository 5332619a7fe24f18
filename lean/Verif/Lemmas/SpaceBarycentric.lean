import Verif.Model.SpaceBarycentric
import Verif.Spec.SpaceBarycentric
import Verif.Lemmas.Space
import Verif.Props.Barycentric
import Verif.Props.DataContainer
import Verif.Props.Space
import Mathlib.Tactic.Ring
import Mathlib.Tactic.FieldSimp
import Mathlib.Tactic.IntervalCases
/-
Lemmas for the barycentric spaces.
-/
namespace Verif.Space
open Verif.Grid

/-! ### The loop over sons -/

section Loop
variable {coarse : View} {fineCount : Nat} {sonMap : Nat → Nat → Nat} {fd : Elem → Nat → List Nat}

theorem mem_sonLoop (x : Elem) : x ∈ (sonLoop coarse fineCount sonMap fd).elems ↔
    ∃ e n, coarse.elems[n]? = some e ∧ ∃ i < 6, x =
      { index := sonMap e.index i, domain := (i : Int), sub := fun _ => fd e n,
        facetChildren := fun _ _ => [] } := by
  unfold sonLoop
  simp only [List.mem_flatMap, List.mem_map, List.mem_range, Prod.exists, List.mem_zipIdx_iff_getElem?]
  constructor
  · rintro ⟨e, n, h, i, hi, rfl⟩; exact ⟨e, n, h, i, hi, rfl⟩
  · rintro ⟨e, n, h, i, hi, rfl⟩; exact ⟨e, n, h, i, hi, rfl⟩

/-- Sons of different (element, number) are different and in range. -/
structure SonsOk (coarse : View) (fineCount : Nat) (sonMap : Nat → Nat → Nat) : Prop where
  inj : ∀ e ∈ coarse.elems, ∀ e' ∈ coarse.elems, ∀ i < 6, ∀ j < 6,
    sonMap e.index i = sonMap e'.index j → e.index = e'.index ∧ i = j
  lt : ∀ e ∈ coarse.elems, ∀ i < 6, sonMap e.index i < fineCount

theorem sonLoop_nodup (hn : (coarse.elems.map (·.index)).Nodup) (h : SonsOk coarse fineCount sonMap) :
    ((sonLoop coarse fineCount sonMap fd).elems.map (·.index)).Nodup := by
  unfold sonLoop
  simp only [List.map_flatMap, List.map_map, Function.comp_def]
  rw [List.nodup_flatMap]
  constructor
  · rintro ⟨e, n⟩ hx
    have he := List.mem_of_getElem? (List.mem_zipIdx_iff_getElem?.mp hx)
    refine List.Nodup.map_on ?_ List.nodup_range
    intro i hi j hj hij
    exact (h.inj e he e he i (List.mem_range.mp hi) j (List.mem_range.mp hj) hij).2
  · have hp : coarse.elems.zipIdx.Pairwise (fun a b => a.1.index ≠ b.1.index) := by
      have h1 : coarse.elems.Pairwise fun a b => a.index ≠ b.index := List.pairwise_map.mp hn
      rw [← List.zipIdx_map_fst 0 coarse.elems, List.pairwise_map] at h1
      exact h1
    refine hp.imp_of_mem ?_
    rintro ⟨e, n⟩ ⟨e', n'⟩ hx hx' hne
    have he := List.mem_of_getElem? (List.mem_zipIdx_iff_getElem?.mp hx)
    have he' := List.mem_of_getElem? (List.mem_zipIdx_iff_getElem?.mp hx')
    intro x hxm hxm'
    simp only [List.mem_map, List.mem_range] at hxm hxm'
    obtain ⟨i, hi, rfl⟩ := hxm
    obtain ⟨j, hj, hij⟩ := hxm'
    exact hne (h.inj e' he' e he j hj i hi hij).1.symm

theorem foldl_set_get {α β : Type} (key : α → Nat) (val : α → β) : ∀ (es : List α) (l : List β) (e : α),
    (es.map key).Nodup → key e < l.length → e ∈ es →
    (es.foldl (fun (l : List β) e => l.set (key e) (val e)) l)[key e]? = some (val e) := by
  have skip : ∀ (es : List α) (l : List β) (k : Nat), k ∉ es.map key →
      (es.foldl (fun (l : List β) e => l.set (key e) (val e)) l)[k]? = l[k]? := by
    intro es
    induction es with
    | nil => intro l k _; rfl
    | cons w ws ih =>
      intro l k hk
      simp only [List.map_cons, List.mem_cons, not_or] at hk
      rw [List.foldl_cons, ih _ _ hk.2, List.getElem?_set_ne (fun h => hk.1 h.symm)]
  intro es
  induction es with
  | nil => intro l e _ _ h; cases h
  | cons w ws ih =>
    intro l e hnd hk hm
    rw [List.map_cons, List.nodup_cons] at hnd
    rw [List.foldl_cons]
    rcases List.mem_cons.mp hm with rfl | hm
    · rw [skip ws _ _ hnd.1, List.getElem?_set_self hk]
    · exact ih _ e hnd.2 (by simpa using hk) hm

theorem sonTypes_get (hn : (coarse.elems.map (·.index)).Nodup) (h : SonsOk coarse fineCount sonMap)
    {e : Elem} (he : e ∈ coarse.elems) {i : Nat} (hi : i < 6) :
    shapesetType (sonTypes (sonLoop coarse fineCount sonMap fd)) (sonMap e.index i) =
      if i % 2 = 0 then .TYPE1 else .TYPE2 := by
  obtain ⟨n, hen⟩ := List.getElem?_of_mem he
  have hm : (Elem.mk (sonMap e.index i) (i : Int) (fun _ => fd e n) (fun _ _ => [])) ∈
      (sonLoop coarse fineCount sonMap fd).elems := (mem_sonLoop _).mpr ⟨e, n, hen, i, hi, rfl⟩
  have h1 := foldl_set_get (fun e : Elem => e.index) (fun e : Elem => typeOfSon e.domain)
    (sonLoop coarse fineCount sonMap fd).elems
    (List.replicate ((sonLoop coarse fineCount sonMap fd).count 0) BaryType.TYPE1) _ (sonLoop_nodup hn h)
    (by simpa [sonLoop] using h.lt e he i hi) hm
  unfold shapesetType sonTypes
  rw [List.getD_eq_getElem?_getD]
  simp only at h1
  rw [h1]
  unfold typeOfSon
  simp only [Option.getD_some]
  by_cases hp : i % 2 = 0
  · rw [if_pos hp, if_pos (by omega)]
  · rw [if_neg hp, if_neg (by omega)]

theorem sonLoop_good (hn : (coarse.elems.map (·.index)).Nodup) (h : SonsOk coarse fineCount sonMap)
    {count : Nat} {n : Elem → Nat} {writes : Elem → List (Nat × Int)}
    (hk : ∀ x ∈ (sonLoop coarse fineCount sonMap fd).elems, ((writes x).map Prod.fst).Perm (List.range (n x)))
    (hr : ∀ x ∈ (sonLoop coarse fineCount sonMap fd).elems, ∀ w ∈ writes x,
      w.2 = -1 ∨ (0 ≤ w.2 ∧ w.2 < count)) :
    GoodWrites (sonLoop coarse fineCount sonMap fd) count n writes where
  index_nodup := sonLoop_nodup hn h
  index_lt := by
    intro x hx
    obtain ⟨e, m, he, i, hi, rfl⟩ := (mem_sonLoop x).mp hx
    simpa [sonLoop] using h.lt e (List.mem_of_getElem? he) i hi
  keys := hk
  range := hr

theorem element2Basis_perm : ∀ i < 6, ((List.range 3).map fun j => element2Basis i j).Perm (List.range 3) := by
  decide

end Loop

/-! ### Geometry -/

section Geometry
variable {K : Type} [Field K] [LinearOrder K] [IsStrictOrderedRing K]

/-- Reference coordinates in the father of the point with reference coordinates `p` in son `k`. -/
def sonCoord (k : Nat) (p : K × K) : K × K :=
  match k with
  | 0 => (p.1 / 3, p.1 / 3 + p.2 / 2)
  | 1 => (p.1 / 2 + p.2 / 3, p.2 / 3)
  | 2 => (1 - p.1 - p.2 + p.1 / 3 + p.2 / 2, p.1 / 3)
  | 3 => (1 - p.1 - p.2 + p.1 / 2 + p.2 / 3, p.1 / 2 + p.2 / 3)
  | 4 => (p.1 / 3 + p.2 / 2, 1 - p.1 - p.2 + p.1 / 3 + p.2 / 2)
  | _ => (p.2 / 3, 1 - p.1 - p.2 + p.1 / 2 + p.2 / 3)

omit [LinearOrder K] [IsStrictOrderedRing K] in
theorem refMap_comb (A B C : P3 K) (p : K × K) : Comb A B C (refMap A B C p) (1 - p.1 - p.2) p.1 p.2 := by
  refine ⟨by ring, ?_, ?_, ?_⟩ <;> (simp only [refMap]; ring)

theorem refMap_inj (A B C : P3 K) (hn : areaVector A B C ≠ ⟨0, 0, 0⟩) (p q : K × K)
    (h : refMap A B C p = refMap A B C q) : p = q := by
  obtain ⟨-, h1, h2⟩ := comb_unique A B C _ hn _ _ _ _ _ _ (refMap_comb A B C p) (h ▸ refMap_comb A B C q)
  exact Prod.ext h1 h2

/-- A point of son `k` as a point of its father. -/
theorem son_refMap (g : GridData K) (hg : g.Valid) (b : GridData K) (s : Nat → Nat → Nat)
    (h : barycentricGridSonPair g = .ok (b, s)) (e : Nat) (t : Tri) (ht : g.data.elements[e]? = some t)
    (k : Nat) (hk : k < 6) (son : Tri) (hson : b.data.elements[s e k]? = some son) (p : K × K) :
    refMap (nodeAt b.nodes son.a) (nodeAt b.nodes son.b) (nodeAt b.nodes son.c) p =
      refMap (nodeAt g.nodes t.a) (nodeAt g.nodes t.b) (nodeAt g.nodes t.c) (sonCoord k p) := by
  have hr := hg.mesh.range t (List.mem_of_getElem? ht)
  rw [← hg.nodes] at hr
  have ra := hr t.a (by simp [Tri.verts])
  have rb := hr t.b (by simp [Tri.verts])
  have rc := hr t.c (by simp [Tri.verts])
  obtain ⟨son', hson', hp⟩ := son_points g hg b s h e t ht _ _ _ (List.getElem?_eq_getElem ra)
    (List.getElem?_eq_getElem rb) (List.getElem?_eq_getElem rc) k hk
  rw [hson] at hson'
  cases hson'
  have na : nodeAt g.nodes t.a = g.nodes[t.a] := by simp [nodeAt, List.getElem?_eq_getElem ra]
  have nb : nodeAt g.nodes t.b = g.nodes[t.b] := by simp [nodeAt, List.getElem?_eq_getElem rb]
  have nc : nodeAt g.nodes t.c = g.nodes[t.c] := by simp [nodeAt, List.getElem?_eq_getElem rc]
  rw [← na, ← nb, ← nc] at hp
  generalize nodeAt g.nodes t.a = A at *
  generalize nodeAt g.nodes t.b = B at *
  generalize nodeAt g.nodes t.c = C at *
  generalize nodeAt b.nodes son.a = P at *
  generalize nodeAt b.nodes son.b = Q at *
  generalize nodeAt b.nodes son.c = R at *
  interval_cases k <;>
  · simp only [List.getElem?_cons_zero, List.getElem?_cons_succ, Option.some.injEq, Prod.mk.injEq] at hp
    obtain ⟨rfl, rfl, rfl⟩ := hp
    simp only [refMap, sonCoord, P3.mid, P3.centroid, P3.mk.injEq]
    refine ⟨?_, ?_, ?_⟩ <;> (field_simp; ring)

/-- Points of a son and of its father that coincide have corresponding coordinates. -/
theorem son_coord_of_eq (g : GridData K) (hg : g.Valid) (b : GridData K) (s : Nat → Nat → Nat)
    (h : barycentricGridSonPair g = .ok (b, s)) (e : Nat) (t : Tri) (ht : g.data.elements[e]? = some t)
    (hn : areaVector (nodeAt g.nodes t.a) (nodeAt g.nodes t.b) (nodeAt g.nodes t.c) ≠ ⟨0, 0, 0⟩)
    (k : Nat) (hk : k < 6) (son : Tri) (hson : b.data.elements[s e k]? = some son) (p q : K × K)
    (hpq : refMap (nodeAt b.nodes son.a) (nodeAt b.nodes son.b) (nodeAt b.nodes son.c) p =
      refMap (nodeAt g.nodes t.a) (nodeAt g.nodes t.b) (nodeAt g.nodes t.c) q) : q = sonCoord k p := by
  rw [son_refMap g hg b s h e t ht k hk son hson] at hpq
  exact (refMap_inj _ _ _ hn _ _ hpq).symm

/-- The barycentric linear shape functions are the coarse ones restricted to the son. -/
theorem linearBary_son (k : Nat) (hk : k < 6) (j : Nat) (hj : j < 3) (p : K × K) :
    linearBaryShape (if k % 2 = 0 then .TYPE1 else .TYPE2) (element2Basis k j) p = p1Shape j (sonCoord k p) := by
  interval_cases k <;> interval_cases j <;>
  · simp [linearBaryShape, linearCoeffs, element2Basis, p1Shape, sonCoord, List.range_succ]
    try first | ring1 | (field_simp; ring1) | (field_simp; done)

end Geometry

end Verif.Space
