import Verif.Lemmas.GmshParse
/-
Lemmas about the grid of a Gmsh file.
-/
namespace Verif.Gmsh
open Verif.Grid

variable {F : Type}

theorem triangle_map {e : List Nat} (h : e.length = 3) : [((e.getD 0 0 + 1 : Nat) : Int), ((e.getD 1 0 + 1 : Nat) : Int), ((e.getD 2 0 + 1 : Nat) : Int)] =
    e.map fun x : Nat => (x : Int) + 1 := by
  match e, h with
  | [a, b, c], _ => simp

theorem nodes_file {g : GenericGrid F} (hg : g.Valid) :
    ((fileElements g).map toFile).map (·.nodes) = g.elements.map fun e => e.map fun x : Nat => (x : Int) + 1 := by
  apply List.ext_getElem (by simp [fileElements_length])
  intro i h1 h2
  have hi : i < g.elements.length := by simpa using h2
  rw [List.getElem_map, List.getElem_map, List.getElem_map, fileElements_get, ← triangle_map (hg.triangles _ (List.getElem_mem hi))]
  rfl

/-- The order of the first use. -/
def orderOf (g : GenericGrid F) : List Nat := g.elements.flatten.foldl use []

theorem orderOf_lt {g : GenericGrid F} (hg : g.Valid) : ∀ x ∈ orderOf g, x < g.vertices.length := by
  intro x hx
  have := ((firstUse_foldl g.elements.flatten).mem x).1 hx
  obtain ⟨e, he, hxe⟩ := List.mem_flatten.1 this
  exact hg.nodes e he x hxe

theorem orderOf_ne {g : GenericGrid F} (hg : g.Valid) : orderOf g ≠ [] := by
  intro h
  cases he : g.elements with
  | nil => exact hg.some he
  | cons e l =>
    have h3 := hg.triangles e (by rw [he]; exact List.mem_cons_self ..)
    cases e with
    | nil => simp at h3
    | cons x e =>
      have := ((firstUse_foldl g.elements.flatten).mem x).2 (by rw [he]; simp)
      rw [show g.elements.flatten.foldl use [] = orderOf g from rfl, h] at this
      exact absurd this (by simp)

theorem createGridStructure_ok {binary : Bool} {g : GenericGrid F} (hg : g.Valid) :
    createGridStructure (parsed binary g) = .ok ⟨(orderOf g).filterMap fun i => g.vertices[i]?,
      g.elements.map fun e => e.map fun x => (orderOf g).idxOf x, (orderOf g).map fun i : Nat => (i : Int) + 1,
      (List.range g.elements.length).map fun i : Nat => (i : Int) + 1, g.domainIndices⟩ := by
  have hlen : ((fileVertices g).map fun v => ((v.1 : Int), v.2)).length = g.vertices.length := by rw [List.length_map, fileVertices_length]
  have hids : ((fileVertices g).map fun v => ((v.1 : Int), v.2)).map Prod.fst = (List.range g.vertices.length).map fun i : Nat => ((i + 1 : Nat) : Int) := by
    apply List.ext_getElem (by simp [fileVertices_length])
    intro i h1 h2
    simp [fileVertices_get]
  have hdom : ((fileElements g).map toFile).map (·.domain) = g.domainIndices := by
    apply List.ext_getElem (by simp [fileElements_length, hg.domains])
    intro i h1 h2
    have hn := hg.domains_nonneg _ (List.getElem_mem h2)
    simp only [List.getElem_map, fileElements_get, toFile, List.getD_eq_getElem?_getD, List.getElem?_eq_getElem h2, Option.getD_some]
    exact Int.toNat_of_nonneg hn
  have hidx : ((fileElements g).map toFile).map (·.index) = (List.range g.elements.length).map fun i : Nat => (i : Int) + 1 := by
    apply List.ext_getElem (by simp [fileElements_length])
    intro i h1 h2
    simp [fileElements_get, toFile]
  have hlt := orderOf_lt hg
  have h0 : ¬ (ofOrder g.vertices.length (orderOf g)).count = 0 := fun h => orderOf_ne hg (List.length_eq_zero_iff.1 h)
  unfold createGridStructure parsed
  dsimp only
  rw [if_neg (by intro h; rw [h] at hlen; exact fileVertices_ne hg (List.length_eq_zero_iff.1 (by rw [fileVertices_length, ← hlen]; rfl))), hlen, hids,
    if_neg (by simp), ← ofOrder_nil, elements_ok [] _ _ (nodes_file hg) hg.nodes, bind_ok]
  dsimp only
  rw [show g.elements.flatten.foldl use [] = orderOf g from rfl, indexSet_ofOrder hlt (firstUse_foldl _).nodup, hidx, hdom,
    if_neg h0, pure_ok]
  congr 2
  · apply List.filterMap_congr
    intro i hi
    have hi' := hlt i hi
    rw [List.getElem?_map, List.getElem?_eq_getElem (by rw [fileVertices_length]; exact hi'), List.getElem?_eq_getElem hi', fileVertices_get]
    rfl
  · apply List.map_congr_left
    intro i hi
    have hi' := hlt i hi
    rw [List.getD_eq_getElem?_getD, List.getElem?_eq_getElem (by simpa using hi')]
    simp

theorem filterMap_get {l : List (P3 F)} {order : List Nat} (h : ∀ x ∈ order, x < l.length) :
    (order.filterMap fun i => l[i]?).map some = order.map fun i => l[i]? := by
  induction order with
  | nil => rfl
  | cons a t ih =>
    rw [List.filterMap_cons, List.getElem?_eq_getElem (h a (List.mem_cons_self ..)), List.map_cons, List.map_cons, ih fun x hx => h x (List.mem_cons_of_mem _ hx),
      List.getElem?_eq_getElem (h a (List.mem_cons_self ..))]

theorem imported_ok {g : GenericGrid F} (hg : g.Valid) : Imported g ⟨(orderOf g).filterMap fun i => g.vertices[i]?,
      g.elements.map fun e => e.map fun x => (orderOf g).idxOf x, (orderOf g).map fun i : Nat => (i : Int) + 1,
      (List.range g.elements.length).map fun i : Nat => (i : Int) + 1, g.domainIndices⟩ (orderOf g) := by
  refine ⟨firstUse_foldl _, filterMap_get (orderOf_lt hg), rfl, ?_, rfl, rfl⟩
  rw [List.map_map]
  apply List.map_congr_left
  intro e he
  rw [Function.comp_apply, List.map_map]
  apply List.map_congr_left
  intro x hx
  have : x ∈ orderOf g := ((firstUse_foldl g.elements.flatten).mem x).2 (List.mem_flatten.2 ⟨e, he, hx⟩)
  have hl := List.idxOf_lt_length_of_mem this
  rw [Function.comp_apply, List.getElem?_eq_getElem hl, List.getElem_idxOf]

theorem asciiFile_length (c : Codec F) (g : GenericGrid F) : 3 ≤ (asciiFile c g).length := by
  unfold asciiFile formatPart
  simp only [List.length_append, List.length_cons]
  omega

theorem binaryFile_length (c : Codec F) (g : GenericGrid F) : 3 ≤ (binaryFile c g).length := by
  unfold binaryFile formatPart
  simp only [List.length_append, List.length_cons]
  omega

theorem import_ascii {c : Codec F} (hc : c.Lawful) {g : GenericGrid F} (hg : g.Valid) {rest : Bytes} (hr : Lines rest) :
    ∃ g' order, importDataSets c (asciiFile c g ++ rest) = .ok g' ∧ Imported g g' order := by
  refine ⟨_, orderOf g, ?_, imported_ok hg⟩
  unfold importDataSets parseGmsh
  have hl := asciiFile_length c g
  obtain ⟨k, hk⟩ : ∃ k, (asciiFile c g ++ rest).length + 1 = k + 3 := ⟨(asciiFile c g ++ rest).length - 2, by rw [List.length_append]; omega⟩
  rw [hk, parseLoop_asciiFile hc hg, parseLoop_lines c hr _ k (by rw [List.length_append] at hk; omega), bind_ok]
  exact createGridStructure_ok hg

theorem import_binary {c : Codec F} (hc : c.Lawful) {g : GenericGrid F} (hg : g.Valid) (hs : g.Small) :
    ∃ g' order, importDataSets c (binaryFile c g) = .ok g' ∧ Imported g g' order := by
  refine ⟨_, orderOf g, ?_, imported_ok hg⟩
  unfold importDataSets parseGmsh
  have hl := binaryFile_length c g
  obtain ⟨k, hk⟩ : ∃ k, (binaryFile c g).length + 1 = k + 1 + 3 := ⟨(binaryFile c g).length - 3, by omega⟩
  have := parseLoop_binaryFile hc hg hs (k + 1) []
  rw [List.append_nil] at this
  rw [hk, this, parseLoop_nil, bind_ok]
  exact createGridStructure_ok hg

end Verif.Gmsh
