import Verif.Lemmas.GmshRenumber
/-
Lemmas about whole Gmsh files.
-/
namespace Verif.Gmsh
open Verif.Grid

variable {F : Type}

theorem concatAll_range' {α : Type} {g : Nat → Except Exn Bytes} {h : α → Bytes} (l : List α) (s : Nat)
    (hg : ∀ i (hi : i < l.length), g (s + i) = .ok (h l[i])) : concatAll g (List.range' s l.length) = .ok (l.flatMap h) := by
  induction l generalizing s with
  | nil => rfl
  | cons a l ih =>
    rw [List.length_cons, List.range'_succ, concatAll]
    have h0 := hg 0 (by simp)
    rw [Nat.add_zero] at h0
    rw [h0, bind_ok, ih (s + 1) fun i hi => by
      have := hg (i + 1) (by simpa using hi)
      rw [show s + 1 + i = s + (i + 1) by ring]
      exact this]
    rfl

theorem concatAll_range {α : Type} {g : Nat → Except Exn Bytes} {h : α → Bytes} (l : List α)
    (hg : ∀ i (hi : i < l.length), g i = .ok (h l[i])) : concatAll g (List.range l.length) = .ok (l.flatMap h) := by
  rw [List.range_eq_range']
  exact concatAll_range' l 0 fun i hi => by rw [Nat.zero_add]; exact hg i hi

theorem item_ok {α : Type} {l : List α} {i : Nat} (h : i < l.length) : item l i = .ok l[i] := by
  unfold item
  rw [List.getElem?_eq_getElem h]

theorem item_range1 {n i : Nat} (h : i < n) : item (range1 n) i = .ok (i + 1) := by
  rw [item_ok (by simpa [range1] using h)]
  simp [range1]

/-- The vertices with their numbers. -/
def fileVertices (g : GenericGrid F) : List (Nat × P3 F) := (g.vertices.zipIdx 1).map fun p => (p.2, p.1)

/-- The elements with their numbers, the numbers of their vertices and their domain indices. -/
def fileElements (g : GenericGrid F) : List (Nat × (Nat × Nat × Nat) × Nat) :=
  (g.elements.zipIdx 1).map fun p => (p.2, (p.1.getD 0 0 + 1, p.1.getD 1 0 + 1, p.1.getD 2 0 + 1), (g.domainIndices.getD (p.2 - 1) 0).toNat)

theorem fileVertices_length (g : GenericGrid F) : (fileVertices g).length = g.vertices.length := by simp [fileVertices]

theorem fileElements_length (g : GenericGrid F) : (fileElements g).length = g.elements.length := by simp [fileElements]

theorem fileVertices_get (g : GenericGrid F) {i : Nat} (h : i < (fileVertices g).length) :
    (fileVertices g)[i] = (i + 1, g.vertices[i]'(by rwa [fileVertices_length] at h)) := by
  simp [fileVertices, Nat.add_comm]

theorem fileElements_get (g : GenericGrid F) {i : Nat} (h : i < (fileElements g).length) :
    (fileElements g)[i] = (i + 1, ((g.elements[i]'(by rwa [fileElements_length] at h)).getD 0 0 + 1,
      (g.elements[i]'(by rwa [fileElements_length] at h)).getD 1 0 + 1, (g.elements[i]'(by rwa [fileElements_length] at h)).getD 2 0 + 1),
      (g.domainIndices.getD i 0).toNat) := by
  simp [fileElements, Nat.add_comm]

/-- The head of a file. -/
def formatPart (binary : Bool) : Bytes :=
  ascii "$MeshFormat" ++ 10 :: ((if binary then ascii "2.2 1 8" ++ 10 :: ([1, 0, 0, 0] ++ [10]) else ascii "2.2 0 8" ++ [10]) ++
    (ascii "$EndMeshFormat" ++ [10]))

/-- The text of a grid. -/
def asciiFile (c : Codec F) (g : GenericGrid F) : Bytes :=
  formatPart false ++ (ascii "$Nodes" ++ 10 :: (showNat g.vertices.length ++ 10 :: ((fileVertices g).flatMap (fun v => vertexLine c v ++ [10]) ++
    (ascii "$EndNodes" ++ 10 :: (ascii "$Elements" ++ 10 :: (showNat g.elements.length ++ 10 :: ((fileElements g).flatMap (fun e => elementLine e ++ [10]) ++
      (ascii "$EndElements" ++ [10]))))))))

/-- The bytes of a grid. -/
def binaryFile (c : Codec F) (g : GenericGrid F) : Bytes :=
  formatPart true ++ (ascii "$Nodes" ++ 10 :: (showNat g.vertices.length ++ 10 :: ((fileVertices g).flatMap (vertexBytes c) ++ 10 ::
    (ascii "$EndNodes" ++ 10 :: (ascii "$Elements" ++ 10 :: (showNat g.elements.length ++ 10 ::
      ([(2 : Int), (g.elements.length : Int), 2].flatMap pk ++ ((fileElements g).flatMap (fun e => (elementInts e).flatMap pk) ++ 10 ::
      (ascii "$EndElements" ++ [10])))))))))

theorem getD_lt {g : GenericGrid F} (hg : g.Valid) {i j : Nat} (hi : i < g.elements.length) (hj : j < 3) :
    (g.elements[i]).getD j 0 < g.vertices.length := by
  have hm := List.getElem_mem hi
  have h3 := hg.triangles _ hm
  have hlt : j < (g.elements[i]).length := by omega
  rw [List.getD_eq_getElem?_getD, List.getElem?_eq_getElem hlt]
  exact hg.nodes _ hm _ (List.getElem_mem hlt)

theorem ascii_nl (s : String) : ascii (s ++ "\n") = ascii s ++ [10] := by
  simp [ascii, String.toList_append]

theorem packInt_one : packInt 1 = .ok [1, 0, 0, 0] := by decide

theorem writeGrid_ascii (c : Codec F) {g : GenericGrid F} (hg : g.Valid) :
    writeGrid c false g (range1 g.vertices.length) (range1 g.elements.length) = .ok (asciiFile c g) := by
  unfold writeGrid
  rw [packInt_one, bind_ok]
  simp only [Bool.false_eq_true, if_false]
  have hn := concatAll_range (h := fun v => vertexLine c v ++ [10]) (g := fun i => (do
      let id ← item (range1 g.vertices.length) i
      let v ← item g.vertices i
      pure (showNat id ++ [32] ++ c.text v.x ++ [32] ++ c.text v.y ++ [32] ++ c.text v.z ++ [10]) : Except Exn Bytes)) (fileVertices g) (by
    intro i hi
    have hi' : i < g.vertices.length := by rwa [fileVertices_length] at hi
    rw [item_range1 hi', item_ok hi', bind_ok, bind_ok, pure_ok, fileVertices_get]
    simp [vertexLine])
  rw [fileVertices_length] at hn
  rw [hn, bind_ok, pure_ok, bind_ok]
  have he := concatAll_range (h := fun e => elementLine e ++ [10]) (g := fun i => (do
      let e ← item g.elements i
      let v0 ← item (range1 g.vertices.length) (e.getD 0 0)
      let v1 ← item (range1 g.vertices.length) (e.getD 1 0)
      let v2 ← item (range1 g.vertices.length) (e.getD 2 0)
      let d ← item g.domainIndices i
      let id ← item (range1 g.elements.length) i
      pure (showNat id ++ ascii " 2 2 " ++ showNat d.toNat ++ ascii " 0 " ++ showNat v0 ++ [32] ++ showNat v1 ++ [32] ++ showNat v2 ++ [10]) :
        Except Exn Bytes)) (fileElements g) (by
    intro i hi
    have hi' : i < g.elements.length := by rwa [fileElements_length] at hi
    have hd : i < g.domainIndices.length := by rw [hg.domains]; exact hi'
    rw [item_ok hi', bind_ok, item_range1 (getD_lt hg hi' (by omega)), item_range1 (getD_lt hg hi' (by omega)),
      item_range1 (getD_lt hg hi' (by omega)), item_ok hd, item_range1 hi', fileElements_get]
    simp [elementLine, bind_ok, pure_ok, ascii, List.getD_eq_getElem?_getD, hd])
  rw [fileElements_length] at he
  rw [he, bind_ok, pure_ok]
  have e1 : ascii "$MeshFormat\n" = ascii "$MeshFormat" ++ [10] := ascii_nl "$MeshFormat"
  have e2 : ascii "2.2 0 8\n" = ascii "2.2 0 8" ++ [10] := ascii_nl "2.2 0 8"
  have e3 : ascii "$EndMeshFormat\n" = ascii "$EndMeshFormat" ++ [10] := ascii_nl "$EndMeshFormat"
  have e4 : ascii "$Nodes\n" = ascii "$Nodes" ++ [10] := ascii_nl "$Nodes"
  have e5 : ascii "$EndNodes\n" = ascii "$EndNodes" ++ [10] := ascii_nl "$EndNodes"
  have e6 : ascii "$Elements\n" = ascii "$Elements" ++ [10] := ascii_nl "$Elements"
  have e7 : ascii "$EndElements\n" = ascii "$EndElements" ++ [10] := ascii_nl "$EndElements"
  rw [e1, e2, e3, e4, e5, e6, e7]
  unfold asciiFile formatPart
  simp only [List.append_assoc, List.cons_append, List.nil_append, List.append_nil, Bool.false_eq_true, if_false]

theorem fits_nat {n : Nat} (h : n < 2 ^ 31) : Fits n := by
  unfold Fits
  constructor
  · have : (0 : Int) ≤ n := by omega
    linarith [show (0 : Int) ≤ 2 ^ 31 by norm_num]
  · exact_mod_cast h

theorem fits_elementInts {g : GenericGrid F} (hg : g.Valid) (hs : g.Small) : ∀ e ∈ fileElements g, ∀ n ∈ elementInts e, Fits n := by
  intro e he n hn
  obtain ⟨i, hi, rfl⟩ := List.mem_iff_getElem.1 he
  have hi' : i < g.elements.length := by rwa [fileElements_length] at hi
  have hd : i < g.domainIndices.length := by rw [hg.domains]; exact hi'
  have h0 := hs.vertices
  have h1 := hs.elements
  rw [fileElements_get] at hn
  simp only [elementInts, List.mem_cons, List.not_mem_nil, or_false] at hn
  have hl := fun j (hj : j < 3) => getD_lt hg hi' hj
  rcases hn with rfl | rfl | rfl | rfl | rfl | rfl
  · exact fits_nat (by omega)
  · have := hs.domains _ (List.getElem_mem hd)
    have := hg.domains_nonneg _ (List.getElem_mem hd)
    apply fits_nat
    rw [List.getD_eq_getElem?_getD, List.getElem?_eq_getElem hd]
    simp only [Option.getD_some]
    omega
  · exact fits_nat (n := 0) (by norm_num)
  · exact fits_nat (by have := hl 0 (by omega); omega)
  · exact fits_nat (by have := hl 1 (by omega); omega)
  · exact fits_nat (by have := hl 2 (by omega); omega)

theorem concatAll_packInt {l : List Int} (h : ∀ n ∈ l, Fits n) : concatAll packInt l = .ok (l.flatMap pk) :=
  concatAll_ok fun n hn => packInt_ok (h n hn)

theorem writeGrid_binary (c : Codec F) {g : GenericGrid F} (hg : g.Valid) (hs : g.Small) :
    writeGrid c true g (range1 g.vertices.length) (range1 g.elements.length) = .ok (binaryFile c g) := by
  unfold writeGrid
  rw [packInt_one, bind_ok]
  simp only [if_true]
  have hn := concatAll_range (h := vertexBytes c) (g := fun i => (do
      let id ← item (range1 g.vertices.length) i
      let v ← item g.vertices i
      let b ← packInt id
      pure (b ++ c.pack v.x ++ c.pack v.y ++ c.pack v.z) : Except Exn Bytes)) (fileVertices g) (by
    intro i hi
    have hi' : i < g.vertices.length := by rwa [fileVertices_length] at hi
    have h0 := hs.vertices
    rw [item_range1 hi', item_ok hi', bind_ok, bind_ok, packInt_ok (fits_nat (by omega)), bind_ok, pure_ok, fileVertices_get]
    rfl)
  rw [fileVertices_length] at hn
  have hh : concatAll packInt [2, (g.elements.length : Int), 2] = .ok ([2, (g.elements.length : Int), 2].flatMap pk) := by
    apply concatAll_packInt
    intro n hn
    simp only [List.mem_cons, List.not_mem_nil, or_false] at hn
    rcases hn with rfl | rfl | rfl
    · exact fits_nat (n := 2) (by norm_num)
    · exact fits_nat hs.elements
    · exact fits_nat (n := 2) (by norm_num)
  rw [hn, bind_ok, hh, bind_ok]
  have he := concatAll_range (h := fun e => (elementInts e).flatMap pk) (g := fun i => (do
      let e ← item g.elements i
      let v0 ← item (range1 g.vertices.length) (e.getD 0 0)
      let v1 ← item (range1 g.vertices.length) (e.getD 1 0)
      let v2 ← item (range1 g.vertices.length) (e.getD 2 0)
      let d ← item g.domainIndices i
      let id ← item (range1 g.elements.length) i
      concatAll packInt [(id : Int), d, 0, (v0 : Int), (v1 : Int), (v2 : Int)] : Except Exn Bytes)) (fileElements g) (by
    intro i hi
    have hi' : i < g.elements.length := by rwa [fileElements_length] at hi
    have hd : i < g.domainIndices.length := by rw [hg.domains]; exact hi'
    have hf := fits_elementInts hg hs _ (List.getElem_mem hi)
    rw [← concatAll_packInt hf, fileElements_get]
    rw [item_ok hi', bind_ok, item_range1 (getD_lt hg hi' (by omega)), item_range1 (getD_lt hg hi' (by omega)),
      item_range1 (getD_lt hg hi' (by omega)), item_ok hd, item_range1 hi', bind_ok, bind_ok, bind_ok, bind_ok, bind_ok]
    have hdd : ((g.domainIndices.getD i 0).toNat : Int) = g.domainIndices[i] := by
      rw [List.getD_eq_getElem?_getD, List.getElem?_eq_getElem hd]
      exact Int.toNat_of_nonneg (hg.domains_nonneg _ (List.getElem_mem hd))
    unfold elementInts
    dsimp only
    rw [hdd])
  rw [fileElements_length] at he
  rw [he, bind_ok, pure_ok]
  have e1 : ascii "$MeshFormat\n" = ascii "$MeshFormat" ++ [10] := ascii_nl "$MeshFormat"
  have e2 : ascii "2.2 1 8\n" = ascii "2.2 1 8" ++ [10] := ascii_nl "2.2 1 8"
  have e3 : ascii "$EndMeshFormat\n" = ascii "$EndMeshFormat" ++ [10] := ascii_nl "$EndMeshFormat"
  have e4 : ascii "$Nodes\n" = ascii "$Nodes" ++ [10] := ascii_nl "$Nodes"
  have e5 : ascii "$EndNodes\n" = ascii "$EndNodes" ++ [10] := ascii_nl "$EndNodes"
  have e6 : ascii "$Elements\n" = ascii "$Elements" ++ [10] := ascii_nl "$Elements"
  have e7 : ascii "$EndElements\n" = ascii "$EndElements" ++ [10] := ascii_nl "$EndElements"
  rw [e1, e2, e3, e4, e5, e6, e7]
  unfold binaryFile formatPart
  simp only [List.append_assoc, List.cons_append, List.nil_append, if_true]

end Verif.Gmsh
