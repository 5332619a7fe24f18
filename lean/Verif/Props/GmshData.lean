import Verif.Props.Gmsh
/-
C93: the data sections of Gmsh files.
-/
namespace Verif.Gmsh
open Verif.Grid

variable {F : Type}

theorem pk_little {n : Nat} (h : n < 2 ^ 31) : pk (n : Int) = little n := by
  have : ((n : Int) % 2 ^ 32).toNat = n := by omega
  unfold pk little
  simp only [this]
  simp [List.range_succ]

theorem intercalate_cons (s : Bytes) (a : Bytes) (l : List Bytes) : List.intercalate s (a :: l) = a ++ l.flatMap fun b => s ++ b := by
  induction l generalizing a with
  | nil => simp [List.intercalate]
  | cons b l ih =>
    have := ih b
    simp only [List.intercalate, List.intersperse_cons₂, List.flatten_cons] at this ⊢
    rw [this]
    simp

theorem concatAll_mapIdx {α : Type} {g : Nat → Except Exn Bytes} {h : Nat → α → Bytes} (l : List α)
    (hg : ∀ i (hi : i < l.length), g i = .ok (h i l[i])) : concatAll g (List.range l.length) = .ok (l.mapIdx h).flatten := by
  have := concatAll_range (g := g) (h := id) (l.mapIdx h) (by
    intro i hi
    rw [List.length_mapIdx] at hi
    rw [hg i hi, List.getElem_mapIdx]
    rfl)
  rw [List.length_mapIdx] at this
  rw [this]
  simp

theorem writeArray_ok (c : Codec F) (binary vertex : Bool) (n : Nat) (hn : binary = true → n < 2 ^ 31) (name : Bytes) (components : Nat)
    (array : List (List F)) (ha : array.length ≤ n) (time : F) (step : Nat) :
    writeArray c binary vertex (range1 n) name components array time step =
      .ok ((⟨vertex, name, time, step, components, array⟩ : Section F).bytes c binary) := by
  unfold writeArray
  rw [concatAll_mapIdx (h := fun i row => rowBytes c binary (i + 1) row) array (by
    intro i hi
    have h0 : array.getD i [] = array[i] := by rw [List.getD_eq_getElem?_getD, List.getElem?_eq_getElem hi]; rfl
    rw [item_range1 (by omega : i < n), bind_ok]
    dsimp only
    rw [h0]
    cases binary with
    | false =>
      unfold rowBytes
      rw [if_neg (by simp), if_neg (by simp), intercalate_cons, pure_ok]
      simp [List.flatMap_map]
    | true =>
      have := hn rfl
      rw [if_pos rfl, packInt_ok (fits_nat (by omega)), bind_ok, pure_ok, pk_little (by omega)]
      unfold rowBytes
      rw [if_pos rfl]
      simp [List.flatMap])]
  rw [bind_ok, pure_ok]
  unfold Section.bytes
  have e1 : ascii "$NodeData\n" = ascii "$NodeData" ++ [10] := ascii_nl "$NodeData"
  have e2 : ascii "$ElementData\n" = ascii "$ElementData" ++ [10] := ascii_nl "$ElementData"
  have e3 : ascii "$EndNodeData\n" = ascii "$EndNodeData" ++ [10] := ascii_nl "$EndNodeData"
  have e4 : ascii "$EndElementData\n" = ascii "$EndElementData" ++ [10] := ascii_nl "$EndElementData"
  have e5 : ascii "1\n" = ascii "1" ++ [10] := ascii_nl "1"
  have e6 : ascii "3\n" = ascii "3" ++ [10] := ascii_nl "3"
  have e7 : ascii "\"\n" = [34] ++ [10] := ascii_nl "\""
  have e8 : ascii "\"" = [34] := rfl
  rw [e5, e6, e7, e8]
  cases vertex
  · simp [e2, e4]
  · simp [e1, e3]

theorem sectionsOf_length (vertex : Bool) (name : Bytes) (components : Nat) (timesteps : List F) (arrays : List (List (List F)))
    (h : arrays.length ≤ timesteps.length) : (sectionsOf vertex name components timesteps arrays).length = arrays.length := by
  simp [sectionsOf, h]

theorem writeSeries_ok (c : Codec F) (binary vertex : Bool) (n : Nat) (hn : binary = true → n < 2 ^ 31) (name : Bytes) (components : Nat)
    (timesteps : List F) (arrays : List (List (List F))) (h : arrays.length ≤ timesteps.length) (ha : ∀ a ∈ arrays, a.length ≤ n) :
    concatAll (fun i => do
      let t ← item timesteps i
      writeArray c binary vertex (range1 n) name components (arrays.getD i []) t i) (List.range arrays.length) =
      .ok ((sectionsOf vertex name components timesteps arrays).flatMap fun s => s.bytes c binary) := by
  have := concatAll_range (h := fun s : Section F => s.bytes c binary) (g := fun i => do
      let t ← item timesteps i
      writeArray c binary vertex (range1 n) name components (arrays.getD i []) t i) (sectionsOf vertex name components timesteps arrays) (by
    intro i hi
    have hi' : i < arrays.length := by rwa [sectionsOf_length _ _ _ _ _ h] at hi
    have h0 : arrays.getD i [] = arrays[i] := by rw [List.getD_eq_getElem?_getD, List.getElem?_eq_getElem hi']; rfl
    rw [item_ok (by omega : i < timesteps.length), bind_ok, h0, writeArray_ok c binary vertex n hn name components _ (ha _ (List.getElem_mem hi'))]
    simp [sectionsOf])
  rwa [sectionsOf_length _ _ _ _ _ h] at this

theorem writeData_ok (c : Codec F) (binary vertex : Bool) (n : Nat) (hn : binary = true → n < 2 ^ 31) (timesteps : List F) (d : Data F)
    (hd : d.Complete timesteps n) :
    writeData c binary vertex (range1 n) timesteps d = .ok ((d.sections vertex timesteps).flatMap fun s => s.bytes c binary) := by
  unfold writeData Data.sections
  dsimp only
  cases him : d.imag with
  | none =>
    dsimp only
    rw [writeSeries_ok c binary vertex n hn _ _ _ _ hd.times hd.rows, bind_ok]
    rfl
  | some im =>
    dsimp only
    have hl := hd.imag im (by rw [him]; rfl)
    rw [writeSeries_ok c binary vertex n hn _ _ _ _ hd.times hd.rows, bind_ok, ← hl,
      writeSeries_ok c binary vertex n hn _ _ _ _ (by rw [hl]; exact hd.times) (hd.imag_rows im (by rw [him]; rfl)), bind_ok, List.flatMap_append]
    rfl

/-- The data of a data set are written behind the grid: the sections of the vertex data, then those of the element data; every section has the name
of the data, with the part for complex data, its time and its step, and every row has the number of its vertex or element and its own values. -/
theorem C93_data {c : Codec F} {binary : Bool} {d : GridDataSet F} (hg : d.grid.Valid) (hs : binary = true → d.grid.Small)
    (hv : ∀ x ∈ d.vertexData, x.Complete d.timesteps d.grid.vertices.length)
    (he : ∀ x ∈ d.elementData, x.Complete d.timesteps d.grid.elements.length) :
    ∃ gridFile, exportDataSets c binary none none [⟨d.grid, [], [], []⟩] = .ok [gridFile] ∧
      exportDataSets c binary none none [d] = .ok [gridFile ++
        (d.vertexData.flatMap (Data.sections true d.timesteps) ++ d.elementData.flatMap (Data.sections false d.timesteps)).flatMap
          fun s => s.bytes c binary] := by
  obtain ⟨gridFile, hw⟩ : ∃ gridFile, writeGrid c binary d.grid (range1 d.grid.vertices.length) (range1 d.grid.elements.length) = .ok gridFile := by
    cases binary with
    | false => exact ⟨_, writeGrid_ascii c hg⟩
    | true => exact ⟨_, writeGrid_binary c hg (hs rfl)⟩
  refine ⟨gridFile, ?_, ?_⟩
  · unfold exportDataSets
    rw [if_neg (by simp), exportLoop]
    dsimp only [Option.getD_none]
    unfold writeDataSet
    rw [hw]
    show Except.ok [gridFile ++ [] ++ []] = _
    simp
  · unfold exportDataSets
    rw [if_neg (by simp), exportLoop]
    dsimp only [Option.getD_none]
    unfold writeDataSet
    rw [hw, bind_ok, concatAll_ok (h := fun x => (x.sections true d.timesteps).flatMap fun s => s.bytes c binary)
      fun x hx => writeData_ok c binary true _ (fun hb => (hs hb).vertices) _ x (hv x hx), bind_ok,
      concatAll_ok (h := fun x => (x.sections false d.timesteps).flatMap fun s => s.bytes c binary)
      fun x hx => writeData_ok c binary false _ (fun hb => (hs hb).elements) _ x (he x hx), bind_ok, pure_ok, bind_ok, exportLoop, bind_ok, pure_ok]
    simp [List.flatMap_append, List.flatMap_assoc]

theorem split_intercalate {w : Bytes} {l : List Bytes} (hw : Word w) (hl : ∀ x ∈ l, Word x) : split (List.intercalate [32] (w :: l)) = w :: l := by
  induction l generalizing w with
  | nil => simpa [List.intercalate] using split_word hw
  | cons b l ih =>
    rw [intercalate_cons]
    have := ih (hl b List.mem_cons_self) fun x hx => hl x (List.mem_cons_of_mem _ hx)
    rw [intercalate_cons] at this
    rw [List.flatMap_cons]
    show split (w ++ 32 :: (b ++ _)) = _
    rw [split_cons hw, this]

/-- A row of a text file: the line splits into the number and the values, and they are read back. -/
theorem C93_row_readable {c : Codec F} (hc : c.Lawful) (number : Nat) (row : List F) (rest : Bytes) :
    ∃ l word words, line c (rowBytes c false number row ++ rest) = .ok (l, rest) ∧ split l = word :: words ∧
      parseInt word = some (number : Int) ∧ words.map c.ofText = row.map some := by
  refine ⟨List.intercalate [32] (showNat number :: row.map c.text), showNat number, row.map c.text, ?_, ?_, parseInt_showNat number, ?_⟩
  · unfold rowBytes
    rw [if_neg (by simp), List.append_assoc, List.singleton_append, line_append]
    rw [intercalate_cons, List.flatMap_map]
    exact lineOk_values hc _ (lineOk_showNat number) row
  · apply split_intercalate (word_showNat number)
    intro x hx
    obtain ⟨v, _, rfl⟩ := List.mem_map.1 hx
    exact word_text hc v
  · rw [List.map_map]
    exact List.map_congr_left fun x _ => hc.text_read x

/-- A row of a binary file: its length, its number and its values. -/
theorem C93_row_readable_binary {c : Codec F} (hc : c.Lawful) {number : Nat} (hn : number < 2 ^ 31) (row : List F) :
    (rowBytes c true number row).length = 4 + 8 * row.length ∧ unpackInt ((rowBytes c true number row).take 4) = number ∧
      ∀ i (h : i < row.length), c.unpack (((rowBytes c true number row).drop (4 + 8 * i)).take 8) = row[i] := by
  unfold rowBytes
  rw [if_pos rfl, ← pk_little hn, ← List.flatMap_def]
  have hl : (row.flatMap c.pack).length = row.length * 8 := flatMap_length_const fun a _ => hc.pack_length a
  refine ⟨by rw [List.length_append, pk_length, hl]; ring, ?_, ?_⟩
  · rw [List.take_left' (pk_length _), unpack_pk (fits_nat hn)]
  · intro i h
    have h1 : (pk (number : Int) ++ row.flatMap c.pack).drop (4 + 8 * i) = (row.flatMap c.pack ++ []).drop (8 * i) := by
      rw [← List.drop_drop, List.drop_left' (pk_length _), List.append_nil]
    rw [h1]
    obtain ⟨t, h2⟩ := drop_flatMap (f := c.pack) (k := 8) (l := row) (fun a _ => hc.pack_length a) i h []
    rw [h2, take_append_eq (hc.pack_length _), hc.pack_read]

/-- Signs of integers in text files. -/
theorem C93_integers (n : Nat) : parseInt (45 :: showNat n) = some (-(n : Int)) ∧ parseInt (43 :: showNat n) = some (n : Int) ∧
    parseInt (showNat n) = some (n : Int) := by
  refine ⟨?_, ?_, parseInt_showNat n⟩
  · simp [parseInt, parseNat_showNat]
  · simp [parseInt, parseNat_showNat]

/-- A series of two complex arrays on the vertices. -/
def sampleData : Data Bool :=
  ⟨ascii "u  ", [[[true], [false], [true], [true], [false]], [[true], [true]]], some [[[false], [false]], [[true]]], 1⟩

/-- The hypotheses of `C93_data` are satisfiable: complex data at two times; the file in full. -/
theorem C93_data_example : sampleData.Complete [false, true] sampleGrid.vertices.length ∧
    exportDataSets sample false none none [⟨sampleGrid, [], [sampleData], [false, true]⟩] = .ok [ascii (
      "$MeshFormat\n2.2 0 8\n$EndMeshFormat\n$Nodes\n5\n1 0.0 -1.0 -1.0\n2 0.0 0.0 0.0\n3 -1.0 0.0 0.0\n4 0.0 -1.0 0.0\n5 0.0 0.0 -1.0\n$EndNodes\n" ++
      "$Elements\n2\n1 2 2 7 0 4 2 3\n2 2 2 0 0 3 5 4\n$EndElements\n" ++
      "$NodeData\n1\n\"u (real)\"\n1\n0.0\n3\n0\n1\n5\n1 -1.0\n2 0.0\n3 -1.0\n4 -1.0\n5 0.0\n$EndNodeData\n" ++
      "$NodeData\n1\n\"u (real)\"\n1\n-1.0\n3\n1\n1\n2\n1 -1.0\n2 -1.0\n$EndNodeData\n" ++
      "$NodeData\n1\n\"u (imag)\"\n1\n0.0\n3\n0\n1\n2\n1 0.0\n2 0.0\n$EndNodeData\n" ++
      "$NodeData\n1\n\"u (imag)\"\n1\n-1.0\n3\n1\n1\n1\n1 -1.0\n$EndNodeData\n")] :=
  ⟨⟨by decide, by decide, by decide, by decide⟩, by
    obtain ⟨g, h1, h2⟩ := C93_data (c := sample) (binary := false) (d := ⟨sampleGrid, [], [sampleData], [false, true]⟩) sampleGrid_valid (by simp)
      (by intro x hx; rw [List.mem_singleton.1 hx]; exact ⟨by decide, by decide, by decide, by decide⟩) (by simp)
    decide +kernel⟩

end Verif.Gmsh
