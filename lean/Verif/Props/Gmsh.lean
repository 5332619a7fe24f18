import Verif.Lemmas.GmshTotal
/-
C93: grids survive Gmsh files.
-/
namespace Verif.Gmsh
open Verif.Grid

variable {F : Type}

theorem exportLoop_one {c : Codec F} {binary : Bool} {d : GridDataSet F} {files : List Bytes}
    (h : exportDataSets c binary none none [d] = .ok files) :
    ∃ file, files = [file] ∧ writeDataSet c binary d (range1 d.grid.vertices.length) (range1 d.grid.elements.length) = .ok file := by
  unfold exportDataSets at h
  rw [if_neg (by simp), exportLoop] at h
  dsimp only [Option.getD_none] at h
  cases hf : writeDataSet c binary d (range1 d.grid.vertices.length) (range1 d.grid.elements.length) with
  | error e => rw [hf] at h; cases h
  | ok file =>
    rw [hf, bind_ok, exportLoop, bind_ok, pure_ok] at h
    cases h
    exact ⟨file, rfl, rfl⟩

/-- Text files: whatever data are written beside the grid, if the export succeeds then there is one file and its import is the grid with its used
vertices in the order of their first use, with the elements in their order and with the domain indices. -/
theorem C93_ascii {c : Codec F} (hc : c.Lawful) {d : GridDataSet F} (hg : d.grid.Valid) (hv : ∀ x ∈ d.vertexData, x.OneLine)
    (he : ∀ x ∈ d.elementData, x.OneLine) {files : List Bytes} (h : exportDataSets c false none none [d] = .ok files) :
    ∃ file g' order, files = [file] ∧ importDataSets c file = .ok g' ∧ Imported d.grid g' order := by
  obtain ⟨file, rfl, hf⟩ := exportLoop_one h
  unfold writeDataSet at hf
  rw [writeGrid_ascii c hg, bind_ok] at hf
  cases h1 : concatAll (writeData c false true (range1 d.grid.vertices.length) d.timesteps) d.vertexData with
  | error e => rw [h1] at hf; cases hf
  | ok o1 =>
    rw [h1, bind_ok] at hf
    cases h2 : concatAll (writeData c false false (range1 d.grid.elements.length) d.timesteps) d.elementData with
    | error e => rw [h2] at hf; cases hf
    | ok o2 =>
      rw [h2, bind_ok, pure_ok] at hf
      cases hf
      have l1 : Lines o1 := concatAll_lines (fun a ha o ho => writeData_lines hc _ _ _ (hv a ha) ho) h1
      have l2 : Lines o2 := concatAll_lines (fun a ha o ho => writeData_lines hc _ _ _ (he a ha) ho) h2
      obtain ⟨g', order, hi, hI⟩ := import_ascii hc hg (l1.append l2)
      exact ⟨_, g', order, rfl, by rw [List.append_assoc]; exact hi, hI⟩

/-- The export of a grid without data succeeds, and its import is the grid: text files. -/
theorem C93_ascii_grid {c : Codec F} (hc : c.Lawful) {g : GenericGrid F} (hg : g.Valid) :
    ∃ file g' order, exportDataSets c false none none [⟨g, [], [], []⟩] = .ok [file] ∧ importDataSets c file = .ok g' ∧ Imported g g' order := by
  have hw : exportDataSets c false none none [⟨g, [], [], []⟩] = .ok [asciiFile c g ++ [] ++ []] := by
    unfold exportDataSets
    rw [if_neg (by simp), exportLoop]
    dsimp only [Option.getD_none]
    unfold writeDataSet
    rw [writeGrid_ascii c hg]
    rfl
  obtain ⟨g', order, hi, hI⟩ := import_ascii hc hg Lines.nil
  exact ⟨_, g', order, hw, by rw [List.append_nil]; exact hi, hI⟩

/-- The same for binary files, if all numbers fit into 32 bits. -/
theorem C93_binary_grid {c : Codec F} (hc : c.Lawful) {g : GenericGrid F} (hg : g.Valid) (hs : g.Small) :
    ∃ file g' order, exportDataSets c true none none [⟨g, [], [], []⟩] = .ok [file] ∧ importDataSets c file = .ok g' ∧ Imported g g' order := by
  have hw : exportDataSets c true none none [⟨g, [], [], []⟩] = .ok [binaryFile c g ++ [] ++ []] := by
    unfold exportDataSets
    rw [if_neg (by simp), exportLoop]
    dsimp only [Option.getD_none]
    unfold writeDataSet
    rw [writeGrid_binary c hg hs]
    rfl
  obtain ⟨g', order, hi, hI⟩ := import_binary hc hg hs
  exact ⟨_, g', order, hw, by rw [List.append_nil, List.append_nil]; exact hi, hI⟩

/-- The order of first uses is unique. -/
theorem FirstUse.unique {l a b : List Nat} (ha : FirstUse l a) (hb : FirstUse l b) : a = b := by
  have hp : a.Perm b := (List.perm_ext_iff_of_nodup ha.nodup hb.nodup).2 fun x => (ha.mem x).trans (hb.mem x).symm
  exact hp.eq_of_pairwise (le := fun a b => l.idxOf a < l.idxOf b) (fun x y _ _ h1 h2 => absurd h1 (by omega)) ha.sorted hb.sorted

theorem map_some_injective {α : Type} {l m : List α} (h : l.map some = m.map some) : l = m :=
  List.map_injective_iff.2 (Option.some_injective α) h

/-- A grid whose vertices are numbered in the order of their first use comes back unchanged. -/
theorem C93_unchanged {g g' : GenericGrid F} {order : List Nat} (hg : g.Valid) (hf : FirstUse g.elements.flatten (List.range g.vertices.length))
    (h : Imported g g' order) : g'.vertices = g.vertices ∧ g'.elements = g.elements ∧ g'.domainIndices = g.domainIndices := by
  have ho := h.used.unique hf
  subst ho
  refine ⟨?_, ?_, h.domains⟩
  · apply map_some_injective
    rw [h.vertices]
    apply List.ext_getElem (by simp)
    intro i h1 h2
    have : i < g.vertices.length := by simpa using h2
    simp [this]
  · have hr : ∀ (e e' : List Nat), e'.map (fun i => (List.range g.vertices.length)[i]?) = e.map some → e' = e := by
      intro e e' he
      apply List.ext_getElem (by simpa using congrArg List.length he)
      intro i h1 h2
      have := congrArg (fun l => l[i]?) he
      simp only [List.getElem?_map, List.getElem?_eq_getElem h1, List.getElem?_eq_getElem h2, Option.map_some, Option.some.injEq] at this
      obtain ⟨_, hv⟩ := List.getElem?_eq_some_iff.1 this
      rw [List.getElem_range] at hv
      exact hv
    have hl : g'.elements.length = g.elements.length := by simpa using congrArg List.length h.elements
    apply List.ext_getElem hl
    intro i h1 h2
    apply hr
    have := congrArg (fun l => l[i]?) h.elements
    simpa only [List.getElem?_map, List.getElem?_eq_getElem h1, List.getElem?_eq_getElem h2, Option.map_some, Option.some.injEq] using this

theorem idxOf_map_injOn {f : Nat → Nat} {l : List Nat} {x : Nat} (hx : x ∈ l) (hf : ∀ y ∈ l, f y = f x → y = x) : (l.map f).idxOf (f x) = l.idxOf x := by
  induction l with
  | nil => cases hx
  | cons a l ih =>
    rw [List.map_cons]
    by_cases h : a = x
    · subst h
      simp
    · have h' : f a ≠ f x := fun e => h (hf a (List.mem_cons_self ..) e)
      rw [List.idxOf_cons_ne _ h', List.idxOf_cons_ne _ h, ih ((List.mem_cons.1 hx).resolve_left fun e => h e.symm) fun y hy => hf y (List.mem_cons_of_mem _ hy)]

theorem imported_elements {g g' : GenericGrid F} {order : List Nat} (h : Imported g g' order) :
    g'.elements = g.elements.map fun e => e.map fun x => order.idxOf x := by
  have hr : ∀ (e e' : List Nat), e'.map (fun i => order[i]?) = e.map some → e' = e.map fun x => order.idxOf x := by
    intro e e' he
    apply List.ext_getElem (by simpa using congrArg List.length he)
    intro i h1 h2
    have h2' : i < e.length := by simpa using h2
    have := congrArg (fun l => l[i]?) he
    simp only [List.getElem?_map, List.getElem?_eq_getElem h1, List.getElem?_eq_getElem h2', Option.map_some, Option.some.injEq] at this
    obtain ⟨hlt, hv⟩ := List.getElem?_eq_some_iff.1 this
    rw [List.getElem_map, ← hv, List.Nodup.idxOf_getElem h.used.nodup]
  have hl : g'.elements.length = g.elements.length := by simpa using congrArg List.length h.elements
  apply List.ext_getElem (by simpa using hl)
  intro i h1 h2
  have h2' : i < g.elements.length := by simpa using h2
  rw [List.getElem_map]
  apply hr
  have := congrArg (fun l => l[i]?) h.elements
  simpa only [List.getElem?_map, List.getElem?_eq_getElem h1, List.getElem?_eq_getElem h2', Option.map_some, Option.some.injEq] using this

theorem imported_vertices_length {g g' : GenericGrid F} {order : List Nat} (h : Imported g g' order) : g'.vertices.length = order.length := by
  simpa using congrArg List.length h.vertices

theorem imported_firstUse {g g' : GenericGrid F} {order : List Nat} (h : Imported g g' order) :
    FirstUse g'.elements.flatten (List.range g'.vertices.length) := by
  have he : g'.elements.flatten = g.elements.flatten.map fun x => order.idxOf x := by
    rw [imported_elements h, List.map_flatten]
  rw [imported_vertices_length h, he]
  have hmem : ∀ i (hi : i < order.length), order[i] ∈ g.elements.flatten := fun i hi => (h.used.mem _).1 (List.getElem_mem hi)
  have hinj : ∀ i (hi : i < order.length), ∀ y ∈ g.elements.flatten, order.idxOf y = order.idxOf order[i] → y = order[i] := by
    intro i hi y hy e
    have hy' := (h.used.mem y).2 hy
    have h1 := List.getElem_idxOf (List.idxOf_lt_length_of_mem hy')
    rw [List.Nodup.idxOf_getElem h.used.nodup] at e
    rw [← h1]
    simp [e]
  have hidx : ∀ i (hi : i < order.length), (g.elements.flatten.map fun x => order.idxOf x).idxOf i = g.elements.flatten.idxOf order[i] := by
    intro i hi
    have := idxOf_map_injOn (f := fun x => order.idxOf x) (hmem i hi) (hinj i hi)
    rw [← this, List.Nodup.idxOf_getElem h.used.nodup]
  refine ⟨List.nodup_range, ?_, ?_⟩
  · intro x
    rw [List.mem_range, List.mem_map]
    constructor
    · intro hx
      exact ⟨order[x], hmem x hx, List.Nodup.idxOf_getElem h.used.nodup x hx⟩
    · rintro ⟨y, hy, rfl⟩
      exact List.idxOf_lt_length_of_mem ((h.used.mem y).2 hy)
  · rw [List.pairwise_iff_getElem]
    intro i j hi hj hij
    rw [List.length_range] at hi hj
    rw [List.getElem_range, List.getElem_range, hidx i hi, hidx j hj]
    exact List.pairwise_iff_getElem.1 h.used.sorted i j hi hj hij

/-- After one round trip further round trips change nothing: the imported grid is valid, and every import of its files has its vertices, elements
and domain indices, and the numbers of its vertices are 1, 2, .... -/
theorem C93_second_trip {g g' g'' : GenericGrid F} {order order' : List Nat} (hg : g.Valid) (h : Imported g g' order) (h' : Imported g' g'' order') :
    g'.Valid ∧ g''.vertices = g'.vertices ∧ g''.elements = g'.elements ∧ g''.domainIndices = g'.domainIndices ∧
      g''.vertexIds = (List.range g'.vertices.length).map (fun i : Nat => (i : Int) + 1) ∧ g''.elementIds = g'.elementIds := by
  have hf := imported_firstUse h
  have hel := imported_elements h
  have hl : g'.elements.length = g.elements.length := by rw [hel, List.length_map]
  have hv : g'.Valid := by
    refine ⟨?_, ?_, ?_, ?_, ?_⟩
    · intro e he
      rw [hel] at he
      obtain ⟨e0, h0, rfl⟩ := List.mem_map.1 he
      rw [List.length_map]
      exact hg.triangles e0 h0
    · intro e he i hi
      exact List.mem_range.1 ((hf.mem i).2 (List.mem_flatten.2 ⟨e, he, hi⟩))
    · intro h0
      rw [hel, List.map_eq_nil_iff] at h0
      exact hg.some h0
    · rw [h.domains, hg.domains, hl]
    · rw [h.domains]
      exact hg.domains_nonneg
  obtain ⟨h1, h2, h3⟩ := C93_unchanged hv hf h'
  refine ⟨hv, h1, h2, h3, ?_, ?_⟩
  · rw [h'.vertexIds, h'.used.unique hf]
  · rw [h'.elementIds, h.elementIds, hl]

/-- Whatever a file contains, the reader ends: it returns or raises an exception. -/
theorem C93_terminates (c : Codec F) (f : Bytes) : importDataSets c f ≠ .error .OutOfFuel := by
  have h := safe_parseLoop c (f.length + 1) ⟨none, none, false, 0⟩ f (by omega)
  unfold importDataSets
  change Safe 0 (fun _ => 0) (parseGmsh c f) at h
  cases hp : parseGmsh c f with
  | error e =>
    rw [hp] at h
    intro h'
    cases h'
    exact h rfl
  | ok p =>
    rw [bind_ok]
    have hvis : ∀ (r : Renumbering) v, r.visit v ≠ .error .OutOfFuel := by
      intro r v
      unfold Renumbering.visit usedIndex
      dsimp only
      split
      · rw [bind_ok]
        split <;> exact fun h => nomatch h
      · split
        · rw [bind_ok]
          split <;> exact fun h => nomatch h
        · exact fun h => nomatch h
    have hall : ∀ (l : List Int) (r : Renumbering), r.visitAll l ≠ .error .OutOfFuel := by
      intro l
      induction l with
      | nil => exact fun _ h => nomatch h
      | cons v l ih =>
        intro r h
        rw [Renumbering.visitAll] at h
        cases h1 : r.visit v with
        | error e => rw [h1] at h; cases h; exact hvis r v h1
        | ok a =>
          rw [h1, bind_ok] at h
          dsimp only at h
          cases h2 : a.1.visitAll l with
          | error e => rw [h2] at h; cases h; exact ih a.1 h2
          | ok b => rw [h2, bind_ok] at h; cases h
    have hels : ∀ (l : List FileElement) (r : Renumbering), r.elements l ≠ .error .OutOfFuel := by
      intro l
      induction l with
      | nil => exact fun _ h => nomatch h
      | cons v l ih =>
        intro r h
        rw [Renumbering.elements] at h
        cases h1 : r.visitAll v.nodes with
        | error e => rw [h1] at h; cases h; exact hall _ r h1
        | ok a =>
          rw [h1, bind_ok] at h
          dsimp only at h
          cases h2 : a.1.elements l with
          | error e => rw [h2] at h; cases h; exact ih a.1 h2
          | ok b => rw [h2, bind_ok] at h; cases h
    unfold createGridStructure
    split
    · exact fun h => nomatch h
    · exact fun h => nomatch h
    · dsimp only
      split
      · exact fun h => nomatch h
      · split
        · exact fun h => nomatch h
        · rename_i vs es _ _ _ _
          cases h1 : Renumbering.elements ⟨List.replicate vs.length none, 0⟩ es with
          | error e => intro h; cases h; exact hels _ _ h1
          | ok a =>
            rw [bind_ok]
            split
            · exact fun h => nomatch h
            · exact fun h => nomatch h

/-- A codec with two numbers, 0.0 and -1.0. -/
def sample : Codec Bool where
  text x := ascii (if x then "-1.0" else "0.0")
  ofText b := if b = ascii "-1.0" then some true else if b = ascii "0.0" then some false else none
  pack x := if x then [0, 0, 0, 0, 0, 0, 240, 191] else [0, 0, 0, 0, 0, 0, 0, 0]
  unpack b := b.getD 7 0 == 191
  utf8 _ := none

theorem sample_lawful : sample.Lawful := ⟨by decide, by decide, by decide, by decide, by decide⟩

/-- Two triangles; vertex 0 is not used. -/
def sampleGrid : GenericGrid Bool :=
  ⟨[⟨false, true, true⟩, ⟨false, false, false⟩, ⟨true, false, false⟩, ⟨false, true, false⟩, ⟨false, false, true⟩], [[3, 1, 2], [2, 4, 3]], [], [], [7, 0]⟩

theorem sampleGrid_valid : sampleGrid.Valid := ⟨by decide, by decide, by decide, by decide, by decide⟩

theorem sampleGrid_small : sampleGrid.Small := ⟨by decide, by decide, by decide⟩

/-- The hypotheses are satisfiable, and the import is not the grid itself. -/
theorem C93_example : ∃ file g', exportDataSets sample true none none [⟨sampleGrid, [], [], []⟩] = .ok [file] ∧ importDataSets sample file = .ok g' ∧
    g'.elements = [[0, 1, 2], [2, 3, 0]] ∧ g'.vertexIds = [4, 2, 3, 5] ∧ g'.domainIndices = [7, 0] := by
  obtain ⟨file, g', order, h1, h2, h3⟩ := C93_binary_grid sample_lawful sampleGrid_valid sampleGrid_small
  have ho : order = [3, 1, 2, 4] := h3.used.unique ⟨by decide, fun x => by simp [sampleGrid]; omega, by decide⟩
  subst ho
  exact ⟨file, g', h1, h2, imported_elements h3, h3.vertexIds, h3.domains⟩

/-- `export(file_name, grid=...)` loses the domain indices: they all come back as 0. -/
theorem C93_counterexample_domains {c : Codec F} (hc : c.Lawful) {g : GenericGrid F} (hg : g.Valid) :
    ∃ file g', exportGrid c false g.vertices g.elements g.domainIndices none none = .ok file ∧ importDataSets c file = .ok g' ∧
      g'.domainIndices = List.replicate g.elements.length 0 := by
  obtain ⟨file, g', order, h1, h2, h3⟩ := C93_ascii_grid hc (g := ⟨g.vertices, g.elements, (List.range g.vertices.length).map fun i : Nat => (i : Int),
    (List.range g.elements.length).map fun i : Nat => (i : Int), List.replicate g.elements.length 0⟩)
    ⟨hg.triangles, hg.nodes, hg.some, by simp, by simp⟩
  refine ⟨file, g', ?_, h2, h3.domains⟩
  unfold exportGrid
  dsimp only [Option.getD_none]
  rw [if_neg (by simp), h1]
  rfl

/-- The numbers of vertices and elements given to `export` have no effect on the file. -/
theorem C93_counterexample_ids (c : Codec F) (binary : Bool) (vertices : List (P3 F)) (elements : List (List Nat)) (domains : List Int)
    (vertexIds elementIds : List Nat) (h : vertexIds.length = vertices.length) :
    exportGrid c binary vertices elements domains (some vertexIds) (some elementIds) = exportGrid c binary vertices elements domains none none := by
  unfold exportGrid
  dsimp only [Option.getD_none, Option.getD_some]
  rw [if_neg (by simp [h]), if_neg (by simp)]
  rfl

/-- A data set after a data set with fewer vertices cannot be exported: the numbers of the first set are used for all sets. -/
theorem C93_counterexample_second_set : ∃ d : GridDataSet Bool, d.grid.Valid ∧ d.timesteps = [] ∧
    exportDataSets sample false none none [d, ⟨sampleGrid, [], [], []⟩] = .error .IndexError := by
  refine ⟨⟨⟨[⟨false, false, false⟩, ⟨true, false, false⟩, ⟨false, true, false⟩], [[0, 1, 2], [1, 0, 2]], [], [], [0, 0]⟩, [], [], []⟩,
    ⟨by decide, by decide, by decide, by decide, by decide⟩, rfl, by decide +kernel⟩

/-- A binary file with data cannot be imported: the reader decodes the data as text.  (The bytes 240, 191 of -1.0 at the end of a text are not
UTF-8.) -/
theorem C93_counterexample_binary_data : ∃ file, exportDataSets sample true none none
      [⟨sampleGrid, [⟨[], [[[true], [true]]], none, 1⟩], [], [false]⟩] = .ok [file] ∧
    (importDataSets sample file).toOption.isNone = true := by
  refine ⟨_, rfl, by decide +kernel⟩

/-- A blank line before the elements ends the reading, and the reader fails with an unbound variable. -/
theorem C93_counterexample_blank_line : (match importDataSets sample (ascii "$MeshFormat\n2.2 0 8\n$EndMeshFormat\n\n$Nodes\n1\n1 0.0 0.0 0.0\n$EndNodes\n") with
    | .ok _ => false | .error e => e == .UnboundLocalError) = true := by decide +kernel

/-- A vertex 0, which Gmsh does not have, is taken for the last vertex. -/
theorem C93_counterexample_vertex_zero : (match importDataSets sample (ascii ("$MeshFormat\n2.2 0 8\n$EndMeshFormat\n$Nodes\n3\n1 0.0 0.0 0.0\n" ++
      "2 -1.0 0.0 0.0\n3 0.0 -1.0 0.0\n$EndNodes\n$Elements\n1\n1 2 2 5 0 1 2 0\n$EndElements\n")) with
    | .ok g => g.vertexIds == [1, 2, 3] && g.elements == [[0, 1, 2]] | .error _ => false) = true := by decide +kernel

/-- An element without tags is given the number of its first vertex as domain index. -/
theorem C93_counterexample_no_tags : (match importDataSets sample (ascii ("$MeshFormat\n2.2 0 8\n$EndMeshFormat\n$Nodes\n3\n1 0.0 0.0 0.0\n" ++
      "2 -1.0 0.0 0.0\n3 0.0 -1.0 0.0\n$EndNodes\n$Elements\n1\n1 2 0 3 2 1\n$EndElements\n")) with
    | .ok g => g.domainIndices == [3] && g.vertexIds == [3, 2, 1] | .error _ => false) = true := by decide +kernel

end Verif.Gmsh
