import Verif.Model.PyGrid
/-
Model of the queries of the Python grid classes: insertion index lookups
(cython/bempp/core/grid/grid.pyx:103-131, python/bempp/api/grid/grid.py:46-61), the index maps and
connectivity matrices of GridView (python/bempp/api/grid/grid_view.py:24-72, 104-137, 166-192) and the marks
for refinement (grid_view.py:240-259, grid.py:67-81).
-/
namespace Verif.PyGrid
open Verif.Grid

/-! ### Insertion indices -/

/-- A Python dictionary: the binding written last comes first. -/
abbrev Dict (α : Type) := List (Nat × α)

/-- `d[index]`. -/
def Dict.get {α : Type} (d : Dict α) (index : Int) : Except PyErr α :=
  match d.find? (fun p => (p.1 : Int) == index) with
  | some p => .ok p.2
  | none => .error .keyError

/-- `element_from_insertion_index`, `vertex_from_insertion_index` (`grid.pyx:111-131`).  `entities` are
visited in this order, `ins` is the insertion index, `cache` the attribute (`None` at first).  The loop
assigns to `index`, which is also the argument. -/
def fromInsertionIndex {α : Type} (entities : List α) (ins : α → Nat) (cache : Option (Dict α)) (index : Int) :
    Except PyErr α × Option (Dict α) :=
  match cache with
  | some d => (d.get index, some d)
  | none =>
    let r := entities.foldl (fun (st : Int × Dict α) e => ((ins e : Int), (ins e, e) :: st.2)) (index, [])
    (Dict.get r.2 r.1, some r.2)

/-- The results of successive calls on one grid. -/
def lookups {α : Type} (entities : List α) (ins : α → Nat) :
    Option (Dict α) → List Int → List (Except PyErr α)
  | _, [] => []
  | c, i :: is =>
    (fromInsertionIndex entities ins c i).1 :: lookups entities ins (fromInsertionIndex entities ins c i).2 is

/-! ### Index maps of the view -/

/-- Position of a Python list index, negative indices counting from the end. -/
def pyIndex (n : Nat) (i : Int) : Option Nat :=
  if 0 ≤ i then (if i < n then some i.toNat else none)
  else if 0 ≤ i + n then some (i + n).toNat else none

/-- `element_from_index`, `vertex_from_index`, `edge_from_index` (`grid_view.py:104-137`): the map is filled
on the first call, `map[entity_index(e)] = e` for all entities; `entity_count` is their number. -/
def fromIndex {α : Type} (entities : List α) (idx : α → Nat) (index : Int) : Except PyErr (Option α) :=
  let map := entities.foldl (fun (m : List (Option α)) e => m.set (idx e) (some e))
    (List.replicate entities.length none)
  match pyIndex map.length index with
  | some k => .ok (map.getD k none)
  | none => .error .indexError

/-! ### Connectivity matrices -/

/-- `csc_matrix((ones, (rows, cols)))[i, j]`: repeated positions are summed. -/
def cooEntry (rows cols : List Nat) (i j : Nat) : Nat := (rows.zip cols).count (i, j)

/-- The lists `vertex_indices`, `vertex_element_indices` (`grid_view.py:46-56`), for the elements with the
indices `es` in the order of the iteration. -/
def vertexLists (d : DataContainer) : List Nat → List Nat × List Nat
  | [] => ([], [])
  | e :: es =>
    let t := d.elements.getD e ⟨0, 0, 0⟩
    ([t.a, t.b, t.c] ++ (vertexLists d es).1, [e, e, e] ++ (vertexLists d es).2)

/-- The lists `edge_indices`, `edge_element_indices` (`grid_view.py:58-62`). -/
def edgeLists (d : DataContainer) : List Nat → List Nat × List Nat
  | [] => ([], [])
  | e :: es =>
    let r := d.element2Edges.getD e []
    ([r.getD 0 0, r.getD 1 0, r.getD 2 0] ++ (edgeLists d es).1, [e, e, e] ++ (edgeLists d es).2)

/-- `vertex_to_element_matrix[i, j]` (`grid_view.py:166-178`). -/
def vertexToElement (d : DataContainer) (es : List Nat) (i j : Nat) : Nat :=
  cooEntry (vertexLists d es).1 (vertexLists d es).2 i j

/-- `edge_to_element_matrix[i, j]` (`grid_view.py:180-192`). -/
def edgeToElement (d : DataContainer) (es : List Nat) (i j : Nat) : Nat :=
  cooEntry (edgeLists d es).1 (edgeLists d es).2 i j

/-! ### Marks -/

/-- Calls that change the marks; the argument is the index of the element. -/
inductive MarkCall where
  | mark (e : Nat)
  | clear

/-- `mark` and `clear_marks` (`grid_view.py:247-259`) on `_marked_list` (`None` or a set). -/
def markStep : Option (List Nat) → MarkCall → Except PyErr (Option (List Nat))
  | none, .mark e => .ok (some [e])
  | some l, .mark e => .ok (some (if e ∈ l then l else l ++ [e]))
  | none, .clear => .error .attributeError
  | some _, .clear => .ok (some [])

def markRun : Option (List Nat) → List MarkCall → Except PyErr (Option (List Nat))
  | s, [] => .ok s
  | s, c :: cs =>
    match markStep s c with
    | .ok s' => markRun s' cs
    | .error e => .error e

/-- `GridView.get_mark` (`grid_view.py:240-245`): `self._marked_list[index]` on a set raises `TypeError`. -/
def viewGetMark : Option (List Nat) → Nat → Except PyErr Bool
  | none, _ => .ok false
  | some _, _ => .error .typeError

/-- `Grid.get_mark` (`grid.py:67-69`): the view gets the Cython object, which has no attribute `_impl`
(`index_set.py:22`). -/
def gridGetMark : Option (List Nat) → Nat → Except PyErr Bool
  | none, _ => .ok false
  | some _, _ => .error .attributeError

end Verif.PyGrid
