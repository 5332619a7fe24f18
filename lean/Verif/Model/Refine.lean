import Verif.Model.GridFactory
import Mathlib.Data.Finset.Basic
import Mathlib.Data.Real.Basic
/-
Model of the local refinement of grids: `mark`, `get_mark`, `clear_marks` and `refine` of python/bempp/api/grid/grid_view.py:239-423.

Coordinates are real numbers.  The order in which `set.pop` returns elements is arbitrary.  Not modelled: the initial choice of the
reference edges (the longest edges; here any), the creation of the new grid by `grid_from_element_data` (elements and vertices keep
their order, see C01-C03).
-/
namespace Verif.Refine
open Verif.Grid
noncomputable section

/-- What `refine` reads of the grid: `entity_count(0)`, `entity_count(2)`, `sub_entity_index(element, i, 2)` (which is also column
`element` of `elements`), `sub_entity_index(element, i, 1)`, columns of `vertices`, `edge.geometry.corners`, `element.domain` and
`reference_edges`. -/
structure View where
  elementCount : Nat
  vertexCount : Nat
  corner : Nat → Nat → Nat
  edge : Nat → Nat → Nat
  coord : Nat → P3 ℝ
  edgeCorners : Nat → P3 ℝ × P3 ℝ
  domain : Nat → Int
  referenceEdge : Nat → Nat

/-- `edge_connectivity[edge]`: the elements with this edge in increasing order (`grid_view.py:20-65, 274`). -/
def View.edgeElements (v : View) (edge : Nat) : List Nat :=
  (List.range v.elementCount).filter fun e => (List.range 3).any fun j => v.edge e j == edge

/-- `.5 * np.sum(corners, axis=1)` (`grid_view.py:289-290`). -/
def midpoint (c : P3 ℝ × P3 ℝ) : P3 ℝ := ⟨0.5 * (c.1.x + c.2.x), 0.5 * (c.1.y + c.2.y), 0.5 * (c.1.z + c.2.z)⟩

/-- `refinement_list` (`none` is `-1`), `marked`, `vertex_number`, `new_vertices` (`grid_view.py:265-276`). -/
structure State where
  refinement : Nat → Nat → Option Nat
  marked : Finset Nat
  vertexNumber : Nat
  newVertices : List (P3 ℝ)

/-- The state before the loop (`grid_view.py:260-276`). -/
def View.start (v : View) (marks : Finset Nat) : State := ⟨fun _ _ => none, marks, v.vertexCount, []⟩

/-- The body of the loop after `index = marked.pop()` (`grid_view.py:278-308`); `none` is an IndexError. -/
def View.visit (v : View) (s : State) (index : Nat) : Option State :=
  let ref := v.referenceEdge index
  match s.refinement index ref with
  | some _ => some s
  | none =>
    let edgeIndex := v.edge index ref
    let refinement := fun e j => if e = index ∧ j = ref then some s.vertexNumber else s.refinement e j
    let newVertices := s.newVertices ++ [midpoint (v.edgeCorners edgeIndex)]
    match v.edgeElements edgeIndex with
    | [] => none
    | [_] => some ⟨refinement, s.marked, s.vertexNumber + 1, newVertices⟩
    | a :: b :: _ =>
      let other := if a ≠ index then a else b
      let marked := if refinement other (v.referenceEdge other) = none then insert other s.marked else s.marked
      some ⟨fun e j => if e = other ∧ j < 3 ∧ v.edge other j = edgeIndex then some s.vertexNumber else refinement e j, marked,
        s.vertexNumber + 1, newVertices⟩

/-- One pass of `while len(marked) != 0`: any element of the set is popped. -/
def View.Step (v : View) (s s' : State) : Prop := ∃ i ∈ s.marked, v.visit { s with marked := s.marked.erase i } i = some s'

/-- `n` passes of the loop. -/
inductive View.Steps (v : View) : Nat → State → State → Prop
  | zero (s : State) : Steps v 0 s s
  | succ {n : Nat} {s s' s'' : State} (h : Steps v n s s') (h' : v.Step s' s'') : Steps v (n + 1) s s''

/-- An element of the new grid: its vertices, its entry of `new_reference_edges`, its domain index. -/
structure NewElement where
  a : Nat
  b : Nat
  c : Nat
  reference : Nat
  domain : Int

/-- `edge_to_local_vertices` (`grid_view.py:327`). -/
def edgeToLocalVertices (i : Nat) : Nat × Nat := if i = 0 then (0, 1) else if i = 1 then (2, 0) else (1, 2)

/-- The body of the loop over the elements (`grid_view.py:329-409`): the elements appended for element `i`. -/
def View.split (v : View) (refinement : Nat → Nat → Option Nat) (i : Nat) : List NewElement :=
  let ref := v.referenceEdge i
  let d := v.domain i
  let opposite := v.corner i (2 - ref)
  let first := v.corner i (edgeToLocalVertices ref).1
  let second := v.corner i (edgeToLocalVertices ref).2
  match refinement i ref with
  | none => [⟨v.corner i 0, v.corner i 1, v.corner i 2, ref, d⟩]
  | some m =>
    match refinement i ((ref + 1) % 3), refinement i ((ref + 2) % 3) with
    | some n1, none => [⟨first, m, n1, 0, d⟩, ⟨n1, m, opposite, 2, d⟩, ⟨opposite, m, second, 1, d⟩]
    | some n1, some n2 => [⟨first, m, n1, 0, d⟩, ⟨n1, m, opposite, 2, d⟩, ⟨second, n2, m, 1, d⟩, ⟨n2, opposite, m, 2, d⟩]
    | none, some n2 => [⟨second, n2, m, 1, d⟩, ⟨n2, opposite, m, 2, d⟩, ⟨opposite, first, m, 0, d⟩]
    | none, none => [⟨m, opposite, first, 2, d⟩, ⟨m, second, opposite, 2, d⟩]

/-- The arguments of `grid_from_element_data` and the new reference edges. -/
structure NewGrid where
  vertices : List (P3 ℝ)
  elements : List NewElement

/-- The grid returned, given the state after the loop (`grid_view.py:310-420`). -/
def View.result (v : View) (s : State) : NewGrid :=
  ⟨(List.range v.vertexCount).map v.coord ++ s.newVertices, (List.range v.elementCount).flatMap (v.split s.refinement)⟩

/-- `refine()` returns `g` for the marks (`grid_view.py:255-423`). -/
def View.Refines (v : View) (marks : Finset Nat) (g : NewGrid) : Prop :=
  ∃ n s, v.Steps n (v.start marks) s ∧ s.marked = ∅ ∧ g = v.result s

/-- Python exceptions. -/
inductive Exn where
  | TypeError | AttributeError
deriving DecidableEq

/-- `mark(element)`: `_marked_list` is `None` or a set (`grid_view.py:246-252`). -/
def mark (marks : Option (Finset Nat)) (i : Nat) : Option (Finset Nat) := some (insert i (marks.getD ∅))

/-- `get_mark(element)` (`grid_view.py:239-244`): a set cannot be indexed. -/
def getMark (marks : Option (Finset Nat)) (_ : Nat) : Except Exn Bool :=
  match marks with
  | none => .ok false
  | some _ => .error .TypeError

/-- `self._marked_list.copy()` in `refine()` (`grid_view.py:272`). -/
def copyMarks (marks : Option (Finset Nat)) : Except Exn (Finset Nat) :=
  match marks with
  | none => .error .AttributeError
  | some m => .ok m

/-- `clear_marks()` (`grid_view.py:254-256`). -/
def clearMarks (marks : Option (Finset Nat)) : Except Exn (Option (Finset Nat)) :=
  match marks with
  | none => .error .AttributeError
  | some _ => .ok (some ∅)

end
end Verif.Refine
