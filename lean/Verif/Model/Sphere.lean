import Verif.Model.Fractals

/-!
# The regular sphere (cython/bempp/core/grid/py_sphere.hpp)

`double` is modelled by `ℝ`, `int` by `ℕ` (numbers of nodes) and `ℤ` (the level); `std::vector` by
lists, `std::map` by a function to `Option`.
-/

noncomputable section

namespace Verif.Shapes

/-- `std::array<int, 3>`: an element. -/
abbrev Tri := ℕ × ℕ × ℕ

/-- `m_nodes[k]`.  Reading past the end is undefined in C++; here it gives the origin, and the theorems
say that it does not happen. -/
def nodeAt (nodes : List V3) (k : ℕ) : V3 := nodes.getD k 0

/-- The variables of `refineTriangles` (py_sphere.hpp:68-73). -/
structure SphereState where
  nodes : List V3
  map : ℕ × ℕ → Option ℕ
  n : ℕ

/-- The key of an edge (py_sphere.hpp:82-86). -/
def edgeKey (a b : ℕ) : ℕ × ℕ := if a < b then (a, b) else (b, a)

/-- The node of an edge, found or made (py_sphere.hpp:79-100). -/
def edgeNode (s : SphereState) (a b : ℕ) : ℕ × SphereState :=
  match s.map (edgeKey a b) with
  | some k => (k, s)
  | none => (s.n,
      { nodes := s.nodes ++ [fun k => 0.5 * (nodeAt s.nodes a k + nodeAt s.nodes b k)]
        map := fun t => if t = edgeKey a b then some s.n else s.map t
        n := s.n + 1 })

/-- The body of the loop over the elements (py_sphere.hpp:75-109). -/
def refineElement (s : SphereState) (t : Tri) : List Tri × SphereState :=
  let r0 := edgeNode s t.1 t.2.1
  let r1 := edgeNode r0.2 t.2.1 t.2.2
  let r2 := edgeNode r1.2 t.2.2 t.1
  ([(t.1, r0.1, r2.1), (r0.1, t.2.1, r1.1), (r1.1, t.2.2, r2.1), (r0.1, r1.1, r2.1)], r2.2)

/-- The loop over the elements (py_sphere.hpp:75-110). -/
def refineElements : List Tri → SphereState → List Tri × SphereState
  | [], s => ([], s)
  | t :: ts, s =>
    let r := refineElement s t
    let q := refineElements ts r.2
    (r.1 ++ q.1, q.2)

/-- The projection of a node to the unit sphere (py_sphere.hpp:115-121). -/
def normalise (p : V3) : V3 := fun k => p k / √(p 0 * p 0 + p 1 * p 1 + p 2 * p 2)

/-- `SphereMesh::refineTriangles` (py_sphere.hpp:67-122). -/
def refineTriangles (m : List V3 × List Tri) : List V3 × List Tri :=
  let r := refineElements m.2 ⟨m.1, fun _ => none, m.1.length⟩
  (r.2.nodes.map normalise, r.1)

/-- The octahedron (py_sphere.hpp:41-56). -/
def octahedron : List V3 × List Tri :=
  ([![1, 0, 0], ![-1, 0, 0], ![0, 1, 0], ![0, -1, 0], ![0, 0, 1], ![0, 0, -1]],
   [(2, 4, 0), (1, 4, 2), (3, 4, 1), (0, 4, 3), (5, 2, 0), (5, 1, 2), (5, 3, 1), (5, 0, 3)])

/-- `for (int i = 0; i < n; ++i) refineTriangles();` (py_sphere.hpp:60-61). -/
def refineTimes : ℕ → List V3 × List Tri → List V3 × List Tri
  | 0, m => m
  | n + 1, m => refineTimes n (refineTriangles m)

/-- `SphereMesh::SphereMesh` (py_sphere.hpp:38-65) and the arrays handed on by `grid_from_sphere`
(grid.pyx:356-419): nodes and elements. -/
def sphereMesh (n : ℤ) (radius : ℝ) (offset : V3) : List V3 × List Tri :=
  let m := refineTimes n.toNat octahedron
  (m.1.map fun p k => radius * p k + offset k, m.2)

end Verif.Shapes
