import Verif.Model.GridFactory
import Mathlib.Algebra.Order.Field.Basic
/-
Model of the point-inside test: lib/grid/ray_triangle_intersection.cpp and areInside in lib/grid/grid.cpp.
Coordinates are elements of an ordered field; `eps` stands for the constant 1e-10.
-/
namespace Verif.Grid

variable {K : Type} [Field K] [LinearOrder K]

/-- `substract` (`ray_triangle_intersection.cpp:29-33`). -/
def P3.sub (a b : P3 K) : P3 K := ⟨a.x - b.x, a.y - b.y, a.z - b.z⟩

/-- `crossProduct` (`ray_triangle_intersection.cpp:35-39`). -/
def P3.cross (a b : P3 K) : P3 K :=
  ⟨a.y * b.z - a.z * b.y, a.z * b.x - a.x * b.z, a.x * b.y - a.y * b.x⟩

/-- `innerProduct` (`ray_triangle_intersection.cpp:41-43`). -/
def P3.dot (a b : P3 K) : K := a.x * b.x + a.y * b.y + a.z * b.z

/-- `zRayIntersectsTriangle` (`ray_triangle_intersection.cpp:53-103`): the return value and, if it is not 0,
the point stored in `intersection` (computed from `v1` as in the code). -/
def zRayIntersectsTriangle (eps : K) (p v0 v1 v2 : P3 K) : K × Option (P3 K) :=
  let d : P3 K := ⟨0, 0, 1⟩
  let e1 := v1.sub v0
  let e2 := v2.sub v0
  let h := d.cross e2
  let a := e1.dot h
  if -eps < a ∧ a < eps then (0, none)
  else
    let f := 1 / a
    let s := p.sub v0
    let u := f * s.dot h
    if u < 0 ∨ 1 < u then (0, none)
    else
      let q := s.cross e1
      let v := f * d.dot q
      if v < 0 ∨ 1 < u + v then (0, none)
      else
        let t := f * e2.dot q
        if t < eps then (0, none)
        else
          let i : P3 K := ⟨v1.x + u * e1.x + v * e2.x, v1.y + u * e1.y + v * e2.y, v1.z + u * e1.z + v * e2.z⟩
          if (u = 0 ∧ v = 0) ∨ (u = 0 ∧ v = 1) ∨ (u = 1 ∧ v = 0) then (1 / 6, some i)
          else if u = 0 ∨ v = 0 ∨ u + v = 1 then (1 / 2, some i)
          else (1, some i)

/-- A triangle given by its corners. -/
abbrev Tri3 (K : Type) := P3 K × P3 K × P3 K

/-- `min3` and `max3` (`grid.cpp:35-43`). -/
def min3 (x y z : K) : K := min x (min y z)
def max3 (x y z : K) : K := max x (max y z)

/-- `isNew` (`grid.cpp:45-53`). -/
def isNew (eps : K) (i : P3 K) (l : List (P3 K)) : Bool :=
  l.all fun j => ! (decide (|j.x - i.x| < eps) && decide (|j.y - i.y| < eps) && decide (|j.z - i.z| < eps))

/-- The smallest and largest value of a coordinate over a non-empty list (`minCoeff`, `maxCoeff`). -/
def minCoeff (f : Tri3 K → K) (t : Tri3 K) (ts : List (Tri3 K)) : K := ts.foldl (fun m s => min m (f s)) (f t)
def maxCoeff (f : Tri3 K → K) (t : Tri3 K) (ts : List (Tri3 K)) : K := ts.foldl (fun m s => max m (f s)) (f t)

def lowOf (c : P3 K → K) (t : Tri3 K) : K := min3 (c t.1) (c t.2.1) (c t.2.2)
def highOf (c : P3 K → K) (t : Tri3 K) : K := max3 (c t.1) (c t.2.1) (c t.2.2)

/-- The list `intersections` after the loop over the triangles (`grid.cpp:170-179`). -/
def intersectionsOf (eps : K) (p : P3 K) (triangles : List (Tri3 K)) : List (P3 K) :=
  triangles.foldl (fun l t =>
    if lowOf P3.x t ≤ p.x ∧ p.x ≤ highOf P3.x t ∧ lowOf P3.y t ≤ p.y ∧ p.y ≤ highOf P3.y t then
      match zRayIntersectsTriangle eps p t.1 t.2.1 t.2.2 with
      | (r, some i) => if 0 < r then (if isNew eps i l then l ++ [i] else l) else l
      | (_, none) => l
    else l) []

/-- `areInside` for one point and a grid with the triangles `t :: ts` (`grid.cpp:139-183`).  The triangles
of an element are its corners (a triangular grid); `result[pt]` is the conversion of
`intersections.size()` to `bool`. -/
def isInside (eps : K) (t : Tri3 K) (ts : List (Tri3 K)) (p : P3 K) : Bool :=
  if p.x < minCoeff (lowOf P3.x) t ts ∨ maxCoeff (highOf P3.x) t ts < p.x ∨
     p.y < minCoeff (lowOf P3.y) t ts ∨ maxCoeff (highOf P3.y) t ts < p.y ∨
     p.z < minCoeff (lowOf P3.z) t ts ∨ maxCoeff (highOf P3.z) t ts < p.z then false
  else decide ((intersectionsOf eps p (t :: ts)).length ≠ 0)

end Verif.Grid
