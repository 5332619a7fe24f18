import Mathlib.Analysis.Real.Sqrt
import Mathlib.Data.Complex.Basic
import Mathlib.Data.Fin.VecNotation

/-!
# Fractal shapes (python/bempp/api/shapes/fractals.py)

Each function of the module builds a string of Gmsh geometry statements and hands it to Gmsh.
The model keeps the statements (in the order in which they are written) instead of the string.
Numbers that Python writes with `str` are kept as numbers, coordinates as exact reals
(simplification: no rounding).  What Gmsh does with the statements is not modelled.
-/

noncomputable section

namespace Verif.Shapes

/-- The exceptions Python raises in these functions. -/
inductive Exn where
  | ValueError
  | IndexError
  | TypeError
  deriving DecidableEq, Repr

/-- A statement of a Gmsh geometry file; `P` is the type of positions.
`Point(n) = {p,lc}`, `Line(n) = {a,b}`, `Line Loop(n) = {l₁,l₂,…}`, `Plane Surface(n) = {l}`
(fractals.py:55-83; the same four forms in all functions). -/
inductive Stmt (P : Type*) where
  | point (n : ℕ) (p : P)
  | line (n a b : ℕ)
  | loop (n : ℕ) (ls : List ℤ)
  | surface (n : ℕ) (l : ℕ)
  deriving DecidableEq

/-- A geometry: the element size `lc` written in its first line and the statements. -/
structure Geo (P : Type*) where
  lc : ℝ
  stmts : List (Stmt P)

/-- `points[a]` of a Python list for a nonnegative index. -/
def pget {α : Type*} (l : List α) (a : ℕ) : Except Exn α :=
  match l[a]? with
  | some x => .ok x
  | none => .error .IndexError

/-- Positions in space. -/
abbrev V3 := Fin 3 → ℝ

/-- Positions in the plane. -/
abbrev V2 := Fin 2 → ℝ

/-- `for i, p in enumerate(points): geo += "Point(" + str(1 + i) + ") = …"`
(fractals.py:54-56, 271-273, 327-329, 392-394). -/
def pointStmts {P Q : Type*} (f : P → Q) (points : List P) : List (Stmt Q) :=
  points.zipIdx.map fun q => .point (1 + q.2) (f q.1)

/-- `str(p[0]) + "," + str(p[1]) + ",0,lc"`: a plane point written with third coordinate 0
(fractals.py:272-273). -/
def lift2 (p : V2) : V3 := ![p 0, p 1, 0]

/-! ## Sierpinski pyramid (fractals.py:13-85) -/

section Pyramid

variable {P : Type*}

/-- The state of one refinement: the list `points` and the nested dictionary `vertex_map`
(fractals.py:30, 35), here a function of its two keys `b`, `a`. -/
structure PyrState (P : Type*) where
  points : List P
  vertexMap : ℕ → ℕ → Option ℕ

/-- The body of `for j in t` (fractals.py:40-50): the number appended to `new_t`.
`mid` is `(points[a] + points[b]) / 2.`. -/
def pyrEdge (mid : P → P → P) (s : PyrState P) (i j : ℕ) : Except Exn (ℕ × PyrState P) :=
  if i = j then .ok (i, s) else
    let a := min i j
    let b := max i j
    match s.vertexMap b a with
    | some n => .ok (n, s)
    | none =>
      (pget s.points a).bind fun pa => (pget s.points b).bind fun pb =>
        .ok (s.points.length,
          { points := s.points ++ [mid pa pb]
            vertexMap := fun b' a' =>
              if b' = b ∧ a' = a then some s.points.length else s.vertexMap b' a' })

/-- `for j in t` with `new_t` (fractals.py:38-50). -/
def pyrRow (mid : P → P → P) (i : ℕ) :
    List ℕ → PyrState P → Except Exn (List ℕ × PyrState P)
  | [], s => .ok ([], s)
  | j :: js, s => (pyrEdge mid s i j).bind fun r =>
      (pyrRow mid i js r.2).bind fun q => .ok (r.1 :: q.1, q.2)

/-- `for i in t` (fractals.py:37-51): the tetrahedra `t` is replaced by. -/
def pyrSplit (mid : P → P → P) (t : List ℕ) :
    List ℕ → PyrState P → Except Exn (List (List ℕ) × PyrState P)
  | [], s => .ok ([], s)
  | i :: is, s => (pyrRow mid i t s).bind fun r =>
      (pyrSplit mid t is r.2).bind fun q => .ok (r.1 :: q.1, q.2)

/-- `for t in tetras` (fractals.py:36-51). -/
def pyrAll (mid : P → P → P) :
    List (List ℕ) → PyrState P → Except Exn (List (List ℕ) × PyrState P)
  | [], s => .ok ([], s)
  | t :: ts, s => (pyrSplit mid t t s).bind fun r =>
      (pyrAll mid ts r.2).bind fun q => .ok (r.1 ++ q.1, q.2)

/-- `for _ in range(level)` (fractals.py:33-52); `vertex_map` starts empty in each round. -/
def pyrLevels (mid : P → P → P) :
    ℕ → List P × List (List ℕ) → Except Exn (List P × List (List ℕ))
  | 0, s => .ok s
  | n + 1, s => (pyrAll mid s.2 ⟨s.1, fun _ _ => none⟩).bind fun r =>
      pyrLevels mid n (r.2.points, r.1)

/-- The statements of the `n`-th tetrahedron (fractals.py:57-83). -/
def tetraStmts {Q : Type*} (n : ℕ) : List ℕ → Except Exn (List (Stmt Q))
  | t0 :: t1 :: t2 :: t3 :: _ => .ok [
      .line (1 + 6 * n) (1 + t0) (1 + t1),
      .line (1 + 6 * n + 1) (1 + t0) (1 + t2),
      .line (1 + 6 * n + 2) (1 + t0) (1 + t3),
      .line (1 + 6 * n + 3) (1 + t1) (1 + t2),
      .line (1 + 6 * n + 4) (1 + t2) (1 + t3),
      .line (1 + 6 * n + 5) (1 + t3) (1 + t1),
      .loop (1 + 4 * n) [((1 + 6 * n : ℕ) : ℤ), ((1 + 6 * n + 3 : ℕ) : ℤ), -((1 + 6 * n + 1 : ℕ) : ℤ)],
      .loop (1 + 4 * n + 1)
        [((1 + 6 * n + 1 : ℕ) : ℤ), ((1 + 6 * n + 4 : ℕ) : ℤ), -((1 + 6 * n + 2 : ℕ) : ℤ)],
      .loop (1 + 4 * n + 2)
        [((1 + 6 * n + 2 : ℕ) : ℤ), ((1 + 6 * n + 5 : ℕ) : ℤ), -((1 + 6 * n : ℕ) : ℤ)],
      .loop (1 + 4 * n + 3)
        [-((1 + 6 * n + 4 : ℕ) : ℤ), -((1 + 6 * n + 3 : ℕ) : ℤ), -((1 + 6 * n + 5 : ℕ) : ℤ)],
      .surface (1 + 4 * n + 0) (1 + 4 * n + 0),
      .surface (1 + 4 * n + 1) (1 + 4 * n + 1),
      .surface (1 + 4 * n + 2) (1 + 4 * n + 2),
      .surface (1 + 4 * n + 3) (1 + 4 * n + 3)]
  | _ => .error .IndexError

/-- `for n, t in enumerate(tetras)` (fractals.py:57-83), starting with number `n`. -/
def cellStmts {Q C : Type*} (one : ℕ → C → Except Exn (List (Stmt Q))) :
    ℕ → List C → Except Exn (List (Stmt Q))
  | _, [] => .ok []
  | n, t :: ts => (one n t).bind fun a => (cellStmts one (n + 1) ts).bind fun b => .ok (a ++ b)

/-- The corners the pyramid starts from (fractals.py:30-31). -/
def pyramidBase : List V3 :=
  [![0.5, 1 / (2 * √3), √(2 / 3)], ![0, 0, 0], ![1, 0, 0], ![0.5, √3 / 2, 0]]

/-- `(points[a] + points[b]) / 2.` (fractals.py:49). -/
def half {n : ℕ} (p q : Fin n → ℝ) : Fin n → ℝ := fun k => (p k + q k) / 2

/-- `sierpinski_pyramid(h, level)` (fractals.py:13-85): the geometry given to Gmsh. -/
def sierpinskiPyramid (h : ℝ) (level : ℤ) : Except Exn (Geo V3) :=
  if level < 1 then .error .ValueError else
    (pyrLevels half level.toNat (pyramidBase, [[0, 1, 2, 3]])).bind fun s =>
      (cellStmts tetraStmts 0 s.2).bind fun c =>
        .ok ⟨h, pointStmts id s.1 ++ c⟩

end Pyramid

/-! ## Sierpinski triangle (fractals.py:232-285) -/

section Triangle

/-- `(points[t[0]] + points[t[1]] + points[t[2]] - points[t[i]]) / 2.` (fractals.py:257-266). -/
def others (p0 p1 p2 pi : V2) : V2 := fun k => (p0 k + p1 k + p2 k - pi k) / 2

/-- The body of `for t in tris` (fractals.py:253-269): the three new points are appended one after
the other and `t` is replaced by three triangles. -/
def triSplit (points : List V2) : List ℕ → Except Exn (List (List ℕ) × List V2)
  | t0 :: t1 :: t2 :: _ =>
    (pget points t0).bind fun p0 => (pget points t1).bind fun p1 =>
      (pget points t2).bind fun p2 =>
        let n := points.length
        .ok ([[t0, n + 2, n + 1], [n + 2, t1, n], [n + 1, n, t2]],
          points ++ [others p0 p1 p2 p0, others p0 p1 p2 p1, others p0 p1 p2 p2])
  | _ => .error .IndexError

/-- `for t in tris` (fractals.py:252-270). -/
def triAll : List (List ℕ) → List V2 → Except Exn (List (List ℕ) × List V2)
  | [], ps => .ok ([], ps)
  | t :: ts, ps => (triSplit ps t).bind fun r =>
      (triAll ts r.2).bind fun q => .ok (r.1 ++ q.1, q.2)

/-- `for _ in range(level)` (fractals.py:251-270). -/
def triLevels : ℕ → List V2 × List (List ℕ) → Except Exn (List V2 × List (List ℕ))
  | 0, s => .ok s
  | n + 1, s => (triAll s.2 s.1).bind fun r => triLevels n (r.2, r.1)

/-- The statements of the `n`-th triangle (fractals.py:274-283). -/
def triStmts {Q : Type*} (n : ℕ) : List ℕ → Except Exn (List (Stmt Q))
  | t0 :: t1 :: t2 :: _ => .ok [
      .line (1 + 3 * n) (1 + t0) (1 + t1),
      .line (1 + 3 * n + 1) (1 + t1) (1 + t2),
      .line (1 + 3 * n + 2) (1 + t2) (1 + t0),
      .loop (1 + n) [((1 + 3 * n : ℕ) : ℤ), ((1 + 3 * n + 1 : ℕ) : ℤ), ((1 + 3 * n + 2 : ℕ) : ℤ)],
      .surface (1 + n) (1 + n)]
  | _ => .error .IndexError

/-- The corners the triangle and the snowflake start from (fractals.py:249, 373). -/
def triangleBase : List V2 := [![0, 0], ![1, 0], ![0.5, √3 / 2]]

/-- `h = min(.5**(level + 1), h)` (fractals.py:247, 371). -/
def fineSize (h : ℝ) (level : ℤ) : ℝ := min ((0.5 : ℝ) ^ (level + 1)) h

/-- `sierpinski_triangle(h, level)` (fractals.py:232-285). -/
def sierpinskiTriangle (h : ℝ) (level : ℤ) : Except Exn (Geo V3) :=
  if level < 1 then .error .ValueError else
    (triLevels level.toNat (triangleBase, [[0, 1, 2]])).bind fun s =>
      (cellStmts triStmts 0 s.2).bind fun c =>
        .ok ⟨fineSize h level, pointStmts lift2 s.1 ++ c⟩

end Triangle

/-! ## Koch snowflake (fractals.py:356-402) -/

section Koch

/-- The three points appended for a line from `p` to `q` (fractals.py:384-388). -/
def kochPoints (p q : V2) : List V2 :=
  let edge : V2 := fun k => q k - p k
  let normal : V2 := ![√3 / 6 * (-edge 1), √3 / 6 * edge 0]
  [fun k => p k + edge k / 3, fun k => p k + edge k / 2 - normal k, fun k => p k + 2 * edge k / 3]

/-- `for line in lines` (fractals.py:378-388). -/
def kochAll : List (ℕ × ℕ) → List V2 → Except Exn (List (ℕ × ℕ) × List V2)
  | [], ps => .ok ([], ps)
  | l :: ls, ps =>
    let n := ps.length
    (pget ps l.2).bind fun q => (pget ps l.1).bind fun p =>
      (kochAll ls (ps ++ kochPoints p q)).bind fun r =>
        .ok ((l.1, n) :: (n, n + 1) :: (n + 1, n + 2) :: (n + 2, l.2) :: r.1, r.2)

/-- `for l in range(level)` (fractals.py:376-390). -/
def kochLevels : ℕ → List V2 × List (ℕ × ℕ) → Except Exn (List V2 × List (ℕ × ℕ))
  | 0, s => .ok s
  | n + 1, s => (kochAll s.2 s.1).bind fun r => kochLevels n (r.2, r.1)

/-- `koch_snowflake(h, level)` (fractals.py:356-402). -/
def kochSnowflake (h : ℝ) (level : ℤ) : Except Exn (Geo V3) :=
  if level < 1 then .error .ValueError else
    (kochLevels level.toNat (triangleBase, [(0, 1), (1, 2), (2, 0)])).bind fun s =>
      .ok ⟨fineSize h level, pointStmts lift2 s.1 ++
        (s.2.zipIdx.map fun l => Stmt.line (1 + l.2) (l.1.1 + 1) (l.1.2 + 1)) ++
        [.loop 1 ((List.range s.2.length).map fun i => ((i + 1 : ℕ) : ℤ)), .surface 1 1]⟩

end Koch

end Verif.Shapes
