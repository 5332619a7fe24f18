import Verif.Model.Fractals

/-!
# Menger sponge and Sierpinski carpet (python/bempp/api/shapes/fractals.py:88-227, 288-353)
-/

noncomputable section

namespace Verif.Shapes

/-! ## Menger sponge -/

/-- Lattice points and lattice cells. -/
abbrev N3 := ℕ × ℕ × ℕ

/-- `get_point` (fractals.py:105-106). -/
def getPoint (N : ℕ) (p : N3) : ℕ := p.1 * (N + 1) ^ 2 + p.2.1 * (N + 1) + p.2.2

/-- `coords` (fractals.py:108-113): the coordinates written are `a * 1. / N`. -/
def mengerCoords (N : ℕ) (p : N3) : V3 := ![p.1 * 1 / N, p.2.1 * 1 / N, p.2.2 * 1 / N]

/-- `is_solid` (fractals.py:115-125); `//` and `%` of Python round down, as `/` and `%` of `ℤ` do
for positive divisors. -/
def isSolid (level : ℕ) (x y z : ℤ) : Bool :=
  let N : ℤ := 3 ^ level
  if x < 0 ∨ y < 0 ∨ z < 0 then false
  else if x ≥ N ∨ y ≥ N ∨ z ≥ N then false
  else (List.range level).all fun i =>
    [(x, y), (x, z), (y, z)].all fun ab =>
      !(decide (ab.1 / 3 ^ i % 3 = 1) && decide (ab.2 / 3 ^ i % 3 = 1))

/-- The state of an `EdgeGenerator` (fractals.py:128-132): the keys of `edges`, the entries
`edges[start][end]`, the statements of `geo_edges` and `edge_n`.  (The dictionary of dictionaries is
a function of the two keys; the numbers kept as strings are numbers.) -/
structure EdgeGen where
  nodes : ℕ → Bool
  edges : ℕ → ℕ → Option ℤ
  lines : List (Stmt V3)
  edgeN : ℕ

/-- `EdgeGenerator.__init__` (fractals.py:129-132). -/
def EdgeGen.init : EdgeGen := ⟨fun _ => false, fun _ _ => none, [], 1⟩

/-- `EdgeGenerator.edge` (fractals.py:134-147). -/
def EdgeGen.edge (eg : EdgeGen) (start stop : ℕ) : ℤ × EdgeGen :=
  let nodes := fun k => if k = start ∨ k = stop then true else eg.nodes k
  match eg.edges start stop with
  | some l => (l, { eg with nodes := nodes })
  | none =>
    ((eg.edgeN : ℤ),
      { nodes := nodes
        edges := fun a b =>
          if a = stop ∧ b = start then some (-(eg.edgeN : ℤ))
          else if a = start ∧ b = stop then some (eg.edgeN : ℤ) else eg.edges a b
        lines := eg.lines ++ [.line eg.edgeN start stop]
        edgeN := eg.edgeN + 1 })

/-- The six blocks of fractals.py:157-216: the calls of `eg.edge` for the sides of a cell at `x, y, z`
of which the neighbour is not solid. -/
def voxelFaces (level : ℕ) (x y z : ℕ) : List (List (N3 × N3)) :=
  if isSolid level x y z then
    (if !isSolid level (x - 1) y z then
      [[((x, y, z), (x, y + 1, z)),
        ((x, y + 1, z), (x, y + 1, z + 1)),
        ((x, y + 1, z + 1), (x, y, z + 1)),
        ((x, y, z + 1), (x, y, z))]] else []) ++
    (if !isSolid level (x + 1) y z then
      [[((x + 1, y, z), (x + 1, y, z + 1)),
        ((x + 1, y, z + 1), (x + 1, y + 1, z + 1)),
        ((x + 1, y + 1, z + 1), (x + 1, y + 1, z)),
        ((x + 1, y + 1, z), (x + 1, y, z))]] else []) ++
    (if !isSolid level x (y - 1) z then
      [[((x, y, z), (x, y, z + 1)),
        ((x, y, z + 1), (x + 1, y, z + 1)),
        ((x + 1, y, z + 1), (x + 1, y, z)),
        ((x + 1, y, z), (x, y, z))]] else []) ++
    (if !isSolid level x (y + 1) z then
      [[((x, y + 1, z), (x + 1, y + 1, z)),
        ((x + 1, y + 1, z), (x + 1, y + 1, z + 1)),
        ((x + 1, y + 1, z + 1), (x, y + 1, z + 1)),
        ((x, y + 1, z + 1), (x, y + 1, z))]] else []) ++
    (if !isSolid level x y (z - 1) then
      [[((x, y, z), (x + 1, y, z)),
        ((x + 1, y, z), (x + 1, y + 1, z)),
        ((x + 1, y + 1, z), (x, y + 1, z)),
        ((x, y + 1, z), (x, y, z))]] else []) ++
    (if !isSolid level x y (z + 1) then
      [[((x, y, z + 1), (x, y + 1, z + 1)),
        ((x, y + 1, z + 1), (x + 1, y + 1, z + 1)),
        ((x + 1, y + 1, z + 1), (x + 1, y, z + 1)),
        ((x + 1, y, z + 1), (x, y, z + 1))]] else [])
  else []

/-- The calls of `eg.edge` of one face (fractals.py:158-163). -/
def edgeCalls (N : ℕ) : List (N3 × N3) → EdgeGen → List ℤ × EdgeGen
  | [], eg => ([], eg)
  | e :: es, eg =>
    let r := eg.edge (getPoint N e.1) (getPoint N e.2)
    let q := edgeCalls N es r.2
    (r.1 :: q.1, q.2)

/-- All faces, with `loop_n` starting at `n` (fractals.py:149-216): the statements of `geo_faces` and
`geo_surfaces`, and the edge generator. -/
def faceStmts (N : ℕ) : ℕ → List (List (N3 × N3)) → EdgeGen →
    List (Stmt V3) × List (Stmt V3) × EdgeGen
  | _, [], eg => ([], [], eg)
  | n, f :: fs, eg =>
    let r := edgeCalls N f eg
    let q := faceStmts N (n + 1) fs r.2
    (.loop n r.1 :: q.1, .surface n n :: q.2.1, q.2.2)

/-- `product(range(N), repeat=3)` (fractals.py:155, 218). -/
def cubeRange (N : ℕ) : List N3 :=
  (List.range N).flatMap fun x => (List.range N).flatMap fun y =>
    (List.range N).map fun z => (x, y, z)

/-- `menger_sponge(h, level)` (fractals.py:88-227).  For a negative level `3**level` is a float and
`range(N)` raises `TypeError`. -/
def mengerSponge (h : ℝ) (level : ℤ) : Except Exn (Geo V3) :=
  if level < 0 then .error .TypeError else
    let n := level.toNat
    let N := 3 ^ n
    let faces := (cubeRange N).flatMap fun p => voxelFaces n p.1 p.2.1 p.2.2
    let r := faceStmts N 1 faces EdgeGen.init
    let pts := (cubeRange (N + 1)).filterMap fun p =>
      if r.2.2.nodes (getPoint N p) then some (Stmt.point (getPoint N p) (mengerCoords N p)) else none
    .ok ⟨h, pts ++ r.2.2.lines ++ r.1 ++ r.2.1⟩

/-! ## Sierpinski carpet -/

/-- `(0, 1. / 3, 2. / 3, 1)` with `product(…, repeat=2)` and the test of fractals.py:311-312: the pairs
that are not corners, in order. -/
def carpetGrid : List (ℝ × ℝ) :=
  [(0, 1 / 3), (0, 2 / 3), (1 / 3, 0), (1 / 3, 1 / 3), (1 / 3, 2 / 3), (1 / 3, 1),
   (2 / 3, 0), (2 / 3, 1 / 3), (2 / 3, 2 / 3), (2 / 3, 1), (1, 1 / 3), (1, 2 / 3)]

/-- The body of `for c in squs` (fractals.py:309-325). -/
def carpetSplit (points : List V2) (c : ℕ × ℕ × ℕ × ℕ) :
    Except Exn (List (ℕ × ℕ × ℕ × ℕ) × List V2) :=
  (pget points c.1).bind fun p0 => (pget points c.2.1).bind fun p1 =>
    (pget points c.2.2.2).bind fun p3 =>
      let n := fun k => points.length + k
      .ok ([(n 1, n 4, n 5, c.2.2.2), (n 0, n 3, n 4, n 1), (c.1, n 2, n 3, n 0),
            (n 2, n 6, n 7, n 3), (n 6, c.2.1, n 10, n 7), (n 7, n 10, n 11, n 8),
            (n 8, n 11, c.2.2.1, n 9), (n 4, n 8, n 9, n 5)],
        points ++ carpetGrid.map fun xy => fun k =>
          p0 k + xy.1 * (p1 k - p0 k) + xy.2 * (p3 k - p0 k))

/-- `for c in squs` (fractals.py:308-326). -/
def carpetAll : List (ℕ × ℕ × ℕ × ℕ) → List V2 → Except Exn (List (ℕ × ℕ × ℕ × ℕ) × List V2)
  | [], ps => .ok ([], ps)
  | c :: cs, ps => (carpetSplit ps c).bind fun r =>
      (carpetAll cs r.2).bind fun q => .ok (r.1 ++ q.1, q.2)

/-- `for i in range(level)` (fractals.py:307-326). -/
def carpetLevels : ℕ → List V2 × List (ℕ × ℕ × ℕ × ℕ) → Except Exn (List V2 × List (ℕ × ℕ × ℕ × ℕ))
  | 0, s => .ok s
  | n + 1, s => (carpetAll s.2 s.1).bind fun r => carpetLevels n (r.2, r.1)

/-- The state of the second part: `line_n` and the nested dictionary `all_edges`
(fractals.py:330-331). -/
structure CarpetLines where
  lineN : ℕ
  allEdges : ℕ → ℕ → Option ℕ

/-- The body of `for a in [(0, 1), (1, 2), (2, 3), (3, 0)]` (fractals.py:334-348): the entry of
`edges` and the statement written, if any. -/
def carpetSide (s : CarpetLines) (v1 v2 : ℕ) : ℤ × List (Stmt V3) × CarpetLines :=
  match s.allEdges v1 v2 with
  | some l => ((l : ℤ), [], s)
  | none =>
    match s.allEdges v2 v1 with
    | some l => (-(l : ℤ), [], s)
    | none => ((s.lineN : ℤ), [.line s.lineN v1 v2],
        { lineN := s.lineN + 1
          allEdges := fun a b => if a = v1 ∧ b = v2 then some s.lineN else s.allEdges a b })

/-- `for n, t in enumerate(squs)` (fractals.py:332-351). -/
def carpetStmts : ℕ → List (ℕ × ℕ × ℕ × ℕ) → CarpetLines → List (Stmt V3)
  | _, [], _ => []
  | n, t :: ts, s =>
    let r0 := carpetSide s (1 + t.1) (1 + t.2.1)
    let r1 := carpetSide r0.2.2 (1 + t.2.1) (1 + t.2.2.1)
    let r2 := carpetSide r1.2.2 (1 + t.2.2.1) (1 + t.2.2.2)
    let r3 := carpetSide r2.2.2 (1 + t.2.2.2) (1 + t.1)
    r0.2.1 ++ r1.2.1 ++ r2.2.1 ++ r3.2.1 ++
      [.loop n [r0.1, r1.1, r2.1, r3.1], .surface n n] ++ carpetStmts (n + 1) ts r3.2.2

/-- `sierpinski_carpet(h, level)` (fractals.py:288-353). -/
def sierpinskiCarpet (h : ℝ) (level : ℤ) : Except Exn (Geo V3) :=
  if level < 1 then .error .ValueError else
    (carpetLevels level.toNat ([![0, 0], ![1, 0], ![1, 1], ![0, 1]], [(0, 1, 2, 3)])).bind fun s =>
      .ok ⟨h, pointStmts lift2 s.1 ++ carpetStmts 0 s.2 ⟨1, fun _ _ => none⟩⟩

end Verif.Shapes
