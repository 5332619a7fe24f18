import Mathlib.Algebra.Ring.Defs
import Mathlib.Logic.Function.Basic
/-
Model of the singular quadrature rules for pairs of elements: the relative coordinates of Sauter and Schwab
(lib/fiber/quadrature/galerkinduffy.hpp) and the generation of quadrature points and weights from them
(lib/fiber/numerical_quadrature.cpp).  `double` is an exact number of an arbitrary type `K`.
-/
namespace Verif.Quad

/-- One region's contribution for one pair of points of the basic rule: `reference_points_x[r]`,
`reference_points_y[r]`, `weights[r]` (`galerkinduffy.hpp:44-45, 118-119`). -/
structure Sample (K : Type) where
  x0 : K
  x1 : K
  y0 : K
  y1 : K
  w : K

section Transforms
variable {K : Type} [One K] [Add K] [Sub K] [Mul K]

/-- `GalerkinDuffyExpression<TRIANGLE, COINCIDENT>::transform` (`galerkinduffy.hpp:153-212`). -/
def triangleCoincident (xsi eta1 eta2 eta3 : K) : List (Sample K) :=
  let eta123 := eta1 * eta2 * eta3
  let eta12 := eta1 * eta2
  let w := xsi * xsi * xsi * eta1 * eta1 * eta2
  [⟨xsi, xsi * (1 - eta1 + eta12), xsi * (1 - eta123), xsi * (1 - eta1), w⟩,
   ⟨xsi * (1 - eta123), xsi * (1 - eta1), xsi, xsi * (1 - eta1 + eta12), w⟩,
   ⟨xsi, xsi * (eta1 - eta12 + eta123), xsi * (1 - eta12), xsi * (eta1 - eta12), w⟩,
   ⟨xsi * (1 - eta12), xsi * (eta1 - eta12), xsi, xsi * (eta1 - eta12 + eta123), w⟩,
   ⟨xsi * (1 - eta123), xsi * (eta1 - eta123), xsi, xsi * (eta1 - eta12), w⟩,
   ⟨xsi, xsi * (eta1 - eta12), xsi * (1 - eta123), xsi * (eta1 - eta123), w⟩]

/-- `GalerkinDuffyExpression<TRIANGLE, EDGE_ADJACENT>::transform` (`galerkinduffy.hpp:215-267`). -/
def triangleEdgeAdjacent (xsi eta1 eta2 eta3 : K) : List (Sample K) :=
  let eta12 := eta1 * eta2
  let eta123 := eta1 * eta2 * eta3
  let w0 := xsi * xsi * xsi * eta1 * eta1
  let w1 := w0 * eta2
  [⟨xsi, xsi * eta1 * eta3, xsi * (1 - eta12), xsi * (eta1 - eta12), w0⟩,
   ⟨xsi, xsi * eta1, xsi * (1 - eta123), xsi * (eta12 - eta123), w1⟩,
   ⟨xsi * (1 - eta12), xsi * (eta1 - eta12), xsi, xsi * eta123, w1⟩,
   ⟨xsi * (1 - eta123), xsi * (eta12 - eta123), xsi, xsi * eta1, w1⟩,
   ⟨xsi * (1 - eta123), xsi * (eta1 - eta123), xsi, xsi * eta12, w1⟩]

/-- `GalerkinDuffyExpression<TRIANGLE, VRTX_ADJACENT>::transform` (`galerkinduffy.hpp:270-298`). -/
def triangleVertexAdjacent (xsi eta1 eta2 eta3 : K) : List (Sample K) :=
  let w := xsi * xsi * xsi * eta2
  [⟨xsi, xsi * eta1, xsi * eta2, xsi * eta2 * eta3, w⟩,
   ⟨xsi * eta2, xsi * eta2 * eta3, xsi, xsi * eta1, w⟩]

end Transforms

/-- The element-pair configurations with a singular rule for triangles (`SING_INT`; `numerical_quadrature.cpp:269-283`),
with the local vertex numbers that `reallyFillPointsAndWeightsSingular` uses
(`desc.topology.testSharedVertex0, ..., trialSharedVertex1`). -/
inductive Config where
  | coincident
  | edge (test0 test1 trial0 trial1 : Nat)
  | vertex (test0 trial0 : Nat)

section Fill
variable {K : Type} [Ring K]

/-- `transform` for the configuration (`numerical_quadrature.cpp:190`, `GalerkinDuffyExpression<TRIANGLE, _>`). -/
def Config.samples (c : Config) (xsi eta1 eta2 eta3 : K) : List (Sample K) :=
  match c with
  | .coincident => triangleCoincident xsi eta1 eta2 eta3
  | .edge _ _ _ _ => triangleEdgeAdjacent xsi eta1 eta2 eta3
  | .vertex _ _ => triangleVertexAdjacent xsi eta1 eta2 eta3

/-- `getNumRegions()` (`galerkinduffy.hpp:41, 106`; `shapetraits.H:76-79`). -/
def Config.numRegions (c : Config) : Nat :=
  match c with
  | .coincident => 6
  | .edge _ _ _ _ => 5
  | .vertex _ _ => 2

/-- Map from Hyena's reference triangle (0,0)--(1,0)--(1,1) to Dune's (0,0)--(1,0)--(0,1):
`points(0, i) -= points(1, i)` (`numerical_quadrature.cpp:51-56, 207-211, 217-221`). -/
def toDune (p : K × K) : K × K := (p.1 - p.2, p.2)

/-- `remapPointsSharedVertexTriangle`, one column; `none`: throws `invalid_argument`
(`numerical_quadrature.cpp:66-89`). -/
def remapSharedVertex (sharedVertex : Nat) (p : K × K) : Option (K × K) :=
  if sharedVertex = 0 then some p
  else if sharedVertex = 1 then some (-p.1 - p.2 + 1, p.2)
  else if sharedVertex = 2 then some (p.1, -p.1 - p.2 + 1)
  else none

/-- Column `v` of `refVertices`; `none`: index out of range (`numerical_quadrature.cpp:117-121`). -/
def refVertex (v : Nat) : Option (K × K) :=
  if v = 0 then some (0, 0) else if v = 1 then some (1, 0) else if v = 2 then some (0, 1) else none

/-- `remapPointsSharedEdgeTriangle`, one column; `none`: an assertion fails (or, in a release build, an access is out
of range).  `nonsharedVertexTriangle` is `3 - sharedVertex0 - sharedVertex1`
(`numerical_quadrature.cpp:98-143`). -/
def remapSharedEdge (v0 v1 : Nat) (p : K × K) : Option (K × K) := do
  if v0 = v1 ∨ 2 < v0 ∨ 2 < v1 then none
  let b ← refVertex (K := K) v0
  let n1 ← refVertex (K := K) v1
  let n2 ← refVertex (K := K) (3 - v0 - v1)
  let a0 : K × K := (n1.1 - b.1, n1.2 - b.2)
  let a1 : K × K := (n2.1 - b.1, n2.2 - b.2)
  some (a0.1 * p.1 + a1.1 * p.2 + b.1, a0.2 * p.1 + a1.2 * p.2 + b.2)

/-- Remapping of the test points (`numerical_quadrature.cpp:235-246`). -/
def Config.remapTest (c : Config) (p : K × K) : Option (K × K) :=
  match c with
  | .coincident => some p
  | .edge t0 t1 _ _ => remapSharedEdge t0 t1 p
  | .vertex t0 _ => remapSharedVertex t0 p

/-- Remapping of the trial points (`numerical_quadrature.cpp:235-246`). -/
def Config.remapTrial (c : Config) (p : K × K) : Option (K × K) :=
  match c with
  | .coincident => some p
  | .edge _ _ s0 s1 => remapSharedEdge s0 s1 p
  | .vertex _ s0 => remapSharedVertex s0 p

/-- The basic rule `QuadratureRule<QUADRANGLE, GAUSS>` on the unit square: `getNumPoints`, `getPoint`, `getWeight`
(`quadrature.hpp:226-252`); the tables are not modelled. -/
structure Rule (K : Type) where
  n : Nat
  point : Nat → K × K
  weight : Nat → K

/-- `testPoints`, `trialPoints`, `weights`, indexed by column. -/
structure Points (K : Type) where
  test : Nat → K × K
  trial : Nat → K × K
  weight : Nat → K

/-- One iteration of the loops over regions and pairs of points (`numerical_quadrature.cpp:199-233`; the separate loop
for the weights has the same index). -/
def fillStep (c : Config) (rule : Rule K) (s : Points K) (it : Nat × Nat × Nat) : Points K :=
  let (region, testIndex, trialIndex) := it
  let col := testIndex + trialIndex * rule.n + region * rule.n * rule.n
  let x := rule.point testIndex
  let y := rule.point trialIndex
  match (c.samples x.1 x.2 y.1 y.2)[region]? with
  | none => s
  | some p =>
    { test := Function.update s.test col (toDune (p.x0, p.x1))
      trial := Function.update s.trial col (toDune (p.y0, p.y1))
      weight := Function.update s.weight col (p.w * rule.weight testIndex * rule.weight trialIndex) }

/-- The iterations `(region, testIndex, trialIndex)` in the order of the nested loops
(`numerical_quadrature.cpp:199-201`). -/
def iterations (regions n : Nat) : List (Nat × Nat × Nat) :=
  (List.range regions).flatMap fun r => (List.range n).flatMap fun i => (List.range n).map fun j => (r, i, j)

/-- The result of `reallyFillPointsAndWeightsSingular`; `none` for a point: remapping throws. -/
structure Filled (K : Type) where
  total : Nat
  test : Nat → Option (K × K)
  trial : Nat → Option (K × K)
  weight : Nat → K

/-- `reallyFillPointsAndWeightsSingular<TRIANGLE, SINGULARITY>`: the points and weights, for the columns below
`totalPointCount` (`numerical_quadrature.cpp:178-247`).  The rule of `(max(testOrder, trialOrder) + 2) / 2` points per
direction is an argument. -/
def fillSingular (c : Config) (rule : Rule K) : Filled K :=
  let raw := (iterations c.numRegions rule.n).foldl (fillStep c rule) ⟨fun _ => (0, 0), fun _ => (0, 0), fun _ => 0⟩
  { total := c.numRegions * rule.n * rule.n
    test := fun col => c.remapTest (raw.test col)
    trial := fun col => c.remapTrial (raw.trial col)
    weight := raw.weight }

end Fill
end Verif.Quad
