import Mathlib.Algebra.Order.Field.Basic
import Mathlib.Analysis.Real.Sqrt
/-
Model of `hmat::BoundingBox` (lib/hmat/bounding_box.hpp, bounding_box_impl.hpp).
Coordinates are exact numbers of a linearly ordered field instead of `double`.
-/
namespace Verif.HMat

/-- A point in space (`hmat::Point`, `lib/hmat/point.hpp`). -/
abbrev Pt (K : Type) := Fin 3 → K

/-- `hmat::BoundingBox`: `lo d` is `m_boundingBoxData[2*d]`, `hi d` is `m_boundingBoxData[2*d+1]`
(`bounding_box.hpp:57`).  The cached `m_maxDimension`, `m_diameter` are recomputed by
`computeGeometricData` after every modification and are therefore functions of the data below. -/
structure Box (K : Type) where
  lo : Fin 3 → K
  hi : Fin 3 → K

namespace Box
variable {K : Type}

/-- `BoundingBox(xmin,xmax,ymin,ymax,zmin,zmax)` (`bounding_box_impl.hpp:20-28`). -/
def mk6 (xmin xmax ymin ymax zmin zmax : K) : Box K :=
  ⟨![xmin, ymin, zmin], ![xmax, ymax, zmax]⟩

/-- `BoundingBox::merge` (`bounding_box_impl.hpp:84-102`). -/
def merge [LinearOrder K] (a b : Box K) : Box K :=
  ⟨fun d => min (a.lo d) (b.lo d), fun d => max (a.hi d) (b.hi d)⟩

/-- `BoundingBox::contains`: half open in each direction (`bounding_box_impl.hpp:142-150`). -/
def contains [LinearOrder K] (a : Box K) (p : Pt K) : Bool :=
  decide (a.lo 0 ≤ p 0) && decide (p 0 < a.hi 0) && decide (a.lo 1 ≤ p 1) && decide (p 1 < a.hi 1) &&
  decide (a.lo 2 ≤ p 2) && decide (p 2 < a.hi 2)

/-- `BoundingBox::cornerPoint` / `corners` (`bounding_box_impl.hpp:161-218`), in the order of the
`switch`. -/
def corners (a : Box K) : List (Pt K) :=
  [![a.lo 0, a.lo 1, a.lo 2], ![a.hi 0, a.lo 1, a.lo 2], ![a.hi 0, a.hi 1, a.lo 2],
   ![a.lo 0, a.hi 1, a.lo 2], ![a.lo 0, a.lo 1, a.hi 2], ![a.hi 0, a.lo 1, a.hi 2],
   ![a.hi 0, a.hi 1, a.hi 2], ![a.lo 0, a.hi 1, a.hi 2]]

/-- `BoundingBox::intervalDistance` (`bounding_box_impl.hpp:234-242`). -/
def intervalDistance [LinearOrder K] [Sub K] [Zero K] (a1 b1 a2 b2 : K) : K :=
  if a2 > b1 then a2 - b1 else if a1 > b2 then a1 - b2 else 0

/-- The value `sum` accumulated by `BoundingBox::distance` (`bounding_box_impl.hpp:220-230`). -/
def distSq [LinearOrder K] [Field K] (a b : Box K) : K :=
  let dist := fun i : Fin 3 => intervalDistance (a.lo i) (a.hi i) (b.lo i) (b.hi i)
  0 + dist 0 * dist 0 + dist 1 * dist 1 + dist 2 * dist 2

/-- `BoundingBox::distance` (`bounding_box_impl.hpp:220-232`), for real coordinates. -/
noncomputable def distance (a b : Box ℝ) : ℝ := Real.sqrt (distSq a b)

/-- The loop of `computeGeometricData` that selects `m_maxDimension`
(`bounding_box_impl.hpp:54-66`). -/
def maxDimension [LinearOrder K] [Sub K] (a : Box K) : Fin 3 :=
  let diam := fun i : Fin 3 => a.hi i - a.lo i
  let m : Fin 3 := 0
  let m := if diam 0 > diam m then 0 else m
  let m := if diam 1 > diam m then 1 else m
  if diam 2 > diam m then 2 else m

/-- `BoundingBox::divide(dim, f)` (`bounding_box_impl.hpp:104-135`); a `dim` outside 0..2 throws
`std::invalid_argument` (`none`; with assertions enabled it aborts instead). -/
def divide [Field K] (a : Box K) (dim : Int) (f : K) : Option (Box K × Box K) :=
  let cut := fun d : Fin 3 =>
    let c := a.lo d + f * (a.hi d - a.lo d)
    some ((⟨a.lo, Function.update a.hi d c⟩ : Box K), (⟨Function.update a.lo d c, a.hi⟩ : Box K))
  if dim = 0 then cut 0
  else if dim = 1 then cut 1
  else if dim = 2 then cut 2
  else none

/-- `BoundingBox::divideMaxDimension(f)` (`bounding_box_impl.hpp:137-140`). -/
def divideMaxDimension [LinearOrder K] [Field K] (a : Box K) (f : K) : Option (Box K × Box K) :=
  a.divide (a.maxDimension.val : Int) f

/-- The default constructor (`bounding_box_impl.hpp:12-18`): `big` is
`std::numeric_limits<double>::max()`, `tiny` is `std::numeric_limits<double>::min()`, which is the
smallest *positive* normal number, not the most negative one. -/
def default (big tiny : K) : Box K := mk6 big tiny big tiny big tiny

/-- `boundingBoxFromTriangleData` (`bounding_box_impl.hpp:253-267`). -/
def fromTriangle [LinearOrder K] (p1 p2 p3 : Pt K) : Box K :=
  ⟨fun d => min (min (p1 d) (p2 d)) (p3 d), fun d => max (max (p1 d) (p2 d)) (p3 d)⟩

end Box

/-- The bounding box computed in `ClusterTreeNodeData::geometryData` from the bounding points
(`cluster_tree_impl.hpp:76-90`: row-wise `minCoeff`/`maxCoeff`).  With no point Eigen's reductions
have an empty input, which is undefined behaviour (`none`). -/
def boxOfPoints {K : Type} [LinearOrder K] : List (Pt K) → Option (Box K)
  | [] => none
  | p :: ps => some ⟨fun d => ps.foldl (fun m q => min m (q d)) (p d),
                     fun d => ps.foldl (fun m q => max m (q d)) (p d)⟩

/-- Bounding box of a cluster: the corner points of the bounding boxes of its dofs are collected
(`cluster_tree_impl.hpp:120-126, 176-177, 211, 219, 223`) and passed to `geometryData`. -/
def clusterBox {K : Type} [LinearOrder K] (boxes : Nat → Box K) (ix : List Nat) : Option (Box K) :=
  boxOfPoints (ix.flatMap fun i => (boxes i).corners)

end Verif.HMat
