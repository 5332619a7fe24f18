import Verif.Model.Octree
import Mathlib.Algebra.Order.Floor.Ring
import Mathlib.Data.Real.Archimedean
import Mathlib.Analysis.SpecialFunctions.Pow.Real
/-
Model of the geometric part of the FMM octree (lib/fmm/octree_impl.hpp), in exact real arithmetic.
-/
namespace Verif.Fmm

/-- A point or a vector of three reals. -/
structure R3 where
  (x y z : ℝ)

/-- `m_ubound = m_lbound + width * Ones`, where `width = (m_ubound - m_lbound).maxCoeff()`
(`octree_impl.hpp:20-28`). -/
noncomputable def extendBox (lb ub : R3) : R3 :=
  let width := max (max (ub.x - lb.x) (ub.y - lb.y)) (ub.z - lb.z)
  ⟨lb.x + width, lb.y + width, lb.z + width⟩

/-- One entry of `ind` in `getLeafContainingPoint` (`octree_impl.hpp:124-126`):
`min(int(max(0, pt) * invleafsize), invleafsize - 1)` with `pt = (p - lb) / (ub - lb)`.  The
conversion to `int` of a non-negative number is the integer part. -/
noncomputable def cellCoord (p lb ub : ℝ) (side : Nat) : Nat :=
  min ⌊max 0 ((p - lb) / (ub - lb)) * side⌋₊ (side - 1)

/-- `Octree::getLeafContainingPoint` (`octree_impl.hpp:109-129`). -/
noncomputable def getLeafContainingPoint (lb ub : R3) (levels : Nat) (p : R3) : Except Err ULong :=
  let side := (getNodesPerSide levels).toNat
  morton (BitVec.ofNat 64 (cellCoord p.x lb.x ub.x side))
    (BitVec.ofNat 64 (cellCoord p.y lb.y ub.y side))
    (BitVec.ofNat 64 (cellCoord p.z lb.z ub.z side))

/-- `Octree::cubeWidth` (`octree_impl.hpp:136-141`). -/
noncomputable def cubeWidth (lb ub : R3) (level : Nat) : ℝ :=
  (ub.x - lb.x) / (getNodesPerSide level).toNat

/-- `Octree::cubeBounds` (`octree_impl.hpp:150-168`): lower and upper corner. -/
noncomputable def cubeBounds (lb ub : R3) (n : ULong) (level : Nat) : R3 × R3 :=
  let (ix, iy, iz) := deMorton n
  let w := cubeWidth lb ub level
  (⟨lb.x + ix.toNat * w, lb.y + iy.toNat * w, lb.z + iz.toNat * w⟩,
   ⟨lb.x + (ix.toNat + 1) * w, lb.y + (iy.toNat + 1) * w, lb.z + (iz.toNat + 1) * w⟩)

/-- `Octree::extendedCubeBounds` (`octree_impl.hpp:170-187`), `ext` is `m_extensionSize`. -/
noncomputable def extendedCubeBounds (lb ub : R3) (ext : ℝ) (n : ULong) (level : Nat) : R3 × R3 :=
  let (lo, hi) := cubeBounds lb ub n level
  (⟨lo.x - ext, lo.y - ext, lo.z - ext⟩, ⟨hi.x + ext, hi.y + ext, hi.z + ext⟩)

/-- Difference of two points. -/
def R3.sub (a b : R3) : R3 := ⟨a.x - b.x, a.y - b.y, a.z - b.z⟩
/-- `norm()`. -/
noncomputable def R3.norm (a : R3) : ℝ := Real.sqrt (a.x ^ 2 + a.y ^ 2 + a.z ^ 2)
/-- `cross`. -/
def R3.cross (a b : R3) : R3 :=
  ⟨a.y * b.z - a.z * b.y, a.z * b.x - a.x * b.z, a.x * b.y - a.y * b.x⟩

/-- The "diameter" of a triangle (`lib/grid/concrete_grid_view.hpp:141-144`). -/
noncomputable def elementDiam (t : R3 × R3 × R3) : ℝ :=
  let a := t.2.1.sub t.1
  let b := t.2.2.sub t.1
  a.norm * b.norm * (a.sub b).norm / (a.cross b).norm

/-- `maximumElementDiameter` (`lib/grid/concrete_grid_view.hpp:132-151`). -/
noncomputable def maximumElementDiameter (ts : List (R3 × R3 × R3)) : ℝ :=
  open Classical in
  ts.foldl (fun result t => if elementDiam t > result then elementDiam t else result) 0

/-- `m_extensionSize = m_maxElementDiam * RESIZE_FACTOR` (`octree_impl.hpp:33`, `octree.hpp:31`:
`RESIZE_FACTOR = 1.1`). -/
noncomputable def extensionSize (ts : List (R3 × R3 × R3)) : ℝ := maximumElementDiameter ts * (11 / 10)

/-- `geometry().getCenter` of a triangle. -/
noncomputable def centroid (t : R3 × R3 × R3) : R3 :=
  ⟨(t.1.x + t.2.1.x + t.2.2.x) / 3, (t.1.y + t.2.1.y + t.2.2.y) / 3, (t.1.z + t.2.1.z + t.2.2.z) / 3⟩

end Verif.Fmm
