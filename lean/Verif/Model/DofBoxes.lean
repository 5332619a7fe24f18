import Verif.Model.SpaceVector
import Verif.Model.BoundingBox
/-
Model of the bounding boxes and positions of the global dofs of the spaces (`getGlobalDofBoundingBoxes`, `getGlobalDofPositions`) and of
their use in the H-matrix code.  Coordinates are real numbers; `big` is `std::numeric_limits<CoordinateType>::max()` and `junk` is the value
of the reference point of a box before it is set (an uninitialised member).
-/
namespace Verif.DofGeo
open Verif.Grid Verif.Space
noncomputable section

/-- `BoundingBox` (`lib/common/bounding_box.hpp:36-43`). -/
structure BBox where
  reference : P3 ℝ
  lbound : P3 ℝ
  ubound : P3 ℝ

/-- The empty box `model` (`space_helper.cpp:96-99`, `rwg_vector_space.cpp:258-264`). -/
def BBox.model (big : ℝ) (junk : P3 ℝ) : BBox := ⟨junk, ⟨big, big, big⟩, ⟨-big, -big, -big⟩⟩

/-- One column of `extendBoundingBox` (`bounding_box_helpers.hpp:60-67`). -/
def BBox.extendPoint (b : BBox) (p : P3 ℝ) : BBox :=
  ⟨b.reference, ⟨min b.lbound.x p.x, min b.lbound.y p.y, min b.lbound.z p.z⟩,
    ⟨max b.ubound.x p.x, max b.ubound.y p.y, max b.ubound.z p.z⟩⟩

/-- `extendBoundingBox` (`bounding_box_helpers.hpp:56-68`). -/
def BBox.extend (b : BBox) (points : List (P3 ℝ)) : BBox := points.foldl BBox.extendPoint b

/-- `setBoundingBoxReference` (`bounding_box_helpers.hpp:75-82`). -/
def BBox.setReference (b : BBox) (p : P3 ℝ) : BBox := ⟨p, b.lbound, b.ubound⟩

/-- `createBoundingBox` (`bounding_box_helpers.hpp:34-53`), documented to set the reference point to the mid point; used for the bounding box
of a grid (`grid.cpp:70-101`). -/
def createBoundingBox (lo hi : P3 ℝ) : BBox := ⟨⟨(hi.x - lo.x) / 2, (hi.y - lo.y) / 2, (hi.z - lo.z) / 2⟩, lo, hi⟩

/-- `geo.getCorners`: the coordinates of the vertices of the element, in the local order of the vertices
(`concrete_geometry.hpp`, Dune's `corner(i)`). -/
def cornersOf (v : View) (coord : Nat → P3 ℝ) (e : Elem) : List (P3 ℝ) := (e.sub v.dim).map coord

/-- The loop that fills `elementCorners` (`space_helper.cpp:84-94`). -/
def elementCorners (v : View) (coord : Nat → P3 ℝ) : List (List (P3 ℝ)) :=
  v.elems.foldl (fun (l : List (List (P3 ℝ))) e => l.set e.index (cornersOf v coord e)) (List.replicate (v.count 0) [])

/-- The loop over the local dofs of a global dof (`space_helper.cpp:104-108`, `piecewise_constant_scalar_space.cpp:295-299`). -/
def boxOfLocalDofs (big : ℝ) (junk : P3 ℝ) (corners : List (List (P3 ℝ))) (localDofs : List LocalDof) : BBox :=
  localDofs.foldl (fun (b : BBox) ld => b.extend (corners.getD ld.entityIndex [])) (BBox.model big junk)

/-- `SpaceHelper::getGlobalDofBoundingBoxes_defaultImplementation` (`space_helper.cpp:76-122`).  `none`: a global dof without local dofs
or a local dof that is not a corner of its element, for which the code reads outside of a vector. -/
def defaultBoxes (big : ℝ) (junk : P3 ℝ) (v : View) (coord : Nat → P3 ℝ) (global2local : List (List LocalDof)) : Option (List BBox) :=
  let corners := elementCorners v coord
  global2local.mapM fun localDofs =>
    localDofs.head?.bind fun first =>
      ((corners.getD first.entityIndex [])[first.dofIndex]?).map fun p =>
        (boxOfLocalDofs big junk corners localDofs).setReference p

/-- `geo.getCenter`: the mean of the corners of a flat element. -/
def centerOf (points : List (P3 ℝ)) : P3 ℝ :=
  ⟨(points.map P3.x).sum / points.length, (points.map P3.y).sum / points.length, (points.map P3.z).sum / points.length⟩

/-- `PiecewiseConstantScalarSpace::getGlobalDofBoundingBoxes` (`piecewise_constant_scalar_space.cpp:268-316`). -/
def p0Boxes (big : ℝ) (junk : P3 ℝ) (v : View) (coord : Nat → P3 ℝ) (global2local : List (List LocalDof)) : Option (List BBox) :=
  let corners := elementCorners v coord
  global2local.mapM fun localDofs =>
    localDofs.head?.map fun first =>
      (boxOfLocalDofs big junk corners localDofs).setReference (centerOf (corners.getD first.entityIndex []))

/-- `0.5 * (vertices.col(i) + vertices.col(j))`. -/
def midpoint (points : List (P3 ℝ)) (i j : Nat) : P3 ℝ :=
  let p := points.getD i ⟨0, 0, 0⟩
  let q := points.getD j ⟨0, 0, 0⟩
  ⟨0.5 * (p.x + q.x), 0.5 * (p.y + q.y), 0.5 * (p.z + q.z)⟩

/-- The statements `extendBoundingBox(acc(boxes, dof), vertices); setBoundingBoxReference(acc(boxes, dof), position)` for one local dof,
skipped for a negative dof (`rwg_vector_space.cpp:323-331`). -/
def useBox (points : List (P3 ℝ)) (boxes : List BBox) (u : Int × P3 ℝ) : List BBox :=
  if 0 ≤ u.1 then boxes.modify u.1.toNat fun b => (b.extend points).setReference u.2 else boxes

/-- The loop over the elements with these statements for each local dof (`rwg_vector_space.cpp:258-336` and the same statements of the
other spaces); `uses e` lists the global dofs and positions of the local dofs of `e`. -/
def loopBoxes (big : ℝ) (junk : P3 ℝ) (count : Nat) (elems : List Elem) (corners : Elem → List (P3 ℝ)) (uses : Elem → List (Int × P3 ℝ)) :
    List BBox :=
  elems.foldl (fun (bs : List BBox) e => (uses e).foldl (useBox (corners e)) bs) (List.replicate count (BBox.model big junk))

/-- `dofPosition` for local dof `i` of a triangle (`rwg_vector_space.cpp:309-315`; identical in the Raviart-Thomas and the Nedelec spaces). -/
def edgePosition (points : List (P3 ℝ)) (i : Nat) : P3 ℝ :=
  if i = 0 then midpoint points 0 1 else if i = 1 then midpoint points 2 0 else midpoint points 1 2

/-- `m_globalDofBoundingBoxes` of the RWG space (`rwg_vector_space.cpp:193-352`; `raviart_thomas_0_vector_space.cpp`,
`nedelec_0_vector_space.cpp` and `scaled_nedelec_0_vector_space.cpp` contain the same code). -/
def rwgBoxes (big : ℝ) (junk : P3 ℝ) (v : View) (coord : Nat → P3 ℝ) (s : GridSegment) (mode : DofMode) (pb : Bool) : List BBox :=
  loopBoxes big junk (rwgNumbering v s mode pb).2 v.elems (cornersOf v coord) fun e =>
    (rwgWrites v s mode pb e).map fun w => (w.2, edgePosition (cornersOf v coord e) w.1)

/-- The positions in the order of `polyWrites`: corners, midpoints of the edges, centroid
(`piecewise_polynomial_continuous_scalar_space.cpp:416-417, 432-433, 448-449, 465, 494, 528, 564-565`). -/
def polyPositions (points : List (P3 ℝ)) (p : Nat) : List (P3 ℝ) :=
  let corner := fun k => points.getD k ⟨0, 0, 0⟩
  [corner 0, corner 1, corner 2] ++ List.replicate (p - 1) (midpoint points 0 1) ++ List.replicate (p - 1) (midpoint points 0 2) ++
    List.replicate (p - 1) (midpoint points 1 2) ++
    List.replicate (polyBubbles p).length
      ⟨((corner 0).x + (corner 1).x + (corner 2).x) / 3, ((corner 0).y + (corner 1).y + (corner 2).y) / 3,
        ((corner 0).z + (corner 1).z + (corner 2).z) / 3⟩

/-- `m_globalDofBoundingBoxes` of the continuous polynomial space (`piecewise_polynomial_continuous_scalar_space.cpp:367-585`). -/
def polyBoxes (big : ℝ) (junk : P3 ℝ) (v : View) (coord : Nat → P3 ℝ) (s : GridSegment) (strict : Bool) (p : Nat) : List BBox :=
  loopBoxes big junk (polyNumbering v s strict p).2.2.2 v.elems (cornersOf v coord) fun e =>
    ((polyWrites v s strict p e).map Prod.snd).zip (polyPositions (cornersOf v coord e) p)

/-- The boxes of the Buffa-Christiansen space (`buffa_christiansen_vector_space.cpp:569-585`), computed from its local-to-global map after
all dofs have been assigned (no entry is negative at that point). -/
def bcBoxes (big : ℝ) (junk : P3 ℝ) (count : Nat) (fine : View) (coord : Nat → P3 ℝ) (local2global : List (List Int)) : List BBox :=
  loopBoxes big junk count fine.elems (cornersOf fine coord) fun e =>
    (local2global.getD e.index []).map fun g => (g, midpoint (cornersOf fine coord e) 0 1)

/-- The dofs of the coarse element whose boxes are extended (`rwg_vector_space_barycentric.cpp:316-333`): only in the iteration `i == 0` and only
in the adjacent element with the lowest index; `edges[element2Basis[0][j]]`. -/
def baryVectorUses (coarse : View) (coord : Nat → P3 ℝ) (pb : Bool) (e : Elem) : List (Int × P3 ℝ) :=
  ((List.range 3).filter fun j =>
      ((baryScan coarse)[(e.sub 1).getD (element2Basis 0 j) 0]?.bind (·.lowest)) == some e.index).map fun j =>
    ((baryNumbering coarse pb).1.getD ((e.sub 1).getD (element2Basis 0 j) 0) (-1), edgePosition (cornersOf coarse coord e) j)

/-- `m_globalDofBoundingBoxes` of the four vector spaces on the barycentric refinement (`rwg_vector_space_barycentric.cpp:236-346`,
`raviart_thomas_0_vector_space_barycentric.cpp`, `nedelec_0_vector_space_barycentric.cpp`, `scaled_nedelec_0_vector_space_barycentric.cpp`). -/
def baryVectorBoxes (big : ℝ) (junk : P3 ℝ) (coarse : View) (coord : Nat → P3 ℝ) (pb : Bool) : List BBox :=
  loopBoxes big junk (baryNumbering coarse pb).2 coarse.elems (cornersOf coarse coord) (baryVectorUses coarse coord pb)

/-- `getGlobalDofPositions` (`rwg_vector_space.cpp:473-479`, `piecewise_constant_scalar_space.cpp:250-259`): the reference points. -/
def positionsOf (boxes : List BBox) : List (P3 ℝ) := boxes.map BBox.reference

/-- `SpaceHMatGeometryInterface::next` (`lib/assembly/hmat_interface.cpp:31-53`): the box of the H-matrix code.  `fillGeometry`
(`lib/hmat/geometry_impl.hpp:13-20`) collects the results in the order of the dofs. -/
def BBox.toHMat (b : BBox) : HMat.Box ℝ :=
  HMat.Box.mk6 b.lbound.x b.ubound.x b.lbound.y b.ubound.y b.lbound.z b.ubound.z

/-- The geometry passed to the cluster tree: the box of dof number `i`. -/
def hmatBoxes (boxes : List BBox) (i : Nat) : HMat.Box ℝ := (boxes.getD i ⟨⟨0, 0, 0⟩, ⟨0, 0, 0⟩, ⟨0, 0, 0⟩⟩).toHMat

end
end Verif.DofGeo
