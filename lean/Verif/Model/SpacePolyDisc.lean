import Verif.Model.Space
/-
Model of the discontinuous polynomial space on triangles
(`lib/space/piecewise_polynomial_discontinuous_scalar_space.cpp`) and of the space of functions that are constant on the
whole grid (`lib/space/unit_scalar_space.cpp`).
-/
namespace Verif.Space
open Verif.Grid

/-- The bits `ELEMENT_ON_SEGMENT` and `REFERENCE_POINT_ON_SEGMENT` of `dofMode` (`dof_assignment_mode.hpp:27-31`). -/
structure RefMode where
  elementOnSegment : Bool
  referencePointOnSegment : Bool
deriving DecidableEq, Repr

/-- One local dof met by the loop: its number, whether it gets a global dof, and the corners of the element whose mean is its
reference point. -/
structure RefUse where
  ldof : Nat
  used : Bool
  ref : List Nat
deriving DecidableEq, Repr

/-- `m_local2globalDofs`, `m_global2localDofs` and, for `m_globalDofBoundingBoxes`, the element whose corners span the box with
the corners whose mean is the reference point. -/
structure RefMaps where
  maps : DofMaps
  boxes : List (Nat × List Nat)
deriving DecidableEq, Repr

/-- The block repeated for every local dof (`piecewise_polynomial_discontinuous_scalar_space.cpp:314-325` and the later
repetitions): a used dof gets the counter and pushes its local dof and its box, another one gets -1.  The counter
`globalDofCount` always equals `m_global2localDofs.size()`. -/
def storeDof (e : Nat) (st : List Int × RefMaps) (w : RefUse) : List Int × RefMaps :=
  if w.used then
    (st.1.set w.ldof (st.2.maps.global2local.length : Int),
      ⟨⟨st.2.maps.local2global, st.2.maps.global2local ++ [[⟨e, w.ldof⟩]]⟩, st.2.boxes ++ [(e, w.ref)]⟩)
  else (st.1.set w.ldof (-1), st.2)

/-- One element (`piecewise_polynomial_discontinuous_scalar_space.cpp:280-505`): `globalDofs.resize(n)`, then its dofs. -/
def storeElement (n : Elem → Nat) (uses : Elem → List RefUse) (m : RefMaps) (e : Elem) : RefMaps :=
  let r := (uses e).foldl (storeDof e.index) (List.replicate (n e) 0, m)
  ⟨⟨r.2.maps.local2global.set e.index r.1, r.2.maps.global2local⟩, r.2.boxes⟩

/-- The loop over the elements (`piecewise_polynomial_discontinuous_scalar_space.cpp:278-506`). -/
def storeElements (v : View) (n : Elem → Nat) (uses : Elem → List RefUse) : RefMaps :=
  v.elems.foldl (storeElement n uses) ⟨⟨List.replicate (v.count 0) [], []⟩, []⟩

/-- The local dofs of an element in the order of the code
(`piecewise_polynomial_discontinuous_scalar_space.cpp:309-505`): vertices, edges (0,1), (0,2), (1,2), interior; for order 0 the
only dof.  Elements that are not triangles are skipped. -/
def polyDiscUses (s : GridSegment) (mode : RefMode) (p : Nat) (e : Elem) : List RefUse :=
  if (e.sub 2).length ≠ 3 then []
  else if p = 0 then [⟨0, inSegment s 0 e.index, [0, 1, 2]⟩]
  else
    let elementContained := !mode.elementOnSegment || inSegment s 0 e.index
    let on := fun codim i => elementContained && (!mode.referencePointOnSegment || inSegment s codim i)
    let vtx := fun k => on 2 ((e.sub 2).getD k 0)
    let edge := fun k => on 1 ((e.sub 1).getD k 0)
    [⟨0, vtx 0, [0]⟩, ⟨p, vtx 1, [1]⟩, ⟨polyLocalCount p - 1, vtx 2, [2]⟩] ++
    (List.range (p - 1)).map (fun k => ⟨k + 1, edge 0, [0, 1]⟩) ++
    (List.range (p - 1)).map (fun k => ⟨polyRow p (k + 1), edge 1, [0, 2]⟩) ++
    (List.range (p - 1)).map (fun k => ⟨polyRow p (k + 1) + (p - (k + 1)), edge 2, [1, 2]⟩) ++
    (polyBubbles p).map fun q => ⟨polyRow p q.2 + q.1, inSegment s 0 e.index, [0, 1, 2]⟩

/-- Length of the row of an element (`piecewise_polynomial_discontinuous_scalar_space.cpp:251-254, 288-294`). -/
def polyDiscRow (p : Nat) (e : Elem) : Nat := if (e.sub 2).length = 3 then polyLocalCount p else (p + 1) * (p + 1)

/-- `PiecewisePolynomialDiscontinuousScalarSpace::initialize` and `assignDofsImpl`
(`piecewise_polynomial_discontinuous_scalar_space.cpp:93-144, 238-527`); the order is an `int`. -/
def assignPolyDisc (v : View) (s : GridSegment) (mode : RefMode) (order : Int) : Except SpaceThrows RefMaps :=
  if v.dim ≠ 2 then .error .invalidArgument
  else if !(mode.elementOnSegment || mode.referencePointOnSegment) then .error .invalidArgument
  else if order < 0 ∨ 10 < order then .error .invalidArgument
  else .ok (storeElements v (polyDiscRow order.toNat) (polyDiscUses s mode order.toNat))

/-- `discontinuousSpace` of the continuous polynomial space
(`piecewise_polynomial_continuous_scalar_space.cpp:219-231`): the segment is passed on, `dofMode` keeps its default
`REFERENCE_POINT_ON_SEGMENT` (`piecewise_polynomial_discontinuous_scalar_space.hpp:83`); `strictlyOnSegment` is not used. -/
def polyDiscontinuousSpace (v : View) (s : GridSegment) (_strict : Bool) (order : Int) : Except SpaceThrows RefMaps :=
  assignPolyDisc v s ⟨false, true⟩ order

/-- `getGlobalDofPositions` (`piecewise_polynomial_discontinuous_scalar_space.cpp:570-577`): the reference points, as (element,
corners to be averaged). -/
def RefMaps.globalDofPositions (m : RefMaps) : List (Nat × List Nat) := m.boxes

/-- `getFlatLocalDofPositions` (`piecewise_polynomial_discontinuous_scalar_space.cpp:579-584`) calls `getGlobalDofPositions`. -/
def RefMaps.flatLocalDofPositions (m : RefMaps) : List (Nat × List Nat) := m.globalDofPositions

/-- `flatLocalDofCount()` (`piecewise_polynomial_discontinuous_scalar_space.cpp:511-514, 535-539`): set to the number of global
dofs. -/
def RefMaps.flatLocalDofCount (m : RefMaps) : Nat := m.maps.globalDofCount

/-- `flatLocal2localDofs` (`piecewise_polynomial_discontinuous_scalar_space.cpp:511-512, 560-567`). -/
def RefMaps.flat (m : RefMaps) : List LocalDof := flatLocalDofs m.maps.local2global

/-! ### The space of constants -/

/-- `UnitScalarSpace::assignDofsImpl` (`unit_scalar_space.cpp:102-131`). -/
def assignUnit (v : View) : DofMaps :=
  let r := v.elems.foldl (fun (st : List (List Int) × List LocalDof) e => (st.1.set e.index [0], st.2 ++ [⟨e.index, 0⟩]))
    (List.replicate (v.count 0) [], [])
  ⟨r.1, [r.2]⟩

/-- `UnitScalarSpace::flatLocal2localDofs` and `flatLocalDofCount` (`unit_scalar_space.cpp:138-141, 159-167`). -/
def unitFlat (v : View) : List LocalDof := (List.range (v.count 0)).map fun i => ⟨i, 0⟩

/-- What the mapping to flat local dofs reads from the space of constants. -/
def unitQueries (v : View) : SpaceQueries := ⟨v.count 0, (assignUnit v).getGlobalDofs, v.count 0, (assignUnit v).globalDofCount⟩

end Verif.Space
