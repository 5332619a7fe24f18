import Verif.Model.Space
import Verif.Model.GridFactory
/-
Model of the spaces that live on the barycentric refinement of a grid (`lib/space/*_barycentric.cpp`,
`lib/space/piecewise_constant_dual_grid_scalar_space.cpp`) and of their shape functions
(`lib/fiber/linear_scalar_shapeset_barycentric.hpp`, `lib/fiber/raviart_thomas_0_shapeset_barycentric.hpp`).
-/
namespace Verif.Space
open Verif.Grid

/-- `enum BasisType { TYPE1, TYPE2 }` (`linear_scalar_shapeset_barycentric.hpp:34`,
`raviart_thomas_0_shapeset_barycentric.hpp:34`). -/
inductive BaryType where
  | TYPE1
  | TYPE2
deriving DecidableEq, Repr

/-- The common loop "for each element of the coarse view, for `i = 0..5`: `sonIndex = m_sonMap(ent0Number, i)`"
(`piecewise_linear_continuous_scalar_space_barycentric.cpp:197-206` and the same lines of the other files).
A loop step is presented to `writeElements` as an element whose `index` is the son index, whose `domain` is
the son number `i` and whose `sub` is the list `fatherData` computed from the father and its position in the
iteration.  `fineCount` is `this->gridView().entityCount(0)`. -/
def sonLoop (coarse : View) (fineCount : Nat) (sonMap : Nat → Nat → Nat)
    (fatherData : Elem → Nat → List Nat) : View where
  dim := coarse.dim
  count := fun c => if c = 0 then fineCount else coarse.count c
  elems := coarse.elems.zipIdx.flatMap fun p => (List.range 6).map fun (i : Nat) =>
    { index := sonMap p.1.index i, domain := (i : Int), sub := fun _ => fatherData p.1 p.2,
      facetChildren := fun _ _ => [] }

/-- `element2Basis` (`piecewise_linear_continuous_scalar_space_barycentric.cpp:189-194`; same table in all
barycentric spaces). -/
def element2Basis (i j : Nat) : Nat :=
  (([[0, 1, 2], [0, 1, 2], [2, 0, 1], [2, 0, 1], [1, 2, 0], [1, 2, 0]] : List (List Nat)).getD i []).getD j 0

/-- `if (i % 2 == 0) TYPE1 else TYPE2`
(`piecewise_linear_continuous_scalar_space_barycentric.cpp:208-212`). -/
def typeOfSon (i : Int) : BaryType := if i % 2 = 0 then .TYPE1 else .TYPE2

/-- `m_elementIndex2Type`: value-initialised by `resize` (TYPE1), then written for every son
(`piecewise_linear_continuous_scalar_space_barycentric.cpp:187, 208-212`). -/
def sonTypes (loop : View) : List BaryType :=
  loop.elems.foldl (fun (l : List BaryType) e => l.set e.index (typeOfSon e.domain))
    (List.replicate (loop.count 0) .TYPE1)

/-- `shapeset(element)` chooses by the type of the element
(`piecewise_linear_continuous_scalar_space_barycentric.cpp:241-252`). -/
def shapesetType (types : List BaryType) (elementIndex : Nat) : BaryType := types.getD elementIndex .TYPE1

/-- Loop over `j` (`piecewise_linear_continuous_scalar_space_barycentric.cpp:218-227`): the dof of the `j`-th
entry of the father's list goes to local dof `element2Basis[i][j]`. -/
def baryP1Writes (e : Elem) : List (Nat × Int) :=
  (List.range 3).map fun j => (element2Basis e.domain.toNat j, (((e.sub 2).getD j 0 : Nat) : Int))

/-- `PiecewiseLinearContinuousScalarSpaceBarycentric::initialize` and `assignDofsImpl`
(`piecewise_linear_continuous_scalar_space_barycentric.cpp:92-101, 163-237`).  `globalDofIndices[v] = v`; the
segment is not used.  Returns the maps and the element types. -/
def assignP1Bary (coarse : View) (fineCount : Nat) (sonMap : Nat → Nat → Nat) (_s : GridSegment)
    (_strict : Bool) : Except SpaceThrows (DofMaps × List BaryType) :=
  if coarse.dim ≠ 1 ∧ coarse.dim ≠ 2 then .error .invalidArgument
  else
    let loop := sonLoop coarse fineCount sonMap fun e _ => e.sub coarse.dim
    .ok (writeElements loop (coarse.count coarse.dim) (fun _ => 3) baryP1Writes, sonTypes loop)

/-- `PiecewiseLinearDiscontinuousScalarSpaceBarycentric::assignDofsImpl`
(`piecewise_linear_discontinuous_scalar_space_barycentric.cpp:167-245`): three dofs for each coarse element in
iteration order. -/
def assignP1DiscBary (coarse : View) (fineCount : Nat) (sonMap : Nat → Nat → Nat) (_s : GridSegment)
    (_strict : Bool) : Except SpaceThrows (DofMaps × List BaryType) :=
  if coarse.dim ≠ 1 ∧ coarse.dim ≠ 2 then .error .invalidArgument
  else
    let loop := sonLoop coarse fineCount sonMap fun _ n => [3 * n, 3 * n + 1, 3 * n + 2]
    .ok (writeElements loop (3 * coarse.count 0) (fun _ => 3) baryP1Writes, sonTypes loop)

/-- `PiecewiseConstantScalarSpaceBarycentric::assignDofsImpl`
(`piecewise_constant_scalar_space_barycentric.cpp:152-199`). -/
def assignP0Bary (coarse : View) (fineCount : Nat) (sonMap : Nat → Nat → Nat) (_s : GridSegment) : DofMaps :=
  writeElements (sonLoop coarse fineCount sonMap fun e _ => [e.index]) (coarse.count 0) (fun _ => 1)
    fun e => [(0, (((e.sub 0).getD 0 0 : Nat) : Int))]

/-- `PiecewiseConstantDualGridScalarSpace::assignDofsImpl`
(`piecewise_constant_dual_grid_scalar_space.cpp:176-220`): son `i` carries the dof of corner `i / 2` of its
father. -/
def assignP0Dual (coarse : View) (fineCount : Nat) (sonMap : Nat → Nat → Nat) : DofMaps :=
  writeElements (sonLoop coarse fineCount sonMap fun e _ => e.sub coarse.dim) (coarse.count coarse.dim)
    (fun _ => 1) fun e => [(0, (((e.sub 2).getD (e.domain.toNat / 2) 0 : Nat) : Int))]

/-! ### Shape functions -/

variable {K : Type} [Field K]

/-- `Dune::P1LocalBasis` on the reference triangle (used through `PiecewiseLinearContinuousScalarBasis<3>`). -/
def p1Shape (k : Nat) (p : K × K) : K := if k = 0 then 1 - p.1 - p.2 else if k = 1 then p.1 else p.2

/-- Derivative of `p1Shape k` in direction `d` (`Dune::P1LocalBasis::evaluateJacobian`). -/
def p1Deriv (k d : Nat) : K := if k = 0 then -1 else if k = 1 then (if d = 0 then 1 else 0) else
  if d = 0 then 0 else 1

/-- `coeffs[type_index]` (`linear_scalar_shapeset_barycentric.hpp:52-54`). -/
def linearCoeffs (t : BaryType) (dof j : Nat) : K :=
  ((match t with
    | .TYPE1 => ([[1, 1 / 3, 1 / 2], [0, 1 / 3, 0], [0, 1 / 3, 1 / 2]] : List (List K))
    | .TYPE2 => [[1, 1 / 2, 1 / 3], [0, 1 / 2, 1 / 3], [0, 0, 1 / 3]]).getD dof []).getD j 0

/-- `LinearScalarShapesetBarycentric::evaluate`, values of one function
(`linear_scalar_shapeset_barycentric.hpp:64-72, 89-97`: the branches for one and for all dofs compute the same
sums). -/
def linearBaryShape (t : BaryType) (dof : Nat) (p : K × K) : K :=
  (List.range 3).foldl (fun acc j => acc + linearCoeffs t dof j * p1Shape j p) 0

/-- The same for derivatives (`linear_scalar_shapeset_barycentric.hpp:73-85, 100-112`). -/
def linearBaryDeriv (t : BaryType) (dof d : Nat) : K :=
  (List.range 3).foldl (fun acc j => acc + linearCoeffs t dof j * p1Deriv j d) 0

end Verif.Space
