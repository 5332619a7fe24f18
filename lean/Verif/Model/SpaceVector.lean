import Verif.Model.SpaceBarycentric
import Verif.Model.ShapeTransformation
/-
Model of the lowest-order vector spaces on the barycentric refinement (`lib/space/rwg_vector_space_barycentric.cpp`,
`raviart_thomas_0_vector_space_barycentric.cpp`, `nedelec_0_vector_space_barycentric.cpp`,
`scaled_nedelec_0_vector_space_barycentric.cpp`; the four files differ only in the weights, `± length` for RWG and
scaled Nedelec, `± 1` for the others, and in the transformation) and of their shape functions
(`lib/fiber/raviart_thomas_0_shapeset.hpp`, `raviart_thomas_0_shapeset_barycentric.hpp`, `nedelec_0_shapeset.hpp`,
`nedelec_0_shapeset_barycentric.hpp`).
-/
namespace Verif.Space
open Verif.Grid Verif.Shape
noncomputable section

/-! ### Dofs -/

/-- `faceCountNextToEdge` and `lowestIndicesOfElementsAdjacentToEdges` (`rwg_vector_space_barycentric.cpp:194-232`).  The two
loops over the coarse elements are those of the coarse space without any test of the segment; they are modelled by its scan
with no bit of the dof mode set (the field `noneInSegment` is not used). -/
def baryScan (coarse : View) : List EdgeInfo := rwgScan coarse (wholeGrid coarse) ⟨false, false⟩

/-- `globalDofsOfEdges` and `globalDofCount_` (`rwg_vector_space_barycentric.cpp:204-213`). -/
def baryNumbering (coarse : View) (putDofsOnBoundaries : Bool) : List Int × Nat :=
  numberBlocks (fun x : EdgeInfo => if putDofsOnBoundaries ∨ x.adjacent = 2 then 1 else 0) (fun _ => -1)
    (baryScan coarse) 0

/-- The data of the father used by a step of the loop: its three edges and its index
(`rwg_vector_space_barycentric.cpp:295-304`). -/
def vectorFather (e : Elem) (_n : Nat) : List Nat :=
  [(e.sub 1).getD 0 0, (e.sub 1).getD 1 0, (e.sub 1).getD 2 0, e.index]

/-- `edgeIndex = edges[element2Basis[i][j]]` (`rwg_vector_space_barycentric.cpp:317`). -/
def sonEdge (e : Elem) (j : Nat) : Nat := (e.sub 1).getD (element2Basis e.domain.toNat j) 0

/-- The global dofs of a son (`rwg_vector_space_barycentric.cpp:316-346`). -/
def baryVectorWrites (coarse : View) (pb : Bool) (e : Elem) : List (Nat × Int) :=
  (List.range 3).map fun j => (j, (baryNumbering coarse pb).1.getD (sonEdge e j) (-1))

/-- The weights of a son (`rwg_vector_space_barycentric.cpp:338-341`). -/
def baryVectorWeights {W : Type} [Neg W] (coarse : View) (vol : Nat → W) (e : Elem) : List W :=
  (List.range 3).map fun j =>
    if ((baryScan coarse)[sonEdge e j]?.bind (·.lowest)) = some ((e.sub 1).getD 3 0) then vol (sonEdge e j)
    else -vol (sonEdge e j)

/-- The constructor, `initialize` and `assignDofsImpl` (`rwg_vector_space_barycentric.cpp:76-121, 185-355`): dof maps, weights
and element types.  Every son is visited once, so that appending to its empty row is setting the row.  The segment is only
stored. -/
def assignVectorBary {W : Type} [Neg W] (coarse : View) (fineCount : Nat) (sonMap : Nat → Nat → Nat) (_s : GridSegment)
    (mode : DofMode) (pb : Bool) (vol : Nat → W) :
    Except SpaceThrows (DofMaps × List (List W) × List BaryType) :=
  if mode.edgeOnSegment = false ∧ mode.elementOnSegment = false then .error .invalidArgument
  else if coarse.dim ≠ 2 then .error .invalidArgument
  else
    let loop := sonLoop coarse fineCount sonMap vectorFather
    .ok (writeElements loop (baryNumbering coarse pb).2 (fun _ => 3) (baryVectorWrites coarse pb),
      loop.elems.foldl (fun (l : List (List W)) e => l.set e.index (baryVectorWeights coarse vol e))
        (List.replicate fineCount []),
      sonTypes loop)

/-! ### Shape functions -/

/-- `Dune::RT02DLocalBasis` with all signs positive (external, trusted), used by `RaviartThomas0Shapeset<3>`
(`raviart_thomas_0_shapeset.hpp:40-90`): values and derivatives of function `k` at `p`. -/
def rtShape (k : Nat) (p : ℝ × ℝ) : BasisAt :=
  if k = 0 then ⟨p.1, p.2 - 1, 1, 0, 0, 1⟩ else if k = 1 then ⟨p.1 - 1, p.2, 1, 0, 0, 1⟩ else ⟨p.1, p.2, 1, 0, 0, 1⟩

/-- `coeffs[typeIndex]` (`raviart_thomas_0_shapeset_barycentric.hpp:47-49`). -/
def rtCoeffs (t : BaryType) (dof j : Nat) : ℝ :=
  ((match t with
    | .TYPE1 => ([[1 / 3, 0, -1 / 6], [-1 / 3, 1 / 2, 0], [0, 0, 1 / 6]] : List (List ℝ))
    | .TYPE2 => [[1 / 2, -1 / 3, 0], [0, 1 / 3, -1 / 6], [0, 0, 1 / 6]]).getD dof []).getD j 0

/-- Sum of three shape functions with coefficients. -/
def combine (c : Nat → ℝ) (f : Nat → BasisAt) : BasisAt :=
  let sum (g : BasisAt → ℝ) : ℝ := (List.range 3).foldl (fun acc j => acc + c j * g (f j)) 0
  ⟨sum BasisAt.v0, sum BasisAt.v1, sum BasisAt.d00, sum BasisAt.d01, sum BasisAt.d10, sum BasisAt.d11⟩

/-- `RaviartThomas0ShapesetBarycentric::evaluate` (`raviart_thomas_0_shapeset_barycentric.hpp:43-125`). -/
def rtBaryShape (t : BaryType) (dof : Nat) (p : ℝ × ℝ) : BasisAt := combine (rtCoeffs t dof) fun j => rtShape j p

/-- `Nedelec0Shapeset::evaluate` and `Nedelec0ShapesetBarycentric::evaluate` (`nedelec_0_shapeset.hpp:58-88`,
`nedelec_0_shapeset_barycentric.hpp:43-77`): the Raviart-Thomas functions turned by a right angle. -/
def rotate (b : BasisAt) : BasisAt := ⟨-b.v1, b.v0, -b.d10, -b.d11, b.d00, b.d01⟩

/-- `Nedelec0Shapeset`. -/
def ncShape (k : Nat) (p : ℝ × ℝ) : BasisAt := rotate (rtShape k p)

/-- `Nedelec0ShapesetBarycentric`. -/
def ncBaryShape (t : BaryType) (dof : Nat) (p : ℝ × ℝ) : BasisAt := rotate (rtBaryShape t dof p)

end
end Verif.Space
