import Verif.Model.Inside
import Mathlib.Analysis.Real.Sqrt
/-
Model of the geometrical data of a flat triangle in space (`lib/grid/concrete_geometry.hpp`) and of the shape function
transformations of `lib/fiber/*_functor.hpp`.  Values are real; for complex values the transformations, which are
linear with real coefficients, act on the real and imaginary parts separately.  Real numbers instead of floating point.
-/
namespace Verif.Shape
open Verif.Grid
noncomputable section

/-- The geometrical data at one point (`GeometricalData`, `geometrical_data.hpp:53-61`): `jt0 r = jacobianTransposed(0, r)`,
`jit0 r = jacobianInverseTransposed(r, 0)`, and so on.  (`globals` and `domainIndex` are not used by the transformations.) -/
structure GeomData where
  jt0 : P3 ℝ
  jt1 : P3 ℝ
  jit0 : P3 ℝ
  jit1 : P3 ℝ
  integrationElement : ℝ
  normal : P3 ℝ

/-- `GeometricalDataType` (`geometrical_data.hpp:34-41`) as a set of bits; `globals` and the domain index are left out. -/
structure GeomDeps where
  integrationElements : Bool := false
  normals : Bool := false
  jacobiansTransposed : Bool := false
  jacobianInversesTransposed : Bool := false

/-- Combination of dependencies, `geomDeps |= …`. -/
def GeomDeps.or (a b : GeomDeps) : GeomDeps :=
  ⟨a.integrationElements || b.integrationElements, a.normals || b.normals,
    a.jacobiansTransposed || b.jacobiansTransposed, a.jacobianInversesTransposed || b.jacobianInversesTransposed⟩

/-- Dune's affine geometry of the triangle with corners `A, B, C` (external, trusted): the rows of the transposed Jacobian
are the edges from corner 0 to corners 1 and 2. -/
def jacobianTransposed (A B C : P3 ℝ) : P3 ℝ × P3 ℝ := (B.sub A, C.sub A)

/-- Dune's `integrationElement` (external, trusted): `√ det (J Jᵀ)`.  `ConcreteGeometry::getIntegrationElements` copies it. -/
def integrationElement (j : P3 ℝ × P3 ℝ) : ℝ :=
  Real.sqrt (j.1.dot j.1 * j.2.dot j.2 - j.1.dot j.2 * j.1.dot j.2)

/-- Dune's `jacobianInverseTransposed` (external, trusted): the columns of the right inverse `Jᵀ (J Jᵀ)⁻¹` of the transposed
Jacobian. -/
def jacobianInverseTransposed (j : P3 ℝ × P3 ℝ) : P3 ℝ × P3 ℝ :=
  let g00 := j.1.dot j.1
  let g01 := j.1.dot j.2
  let g11 := j.2.dot j.2
  let det := g00 * g11 - g01 * g01
  (⟨(g11 * j.1.x - g01 * j.2.x) / det, (g11 * j.1.y - g01 * j.2.y) / det, (g11 * j.1.z - g01 * j.2.z) / det⟩,
   ⟨(g00 * j.2.x - g01 * j.1.x) / det, (g00 * j.2.y - g01 * j.1.y) / det, (g00 * j.2.z - g01 * j.1.z) / det⟩)

/-- `calculateNormals` for `cdim == 3` (`concrete_geometry.hpp:409-454`). -/
def calculateNormals (jt0 jt1 : P3 ℝ) : P3 ℝ :=
  let n : P3 ℝ := ⟨jt0.y * jt1.z - jt0.z * jt1.y, jt0.z * jt1.x - jt0.x * jt1.z, jt0.x * jt1.y - jt0.y * jt1.x⟩
  let sum := 0 + n.x * n.x + n.y * n.y + n.z * n.z
  let invLength := 1 / Real.sqrt sum
  ⟨n.x * invLength, n.y * invLength, n.z * invLength⟩

/-- `calculateNormals` for `cdim == 2` (`concrete_geometry.hpp:432-436, 446-453`), `jt = (jt(0,0), jt(0,1))`. -/
def calculateNormals2 (jt : ℝ × ℝ) : ℝ × ℝ :=
  let n : ℝ × ℝ := (jt.2, jt.1)
  let sum := 0 + n.1 * n.1 + n.2 * n.2
  let invLength := 1 / Real.sqrt sum
  (n.1 * invLength, n.2 * invLength)

/-- `getDataImpl` at one point (`concrete_geometry.hpp:385-407`): only the requested data are written. -/
def getData (A B C : P3 ℝ) (what : GeomDeps) (old : GeomData) : GeomData :=
  let j := jacobianTransposed A B C
  let d := old
  let d := if what.integrationElements then { d with integrationElement := integrationElement j } else d
  let d := if what.jacobiansTransposed || what.normals then { d with jt0 := j.1, jt1 := j.2 } else d
  let d := if what.jacobianInversesTransposed then
    { d with jit0 := (jacobianInverseTransposed j).1, jit1 := (jacobianInverseTransposed j).2 } else d
  if what.normals then { d with normal := calculateNormals d.jt0 d.jt1 } else d

/-- Values and derivatives of one shape function at one point: `v0, v1 = values(0), values(1)`,
`dij = derivatives(i, j)` (component `i`, direction `j`).  Scalar functions use `v0`, `d00`, `d01`. -/
structure BasisAt where
  v0 : ℝ
  v1 : ℝ
  d00 : ℝ
  d01 : ℝ
  d10 : ℝ
  d11 : ℝ

/-! ### The functors -/

/-- `HdivFunctionValueElementaryFunctor::evaluate` (`hdiv_function_value_functor.hpp:45-55`). -/
def hdivValue (b : BasisAt) (g : GeomData) : P3 ℝ :=
  ⟨(g.jt0.x * b.v0 + g.jt1.x * b.v1) / g.integrationElement,
   (g.jt0.y * b.v0 + g.jt1.y * b.v1) / g.integrationElement,
   (g.jt0.z * b.v0 + g.jt1.z * b.v1) / g.integrationElement⟩

/-- Its dependencies (`hdiv_function_value_functor.hpp:40-43`). -/
def hdivValueDeps : GeomDeps := { integrationElements := true, jacobiansTransposed := true }

/-- `HcurlFunctionValueElementaryFunctor::evaluate` (`hcurl_function_value_functor.hpp:45-55`). -/
def hcurlValue (b : BasisAt) (g : GeomData) : P3 ℝ :=
  ⟨g.jit0.x * b.v0 + g.jit1.x * b.v1, g.jit0.y * b.v0 + g.jit1.y * b.v1, g.jit0.z * b.v0 + g.jit1.z * b.v1⟩

/-- Its dependencies (`hcurl_function_value_functor.hpp:40-43`). -/
def hcurlValueDeps : GeomDeps := { jacobianInversesTransposed := true }

/-- `SurfaceDiv3dElementaryFunctor::evaluate` (`surface_div_3d_functor.hpp:47-54`). -/
def surfaceDiv (b : BasisAt) (g : GeomData) : ℝ := (b.d00 + b.d11) / g.integrationElement

/-- Its dependencies (`surface_div_3d_functor.hpp:42-45`). -/
def surfaceDivDeps : GeomDeps := { integrationElements := true }

/-- `SurfaceGrad3dElementaryFunctor::evaluate` (`surface_grad_3d_functor.hpp:47-64`). -/
def surfaceGrad (b : BasisAt) (g : GeomData) : P3 ℝ :=
  ⟨b.d00 * g.jit0.x + b.d01 * g.jit1.x, b.d00 * g.jit0.y + b.d01 * g.jit1.y, b.d00 * g.jit0.z + b.d01 * g.jit1.z⟩

/-- Its dependencies (`surface_grad_3d_functor.hpp:42-45`). -/
def surfaceGradDeps : GeomDeps := { jacobianInversesTransposed := true }

/-- `SurfaceCurl3dElementaryFunctor::evaluate` (`surface_curl_3d_functor.hpp:47-70`). -/
def surfaceCurl (b : BasisAt) (g : GeomData) : P3 ℝ :=
  let vec : P3 ℝ := ⟨b.d00 * g.jit0.x + b.d01 * g.jit1.x, b.d00 * g.jit0.y + b.d01 * g.jit1.y,
    b.d00 * g.jit0.z + b.d01 * g.jit1.z⟩
  ⟨g.normal.y * vec.z - g.normal.z * vec.y, g.normal.z * vec.x - g.normal.x * vec.z,
    g.normal.x * vec.y - g.normal.y * vec.x⟩

/-- Its dependencies (`surface_curl_3d_functor.hpp:42-45`). -/
def surfaceCurlDeps : GeomDeps := { normals := true, jacobianInversesTransposed := true }

/-- A 3x3 matrix given by its rows. -/
structure Mat3 where
  r0 : P3 ℝ
  r1 : P3 ℝ
  r2 : P3 ℝ

/-- `ElementaryHcurlSurfaceCurlFunctor::evaluate` (`hcurl_surface_curl_functor.hpp:46-79`):
`derivative = jit * referenceDerivative * jitᵀ`, then the normal component of its curl. -/
def hcurlSurfaceCurl (b : BasisAt) (g : GeomData) : ℝ :=
  let row (p q : ℝ) : P3 ℝ :=   -- the row of the product with entries p, q in the corresponding row of jit
    let m0 := p * b.d00 + q * b.d10
    let m1 := p * b.d01 + q * b.d11
    ⟨m0 * g.jit0.x + m1 * g.jit1.x, m0 * g.jit0.y + m1 * g.jit1.y, m0 * g.jit0.z + m1 * g.jit1.z⟩
  let derivative : Mat3 := ⟨row g.jit0.x g.jit1.x, row g.jit0.y g.jit1.y, row g.jit0.z g.jit1.z⟩
  let c0 := derivative.r2.y - derivative.r1.z
  let c1 := derivative.r0.z - derivative.r2.x
  let c2 := derivative.r1.x - derivative.r0.y
  c0 * g.normal.x + c1 * g.normal.y + c2 * g.normal.z

/-- Its dependencies (`hcurl_surface_curl_functor.hpp:41-44`). -/
def hcurlSurfaceCurlDeps : GeomDeps := { jacobianInversesTransposed := true, normals := true }

/-- `HdvivToHcurlFunctionValueElementaryFunctor::evaluate` (`hdiv_to_hcurl_function_value_functor.hpp:46-64`).  (The wrapper
below it names the class with a different spelling, so the wrapper cannot be instantiated.) -/
def hdivToHcurl (b : BasisAt) (g : GeomData) : P3 ℝ :=
  let piola : P3 ℝ := ⟨(g.jt0.x * b.v0 + g.jt1.x * b.v1) / g.integrationElement,
    (g.jt0.y * b.v0 + g.jt1.y * b.v1) / g.integrationElement, (g.jt0.z * b.v0 + g.jt1.z * b.v1) / g.integrationElement⟩
  ⟨piola.y * g.normal.z - piola.z * g.normal.y, piola.z * g.normal.x - piola.x * g.normal.z,
    piola.x * g.normal.y - piola.y * g.normal.x⟩

/-- Its dependencies (`hdiv_to_hcurl_function_value_functor.hpp:41-44`). -/
def hdivToHcurlDeps : GeomDeps := { integrationElements := true, jacobiansTransposed := true, normals := true }

/-- `ScalarFunctionValueTimesNormalElementaryFunctor::evaluate` (`scalar_function_value_times_normal_functor.hpp:46-53`). -/
def valueTimesNormal (b : BasisAt) (g : GeomData) : P3 ℝ :=
  ⟨b.v0 * g.normal.x, b.v0 * g.normal.y, b.v0 * g.normal.z⟩

/-- Its dependencies (`scalar_function_value_times_normal_functor.hpp:41-44`). -/
def valueTimesNormalDeps : GeomDeps := { normals := true }

end
end Verif.Shape
