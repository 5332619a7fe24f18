import Verif.Model.LocalOperators
import Verif.Model.PyGridFunction
import Verif.Spec.SpaceBarycentric
/-
Model of the evaluation, integration and norms of grid functions: python/bempp/api/assembly/grid_function.py:219-397,
cython/bempp/core/space/local_evaluator.hpp, space.pyx:132-148 and evaluate_local_surface_gradient_ext at its end.
Real and complex numbers instead of floating point.  `rule` stands for `gauss_triangle_points_and_weights(accuracy_order)`
(gauss_rules.py: `fillSingle 3 accuracy_order`, C75).  An array of values of a function at points is modelled as a function of the
point, since the code treats the points independently.
-/
namespace Verif.GridEval
open Verif.Grid Verif.Shape Verif.SingleQuad Verif.LocalOps Verif.PyOp
noncomputable section

/-- What the methods read of a space: `get_global_dofs(element, dof_weights=True)` (`space.pyx:100-123`), `shapeset(element)` and
`basisFunctionValue()`, whose result dimension is `codomainDimension()`. -/
structure FunSpace where
  gdofs : Nat → List Int
  weights : Nat → List ℝ
  shapeset : Nat → Shapeset
  value : Transformation

/-- A grid function: `space`, `coefficients` and whether `dtype` is complex. -/
structure GridFun where
  space : FunSpace
  coefficients : List ℂ
  complex : Bool

/-- `dof_values` (`grid_function.py:224-229`, `:267-272`): a negative dof has the value 0; `IndexError` for a dof that does not exist,
`ValueError` for arrays of different lengths. -/
def GridFun.dofValues (f : GridFun) (e : Nat) : Res (List ℂ) :=
  match (f.space.gdofs e).mapM fun d => if 0 ≤ d then f.coefficients[d.toNat]? else some 0 with
  | none => .error .IndexError
  | some l =>
    if l.length = (f.space.weights e).length then .ok (List.zipWith (fun c (w : ℝ) => c * (w : ℂ)) l (f.space.weights e))
    else .error .ValueError

/-- The loops of `evaluateLocalBasis` and `evaluateSurfaceGradients` (`local_evaluator.hpp:46-57`, `:98-109`) for one component and one
point, with `ValueType = K`; `blank` is the content of a new `GeometricalData`.  The result of `getData` is used only through the
transformation.  (A missing coefficient counts as 0; reading it is undefined in the code.) -/
def evaluateLocal {K : Type} [CommRing K] (ι : ℝ → K) (T : Transformation) (s : Shapeset) (geom : GeomDeps → GeomData → GeomData)
    (blank : GeomData) (coeffs : List K) (p : ℝ × ℝ) (d : Nat) : K :=
  (List.range s.size).foldl (fun v f => v + ι (T.evaluate (s.shape f p) (geom T.deps blank) d) * coeffs.getD f 0) 0

open Classical in
/-- `evaluate_local_basis` (`space.pyx:132-148`) and `evaluate_local_surface_gradient_ext`: real arithmetic if all coefficients are
real.  The result: whether the array is complex, and the value at each point. -/
def evaluateBasis (T : Transformation) (s : Shapeset) (mesh : Mesh) (blank : GeomData) (e : Nat) (k : List ℂ) :
    Bool × (ℝ × ℝ → Nat → ℂ) :=
  if ∀ z ∈ k, z.im = 0 then
    (false, fun p d => ((evaluateLocal id T s (mesh.getData e p) blank (k.map Complex.re) p d : ℝ) : ℂ))
  else (true, fun p d => evaluateLocal Complex.ofReal T s (mesh.getData e p) blank k p d)

/-- `GridFunction.evaluate` (`grid_function.py:219-231`). -/
def GridFun.evaluate (f : GridFun) (mesh : Mesh) (blank : GeomData) (e : Nat) : Res (Bool × (ℝ × ℝ → Nat → ℂ)) :=
  (f.dofValues e).map (evaluateBasis f.space.value (f.space.shapeset e) mesh blank e)

/-- `GridFunction.evaluate_surface_gradient` (`grid_function.py:262-275`) with `space.py:103-118`. -/
def GridFun.evaluateSurfaceGradient (f : GridFun) (mesh : Mesh) (blank : GeomData) (e : Nat) : Res (Bool × (ℝ × ℝ → Nat → ℂ)) :=
  match f.dofValues e with
  | .error x => .error x
  | .ok k =>
    if f.space.value.dim > 1 then .error .ValueError
    else .ok (evaluateBasis surfaceGradT (f.space.shapeset e) mesh blank e k)

/-- `evaluate_on_element_centers` (`grid_function.py:233-247`): the columns of the array. -/
def GridFun.onElementCenters (f : GridFun) (mesh : Mesh) (blank : GeomData) (v : View) : Res (List (Nat → ℂ)) :=
  v.elems.foldlM (fun (values : List (Nat → ℂ)) e =>
    (f.evaluate mesh blank e.index).map fun r => values.set e.index (r.2 (1 / 3, 1 / 3))) (List.replicate (v.count 0) fun _ => 0)

/-- Column `i` of `local_coordinates` (`grid_function.py:254`). -/
def cornerPoint (i : Nat) : ℝ × ℝ := if i = 0 then (0, 0) else if i = 1 then (1, 0) else (0, 1)

/-- `evaluate_on_vertices` (`grid_function.py:249-260`): the columns of the array. -/
def GridFun.onVertices (f : GridFun) (mesh : Mesh) (blank : GeomData) (v : View) : Res (List (Nat → ℂ)) :=
  v.elems.foldlM (fun (values : List (Nat → ℂ)) e =>
    (f.evaluate mesh blank e.index).map fun r =>
      (List.range 3).foldl (fun values i => values.set ((e.sub 2).getD i 0) (r.2 (cornerPoint i))) values)
    (List.replicate (v.count 2) fun _ => 0)

/-- `element.geometry.integration_elements(points)` (`geometry.pyx:13-21`) at one point. -/
def integrationElementAt (mesh : Mesh) (blank : GeomData) (e : Nat) (p : ℝ × ℝ) : ℝ :=
  (mesh.getData e p { integrationElements := true } blank).integrationElement

/-- `integrate` (`grid_function.py:277-296`); `elements` is `element_list`.  `res` is a real array with one column to which the sum over
the points is added in place: complex sums cannot be cast (`TypeError`), those with several components cannot be broadcast
(`ValueError`).  The result for one component. -/
def GridFun.integrate (f : GridFun) (mesh : Mesh) (blank : GeomData) (rule : List QPoint) (elements : List Nat) : Res ℝ :=
  elements.foldlM (fun (res : ℝ) e =>
    match f.evaluate mesh blank e with
    | .error x => .error x
    | .ok r =>
      if r.1 = true then .error .TypeError
      else if f.space.value.dim ≠ 1 then .error .ValueError
      else .ok (res + (rule.map fun q => (r.2 (q.x, q.y) 0).re * q.w * integrationElementAt mesh blank e (q.x, q.y)).sum)) 0

/-- `np.sum(np.abs(values)**2, axis=0)` at one point. -/
def sumSquares (dim : Nat) (values : Nat → ℂ) : ℝ := ((List.range dim).map fun d => ‖values d‖ ^ 2).sum

/-- `np.sqrt` (`none`: not a number). -/
def npSqrt (x : ℝ) : Option ℝ := if 0 ≤ x then some (Real.sqrt x) else none

/-- `surface_grad_norm` (`grid_function.py:298-319`). -/
def GridFun.surfaceGradNorm (f : GridFun) (mesh : Mesh) (blank : GeomData) (rule : List QPoint) (elements : List Nat) :
    Res (Option ℝ) :=
  (elements.foldlM (fun (res : ℝ) e =>
    (f.evaluateSurfaceGradient mesh blank e).map fun r =>
      res + (rule.map fun q => sumSquares 3 (r.2 (q.x, q.y)) * q.w * integrationElementAt mesh blank e (q.x, q.y)).sum) 0).map npSqrt

/-- `l2_norm(element)` (`grid_function.py:335-351`); without an element it uses the mass matrix (C85). -/
def GridFun.l2NormElement (f : GridFun) (mesh : Mesh) (blank : GeomData) (rule : List QPoint) (e : Nat) : Res (Option ℝ) :=
  (f.evaluate mesh blank e).map fun r =>
    npSqrt (0 + (rule.map fun q =>
      sumSquares f.space.value.dim (r.2 (q.x, q.y)) * q.w * integrationElementAt mesh blank e (q.x, q.y)).sum)

/-- `fun_vals[:, j] = fun(…)` (`grid_function.py:385-389`) where `fun` returns an array: the type of the array is that of the grid
function, so for a real grid function the imaginary part is discarded (with a warning). -/
def GridFun.stored (f : GridFun) (z : ℂ) : ℂ := if f.complex = true then z else (z.re : ℂ)

/-- `relative_error` (`grid_function.py:354-397`); `local2global` is the geometry, `none`: the quotient is infinite or not a number. -/
def GridFun.relativeError (f : GridFun) (mesh : Mesh) (local2global : Nat → ℝ × ℝ → P3 ℝ) (blank : GeomData) (rule : List QPoint)
    (func : P3 ℝ → Nat → ℂ) (elements : List Nat) : Res (Option ℝ) :=
  (elements.foldlM (fun (acc : ℝ × ℝ) e =>
    (f.evaluate mesh blank e).map fun r =>
      (acc.1 + (rule.map fun q =>
        sumSquares f.space.value.dim (fun d => r.2 (q.x, q.y) d - f.stored (func (local2global e (q.x, q.y)) d)) *
          integrationElementAt mesh blank e (q.x, q.y) * q.w).sum,
       acc.2 + (rule.map fun q =>
        sumSquares f.space.value.dim (fun d => f.stored (func (local2global e (q.x, q.y)) d)) *
          integrationElementAt mesh blank e (q.x, q.y) * q.w).sum)) (0, 0)).map fun acc =>
    if acc.2 = 0 then none else npSqrt (acc.1 / acc.2)

end
end Verif.GridEval
