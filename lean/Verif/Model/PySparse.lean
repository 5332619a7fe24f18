import Verif.Model.LocalOperators
import Verif.Model.PySpace
/-
Model of sparse operators made from functors in Python: python/bempp/api/assembly/functors.py,
python/bempp/api/operators/boundary/sparse.py, cython/bempp/core/fiber/shape_transformation_functors.*,
local_integrand_functors.*, cython/bempp/core/assembly/assembly_from_functors.hpp and
general_elementary_local_operator_imp.hpp.
-/
namespace Verif.LocalOps
open Verif.Grid Verif.Shape Verif.SingleQuad Verif.HMat
noncomputable section

/-- The functions of `functors.py:24-107` that make a functor acting on shape functions. -/
inductive FunctorName where
  | scalar_function_value_functor
  | scalar_function_value_times_normal_functor
  | surface_gradient_functor
  | surface_divergence_functor
  | vector_surface_curl_functor
  | hdiv_function_value_functor
  | hcurl_function_value_functor
  | scalar_surface_curl_functor
deriving DecidableEq, Repr

/-- The C++ functor in the container that such a function makes (`shape_transformation_functors.pyx:48-95`,
`shape_transformation_functors.hpp:135-222`).  A container forwards every call to it (`:85-128`). -/
def FunctorName.container : FunctorName → Transformation
  | .scalar_function_value_functor => scalarValueT
  | .scalar_function_value_times_normal_functor => valueTimesNormalT
  | .surface_gradient_functor => surfaceGradT
  | .surface_divergence_functor => surfaceDivT
  | .vector_surface_curl_functor => surfaceCurlT
  | .hdiv_function_value_functor => hdivT
  | .hcurl_function_value_functor => hcurlT
  | .scalar_surface_curl_functor => hcurlSurfaceCurlT

/-- The functions of `functors.py:109-160` that make an integrand. -/
inductive IntegrandName where
  | simple_test_trial_integrand_functor
  | single_component_test_trial_integrand_functor (test_component trial_component : Nat)
  | maxwell_test_trial_integrand_functor
deriving DecidableEq, Repr

/-- The C++ functor in the container (`local_integrand_functors.pyx:24-42`, `local_integrand_functors.hpp:91-121`). -/
def IntegrandName.container : IntegrandName → IntegrandFunctor
  | .simple_test_trial_integrand_functor => simpleFunctor
  | .single_component_test_trial_integrand_functor a b => singleComponentFunctor a b
  | .maxwell_test_trial_integrand_functor => maxwellFunctor

/-- `operator_from_functors` (`sparse.py:5-30`, `abstract_boundary_operator.pyx:134-152`, `assembly_from_functors.hpp:12-30`,
`general_elementary_local_operator_imp.hpp`): what the local operator consists of.  (The spaces give the shapesets; label, symmetry and
parameters do not enter the local matrices.) -/
def operator_from_functors (test_functor trial_functor : FunctorName) (integrand_functor : IntegrandName) : Operator :=
  ⟨test_functor.container, trial_functor.container, integrand_functor.container⟩

/-- `evaluation_functor` of a space (`space.py`, modelled in `Verif.PySpace`). -/
def evaluation_functor : PySpace.Functor → FunctorName
  | .scalar => .scalar_function_value_functor
  | .hdiv => .hdiv_function_value_functor
  | .hcurl => .hcurl_function_value_functor

/-- `identity` (`sparse.py:33-63`) for spaces with the given evaluation functors. -/
def identity (domain dual_to_range : PySpace.Functor) : Operator :=
  operator_from_functors (evaluation_functor dual_to_range) (evaluation_functor domain) .simple_test_trial_integrand_functor

/-- `_maxwell_identity` (`sparse.py:65-97`). -/
def maxwell_identity (domain dual_to_range : PySpace.Functor) : Operator :=
  operator_from_functors (evaluation_functor dual_to_range) (evaluation_functor domain) .maxwell_test_trial_integrand_functor

/-- `laplace_beltrami` (`sparse.py:99-137`). -/
def laplace_beltrami : Operator :=
  operator_from_functors .surface_gradient_functor .surface_gradient_functor .simple_test_trial_integrand_functor

/-- `CURL_OP[i]` in the hypersingular operators with `use_slp` (`laplace.py:294-301`, `modified_helmholtz.py:311-318`). -/
def curl_value_op (i : Nat) : Operator :=
  operator_from_functors .scalar_function_value_functor .vector_surface_curl_functor (.single_component_test_trial_integrand_functor 0 i)

/-- `VALUE_TIMES_NORMAL[i]` (`modified_helmholtz.py:321-328`). -/
def normal_op (i : Nat) : Operator :=
  operator_from_functors .scalar_function_value_functor .scalar_function_value_times_normal_functor
    (.single_component_test_trial_integrand_functor 0 i)

/-- `Nedelec0Shapeset<3, …>` (`nedelec_0_shapeset.hpp:50-88`). -/
def nedelecShapeset : Shapeset := ⟨3, 1, Verif.Space.ncShape⟩

end
end Verif.LocalOps
