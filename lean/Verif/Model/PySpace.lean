import Verif.Model.SpacePolyDisc
/-
Model of `function_space` and of the space classes of the Python API (`python/bempp/api/space/space.py`), of the factory function
of the core (`cython/bempp/core/space/space.pyx`), of the factory functions `adaptive…Space` of the library and of the adaptive
space they create (`lib/space/adaptive_space_impl.hpp`, `AdaptiveGridSegmentFactory` of `lib/grid/grid_segment.cpp`).

Grids of the Python layer are objects, given by number; `bary g` is the object that `g.barycentric_grid()` returns (created once,
`python/bempp/api/grid/grid.py:85-89`).  Orders are integers.  Not modelled here: shapesets, caches
(the mass matrices are in the model of C84).
-/
namespace Verif.PySpace
open Verif.Grid Verif.Space

/-- `ValueError`. -/
inductive PyErr where
  | valueError
deriving DecidableEq, Repr

/-! ### Spaces of the library -/

/-- `AdaptiveGridSegmentFactory` (`grid_segment.hpp:157-186`): `m_whole_grid`, `m_domains`, `m_closed` (not set by the first
constructor). -/
structure SegmentFactory where
  wholeGrid : Bool
  domains : List Int
  closed : Bool
deriving DecidableEq, Repr

/-- First constructor (`grid_segment.cpp:357-359`). -/
def SegmentFactory.ofGrid : SegmentFactory := ⟨true, [], false⟩

/-- Third constructor (`grid_segment.cpp:365-368`). -/
def SegmentFactory.ofDomains (domains : List Int) (closed : Bool) : SegmentFactory := ⟨false, domains, closed⟩

/-- `AdaptiveGridSegmentFactory::update` for a leaf view (`grid_segment.cpp:370-377`). -/
def SegmentFactory.update (f : SegmentFactory) (v : View) : GridSegment :=
  if f.wholeGrid then Grid.wholeGrid v
  else if f.closed then closedDomain v f.domains.toFinset else openDomain v f.domains.toFinset

/-- The classes the space factories create, with the parameters the factories keep (`class …Factory` in the files of
`lib/space`). -/
inductive SpaceClass where
  | linearContinuous (strict : Bool)
  | polynomialContinuous (order : Int) (strict : Bool)
  | constant
  | polynomialDiscontinuous (order : Int) (dofMode : Nat)
  | raviartThomas
  | nedelec
  | scaledNedelec
  | rwg
  | constantDual
  | linearContinuousBarycentric
  | linearDiscontinuousBarycentric
  | raviartThomasBarycentric
  | nedelecBarycentric
  | scaledNedelecBarycentric
  | rwgBarycentric
  | buffaChristiansen
  | rotatedBuffaChristiansen
deriving DecidableEq, Repr

/-- `AdaptiveSpace` (`adaptive_space.hpp:180-190`): factory, grid and segment factory. -/
structure Native where
  cls : SpaceClass
  grid : Nat
  segment : SegmentFactory
deriving DecidableEq, Repr

/-- The dofs of the class on a segment of a leaf view; `none` for the classes on the barycentric refinement (C71, C73, C96).
`RWGVectorSpace`, `RaviartThomas0VectorSpace`, `Nedelec0VectorSpace` and `ScaledNedelec0VectorSpace` have the same
`assignDofsImpl` apart from the weights (`raviart_thomas_0_vector_space.cpp:182-336`, `nedelec_0_vector_space.cpp`,
`scaled_nedelec_0_vector_space.cpp`) and the default arguments `putDofsOnBoundaries = false`, `dofMode = EDGE_ON_SEGMENT`
(`rwg_vector_space.hpp:59-64` and the same lines of the others).  The bits of `dofMode` are in `dof_assignment_mode.hpp:28-32`. -/
def SpaceClass.dofs (v : View) (s : GridSegment) : SpaceClass → Option (Except SpaceThrows DofMaps)
  | .linearContinuous strict => some (assignP1 v s strict)
  | .polynomialContinuous order strict => some (assignPoly v s strict order.toNat)
  | .constant => some (.ok (assignP0 v s))
  | .polynomialDiscontinuous order mode =>
    some ((assignPolyDisc v s ⟨mode / 2 % 2 = 1, mode / 4 % 2 = 1⟩ order).map (·.maps))
  | .raviartThomas | .nedelec | .scaledNedelec | .rwg => some (assignRWG v s ⟨true, false⟩ false)
  | _ => none

/-- `m_local2globalDofWeights`: ±1 for Raviart-Thomas and Nedelec functions (`raviart_thomas_0_vector_space.cpp:293-301`), ± the
length of the edge for RWG and scaled Nedelec functions (`rwg_vector_space.cpp:301-309`); `vol f` is the length of edge `f`. -/
def SpaceClass.weights {W : Type} [Neg W] [One W] (v : View) (s : GridSegment) (vol : Nat → W) (e : Elem) : SpaceClass → List W
  | .raviartThomas | .nedelec => rwgWeights v s ⟨true, false⟩ (fun _ => 1) e
  | .scaledNedelec | .rwg => rwgWeights v s ⟨true, false⟩ vol e
  | _ => []

/-- `currentSpace()` for the leaf view of the last update, as its dof maps (`adaptive_space_impl.hpp:55-61, 309-315`). -/
def Native.dofs (n : Native) (v : View) : Option (Except SpaceThrows DofMaps) := n.cls.dofs v (n.segment.update v)

/-- `AdaptiveSpace(factory, grid)` (`adaptive_space_impl.hpp:37-45`). -/
def adaptive (cls : SpaceClass) (grid : Nat) : Native := ⟨cls, grid, .ofGrid⟩

/-- `AdaptiveSpace(factory, grid, domains, closed)` (`adaptive_space_impl.hpp:26-35`); the factory functions call the last
argument `open` and pass it on as `closed`. -/
def adaptiveOn (cls : SpaceClass) (grid : Nat) (domains : List Int) (closed : Bool) : Native :=
  ⟨cls, grid, .ofDomains domains closed⟩

/-- `adaptive…Space(grid)` or `adaptive…Space(grid, domains, closed, …)` (for instance `space.pyx:290-298`). -/
def onDomains (whole part : SpaceClass) (grid : Nat) (domains : Option (List Int)) (closed : Bool) : Native :=
  match domains with
  | none => adaptive whole grid
  | some l => adaptiveOn part grid l closed

/-- Guards of the form `if order != n: raise ValueError` / `if domains is not None: raise ValueError`. -/
def guardWhole (order wanted : Int) (domains : Option (List Int)) (n : Native) : Except PyErr Native :=
  if order ≠ wanted then .error .valueError else if domains.isSome then .error .valueError else .ok n

/-- `function_space` of the core (`space.pyx:214-433`).  With `domains` the second overloads get `strictly_on_segment`
respectively `dof_mode`; without, the first overloads use `false` and `REFERENCE_POINT_ON_SEGMENT`
(`piecewise_linear_continuous_scalar_space.cpp`, `piecewise_polynomial_…_scalar_space.cpp`). -/
def coreFunctionSpace (grid : Nat) (kind : String) (order : Int) (domains : Option (List Int)) (closed strict refPoint onElement : Bool) :
    Except PyErr Native :=
  let dofMode := (if onElement then 2 else 0) + (if refPoint then 4 else 0)
  if dofMode < 2 then .error .valueError
  else if kind = "P" then
    if ¬ (1 ≤ order ∧ order ≤ 10) then .error .valueError
    else if order = 1 then .ok (onDomains (.linearContinuous false) (.linearContinuous strict) grid domains closed)
    else .ok (onDomains (.polynomialContinuous order false) (.polynomialContinuous order strict) grid domains closed)
  else if kind = "DP" then
    if ¬ (0 ≤ order ∧ order ≤ 10) then .error .valueError
    else if order = 0 then .ok (onDomains .constant .constant grid domains closed)
    else .ok (onDomains (.polynomialDiscontinuous order 4) (.polynomialDiscontinuous order dofMode) grid domains closed)
  else if kind = "RT" then
    if order ≠ 0 then .error .valueError else .ok (onDomains .raviartThomas .raviartThomas grid domains closed)
  else if kind = "NC" then
    if order ≠ 0 then .error .valueError else .ok (onDomains .nedelec .nedelec grid domains closed)
  else if kind = "SNC" then
    if order ≠ 0 then .error .valueError else .ok (onDomains .scaledNedelec .scaledNedelec grid domains closed)
  else if kind = "RWG" then
    if order ≠ 0 then .error .valueError else .ok (onDomains .rwg .rwg grid domains closed)
  else if kind = "DUAL" then guardWhole order 0 domains (adaptive .constantDual grid)
  else if kind = "B-P" then guardWhole order 1 domains (adaptive .linearContinuousBarycentric grid)
  else if kind = "B-DP" then guardWhole order 1 domains (adaptive .linearDiscontinuousBarycentric grid)
  else if kind = "B-RT" then guardWhole order 0 domains (adaptive .raviartThomasBarycentric grid)
  else if kind = "B-NC" then guardWhole order 0 domains (adaptive .nedelecBarycentric grid)
  else if kind = "B-SNC" then guardWhole order 0 domains (adaptive .scaledNedelecBarycentric grid)
  else if kind = "B-RWG" then guardWhole order 0 domains (adaptive .rwgBarycentric grid)
  else if kind = "BC" then guardWhole order 0 domains (adaptive .buffaChristiansen grid)
  else if kind = "RBC" then guardWhole order 0 domains (adaptive .rotatedBuffaChristiansen grid)
  else .error .valueError

/-! ### Spaces of the Python API -/

/-- `comp_key` (`space.py:786-795`). -/
structure Key where
  grid : Nat
  kind : String
  order : Int
  domains : Option (List Int)
  closed : Bool
  strict : Bool
  refPoint : Bool
  onElement : Bool
deriving DecidableEq, Repr

/-- Arguments of `function_space` (`space.py:690-698`). -/
structure Args where
  grid : Nat
  kind : String
  order : Int
  domains : Option (List Int) := none
  closed : Bool := true
  strict : Bool := false
  refPoint : Bool := true
  onElement : Bool := false
deriving DecidableEq, Repr

/-- `sorted` of Python. -/
def sorted (l : List Int) : List Int := l.mergeSort (fun a b => decide (a ≤ b))

/-- The key made by `function_space` (`space.py:786-795`). -/
def Args.key (a : Args) : Key :=
  ⟨a.grid, a.kind, a.order, a.domains.map sorted, a.closed, a.strict, a.refPoint, a.onElement⟩

/-- The functors that map shape functions to the element (`_evaluation_functor`). -/
inductive Functor where
  | scalar
  | hdiv
  | hcurl
deriving DecidableEq, Repr

/-- Data of a space object: `_impl`, `_comp_key` (`None` if not given), `_order`, `_has_non_barycentric_space`,
`_is_barycentric`, `_grid`, `_evaluation_functor`. -/
structure Data where
  impl : Native
  key : Option Key
  order : Int
  hasNonBarycentric : Bool
  isBarycentric : Bool
  grid : Nat
  functor : Functor
deriving DecidableEq, Repr

mutual
/-- A space object with the attributes `_non_barycentric_space`, `_discontinuous_space`, `_super_space`, `_hdiv_space`. -/
inductive PySpace where
  | mk (data : Data) (nonBarycentric discontinuous super hdiv : Link)
/-- An attribute: the object itself, `None` or not set, or another space. -/
inductive Link where
  | self
  | none
  | to (s : PySpace)
end

/-- The data of a space. -/
def PySpace.data : PySpace → Data | .mk d _ _ _ _ => d

/-- Reading an attribute. -/
def Link.get (owner : PySpace) : Link → Option PySpace
  | .self => some owner
  | .none => Option.none
  | .to s => some s

/-- `non_barycentric_space` (`space.py:208-210`). -/
def PySpace.nonBarycentric (s : PySpace) : Option PySpace := match s with | .mk _ l _ _ _ => l.get s
/-- `discontinuous_space` (`space.py:181-184`). -/
def PySpace.discontinuous (s : PySpace) : Option PySpace := match s with | .mk _ _ l _ _ => l.get s
/-- `super_space` (`space.py:217-229`). -/
def PySpace.super (s : PySpace) : Option PySpace := match s with | .mk _ _ _ l _ => l.get s
/-- `_hdiv_space`. -/
def PySpace.hdiv (s : PySpace) : Option PySpace := match s with | .mk _ _ _ _ l => l.get s

/-- `==` of spaces: their keys (`space.py:57-61`). -/
def PySpace.eq (s t : PySpace) : Bool := decide (s.data.key = t.data.key)

/-- `has_local_support` (`space.py:231-234`). -/
def PySpace.hasLocalSupport (s : PySpace) : Bool :=
  match s.discontinuous with | some t => s.eq t | none => false

/-- `DiscontinuousPolynomialSpace` (`space.py:235-271`), called with the key of the arguments. -/
def mkDP (a : Args) : Except PyErr PySpace := do
  let n ← coreFunctionSpace a.grid "DP" a.order a.domains a.closed false a.refPoint a.onElement
  .ok (.mk ⟨n, some a.key, a.order, true, false, a.grid, .scalar⟩ .self .self .self .none)

/-- `function_space(grid, "DP", order)` inside the constructors. -/
def callDP (grid : Nat) (order : Int) : Except PyErr PySpace := mkDP { grid := grid, kind := "DP", order := order }

/-- `ContinuousPolynomialSpace` (`space.py:296-351`). -/
def mkP (a : Args) : Except PyErr PySpace := do
  let n ← coreFunctionSpace a.grid "P" a.order a.domains a.closed a.strict true a.onElement
  let disc ← if ¬ a.closed then
      mkDP ⟨a.grid, "DP", a.order, a.domains, a.closed, false, false, true⟩
    else mkDP ⟨a.grid, "DP", a.order, a.domains, a.closed, false, true, a.strict⟩
  .ok (.mk ⟨n, some a.key, a.order, true, false, a.grid, .scalar⟩ .self (.to disc) (.to disc) .none)

/-- `BarycentricDiscontinuousPolynomialSpace` (`space.py:274-293`). -/
def mkBDP (bary : Nat → Nat) (a : Args) : Except PyErr PySpace := do
  let n ← coreFunctionSpace a.grid "B-DP" a.order none true false true false
  let nonb ← callDP a.grid a.order
  let disc ← callDP (bary a.grid) a.order
  .ok (.mk ⟨n, some a.key, a.order, true, true, bary a.grid, .scalar⟩ (.to nonb) (.to disc) (.to disc) .none)

/-- `BarycentricContinuousPolynomialSpace` (`space.py:354-373`). -/
def mkBP (bary : Nat → Nat) (a : Args) : Except PyErr PySpace := do
  let n ← coreFunctionSpace a.grid "B-P" a.order none true false true false
  let nonb ← mkP { grid := a.grid, kind := "P", order := a.order }
  let disc ← callDP (bary a.grid) a.order
  .ok (.mk ⟨n, some a.key, a.order, true, true, bary a.grid, .scalar⟩ (.to nonb) (.to disc) (.to disc) .none)

/-- `DualSpace` (`space.py:376-395`). -/
def mkDual (bary : Nat → Nat) (a : Args) : Except PyErr PySpace := do
  let n ← coreFunctionSpace a.grid "DUAL" 0 none true false true false
  let disc ← callDP (bary a.grid) 0
  .ok (.mk ⟨n, some a.key, 0, false, true, bary a.grid, .scalar⟩ .none (.to disc) (.to disc) .none)

/-- `_discontinuous_space` of the vector spaces (`space.py:411-429` and the repetitions). -/
def vectorDisc (a : Args) : Except PyErr PySpace :=
  if ¬ a.closed then mkDP ⟨a.grid, "DP", 1, a.domains, a.closed, false, false, true⟩
  else mkDP ⟨a.grid, "DP", 1, a.domains, a.closed, false, true, false⟩

/-- `RTSpace` (`space.py:398-433`). -/
def mkRT (a : Args) : Except PyErr PySpace := do
  let n ← coreFunctionSpace a.grid "RT" 0 a.domains a.closed false true false
  let disc ← vectorDisc a
  .ok (.mk ⟨n, some a.key, 0, true, false, a.grid, .hdiv⟩ .self (.to disc) .self .none)

/-- `RWGSpace` (`space.py:476-511`). -/
def mkRWG (a : Args) : Except PyErr PySpace := do
  let n ← coreFunctionSpace a.grid "RWG" 0 a.domains a.closed false true false
  let disc ← vectorDisc a
  .ok (.mk ⟨n, some a.key, 0, true, false, a.grid, .hdiv⟩ .self (.to disc) .self .none)

/-- `NCSpace` (`space.py:436-473`). -/
def mkNC (a : Args) : Except PyErr PySpace := do
  let n ← coreFunctionSpace a.grid "NC" 0 a.domains a.closed false true false
  let disc ← vectorDisc a
  let hdiv ← mkRT { grid := a.grid, kind := "RT", order := 0, domains := a.domains, closed := a.closed }
  .ok (.mk ⟨n, some a.key, 0, true, false, a.grid, .hcurl⟩ .self (.to disc) .self (.to hdiv))

/-- `SNCSpace` (`space.py:514-550`). -/
def mkSNC (a : Args) : Except PyErr PySpace := do
  let n ← coreFunctionSpace a.grid "SNC" 0 a.domains a.closed false true false
  let disc ← vectorDisc a
  let hdiv ← mkRWG { grid := a.grid, kind := "RWG", order := 0, domains := a.domains, closed := a.closed }
  .ok (.mk ⟨n, some a.key, 0, true, false, a.grid, .hcurl⟩ .self (.to disc) .self (.to hdiv))

/-- `BarycentricRTSpace` (`space.py:553-572`). -/
def mkBRT (bary : Nat → Nat) (a : Args) : Except PyErr PySpace := do
  let n ← coreFunctionSpace a.grid "B-RT" 0 none true false true false
  let nonb ← mkRT { grid := a.grid, kind := "RT", order := 0 }
  let disc ← callDP (bary a.grid) 1
  let sup ← mkRT { grid := bary a.grid, kind := "RT", order := 0 }
  .ok (.mk ⟨n, some a.key, 0, true, true, bary a.grid, .hdiv⟩ (.to nonb) (.to disc) (.to sup) .none)

/-- `BarycentricNCSpace` (`space.py:575-595`). -/
def mkBNC (bary : Nat → Nat) (a : Args) : Except PyErr PySpace := do
  let n ← coreFunctionSpace a.grid "B-NC" 0 none true false true false
  let nonb ← mkNC { grid := a.grid, kind := "NC", order := 0 }
  let disc ← callDP (bary a.grid) 1
  let sup ← mkNC { grid := bary a.grid, kind := "NC", order := 0 }
  let hdiv ← mkBRT bary { grid := a.grid, kind := "B-RT", order := 0 }
  .ok (.mk ⟨n, some a.key, 0, true, true, bary a.grid, .hcurl⟩ (.to nonb) (.to disc) (.to sup) (.to hdiv))

/-- `BarycentricRWGSpace` (`space.py:598-617`). -/
def mkBRWG (bary : Nat → Nat) (a : Args) : Except PyErr PySpace := do
  let n ← coreFunctionSpace a.grid "B-RWG" 0 none true false true false
  let nonb ← mkRWG { grid := a.grid, kind := "RWG", order := 0 }
  let disc ← callDP (bary a.grid) 1
  let sup ← mkRWG { grid := bary a.grid, kind := "RWG", order := 0 }
  .ok (.mk ⟨n, some a.key, 0, true, true, bary a.grid, .hdiv⟩ (.to nonb) (.to disc) (.to sup) .none)

/-- `BarycentricSNCSpace` (`space.py:620-640`). -/
def mkBSNC (bary : Nat → Nat) (a : Args) : Except PyErr PySpace := do
  let n ← coreFunctionSpace a.grid "B-SNC" 0 none true false true false
  let nonb ← mkSNC { grid := a.grid, kind := "SNC", order := 0 }
  let disc ← callDP (bary a.grid) 1
  let sup ← mkSNC { grid := bary a.grid, kind := "SNC", order := 0 }
  let hdiv ← mkBRWG bary { grid := a.grid, kind := "B-RWG", order := 0 }
  .ok (.mk ⟨n, some a.key, 0, true, true, bary a.grid, .hcurl⟩ (.to nonb) (.to disc) (.to sup) (.to hdiv))

/-- `BuffaChristiansenSpace` (`space.py:643-662`); the key may be missing. -/
def mkBC (bary : Nat → Nat) (grid : Nat) (key : Option Key) : Except PyErr PySpace := do
  let n ← coreFunctionSpace grid "BC" 0 none true false true false
  let disc ← callDP (bary grid) 1
  let sup ← mkRWG { grid := bary grid, kind := "RWG", order := 0 }
  .ok (.mk ⟨n, key, 0, false, true, bary grid, .hdiv⟩ .none (.to disc) (.to sup) .none)

/-- `RotatedBuffaChristiansenSpace` (`space.py:665-685`): `_hdiv_space` is made by the class without a key. -/
def mkRBC (bary : Nat → Nat) (a : Args) : Except PyErr PySpace := do
  let n ← coreFunctionSpace a.grid "RBC" 0 none true false true false
  let disc ← callDP (bary a.grid) 1
  let sup ← mkSNC { grid := bary a.grid, kind := "SNC", order := 0 }
  let hdiv ← mkBC bary a.grid none
  .ok (.mk ⟨n, some a.key, 0, false, true, bary a.grid, .hcurl⟩ .none (.to disc) (.to sup) (.to hdiv))

/-- `if order > 0: raise ValueError`. -/
def orderZero (a : Args) (r : Except PyErr PySpace) : Except PyErr PySpace :=
  if a.order > 0 then .error .valueError else r

/-- `function_space` (`space.py:690-872`). -/
def functionSpace (bary : Nat → Nat) (a : Args) : Except PyErr PySpace :=
  if a.kind = "DP" then mkDP a
  else if a.kind = "B-DP" then mkBDP bary a
  else if a.kind = "P" then mkP a
  else if a.kind = "B-P" then mkBP bary a
  else if a.kind = "DUAL" then orderZero a (mkDual bary a)
  else if a.kind = "RT" then orderZero a (mkRT a)
  else if a.kind = "NC" then orderZero a (mkNC a)
  else if a.kind = "SNC" then orderZero a (mkSNC a)
  else if a.kind = "RWG" then orderZero a (mkRWG a)
  else if a.kind = "B-RT" then orderZero a (mkBRT bary a)
  else if a.kind = "B-NC" then orderZero a (mkBNC bary a)
  else if a.kind = "B-SNC" then orderZero a (mkBSNC bary a)
  else if a.kind = "B-RWG" then orderZero a (mkBRWG bary a)
  else if a.kind = "BC" then orderZero a (mkBC bary a.grid (some a.key))
  else if a.kind = "RBC" then orderZero a (mkRBC bary a)
  else .error .valueError

end Verif.PySpace
