import Verif.Model.PySpace
import Verif.Spec.SpacePolyDisc
/-
Specification vocabulary for `function_space`.
-/
namespace Verif.PySpace
open Verif.Grid Verif.Space

/-- Kinds whose functions live on the barycentric refinement; they have no version on subdomains. -/
def barycentricKinds : List String := ["DUAL", "B-P", "B-DP", "B-RT", "B-NC", "B-SNC", "B-RWG", "BC", "RBC"]

/-- Kinds that exist for order 0 only. -/
def orderZeroKinds : List String := ["RT", "NC", "SNC", "RWG", "DUAL", "B-RT", "B-NC", "B-SNC", "B-RWG", "BC", "RBC"]

/-- What the documentation offers: "P" of order 1 to 10; "DP" of order 0 to 10 with at least one of `reference_point_on_segment` and
`element_on_segment`; "B-P" and "B-DP" of order 1; the other kinds of order 0; subdomains only for kinds on the grid itself. -/
def Supported (a : Args) : Prop :=
  (a.kind = "P" ∧ 1 ≤ a.order ∧ a.order ≤ 10) ∨
  (a.kind = "DP" ∧ 0 ≤ a.order ∧ a.order ≤ 10 ∧ (a.refPoint = true ∨ a.onElement = true)) ∨
  ((a.kind = "B-P" ∨ a.kind = "B-DP") ∧ a.order = 1 ∧ a.domains = none) ∨
  (a.kind ∈ orderZeroKinds ∧ a.order = 0 ∧ (a.kind ∈ barycentricKinds → a.domains = none))

/-- The element belongs to the chosen part of the grid. -/
def ElementIn (domains : Option (List Int)) (e : Elem) : Prop := ∀ l, domains = some l → e.domain ∈ l

/-- The entity belongs to the chosen part of the grid: always without subdomains; otherwise it belongs to the closure of the
subdomains, and if the part is open it does not lie on their boundary. -/
def EntityIn (v : View) (domains : Option (List Int)) (closed : Bool) (codim i : Nat) : Prop :=
  ∀ l, domains = some l →
    v.InClosure l.toFinset codim i ∧ (closed = false → ¬ v.OnBoundary l.toFinset codim i)

/-- No edge belongs to more than 256 elements of the subdomains (the library counts them in 8 bits). -/
def FewNeighbours (v : View) (domains : Option (List Int)) : Prop :=
  ∀ l, domains = some l → ∀ f, (v.facetNeighbours l.toFinset f).length ≤ 256

/-- Coefficient of the local shape function `ld` in the function with the global coefficients `c`. -/
def localCoefficient {K : Type} [Zero K] (m : DofMaps) (c : Nat → K) (ld : LocalDof) : K :=
  match (m.getGlobalDofs ld.entityIndex)[ld.dofIndex]? with
  | some g => if 0 ≤ g then c g.toNat else 0
  | none => 0

/-- Two spaces of the library are the same: same class and parameters on the same grid, with the same segment of every view. -/
def Native.Same (n m : Native) : Prop :=
  n.cls = m.cls ∧ n.grid = m.grid ∧ ∀ v, n.segment.update v = m.segment.update v

/-- Two attributes are equal in the sense of `==`. -/
def SameAttribute : Option PySpace → Option PySpace → Prop
  | some s, some t => s.eq t = true
  | none, none => True
  | _, _ => False

/-- The kind on the grid itself that spans the same functions as a kind on the barycentric refinement; the dual spaces have none. -/
def coarseKind (kind : String) : Option String :=
  if kind = "B-P" then some "P" else if kind = "B-DP" then some "DP" else if kind = "B-RT" then some "RT"
  else if kind = "B-NC" then some "NC" else if kind = "B-SNC" then some "SNC" else if kind = "B-RWG" then some "RWG"
  else if kind = "DUAL" ∨ kind = "BC" ∨ kind = "RBC" then none else some kind

/-- The kind of the space, on the grid where the functions live, in which all functions are expressed. -/
def superKind (kind : String) : String :=
  if kind = "P" ∨ kind = "DP" ∨ kind = "B-P" ∨ kind = "B-DP" ∨ kind = "DUAL" then "DP"
  else if kind = "RT" ∨ kind = "B-RT" then "RT" else if kind = "NC" ∨ kind = "B-NC" then "NC"
  else if kind = "SNC" ∨ kind = "B-SNC" ∨ kind = "RBC" then "SNC" else "RWG"

/-- The kind of the div-conforming functions whose product with the normal gives the curl-conforming functions. -/
def hdivKind (kind : String) : Option String :=
  if kind = "NC" then some "RT" else if kind = "SNC" then some "RWG" else if kind = "B-NC" then some "B-RT"
  else if kind = "B-SNC" then some "B-RWG" else if kind = "RBC" then some "BC" else none

/-- How shape functions are mapped to the element: scalars keep their value; div-conforming functions use the Piola map, their
rotations the tangential one. -/
def functorOf (kind : String) : Functor :=
  if kind = "P" ∨ kind = "DP" ∨ kind = "B-P" ∨ kind = "B-DP" ∨ kind = "DUAL" then .scalar
  else if (hdivKind kind).isSome then .hcurl else .hdiv

/-- The class of the library for the kinds on the barycentric refinement. -/
def barycentricClass (kind : String) : Option SpaceClass :=
  if kind = "DUAL" then some .constantDual else if kind = "B-P" then some .linearContinuousBarycentric
  else if kind = "B-DP" then some .linearDiscontinuousBarycentric else if kind = "B-RT" then some .raviartThomasBarycentric
  else if kind = "B-NC" then some .nedelecBarycentric else if kind = "B-SNC" then some .scaledNedelecBarycentric
  else if kind = "B-RWG" then some .rwgBarycentric else if kind = "BC" then some .buffaChristiansen
  else if kind = "RBC" then some .rotatedBuffaChristiansen else none

/-- Order of the discontinuous companion: that of the space for scalar kinds, 1 for vector kinds. -/
def discOrder (kind : String) (order : Int) : Int := if functorOf kind = .scalar then order else 1

/-- What equality of spaces means: the same space of the library, the same data, equal companions. -/
structure SameSpace (s t : PySpace) : Prop where
  impl : s.data.impl.Same t.data.impl
  order : s.data.order = t.data.order
  grid : s.data.grid = t.data.grid
  functor : s.data.functor = t.data.functor
  isBarycentric : s.data.isBarycentric = t.data.isBarycentric
  hasNonBarycentric : s.data.hasNonBarycentric = t.data.hasNonBarycentric
  nonBarycentric : SameAttribute s.nonBarycentric t.nonBarycentric
  discontinuous : SameAttribute s.discontinuous t.discontinuous
  super : SameAttribute s.super t.super
  hdiv : SameAttribute s.hdiv t.hdiv

end Verif.PySpace
