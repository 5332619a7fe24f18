import Verif.Model.GridSegment
/-
Specification vocabulary for grid segments (independent of the construction algorithms).
-/
namespace Verif.Grid

/-- The entity `i` of codimension `codim` is the element `e` itself or one of its subentities. -/
def Elem.Has (e : Elem) (codim i : Nat) : Prop :=
  (codim = 0 ∧ e.index = i) ∨ (codim ≠ 0 ∧ i ∈ e.sub codim)

/-- The entity `i` of codimension `codim ≥ 2` lies on the facet `f`. -/
def View.OnFacet (v : View) (f codim i : Nat) : Prop :=
  ∃ e ∈ v.elems, ∃ k, (e.sub 1)[k]? = some f ∧ i ∈ e.facetChildren k codim

/-- A consistent grid view: dimension 1 to 3; no entities of codimension above the dimension; the
element indices are `0 .. count 0 - 1`, each used once; subentity indices are in range; every entity
belongs to an element; the facets of one element are distinct. -/
structure View.WF (v : View) : Prop where
  dim_le : v.dim ≤ 3
  count_high : ∀ c, v.dim < c → v.count c = 0
  index_nodup : (v.elems.map (·.index)).Nodup
  has_lt : ∀ e ∈ v.elems, ∀ c i, c ≤ v.dim → e.Has c i → i < v.count c
  covered : ∀ c i, c ≤ v.dim → i < v.count c → ∃ e ∈ v.elems, e.Has c i
  facets_nodup : ∀ e ∈ v.elems, (e.sub 1).Nodup

/-- The elements of the chosen domains that have facet `f`. -/
def View.facetNeighbours (v : View) (domains : Finset Int) (f : Nat) : List Elem :=
  v.elems.filter fun e => decide (e.domain ∈ domains) && decide (f ∈ e.sub 1)

/-- The entity belongs to the closure of the domains: some element of the domains has it. -/
def View.InClosure (v : View) (domains : Finset Int) (codim i : Nat) : Prop :=
  ∃ e ∈ v.elems, e.domain ∈ domains ∧ e.Has codim i

/-- The entity lies on the boundary of the domains: it also belongs to an element outside them, or it is
(or lies on) a facet that belongs to exactly one element of the domains. -/
def View.OnBoundary (v : View) (domains : Finset Int) (codim i : Nat) : Prop :=
  (∃ e ∈ v.elems, e.domain ∉ domains ∧ e.Has codim i) ∨
  (codim = 1 ∧ (v.facetNeighbours domains i).length = 1) ∨
  (2 ≤ codim ∧ ∃ f, (v.facetNeighbours domains f).length = 1 ∧ v.OnFacet f codim i)

/-- All excluded indices are indices of entities (non-negative). -/
def GridSegment.Valid (s : GridSegment) : Prop :=
  ∀ c, ∀ i ∈ s.excluded c, 0 ≤ i

end Verif.Grid
