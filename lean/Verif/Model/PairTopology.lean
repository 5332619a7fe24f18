import Mathlib.Data.List.Range
import Verif.Model.Duffy
/-
Model of lib/fiber/element_pair_topology.hpp.
-/
namespace Verif.Quad

/-- `ElementPairTopology::Type` (`element_pair_topology.hpp:43`). -/
inductive PairType where
  | Disjoint
  | SharedVertex
  | SharedEdge
  | Coincident
deriving DecidableEq, Repr

/-- `ElementPairTopology` (`element_pair_topology.hpp:35-64`); `signed char` and `unsigned char` are `Int` and `Nat` (all
values lie between -1 and 4). -/
structure Topology where
  type : PairType := .Disjoint
  testVertexCount : Nat := 0
  trialVertexCount : Nat := 0
  testSharedVertex0 : Int := -1
  testSharedVertex1 : Int := -1
  trialSharedVertex0 : Int := -1
  trialSharedVertex1 : Int := -1
deriving DecidableEq, Repr

/-- The inner loop: the first `testV` with the corner of `trialV` (`break`; `element_pair_topology.hpp:124-131`). -/
def firstMatch (testCorners : List Int) (corner : Int) : Option Nat :=
  (List.range testCorners.length).find? fun testV => decide (testCorners[testV]? = some corner)

/-- `testSharedVertices[i]`, `trialSharedVertices[i]` for `i < hits`, as pairs (`element_pair_topology.hpp:118-131`). -/
def sharedVertices (testCorners trialCorners : List Int) : List (Nat × Nat) :=
  (List.range trialCorners.length).filterMap fun trialV =>
    (trialCorners[trialV]?.bind (firstMatch testCorners)).map fun testV => (testV, trialV)

/-- Result of `determineElementPairTopologyIn3D`. -/
inductive TopologyResult where
  | ok (t : Topology)
  /-- `std::runtime_error` -/
  | throw
  /-- An `assert` fails; in a release build the result is `t`. -/
  | assertFails (t : Topology)
deriving DecidableEq, Repr

/-- `determineElementPairTopologyIn3D` (`element_pair_topology.hpp:101-169`).  The asserts on the numbers of vertices are
left out (3 or 4 in all grids). -/
def determineTopology (testCorners trialCorners : List Int) : TopologyResult :=
  let base : Topology := { testVertexCount := testCorners.length, trialVertexCount := trialCorners.length }
  match sharedVertices testCorners trialCorners with
  | [] => .ok base
  | [p] => .ok { base with type := .SharedVertex, testSharedVertex0 := p.1, trialSharedVertex0 := p.2 }
  | [p, q] => .ok { base with type := .SharedEdge, testSharedVertex0 := p.1, testSharedVertex1 := q.1,
                              trialSharedVertex0 := p.2, trialSharedVertex1 := q.2 }
  | l =>
    if l.length = testCorners.length ∧ l.length = trialCorners.length then
      if l.all fun p => p.1 == p.2 then .ok { base with type := .Coincident }
      else .assertFails { base with type := .Coincident }
    else .throw

/-- The configuration of the quadrature rule for a topology (`numerical_quadrature.cpp:235-246, 269-283`): the fields of
`desc.topology` that `reallyFillPointsAndWeightsSingular` reads, as `int`. -/
def Topology.config (t : Topology) : Option Config :=
  match t.type with
  | .Disjoint => none
  | .SharedVertex => some (.vertex t.testSharedVertex0.toNat t.trialSharedVertex0.toNat)
  | .SharedEdge => some (.edge t.testSharedVertex0.toNat t.testSharedVertex1.toNat t.trialSharedVertex0.toNat
      t.trialSharedVertex1.toNat)
  | .Coincident => some .coincident

end Verif.Quad
