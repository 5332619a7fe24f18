import Verif.Model.PairTopology
import Mathlib.Data.Real.Sqrt
import Mathlib.Order.WithBot
import Mathlib.Data.List.Sort
/-
Model of the choice of quadrature rules: lib/fiber/accuracy_options.cpp, lib/fiber/quadrature_options.hpp,
lib/fiber/default_quadrature_descriptor_selector_for_integral_operators.cpp and the element sizes and centers of
lib/fiber/default_local_assembler_for_operators_on_surfaces_utilities.cpp.  Coordinates are real numbers, the distance
thresholds are real numbers or infinity.
-/
namespace Verif.Quad

/-- `QuadratureOptions` (`quadrature_options.hpp:35-74`). -/
structure QuadOpts where
  relative : Bool := true
  value : Int := 0
deriving DecidableEq, Repr

/-- `quadratureOrder` (`quadrature_options.hpp:64-69`). -/
def QuadOpts.quadratureOrder (o : QuadOpts) (defaultOrder : Int) : Int :=
  if o.relative then defaultOrder + o.value else o.value

/-- `m_singleRegular`, `m_doubleRegular`: pairs of a threshold and options (`accuracy_options.hpp`, `t_range`). -/
abbrev Ranges := List (WithTop ℝ × QuadOpts)

/-- `std::sort(..., LessOrEqual()); std::unique(..., Equal())` without `erase` (`accuracy_options.cpp:98-99`).  If two
thresholds are equal, `LessOrEqual` is no strict weak ordering and the behaviour is undefined (`none`); otherwise the
result is the sorted list and `unique` changes nothing. -/
noncomputable def sortRanges (l : Ranges) : Option Ranges :=
  if (l.map Prod.fst).Nodup then some (l.mergeSort fun a b => decide (a.1 ≤ b.1)) else none

/-- Result of a setter. -/
inductive SetResult where
  | ok (l : Ranges)
  /-- `std::invalid_argument` -/
  | throw
  /-- undefined behaviour -/
  | undefined

/-- `setDoubleRegular(maxNormalizedDistances, accuracyOrders, relativeToDefault)` (`accuracy_options.cpp:277-295`;
`setSingleRegular`, `:151-169`, and the overloads with one to four thresholds, `:75-149, 187-275`, do the same with lists of
fixed length).  `accuracyOrders.size() - 1` wraps around for an empty vector, so that the sizes then never agree. -/
noncomputable def setRegular (thresholds : List (WithTop ℝ)) (orders : List Int) (relative : Bool) : SetResult :=
  if thresholds.length + 1 ≠ orders.length then .throw
  else
    match sortRanges (List.zip (thresholds ++ [⊤]) (orders.map fun o => ⟨relative, o⟩)) with
    | some l => .ok l
    | none => .undefined

/-- `member.back().first = infinity`; `back()` of an empty vector is undefined. -/
def openEnd : Ranges → SetResult
  | [] => .undefined
  | l@(_ :: _) => .ok (l.modify (l.length - 1) fun p => (⊤, p.2))

/-- `implementation::setRegular(member, input)` (`accuracy_options.cpp:299-306`). -/
noncomputable def setRegularRange (input : Ranges) : SetResult :=
  match sortRanges input with
  | some l => openEnd l
  | none => .undefined

/-- `doubleRegular(relativeDistance)`, `singleRegular(relativeDistance)`; `none`: "should never happen"
(`accuracy_options.cpp:59-67, 171-179`). -/
noncomputable def regularOptions (l : Ranges) (distance : ℝ) : Option QuadOpts :=
  (l.find? fun p => decide ((distance : WithTop ℝ) ≤ p.1)).map Prod.snd

/-- Points of space. -/
abbrev Point := Fin 3 → ℝ

/-- `squaredNorm` of a difference. -/
def distSq (a b : Point) : ℝ := (a 0 - b 0) ^ 2 + (a 1 - b 1) ^ 2 + (a 2 - b 2) ^ 2

/-- A grid as `RawGridGeometry` shows it: positions of vertices, corners of the elements (without the padding by -1) and
their number (`raw_grid_geometry.hpp`). -/
structure RawGeometry where
  vertex : Int → Point
  corners : Nat → List Int
  elementCount : Nat

/-- Position of corner `i` of an element. -/
noncomputable def RawGeometry.corner (g : RawGeometry) (e i : Nat) : Point := g.vertex ((g.corners e).getD i 0)

/-- `elementSizeSquared` (`default_local_assembler_for_operators_on_surfaces_utilities.cpp`, after
`precalculateElementSizesAndCentersForSingleGrid`): the longest edge of a triangle, the longest diagonal of a
quadrilateral. -/
noncomputable def RawGeometry.sizeSq (g : RawGeometry) (e : Nat) : ℝ :=
  if (g.corners e).length = 3 then
    (List.range 3).foldl (fun m i => max m (distSq (g.corner e ((i + 1) % 3)) (g.corner e i))) 0
  else max (distSq (g.corner e 2) (g.corner e 0)) (distSq (g.corner e 3) (g.corner e 1))

/-- `elementCenter`: the mean of the corners. -/
noncomputable def RawGeometry.center (g : RawGeometry) (e : Nat) : Point := fun d =>
  ((g.corners e).map fun v => g.vertex v d).sum / (g.corners e).length

/-- `averageElementSize` of one grid. -/
noncomputable def RawGeometry.averageSize (g : RawGeometry) : ℝ :=
  ((List.range g.elementCount).map fun e => √(g.sizeSq e)).sum / g.elementCount

/-- `DoubleQuadratureDescriptor` (`double_quadrature_descriptor.hpp:35-43`). -/
structure Descriptor where
  topology : Topology
  testOrder : Int
  trialOrder : Int
deriving DecidableEq, Repr

/-- The data of `DefaultQuadratureDescriptorSelectorForIntegralOperators`; `identical`: both shared pointers hold the
same object (`testAndTrialGridsAreIdentical`). -/
structure Selector where
  test : RawGeometry
  trial : RawGeometry
  identical : Bool
  testShapeOrder : Nat → Int
  trialShapeOrder : Nat → Int
  doubleRegular : Ranges
  doubleSingular : QuadOpts

/-- `m_averageElementSize`
(`default_quadrature_descriptor_selector_for_integral_operators.cpp: precalculateElementSizesAndCenters`). -/
noncomputable def Selector.averageSize (s : Selector) : ℝ :=
  if s.identical then s.test.averageSize else (s.test.averageSize + s.trial.averageSize) / 2

/-- The normalised distance of `getRegularOrders`. -/
noncomputable def Selector.normalisedDistance (s : Selector) (e t : Nat) (nominal : ℝ) : ℝ :=
  if nominal < 0 then
    √(distSq (s.trial.center t) (s.test.center e) / max (s.test.sizeSq e) (s.trial.sizeSq t))
  else nominal / s.averageSize

/-- `getRegularOrders`; `none`: throws. -/
noncomputable def Selector.regularOrders (s : Selector) (e t : Nat) (nominal : ℝ) : Option (Int × Int) :=
  (regularOptions s.doubleRegular (s.normalisedDistance e t nominal)).map fun o =>
    (o.quadratureOrder (s.testShapeOrder e), o.quadratureOrder (s.trialShapeOrder t))

/-- The topology of the pair; `none`: throws. An assertion failure counts as an exception. -/
def Selector.topology (s : Selector) (e t : Nat) : Option Topology :=
  if s.identical then
    match determineTopology (s.test.corners e) (s.trial.corners t) with
    | .ok T => some T
    | _ => none
  else some { testVertexCount := (s.test.corners e).length, trialVertexCount := (s.trial.corners t).length }

/-- `quadratureDescriptor`; `none`: an exception. -/
noncomputable def Selector.descriptor (s : Selector) (e t : Nat) (nominal : ℝ) : Option Descriptor :=
  match s.topology e t with
  | none => none
  | some T =>
    if T.type = .Disjoint then
      (s.regularOrders e t nominal).map fun o => ⟨T, o.1, o.2⟩
    else some ⟨T, s.doubleSingular.quadratureOrder (s.testShapeOrder e + 5),
      s.doubleSingular.quadratureOrder (s.trialShapeOrder t + 5)⟩

end Verif.Quad
