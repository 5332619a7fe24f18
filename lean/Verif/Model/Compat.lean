import Mathlib.Data.List.Basic
/-
Model of `Space::spaceIsCompatible` (`is_compatible` of the Python API) of all spaces of the library, of the space identifiers, of the
grids the spaces refer to (`barycentricGrid`, `isBarycentricRepresentationOf`, refinement with its update signal) and of the adaptive
spaces that are rebuilt by that signal.

Grids are objects, given by number; a grid that is refined stays the same object.  What is kept of a space is what the comparison
reads: its class, the grid it was made for, the grid it refers to (`grid()`), the segment, and how often the grid had been refined when
it was made; the number of its dofs is a function `count` of these data.  Domains with a `strictlyOnSegment` or dof mode are part of the
segment.  Not modelled: threads, the destruction of spaces, copies of spaces (`adaptive_space_impl.hpp:58-65`, never made).
-/
namespace Verif.Compat

/-- `enum SpaceIdentifier` (`space_identifier.hpp:24-48`). -/
inductive Ident where
  | PIECEWISE_CONSTANT_SCALAR | PIECEWISE_CONSTANT_SCALAR_BARYCENTRIC | PIECEWISE_CONSTANT_DISCONTINUOUS_SCALAR_BARYCENTRIC
  | PIECEWISE_CONSTANT_DUAL_GRID_SCALAR | PIECEWISE_CONSTANT_DUAL_GRID_DISCONTINUOUS_SCALAR
  | PIECEWISE_LINEAR_CONTINUOUS_SCALAR | PIECEWISE_LINEAR_CONTINUOUS_SCALAR_BARYCENTRIC
  | PIECEWISE_LINEAR_DISCONTINUOUS_SCALAR | PIECEWISE_LINEAR_DISCONTINUOUS_SCALAR_BARYCENTRIC
  | PIECEWISE_POLYNOMIAL_CONTINUOUS_SCALAR | PIECEWISE_POLYNOMIAL_DISCONTINUOUS_SCALAR
  | RAVIART_THOMAS_0_VECTOR | RAVIART_THOMAS_0_DUAL_GRID_VECTOR | RAVIART_THOMAS_0_VECTOR_BARYCENTRIC
  | NEDELEC_0_VECTOR | NEDELEC_0_VECTOR_BARYCENTRIC | SCALED_NEDELEC_0_VECTOR | SCALED_NEDELEC_0_VECTOR_BARYCENTRIC
  | BUFFA_CHRISTIANSEN_VECTOR | ROTATED_BUFFA_CHRISTIANSEN_VECTOR | RWG_VECTOR | RWG_VECTOR_BARYCENTRIC | UNIT_SCALAR
deriving DecidableEq, Repr

/-- The concrete space classes (`lib/space`, one file each); the polynomial ones keep `m_polynomialOrder`. -/
inductive Cls where
  | constant | constantBary | constantDual | constantDualDisc
  | linear | linearBary | linearDisc | linearDiscBary
  | poly (order : Int) | polyDisc (order : Int)
  | rt | rtBary | nc | ncBary | snc | sncBary | bc | rbc | rwg | rwgBary | unit
deriving DecidableEq, Repr

/-- `spaceIdentifier()` of the headers of the classes; `piecewise_linear_discontinuous_scalar_space_barycentric.hpp:111-113` returns
the identifier of the continuous space. -/
def Cls.ident : Cls → Ident
  | .constant => .PIECEWISE_CONSTANT_SCALAR
  | .constantBary => .PIECEWISE_CONSTANT_SCALAR_BARYCENTRIC
  | .constantDual => .PIECEWISE_CONSTANT_DUAL_GRID_SCALAR
  | .constantDualDisc => .PIECEWISE_CONSTANT_DUAL_GRID_DISCONTINUOUS_SCALAR
  | .linear => .PIECEWISE_LINEAR_CONTINUOUS_SCALAR
  | .linearBary => .PIECEWISE_LINEAR_CONTINUOUS_SCALAR_BARYCENTRIC
  | .linearDisc => .PIECEWISE_LINEAR_DISCONTINUOUS_SCALAR
  | .linearDiscBary => .PIECEWISE_LINEAR_CONTINUOUS_SCALAR_BARYCENTRIC
  | .poly _ => .PIECEWISE_POLYNOMIAL_CONTINUOUS_SCALAR
  | .polyDisc _ => .PIECEWISE_POLYNOMIAL_DISCONTINUOUS_SCALAR
  | .rt => .RAVIART_THOMAS_0_VECTOR
  | .rtBary => .RAVIART_THOMAS_0_VECTOR_BARYCENTRIC
  | .nc => .NEDELEC_0_VECTOR
  | .ncBary => .NEDELEC_0_VECTOR_BARYCENTRIC
  | .snc => .SCALED_NEDELEC_0_VECTOR
  | .sncBary => .SCALED_NEDELEC_0_VECTOR_BARYCENTRIC
  | .bc => .BUFFA_CHRISTIANSEN_VECTOR
  | .rbc => .ROTATED_BUFFA_CHRISTIANSEN_VECTOR
  | .rwg => .RWG_VECTOR
  | .rwgBary => .RWG_VECTOR_BARYCENTRIC
  | .unit => .UNIT_SCALAR

/-- The classes whose constructor calls the base class with `grid->barycentricGrid()` (for instance
`piecewise_constant_scalar_space_barycentric.cpp:44`, `piecewise_constant_dual_grid_scalar_space.cpp:66`,
`buffa_christiansen_vector_space.cpp:78`). -/
def Cls.onBarycentric : Cls → Bool
  | .constantBary | .constantDual | .constantDualDisc | .linearBary | .linearDiscBary | .rtBary | .ncBary | .sncBary | .bc | .rbc
  | .rwgBary => true
  | _ => false

/-! ### Grids -/

/-- The grid objects made so far: their number, how often each was refined, `m_barycentricGrid` of each.  `owner b` is the grid of
which `b` was made as barycentric refinement; the program does not store it. -/
structure World where
  next : Nat
  level : Nat → Nat
  bary : Nat → Option Nat
  owner : Nat → Option Nat

/-- No grids. -/
def World.empty : World := ⟨0, fun _ => 0, fun _ => none, fun _ => none⟩

/-- A new grid. -/
def World.newGrid (w : World) : World := { w with next := w.next + 1 }

/-- `barycentricGrid()` (`concrete_grid.hpp:208-216, 338, 356-365`): made at the first call, then kept. -/
def World.baryGrid (w : World) (g : Nat) : Nat × World :=
  match w.bary g with
  | some b => (b, w)
  | none => (w.next, { w with next := w.next + 1, bary := Function.update w.bary g (some w.next),
                              owner := Function.update w.owner w.next (some g) })

/-- `globalRefine` and `adapt` (`concrete_grid.hpp:433-449`). -/
def World.refine (w : World) (g : Nat) : World :=
  { w with level := Function.update w.level g (w.level g + 1), bary := Function.update w.bary g none }

/-- `isBarycentricRepresentationOf` (`grid.cpp:65-71`). -/
def World.isBaryOf (w : World) (this other : Nat) : Bool :=
  match w.bary other with
  | none => false
  | some b => this == b

/-! ### Spaces -/

/-- What a space is made of: class, grid (the argument of the constructor) and segment (`none`: the whole grid). -/
structure Args where
  cls : Cls
  grid : Nat
  segment : Option Nat
deriving DecidableEq, Repr

/-- A space of one of the concrete classes: arguments, number of refinements of `args.grid` at the time, and `grid()`. -/
structure Raw where
  args : Args
  level : Nat
  grid : Nat
deriving DecidableEq, Repr

/-- The constructors of the concrete classes (`Space::Space`, `space.cpp:123-131`, and the classes). -/
def World.create (w : World) (a : Args) : Raw × World :=
  if a.cls.onBarycentric then
    let (b, w') := w.baryGrid a.grid
    (⟨a, w.level a.grid, b⟩, w')
  else (⟨a, w.level a.grid, a.grid⟩, w)

/-- A space of a concrete class, or an `AdaptiveSpace` with its arguments (`m_factory`, `m_gridSegmentFactory`, `m_grid`) and
`m_space`. -/
inductive Space where
  | raw (r : Raw)
  | adaptive (a : Args) (current : Raw)
deriving DecidableEq, Repr

/-- `grid()`, `spaceIdentifier()`, `globalDofCount()` of an adaptive space are those of `m_space`
(`adaptive_space_impl.hpp:87-91, 160-164, 188-193`). -/
def Space.current : Space → Raw
  | .raw r => r
  | .adaptive _ r => r

/-- `std::bad_cast`. -/
inductive Exc where
  | badCast
deriving DecidableEq, Repr

/-- The comparison of the classes that want the same grid and the same identifier (for instance `rwg_vector_space.cpp:97-104`). -/
def sameGridSameIdent (r o : Raw) : Bool :=
  if o.grid == r.grid then decide (o.args.cls.ident = r.args.cls.ident) else false

/-- `spaceIsCompatible` of the concrete classes. -/
def Raw.compatible (w : World) (r : Raw) (other : Space) : Except Exc Bool :=
  let o := other.current
  match r.args.cls with
  -- `piecewise_constant_scalar_space.cpp:119-132`
  | .constant =>
    if o.grid == r.grid then .ok (decide (o.args.cls.ident = r.args.cls.ident))
    else if o.args.cls.ident = .PIECEWISE_CONSTANT_SCALAR_BARYCENTRIC then .ok (w.isBaryOf o.grid r.grid) else .ok false
  -- `piecewise_constant_scalar_space_barycentric.cpp:114-127`
  | .constantBary =>
    if o.grid == r.grid then .ok (decide (o.args.cls.ident = r.args.cls.ident))
    else if o.args.cls.ident = .PIECEWISE_CONSTANT_SCALAR then .ok (w.isBaryOf r.grid o.grid) else .ok false
  -- `piecewise_linear_continuous_scalar_space.cpp:143-157`
  | .linear =>
    if o.grid == r.grid then .ok (decide (o.args.cls.ident = r.args.cls.ident))
    else if o.args.cls.ident = .PIECEWISE_LINEAR_CONTINUOUS_SCALAR_BARYCENTRIC then .ok (w.isBaryOf o.grid r.grid) else .ok false
  -- `piecewise_linear_continuous_scalar_space_barycentric.cpp:152-165`
  | .linearBary =>
    if o.grid == r.grid then .ok (decide (o.args.cls.ident = r.args.cls.ident))
    else if o.args.cls.ident = .PIECEWISE_LINEAR_CONTINUOUS_SCALAR then .ok (w.isBaryOf r.grid o.grid) else .ok false
  -- `piecewise_linear_discontinuous_scalar_space_barycentric.cpp:152-165`
  | .linearDiscBary =>
    if o.grid == r.grid then .ok (decide (o.args.cls.ident = r.args.cls.ident))
    else if o.args.cls.ident = .PIECEWISE_LINEAR_CONTINUOUS_SCALAR then .ok (w.isBaryOf r.grid o.grid) else .ok false
  -- `piecewise_polynomial_continuous_scalar_space.cpp:86-104`
  | .poly p =>
    if ¬ o.grid == r.grid then .ok false
    else if o.args.cls.ident = r.args.cls.ident then
      match other with
      | .raw ⟨⟨.poly q, _, _⟩, _, _⟩ => .ok (decide (p = q))
      | _ => .error .badCast
    else .ok false
  -- `piecewise_polynomial_discontinuous_scalar_space.cpp:173-191`
  | .polyDisc p =>
    if ¬ o.grid == r.grid then .ok false
    else if o.args.cls.ident = r.args.cls.ident then
      match other with
      | .raw ⟨⟨.polyDisc q, _, _⟩, _, _⟩ => .ok (decide (p = q))
      | _ => .error .badCast
    else .ok false
  -- `piecewise_linear_discontinuous_scalar_space.cpp:104-111`, `piecewise_constant_dual_grid_scalar_space.cpp:149-156`,
  -- `piecewise_constant_dual_grid_discontinuous_scalar_space.cpp:124-131`, `raviart_thomas_0_vector_space.cpp:97-104`,
  -- `raviart_thomas_0_vector_space_barycentric.cpp:106-113`, `nedelec_0_vector_space.cpp:98-105`,
  -- `nedelec_0_vector_space_barycentric.cpp:105-112`, `scaled_nedelec_0_vector_space.cpp:98-105`,
  -- `scaled_nedelec_0_vector_space_barycentric.cpp:107-114`, `buffa_christiansen_vector_space.cpp:100-107`,
  -- `rotated_buffa_christiansen_vector_space.cpp:105-112`, `rwg_vector_space.cpp:97-104`, `rwg_vector_space_barycentric.cpp:103-110`,
  -- `unit_scalar_space.cpp:84-91`
  | .linearDisc => .ok (sameGridSameIdent r o)
  | .constantDual => .ok (sameGridSameIdent r o)
  | .constantDualDisc => .ok (sameGridSameIdent r o)
  | .rt => .ok (sameGridSameIdent r o)
  | .rtBary => .ok (sameGridSameIdent r o)
  | .nc => .ok (sameGridSameIdent r o)
  | .ncBary => .ok (sameGridSameIdent r o)
  | .snc => .ok (sameGridSameIdent r o)
  | .sncBary => .ok (sameGridSameIdent r o)
  | .bc => .ok (sameGridSameIdent r o)
  | .rbc => .ok (sameGridSameIdent r o)
  | .rwg => .ok (sameGridSameIdent r o)
  | .rwgBary => .ok (sameGridSameIdent r o)
  | .unit => .ok (sameGridSameIdent r o)

/-- `spaceIsCompatible` (`space.hpp:357-361`; `adaptive_space_impl.hpp:195-200`; `is_compatible` of `space.pyx:97-100` and of
`space.py:63-65`).  `count` is `globalDofCount()`. -/
def Space.compatible (count : Raw → Nat) (w : World) (this other : Space) : Except Exc Bool :=
  match this with
  | .raw r => r.compatible w other
  | .adaptive _ c => .ok (count c == count other.current)

/-! ### Histories -/

/-- What a program does with grids and spaces.  `refine` is `refine` and `global_refine` of `grid.pyx:151-165`. -/
inductive Op where
  | newGrid
  | barycentricGrid (g : Nat)
  | refine (g : Nat)
  | space (a : Args)
  | adaptive (a : Args)
deriving DecidableEq, Repr

/-- The grids and the spaces, in the order of their creation. -/
structure State where
  world : World
  spaces : List Space

/-- Nothing made yet. -/
def State.init : State := ⟨.empty, []⟩

/-- `AdaptiveSpace::update` of the spaces connected to the signal of grid `g`, in the order of their connection
(`grid.cpp:57-63`, `adaptive_space_impl.hpp:52-57, 308-314`). -/
def updateSpaces (g : Nat) : World → List Space → World × List Space
  | w, [] => (w, [])
  | w, .raw r :: l => let (w', l') := updateSpaces g w l; (w', .raw r :: l')
  | w, .adaptive a c :: l =>
    if a.grid = g then
      let (c', w1) := w.create a
      let (w', l') := updateSpaces g w1 l
      (w', .adaptive a c' :: l')
    else let (w', l') := updateSpaces g w l; (w', .adaptive a c :: l')

/-- One step; nothing happens for a grid that does not exist. -/
def State.step (s : State) : Op → State
  | .newGrid => { s with world := s.world.newGrid }
  | .barycentricGrid g => if g < s.world.next then { s with world := (s.world.baryGrid g).2 } else s
  | .refine g =>
    if g < s.world.next then
      let (w, l) := updateSpaces g (s.world.refine g) s.spaces
      ⟨w, l⟩
    else s
  | .space a =>
    if a.grid < s.world.next then
      let (r, w) := s.world.create a
      ⟨w, s.spaces ++ [.raw r]⟩
    else s
  | .adaptive a =>
    if a.grid < s.world.next then
      let (r, w) := s.world.create a
      ⟨w, s.spaces ++ [.adaptive a r]⟩
    else s

/-- A program. -/
def run (ops : List Op) : State := ops.foldl State.step .init

end Verif.Compat
