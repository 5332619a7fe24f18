import Verif.Model.Compat
/-
Model of `Space::discontinuousSpace` and `isDiscontinuous` (lib/space/space.hpp:127-164) of the concrete classes, with
`m_discontinuousSpace`, in which the result is kept.  Spaces are objects, given by number; those made by `discontinuousSpace` are
appended to the list.  An adaptive space passes the call on to its current space (`adaptive_space_impl.hpp:67-79`), which is one of the
objects.  Not modelled: threads (the pointer is tested without the lock), `strictlyOnSegment` (for which see C42 and C109).
-/
namespace Verif.DiscSpace
open Verif.Compat

/-- `isDiscontinuous` (for instance `piecewise_constant_scalar_space.cpp`, `piecewise_linear_discontinuous_scalar_space.cpp`,
`piecewise_polynomial_discontinuous_scalar_space.cpp`, `piecewise_constant_dual_grid_discontinuous_scalar_space.cpp`: true; all
others: false). -/
def isDiscontinuous : Cls → Bool
  | .constant => true
  | .linearDisc => true
  | .polyDisc _ => true
  | .constantDualDisc => true
  | _ => false

/-- What `discontinuousSpace` is to return if nothing is kept: the argument, a new space, or an exception. -/
inductive Counterpart where
  | self
  | make (a : Args)
  | throws
deriving DecidableEq, Repr

/-- `discontinuousSpace` of the classes. -/
def counterpart (w : World) (r : Raw) : Counterpart × World :=
  match r.args.cls with
  -- `piecewise_constant_scalar_space.cpp:75-82`, `piecewise_linear_discontinuous_scalar_space.cpp:115-122`,
  -- `piecewise_polynomial_discontinuous_scalar_space.cpp`, `piecewise_constant_dual_grid_discontinuous_scalar_space.cpp:111-120`
  | .constant => (.self, w)
  | .linearDisc => (.self, w)
  | .polyDisc _ => (.self, w)
  | .constantDualDisc => (.self, w)
  -- `piecewise_constant_scalar_space_barycentric.cpp:62-72`
  | .constantBary => (.make ⟨.constant, (w.baryGrid r.args.grid).1, none⟩, (w.baryGrid r.args.grid).2)
  -- `piecewise_constant_dual_grid_scalar_space.cpp:136-146`
  | .constantDual => (.make ⟨.constantDualDisc, r.grid, none⟩, w)
  -- `piecewise_linear_continuous_scalar_space.cpp:107-118`
  | .linear => (.make ⟨.linearDisc, r.grid, r.args.segment⟩, w)
  -- `piecewise_linear_continuous_scalar_space_barycentric.cpp:104-117`
  | .linearBary => (.make ⟨.linearDiscBary, r.args.grid, r.args.segment⟩, w)
  -- `piecewise_linear_discontinuous_scalar_space_barycentric.cpp:104-117`: the segment is one of the original grid
  | .linearDiscBary => (.make ⟨.linearDisc, r.grid, r.args.segment⟩, w)
  -- `piecewise_polynomial_continuous_scalar_space.cpp:219-230`
  | .poly p => (.make ⟨.polyDisc p, r.grid, r.args.segment⟩, w)
  -- `unit_scalar_space.cpp:44-48`
  | .unit => (.throws, w)
  -- the vector spaces: `raviart_thomas_0_vector_space.cpp:121-131`, `raviart_thomas_0_vector_space_barycentric.cpp:132-142`,
  -- `nedelec_0_vector_space.cpp:122-132`, `nedelec_0_vector_space_barycentric.cpp:130-140`, `scaled_nedelec_0_vector_space.cpp:122-132`,
  -- `scaled_nedelec_0_vector_space_barycentric.cpp:133-143`, `buffa_christiansen_vector_space.cpp:130-140`,
  -- `rotated_buffa_christiansen_vector_space.cpp:136-146`, `rwg_vector_space.cpp:121-131`, `rwg_vector_space_barycentric.cpp:127-137`
  | _ => (.make ⟨.linearDisc, r.grid, none⟩, w)

/-- The grids, the spaces and their members `m_discontinuousSpace`. -/
structure State where
  world : World
  spaces : List Raw
  kept : Nat → Option Nat

/-- Nothing made yet. -/
def State.init : State := ⟨.empty, [], fun _ => none⟩

/-- What a call returns: a space or an exception. -/
inductive Reply where
  | space (j : Nat)
  | invalidArgument
  | runtimeError
deriving DecidableEq, Repr

/-- `discontinuousSpace(self)` of object `i`, whose data are `r`; `self` is the object the argument points to. -/
def State.discontinuousSpace (s : State) (i : Nat) (r : Raw) (self : Nat) : Reply × State :=
  match s.kept i with
  | some j => (.space j, s)
  | none =>
    match counterpart s.world r with
    | (.self, _) => if self ≠ i then (.invalidArgument, s) else (.space self, s)
    | (.throws, _) => (.runtimeError, s)
    | (.make a, w) =>
      let (o, w') := w.create a
      (.space s.spaces.length, ⟨w', s.spaces ++ [o], Function.update s.kept i (some s.spaces.length)⟩)

/-- What a program does. -/
inductive Op where
  | newGrid
  | barycentricGrid (g : Nat)
  | refine (g : Nat)
  | space (a : Args)
  | discontinuous (i self : Nat)
deriving DecidableEq, Repr

/-- One step; nothing happens for a grid or a space that does not exist. -/
def State.step (s : State) : Op → State
  | .newGrid => { s with world := s.world.newGrid }
  | .barycentricGrid g => if g < s.world.next then { s with world := (s.world.baryGrid g).2 } else s
  | .refine g => if g < s.world.next then { s with world := s.world.refine g } else s
  | .space a =>
    if a.grid < s.world.next then
      let (r, w) := s.world.create a
      { s with world := w, spaces := s.spaces ++ [r] }
    else s
  | .discontinuous i self =>
    match s.spaces[i]? with
    | some r => (s.discontinuousSpace i r self).2
    | none => s

/-- A program, from a given state. -/
def State.run (s : State) (ops : List Op) : State := ops.foldl State.step s

end Verif.DiscSpace
