import Mathlib.Algebra.BigOperators.Group.List.Basic
/-
Model of the arrays of the quadrature code, `_2dArray`, `_3dArray`, `_4dArray` (lib/fiber/_2d_array_imp.hpp, _3d_array_imp.hpp,
_4d_array_imp.hpp) together with the memory they live in.  Memory consists of blocks: those of the user and those the arrays
allocate themselves; a freed block has no data.  Sizes are natural numbers: overflow of `size_t` is not modelled.
-/
namespace Verif.Arrays

/-- `_2dArray`, `_3dArray` and `_4dArray`. -/
inductive Rank
  | two | three | four
  deriving DecidableEq

/-- Number of dimensions. -/
def Rank.dims : Rank → Nat
  | .two => 2
  | .three => 3
  | .four => 4

/-- The fields of an array object (`_2d_array.hpp:79-81`, `_3d_array.hpp:96-99`, `_4d_array.hpp:93-95`): `m_extents`, `m_storage`
(`none` is the null pointer), `m_owns` and, for rank three, `m_strict`. -/
structure Arr where
  rank : Rank
  ext : List Nat
  storage : Option Nat
  owns : Bool
  strict : Bool

/-- A block of memory: owned by the user or by the library; `none` after `delete[]`. -/
structure Block (T : Type) where
  user : Bool
  data : Option (List T)

/-- Memory and the named array objects; a destroyed object is `none`. -/
structure State (T : Type) where
  blocks : List (Block T)
  vars : List (Option Arr)

/-- What an operation does: it returns, it throws (the state at the throw is visible to the handler), or it has undefined
behaviour. -/
inductive Outcome (T : Type)
  | ok (st : State T)
  | throws (st : State T)
  | ub

/-- The linear index of `operator()` (`_2d_array_imp.hpp:87, 95`, `_3d_array_imp.hpp:102-103, 112-113`, `_4d_array_imp.hpp:124-126, 135-137`). -/
def addr : List Nat → List Nat → Nat
  | [e0, _], [i0, i1] => i0 + e0 * i1
  | [e0, e1, _], [i0, i1, i2] => i0 + e0 * i1 + e0 * e1 * i2
  | [e0, e1, e2, _], [i0, i1, i2, i3] => i0 + e0 * i1 + e0 * e1 * i2 + e0 * e1 * e2 * i3
  | _, _ => 0

/-- `check_indices` (`_2d_array_imp.hpp:169-172`, `_3d_array_imp.hpp:205-210`, `_4d_array_imp.hpp:205-210`). -/
def checkIndices (ext idx : List Nat) : Bool := (ext.zip idx).all fun p => decide (p.2 < p.1)

/-- The nested loops of `operator+=` and `operator*=`: the first index runs fastest (`_2d_array_imp.hpp:125-127`,
`_3d_array_imp.hpp:130-133`, `_4d_array_imp.hpp:100-104`). -/
def loopIndices : List Nat → List (List Nat)
  | [e0, e1] => (List.range e1).flatMap fun i => (List.range e0).map fun j => [j, i]
  | [e0, e1, e2] => (List.range e2).flatMap fun i => (List.range e1).flatMap fun j => (List.range e0).map fun k => [k, j, i]
  | [e0, e1, e2, e3] => (List.range e3).flatMap fun i => (List.range e2).flatMap fun j => (List.range e1).flatMap fun k =>
      (List.range e0).map fun l => [l, k, j, i]
  | _ => []

variable {T : Type}

/-- The data a pointer points to. -/
def State.data (st : State T) (s : Option Nat) : Option (List T) := s.bind fun b => (st.blocks[b]?).bind Block.data

/-- A live array object. -/
def State.arr (st : State T) (i : Nat) : Option Arr := (st.vars[i]?).bind id

/-- Replace the data of a block. -/
def State.putData (st : State T) (b : Nat) (d : Option (List T)) : State T :=
  { st with blocks := st.blocks.modify b fun k => { k with data := d } }

/-- Update an array object. -/
def State.setVar (st : State T) (i : Nat) (a : Option Arr) : State T := { st with vars := st.vars.set i a }

/-- `delete[]`: nothing for null, undefined behaviour for memory that is not a live block of the library. -/
def State.delete (st : State T) : Option Nat → Option (State T)
  | none => some st
  | some b =>
    match st.blocks[b]? with
    | some ⟨false, some _⟩ => some (st.putData b none)
    | _ => none

/-- `new T[n]`: the new elements are indeterminate (`junk`). -/
def State.alloc (st : State T) (junk : Nat → Nat → T) (n : Nat) : State T :=
  { st with blocks := st.blocks ++ [⟨false, some ((List.range n).map (junk st.blocks.length))⟩] }

/-- `init_memory` (`_2d_array_imp.hpp:65-73`, `_3d_array_imp.hpp:67-79`, `_4d_array_imp.hpp:72-84`) as the resulting object; the
memory it points to is allocated by `alloc`. -/
def initMemory (st : State T) (rank : Rank) (ext : List Nat) : Arr := ⟨rank, ext, some st.blocks.length, true, false⟩

/-- The default constructors and `init_empty` (`_2d_array_imp.hpp:25-30`, `_3d_array_imp.hpp:27, 81-88`,
`_4d_array_imp.hpp:25-32`). -/
def initEmpty (rank : Rank) : Arr := ⟨rank, List.replicate rank.dims 0, none, false, false⟩

/-- `free_memory` (`_2d_array_imp.hpp:75-80`, `_3d_array_imp.hpp:90-95`, `_4d_array_imp.hpp:86-91`), without the two final
assignments to the fields of the object. -/
def freeMemory (st : State T) (a : Arr) : Option (State T) := if a.owns then st.delete a.storage else some st

/-- `set_size` (`_2d_array_imp.hpp:106-118`, `_3d_array_imp.hpp:146-170`, `_4d_array_imp.hpp:148-173`). -/
def setSize (junk : Nat → Nat → T) (st : State T) (i : Nat) (a : Arr) (ext : List Nat) : Outcome T :=
  if ext.prod = a.ext.prod then .ok (st.setVar i (some { a with ext := ext }))
  else
    match a.rank with
    | .two =>
      match freeMemory st a with
      | none => .ub
      | some st1 => .ok ((st1.alloc junk ext.prod).setVar i (some (initMemory st1 .two ext)))
    | .three =>
      if a.strict then .throws st
      else
        match freeMemory st a with
        | none => .ub
        | some st1 =>
          if ext.prod ≠ 0 then .ok ((st1.alloc junk ext.prod).setVar i (some (initMemory st1 .three ext)))
          else .ok (st1.setVar i (some (initEmpty .three)))
    | .four =>
      match freeMemory st a with
      | none => .ub
      | some st1 => .ok ((st1.alloc junk ext.prod).setVar i (some (initMemory st1 .four ext)))

/-- `std::copy(src, src + n, dst)`. -/
def copyRange (st : State T) (n : Nat) (src dst : Option Nat) : Outcome T :=
  if n = 0 then .ok st
  else
    match st.data src, dst with
    | some s, some d =>
      match st.data (some d) with
      | some old => if n ≤ s.length ∧ n ≤ old.length then .ok (st.putData d (some (s.take n ++ old.drop n))) else .ub
      | none => .ub
    | _, _ => .ub

/-- The copy constructors (`_2d_array_imp.hpp:48-51`, `_3d_array_imp.hpp:48-54`, `_4d_array_imp.hpp:54-58`). -/
def copyConstruct (junk : Nat → Nat → T) (st : State T) (a : Arr) : Outcome T :=
  if a.rank = .three ∧ a.ext.prod = 0 then .ok { st with vars := st.vars ++ [some (initEmpty .three)] }
  else
    copyRange { st.alloc junk a.ext.prod with vars := st.vars ++ [some (initMemory st a.rank a.ext)] } a.ext.prod a.storage
      (some st.blocks.length)

/-- `operator=` (`_2d_array_imp.hpp:53-60`, `_3d_array_imp.hpp:56-63`, `_4d_array_imp.hpp:60-68`); `i` and `j` name the objects. -/
def assign (junk : Nat → Nat → T) (st : State T) (i j : Nat) (a rhs : Arr) : Outcome T :=
  if i = j then .ok st
  else
    match setSize junk st i a rhs.ext with
    | .ok st1 => copyRange st1 rhs.ext.prod rhs.storage ((st1.arr i).bind Arr.storage)
    | r => r

/-- `operator()` as a value: `checked` is FIBER_CHECK_ARRAY_BOUNDS, which is defined unless NDEBUG is
(`_2d_array_imp.hpp:82-96`, `_3d_array_imp.hpp:97-114`, `_4d_array_imp.hpp:118-138`).  `inl` is a value, `inr true` an exception,
`inr false` undefined behaviour. -/
def readAt (checked : Bool) (st : State T) (a : Arr) (idx : List Nat) : T ⊕ Bool :=
  if checked && !checkIndices a.ext idx then .inr true
  else
    match (st.data a.storage).bind fun d => d[addr a.ext idx]? with
    | some x => .inl x
    | none => .inr false

/-- Assignment through `operator()`. -/
def writeAt (checked : Bool) (st : State T) (a : Arr) (idx : List Nat) (x : T) : Outcome T :=
  if checked && !checkIndices a.ext idx then .throws st
  else
    match a.storage with
    | none => .ub
    | some b =>
      match st.data (some b) with
      | none => .ub
      | some d => if addr a.ext idx < d.length then .ok (st.putData b (some (d.set (addr a.ext idx) x))) else .ub

/-- The body of `operator+=` over the rest of the indices. -/
def addLoop [Add T] (checked : Bool) (a rhs : Arr) : State T → List (List Nat) → Outcome T
  | st, [] => .ok st
  | st, idx :: rest =>
    match readAt checked st a idx, readAt checked st rhs idx with
    | .inl x, .inl y =>
      match writeAt checked st a idx (x + y) with
      | .ok st' => addLoop checked a rhs st' rest
      | r => r
    | .inr false, _ => .ub
    | _, .inr false => .ub
    | _, _ => .throws st

/-- `operator+=` (`_2d_array_imp.hpp:120-129`, `_3d_array_imp.hpp:124-135`, `_4d_array_imp.hpp:92-106`).  The test of the extents
makes an exception object and drops it (the `throw` is missing), so it has no effect. -/
def addAssign [Add T] (checked : Bool) (st : State T) (a rhs : Arr) : Outcome T := addLoop checked a rhs st (loopIndices a.ext)

/-- `operator*=` (`_2d_array_imp.hpp:131-137`, `_3d_array_imp.hpp:137-144`, `_4d_array_imp.hpp:108-116`). -/
def scaleLoop [Mul T] (checked : Bool) (a : Arr) (c : T) : State T → List (List Nat) → Outcome T
  | st, [] => .ok st
  | st, idx :: rest =>
    match readAt checked st a idx with
    | .inl x =>
      match writeAt checked st a idx (x * c) with
      | .ok st' => scaleLoop checked a c st' rest
      | r => r
    | .inr false => .ub
    | .inr true => .throws st

/-- The operations of a program.  `userBlock` is memory the user provides. -/
inductive Op (T : Type)
  | userBlock (d : List T)
  | default (rank : Rank)
  | construct (rank : Rank) (ext : List Nat)
  | wrap (rank : Rank) (ext : List Nat) (block : Nat) (strict : Bool)
  | copy (i : Nat)
  | assign (i j : Nat)
  | setSize (i : Nat) (ext : List Nat)
  | write (i : Nat) (idx : List Nat) (x : T)
  | add (i j : Nat)
  | scale (i : Nat) (c : T)
  | destroy (i : Nat)

/-- One operation.  Using an object that does not exist is undefined behaviour.  `m_strict` is a field of rank three only
(`_3d_array_imp.hpp:34-47`, `_2d_array_imp.hpp:37-46`, `_4d_array_imp.hpp:40-54`); the destructors (`_2d_array_imp.hpp:62`) free the
memory. -/
def step [Add T] [Mul T] (checked : Bool) (junk : Nat → Nat → T) (st : State T) : Op T → Outcome T
  | .userBlock d => .ok { st with blocks := st.blocks ++ [⟨true, some d⟩] }
  | .default rank => .ok { st with vars := st.vars ++ [some (initEmpty rank)] }
  | .construct rank ext => .ok { st.alloc junk ext.prod with vars := st.vars ++ [some (initMemory st rank ext)] }
  | .wrap rank ext block strict =>
    .ok { st with vars := st.vars ++ [some ⟨rank, ext, some block, false, strict && decide (rank = .three)⟩] }
  | .copy i => match st.arr i with | some a => copyConstruct junk st a | none => .ub
  | .assign i j => match st.arr i, st.arr j with | some a, some rhs => assign junk st i j a rhs | _, _ => .ub
  | .setSize i ext => match st.arr i with | some a => setSize junk st i a ext | none => .ub
  | .write i idx x => match st.arr i with | some a => writeAt checked st a idx x | none => .ub
  | .add i j => match st.arr i, st.arr j with | some a, some rhs => addAssign checked st a rhs | _, _ => .ub
  | .scale i c => match st.arr i with | some a => scaleLoop checked a c st (loopIndices a.ext) | none => .ub
  | .destroy i =>
    match st.arr i with
    | some a => match freeMemory st a with | some st1 => .ok (st1.setVar i none) | none => .ub
    | none => .ub

/-- The state after the operation, if the behaviour is defined: an exception is caught by the program. -/
def Outcome.state : Outcome T → Option (State T)
  | .ok st => some st
  | .throws st => some st
  | .ub => none

/-! ### Slices -/

/-- A slice (`_2dSliceOf3dArray` and the others, `_2d_array_imp.hpp:175-237`, `_3d_array_imp.hpp:213-339`,
`_4d_array_imp.hpp:213-405`): a reference to the array and the trailing indices that are fixed.  The slices of a collection
of arrays are the slices of its members (`collection_of_2d_arrays_imp.hpp`, `collection_of_3d_arrays_imp.hpp`,
`collection_of_4d_arrays_imp.hpp`); the collections themselves are not modelled. -/
structure Slice where
  array : Arr
  fixed : List Nat

/-- The indices of the array for the indices of the slice, as `operator()` of the slices passes them on. -/
def Slice.index (idx : List Nat) (s : Slice) : List Nat := idx ++ s.fixed

/-- `extent(dimension)` of a slice. -/
def Slice.ext (s : Slice) : List Nat := s.array.ext.take (s.array.ext.length - s.fixed.length)

end Verif.Arrays
