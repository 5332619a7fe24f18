import Verif.Model.Arrays
/-
Specification for C111: what a program may do with arrays, and what it sees.
-/
namespace Verif.Arrays
variable {T : Type}

/-- Column-major numbering: the first index runs fastest. -/
def colMajor : List Nat → List Nat → Nat
  | e :: es, i :: is => i + e * colMajor es is
  | _, _ => 0

/-- Every index is below its extent. -/
def InRange (ext idx : List Nat) : Prop := List.Forall₂ (· < ·) idx ext

/-- What the program reads with `a(idx...)` from the array named `i`. -/
def State.elem (st : State T) (i : Nat) (idx : List Nat) : Option T :=
  match st.arr i with
  | some a => match readAt false st a idx with | .inl x => some x | .inr _ => none
  | none => none

/-- The extents of the array named `i`. -/
def State.ext (st : State T) (i : Nat) : Option (List Nat) := (st.arr i).map Arr.ext

/-- The two arrays lie in the same memory. -/
def State.Shares (st : State T) (i j : Nat) : Prop :=
  ∃ a a' b, st.arr i = some a ∧ st.arr j = some a' ∧ a.storage = some b ∧ a'.storage = some b

/-- The array lies in memory of the user. -/
def State.OnUserMemory (st : State T) (i : Nat) : Prop :=
  ∃ a b d, st.arr i = some a ∧ a.storage = some b ∧ st.blocks[b]? = some ⟨true, d⟩

/-- The obligations of the program: objects exist, extents fit the rank, memory given to an array is memory of the user and large
enough, indices are in range, arrays that are assigned have the same rank, and arrays that are added have the same extents. -/
def Allowed (st : State T) : Op T → Prop
  | .userBlock _ => True
  | .default _ => True
  | .construct rank ext => ext.length = rank.dims
  | .wrap rank ext block _ => ext.length = rank.dims ∧ ∃ d, st.blocks[block]? = some ⟨true, some d⟩ ∧ ext.prod ≤ d.length
  | .copy i => ∃ a, st.arr i = some a
  | .assign i j => ∃ a a', st.arr i = some a ∧ st.arr j = some a' ∧ a.rank = a'.rank
  | .setSize i ext => ∃ a, st.arr i = some a ∧ ext.length = a.rank.dims
  | .write i idx _ => ∃ a, st.arr i = some a ∧ InRange a.ext idx
  | .add i j => ∃ a a', st.arr i = some a ∧ st.arr j = some a' ∧ a.ext = a'.ext
  | .scale i _ => ∃ a, st.arr i = some a
  | .destroy i => ∃ a, st.arr i = some a

/-- The states a program can reach with allowed operations (exceptions are caught). -/
inductive Reach [Add T] [Mul T] (checked : Bool) (junk : Nat → Nat → T) : State T → Prop
  | init : Reach checked junk ⟨[], []⟩
  | next (st : State T) (op : Op T) (st' : State T) : Reach checked junk st → Allowed st op →
      (step checked junk st op).state = some st' → Reach checked junk st'

/-- The array `j` is seen unchanged. -/
def SameArray (st st' : State T) (j : Nat) : Prop :=
  st'.arr j = st.arr j ∧ ∀ idx, st'.elem j idx = st.elem j idx

end Verif.Arrays
