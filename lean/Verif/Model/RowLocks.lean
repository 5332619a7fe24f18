import Verif.Model.HMatrix
/-
The accumulation loop of `HMatrix::apply` at the level of single memory accesses: threads take the
spin lock of a row, then for each column read and write one cell, then release the lock
(lib/hmat/hmatrix_impl.hpp:233-279).
-/
namespace Verif.HMat.RowLocks
open HMatrix
variable {K : Type}

/-- Where a thread is inside the loop over the rows of its result block. -/
inductive Phase (K : Type) where
  /-- before `scoped_lock lock(mutex(i, 0))` -/
  | idle
  /-- holds the lock and is about to execute iteration `j` of the column loop -/
  | hold (j : Nat)
  /-- has read `yPermuted(i, j)` and is about to write the sum -/
  | got (j : Nat) (v : Option K)

/-- A thread: the row updates still to do (the first one may be in progress) and its phase. -/
structure Thread (K : Type) where
  todo : List (RowUpdate K)
  phase : Phase K

/-- The shared matrix `yPermuted`, the locks (`some t`: held by thread `t`) and the `n` threads. -/
structure State (K : Type) (n : Nat) where
  y : Nat → Nat → Option K
  lock : Nat → Option (Fin n)
  th : Fin n → Thread K

variable [Add K]

/-- One step of one thread; `cols` is the number of columns of `yPermuted`. -/
inductive Step {n : Nat} (cols : Nat) : State K n → State K n → Prop where
  /-- `scoped_lock` constructor: only if the lock is free (`hmatrix_impl.hpp:260, 274`). -/
  | acquire (s : State K n) (t : Fin n) (u : RowUpdate K) (rest : List (RowUpdate K))
      (h : s.th t = ⟨u :: rest, .idle⟩) (free : s.lock u.row = none) :
      Step cols s { s with lock := Function.update s.lock u.row (some t)
                           th := Function.update s.th t ⟨u :: rest, .hold 0⟩ }
  /-- read of `yPermuted(i, j)` (`hmatrix_impl.hpp:262, 276`). -/
  | load (s : State K n) (t : Fin n) (u : RowUpdate K) (rest : List (RowUpdate K)) (j : Nat)
      (h : s.th t = ⟨u :: rest, .hold j⟩) (hj : j < cols) :
      Step cols s { s with th := Function.update s.th t ⟨u :: rest, .got j (s.y u.row j)⟩ }
  /-- write of `yPermuted(i, j)` (`hmatrix_impl.hpp:262, 276`). -/
  | store (s : State K n) (t : Fin n) (u : RowUpdate K) (rest : List (RowUpdate K)) (j : Nat)
      (v : Option K) (h : s.th t = ⟨u :: rest, .got j v⟩) :
      Step cols s { s with
        y := Function.update s.y u.row (Function.update (s.y u.row) j (v.map (· + u.val j)))
        th := Function.update s.th t ⟨u :: rest, .hold (j + 1)⟩ }
  /-- `scoped_lock` destructor (`hmatrix_impl.hpp:263, 277`). -/
  | release (s : State K n) (t : Fin n) (u : RowUpdate K) (rest : List (RowUpdate K)) (j : Nat)
      (h : s.th t = ⟨u :: rest, .hold j⟩) (hj : cols ≤ j) :
      Step cols s { s with lock := Function.update s.lock u.row none
                           th := Function.update s.th t ⟨rest, .idle⟩ }

/-- The state when the parallel loop starts: thread `t` has been given the row updates `work t`. -/
def start {n : Nat} (y : Nat → Nat → Option K) (work : Fin n → List (RowUpdate K)) : State K n :=
  ⟨y, fun _ => none, fun t => ⟨work t, .idle⟩⟩

/-- States reachable from `s` by steps of the threads. -/
inductive Reach {n : Nat} (cols : Nat) (s : State K n) : State K n → Prop where
  | refl : Reach cols s s
  | tail {a b : State K n} : Reach cols s a → Step cols a b → Reach cols s b

/-- All threads have finished. -/
def Finished {n : Nat} (s : State K n) : Prop := ∀ t, (s.th t).todo = []

end Verif.HMat.RowLocks
