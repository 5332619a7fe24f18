import Verif.Model.PotentialHMat
/-
Model of the caches `LocalDofListsCache` and `ComponentListsCache` used concurrently by the tasks of H-matrix assembly
(lib/assembly/local_dof_lists_cache.cpp:31-86, component_lists_cache.cpp:32-74; the two are the same code).

Every access to the `tbb::concurrent_unordered_map` and every allocation is one atomic step; steps of different threads
interleave arbitrarily.  The lists live on a heap; `delete` makes an address dead for ever.
-/
namespace Verif.Cache

/-- What a call returned: a fresh list owned by the caller, or a non-owning pointer
(`make_shared_from_ref`) to a list on the heap. -/
inductive Returned (V : Type) where
  | owned (v : V)
  | shared (p : Nat)

/-- Where a thread is inside `get(start, indexCount)`. -/
inductive Pc where
  /-- not inside `get` -/
  | idle
  /-- `m_map.find(key)` found nothing -/
  | missed (start count : Nat)
  /-- the new list has been computed and is at address `p` -/
  | created (start count p : Nat)

/-- Global state.  `heap[p]` is the list at address `p`, `none` if it has been deleted; `map` is `m_map`; `log` records
which call returned what (newest first). -/
structure State (V : Type) where
  heap : List (Option V)
  map : List ((Nat × Nat) × Nat)
  threads : Nat → Pc
  log : List (Nat × (Nat × Nat) × Returned V)

/-- `m_map.find(key)`. -/
def State.find {V : Type} (s : State V) (start count : Nat) : Option Nat :=
  (s.map.find? fun e => e.1 == (start, count)).map Prod.snd

/-- The empty cache. -/
def State.init {V : Type} : State V := ⟨[], [], fun _ => .idle, []⟩

/-- The atomic steps of `get` in thread `t`.  `one` computes the list of a single index, `many` that of a range. -/
inductive Step {V : Type} (one : Nat → V) (many : Nat → Nat → V) : State V → State V → Prop where
  /-- `indexCount == 1` (`local_dof_lists_cache.cpp:50-57`) -/
  | single (s : State V) (t start : Nat) : s.threads t = .idle →
      Step one many s { s with log := (t, (start, 1), .owned (one start)) :: s.log }
  /-- the key is found (lines 59-63) -/
  | hit (s : State V) (t start count p : Nat) : s.threads t = .idle → count ≠ 1 → s.find start count = some p →
      Step one many s { s with log := (t, (start, count), .shared p) :: s.log }
  /-- the key is not found (lines 59-61) -/
  | miss (s : State V) (t start count : Nat) : s.threads t = .idle → count ≠ 1 → s.find start count = none →
      Step one many s { s with threads := Function.update s.threads t (.missed start count) }
  /-- a new list is computed (lines 66-70) -/
  | create (s : State V) (t start count : Nat) : s.threads t = .missed start count →
      Step one many s { s with
        heap := s.heap ++ [some (many start count)]
        threads := Function.update s.threads t (.created start count s.heap.length) }
  /-- `m_map.insert` succeeds (lines 73-78, 85) -/
  | insert (s : State V) (t start count p : Nat) : s.threads t = .created start count p →
      s.find start count = none →
      Step one many s { s with
        map := ((start, count), p) :: s.map
        threads := Function.update s.threads t .idle
        log := (t, (start, count), .shared p) :: s.log }
  /-- `m_map.insert` fails because another thread was faster: the own list is deleted (lines 79-85) -/
  | lose (s : State V) (t start count p q : Nat) : s.threads t = .created start count p →
      s.find start count = some q →
      Step one many s { s with
        heap := s.heap.set p none
        threads := Function.update s.threads t .idle
        log := (t, (start, count), .shared q) :: s.log }

/-- States reachable by any history of calls from any number of threads. -/
inductive Reachable {V : Type} (one : Nat → V) (many : Nat → Nat → V) : State V → Prop where
  | init : Reachable one many State.init
  | step (s s' : State V) : Reachable one many s → Step one many s s' → Reachable one many s'

/-- What the caller sees when it reads a result now: `none` if the memory has been freed. -/
def Returned.read {V : Type} (heap : List (Option V)) : Returned V → Option V
  | .owned v => some v
  | .shared p => (heap[p]?).join

/-- `delete` of a heap object: `none` is a double free or a wild pointer. -/
def free {V : Type} (heap : List (Option V)) (p : Nat) : Option (List (Option V)) :=
  match heap[p]? with
  | some (some _) => some (heap.set p none)
  | _ => none

/-- The destructor (`local_dof_lists_cache.cpp:38-44`). -/
def State.destroy {V : Type} (s : State V) : Option (List (Option V)) :=
  s.map.foldlM (fun heap e => free heap e.2) s.heap

end Verif.Cache
