import Mathlib.Logic.Function.Basic
import Mathlib.Logic.Relation
/-
Model of `DiscreteBoundaryOperatorCache` (lib/assembly/discrete_boundary_operator_cache.cpp) under an
arbitrary interleaving of threads.  Operations of the concurrent map and of weak pointers are atomic steps;
in the C++ code the assignment `it->second = discreteOp` (line 89) is in addition a data race with other
accesses to the same entry ("THIS IS NOT NOT THREAD-SAFE"), which is not modelled.
-/
namespace Verif.WeakCache

/-- Address of an `AbstractBoundaryOperatorId` object (`op.id().get()`). -/
abbrev IdPtr := BitVec 64

/-- `tbb::tbb_hasher(key.get())` for a pointer (`discrete_boundary_operator_cache.cpp:28-33`; TBB:
`size_t h = reinterpret_cast<size_t>(ptr); return (h >> 3) ^ h;`). -/
def hash (p : IdPtr) : BitVec 64 := (p >>> 3) ^^^ p

/-- Where a thread is inside `getWeakForm(context, op)`; `id` is `op.id()`, `o` the object held by the local
variable `discreteOp`. -/
inductive Pc where
  | idle
  | found (id : IdPtr)               -- `it != end()`, before `it->second.lock()` (line 79)
  | expired (id : IdPtr)             -- before `op.assembleWeakForm(context)` (line 87)
  | assembled (id : IdPtr) (o : Nat) -- before `it->second = discreteOp` (line 89)
  | missed (id : IdPtr)              -- before `op.assembleWeakForm(context)` (line 98)
  | created (id : IdPtr) (o : Nat)   -- before `insert` (line 100-101)
  | stored (id : IdPtr) (o : Nat)    -- before the final `lock()` (lines 90, 103)

/-- The local variable `discreteOp` holds a reference to `o`. -/
def Pc.holds (c : Pc) (o : Nat) : Prop :=
  match c with
  | .assembled _ o' => o' = o
  | .created _ o' => o' = o
  | .stored _ o' => o' = o
  | _ => False

/-- The operator whose weak form is requested: one with an id at some address, or one without id
(`op.id()` is null: not cacheable), which is the operator `v`. -/
inductive Request (V : Type) where
  | cacheable (id : IdPtr)
  | uncacheable (v : V)

/-- `objs[o]` is the operator (by the value of its id) whose weak form object `o` is; `clients o` counts the
references handed out and not released; `map` is `m_impl->discreteOps` with weak references. -/
structure State (V : Type) where
  objs : List V
  clients : Nat → Nat
  map : List (IdPtr × Nat)
  threads : Nat → Pc
  log : List (Nat × Request V × Option Nat)

section
variable {V : Type}

/-- The object exists: some client or local variable refers to it (weak references do not count). -/
def State.Alive (s : State V) (o : Nat) : Prop := 0 < s.clients o ∨ ∃ t, (s.threads t).holds o

/-- The initial state: an empty cache (`discrete_boundary_operator_cache.cpp:52-55`). -/
def State.init : State V := ⟨[], fun _ => 0, [], fun _ => .idle, []⟩

variable [DecidableEq V] (val : IdPtr → V)

/-- `discreteOps.find(id)`: the hash is that of the pointer, the comparison is by value
(`discrete_boundary_operator_cache.cpp:20-33, 73-74`).  `val p` is the value of the id at address `p`. -/
def State.find (s : State V) (id : IdPtr) : Option Nat :=
  (s.map.find? fun e => hash e.1 == hash id && val e.1 == val id).map Prod.snd

/-- `it->second = o` (`discrete_boundary_operator_cache.cpp:89`). -/
def assign (m : List (IdPtr × Nat)) (id : IdPtr) (o : Nat) : List (IdPtr × Nat) :=
  m.map fun e => if hash e.1 == hash id && val e.1 == val id then (e.1, o) else e

/-- One step of thread `t` (`some t`) or of a client releasing a reference (`none`).
(`discrete_boundary_operator_cache.cpp:61-108`) -/
inductive Step : Option Nat → State V → State V → Prop where
  | uncached (s : State V) (t : Nat) (v : V) (h : s.threads t = .idle) :
      Step (some t) s { s with
        objs := s.objs ++ [v], clients := Function.update s.clients s.objs.length 1
        log := (t, .uncacheable v, some s.objs.length) :: s.log }
  | findHit (s : State V) (t o : Nat) (id : IdPtr) (h : s.threads t = .idle) (hf : s.find val id = some o) :
      Step (some t) s { s with threads := Function.update s.threads t (.found id) }
  | findMiss (s : State V) (t : Nat) (id : IdPtr) (h : s.threads t = .idle) (hf : s.find val id = none) :
      Step (some t) s { s with threads := Function.update s.threads t (.missed id) }
  | lockValid (s : State V) (t o : Nat) (id : IdPtr) (h : s.threads t = .found id) (hf : s.find val id = some o)
      (ha : s.Alive o) :
      Step (some t) s { s with
        clients := Function.update s.clients o (s.clients o + 1)
        threads := Function.update s.threads t .idle
        log := (t, .cacheable id, some o) :: s.log }
  | lockExpired (s : State V) (t o : Nat) (id : IdPtr) (h : s.threads t = .found id) (hf : s.find val id = some o)
      (ha : ¬ s.Alive o) : Step (some t) s { s with threads := Function.update s.threads t (.expired id) }
  | reassemble (s : State V) (t : Nat) (id : IdPtr) (h : s.threads t = .expired id) :
      Step (some t) s { s with
        objs := s.objs ++ [val id]
        threads := Function.update s.threads t (.assembled id s.objs.length) }
  | assign (s : State V) (t o : Nat) (id : IdPtr) (h : s.threads t = .assembled id o) :
      Step (some t) s { s with
        map := assign val s.map id o
        threads := Function.update s.threads t (.stored id o) }
  | assemble (s : State V) (t : Nat) (id : IdPtr) (h : s.threads t = .missed id) :
      Step (some t) s { s with
        objs := s.objs ++ [val id]
        threads := Function.update s.threads t (.created id s.objs.length) }
  | insert (s : State V) (t o : Nat) (id : IdPtr) (h : s.threads t = .created id o) (hf : s.find val id = none) :
      Step (some t) s { s with
        map := (id, o) :: s.map
        threads := Function.update s.threads t (.stored id o) }
  | insertLost (s : State V) (t o q : Nat) (id : IdPtr) (h : s.threads t = .created id o)
      (hf : s.find val id = some q) : Step (some t) s { s with threads := Function.update s.threads t (.stored id o) }
  | returnValid (s : State V) (t o q : Nat) (id : IdPtr) (h : s.threads t = .stored id o)
      (hf : s.find val id = some q) (ha : s.Alive q) :
      Step (some t) s { s with
        clients := Function.update s.clients q (s.clients q + 1)
        threads := Function.update s.threads t .idle
        log := (t, .cacheable id, some q) :: s.log }
  | returnNull (s : State V) (t o q : Nat) (id : IdPtr) (h : s.threads t = .stored id o)
      (hf : s.find val id = some q) (ha : ¬ s.Alive q) :
      Step (some t) s { s with
        threads := Function.update s.threads t .idle
        log := (t, .cacheable id, none) :: s.log }
  | release (s : State V) (o : Nat) (h : 0 < s.clients o) :
      Step none s { s with clients := Function.update s.clients o (s.clients o - 1) }

/-- States reachable by any interleaving. -/
inductive Reachable : State V → Prop where
  | init : Reachable State.init
  | step (l : Option Nat) (s s' : State V) : Reachable s → Step val l s s' → Reachable s'

/-- Thread `t` runs alone. -/
def Solo (t : Nat) : State V → State V → Prop := Relation.ReflTransGen (Step val (some t))

/-- `aliveOperators()` (`discrete_boundary_operator_cache.cpp:111-128`): the loop runs from `begin()` while
`it != begin()`. `loop` is the general loop from position `i` to position `stop`. -/
def aliveLoop (alive : Nat → Bool) (m : List (IdPtr × Nat)) (stop : Nat) : (fuel i : Nat) → List Nat
  | 0, _ => []
  | fuel + 1, i =>
    if i = stop then []
    else match m[i]? with
      | none => []
      | some e => (if alive e.2 then [e.2] else []) ++ aliveLoop alive m stop fuel (i + 1)

/-- `aliveOperators()` (`discrete_boundary_operator_cache.cpp:111-128`): both bounds are `begin()`. -/
def State.aliveOperators (s : State V) (alive : Nat → Bool) : List Nat :=
  aliveLoop alive s.map 0 (s.map.length + 1) 0

end
end Verif.WeakCache
