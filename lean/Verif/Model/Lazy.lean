import Mathlib.Logic.Function.Basic
import Mathlib.Logic.Relation
/-
Interleaving models of the two double-checked initialisations: `Lazy::get` (lib/common/lazy.hpp) and
`ConcreteGrid::barycentricGridSonPair` (lib/grid/concrete_grid.hpp).  Threads are numbered by natural numbers
(any number of them); every access to a shared variable is one atomic step (sequential consistency: for
`Lazy` the shared pointer is a `tbb::atomic`; for the grid this is the most favourable reading, since the
unsynchronised accesses are formally a data race).
-/
namespace Verif.Conc

/-! ### Lazy<T>::get -/

/-- Where a call of `Lazy::get` is (`lazy.hpp:51-60`). -/
inductive LPC where
  | start            -- before the first test `if (!m_value)`
  | acquiring        -- waiting for `scoped_lock lock(m_mutex)`
  | locked           -- before the second test
  | initialising     -- inside `m_init()`
  | created (o : Nat) -- `t` holds a new object, before `m_value = t.release()`
  | unlocking        -- about to leave the scope of the lock
  | reading          -- before `return *m_value`
  | done (o : Option Nat)  -- returned; `none` = null pointer dereferenced
  | failed           -- `m_init()` threw
deriving DecidableEq

/-- Shared state and program counters.  `created` = number of objects built so far (an object is counted when
its construction is complete), `value` = `m_value`, `lock` = owner of the mutex. -/
structure LState where
  value : Option Nat
  lock : Option Nat
  created : Nat
  pc : Nat → LPC

def LState.init : LState := ⟨none, none, 0, fun _ => .start⟩

def LState.goto (s : LState) (i : Nat) (p : LPC) : LState := { s with pc := Function.update s.pc i p }

/-- One step of thread `i` (`lazy.hpp:51-60`). -/
inductive LStep : LState → Nat → LState → Prop
  | test1Null (s i) (h : s.pc i = .start) (hv : s.value = none) : LStep s i (s.goto i .acquiring)
  | test1Set (s i) (h : s.pc i = .start) (hv : s.value ≠ none) : LStep s i (s.goto i .reading)
  | acquire (s i) (h : s.pc i = .acquiring) (hl : s.lock = none) :
      LStep s i ({ s with lock := some i }.goto i .locked)
  | test2Null (s i) (h : s.pc i = .locked) (hv : s.value = none) : LStep s i (s.goto i .initialising)
  | test2Set (s i) (h : s.pc i = .locked) (hv : s.value ≠ none) : LStep s i (s.goto i .unlocking)
  | create (s i) (h : s.pc i = .initialising) :
      LStep s i ({ s with created := s.created + 1 }.goto i (.created s.created))
  | throws (s i) (h : s.pc i = .initialising) : LStep s i ({ s with lock := none }.goto i .failed)
  | publish (s i o) (h : s.pc i = .created o) : LStep s i ({ s with value := some o }.goto i .unlocking)
  | release (s i) (h : s.pc i = .unlocking) : LStep s i ({ s with lock := none }.goto i .reading)
  | read (s i) (h : s.pc i = .reading) : LStep s i (s.goto i (.done s.value))

/-- The states reachable by any interleaving of any number of threads. -/
inductive LReach : LState → Prop
  | init : LReach .init
  | step (s i s') : LReach s → LStep s i s' → LReach s'

/-! ### barycentricGridSonPair -/

/-- What a call returns: the grid (`none` = null pointer) and a copy of the son map; the son map is
represented by the number of entries filled so far (`none` before `conservativeResize`). -/
structure BResult where
  grid : Option Nat
  sonMap : Option Nat
deriving DecidableEq

/-- Where a call of `barycentricGridSonPair` is (`concrete_grid.hpp:210-358`).  `late` records whether the
whole initialisation was complete when the call started; `viaLock` whether the call took the lock. -/
inductive BPC where
  | start
  | acquiring (late : Bool)
  | locked (late : Bool)
  | building (late : Bool)
  | built (late : Bool) (g : Nat)   -- before `m_barycentricGrid = newGrid`
  | published (late : Bool)         -- before `m_barycentricSonMap.conservativeResize`
  | filling (late : Bool)           -- in the loop that fills the son map
  | unlocking (late : Bool)
  | reading (late viaLock : Bool)
  | done (late viaLock : Bool) (r : BResult)
deriving DecidableEq

structure BState where
  grid : Option Nat
  sonMap : Option Nat
  lock : Option Nat
  built : Nat
  pc : Nat → BPC

def BState.init : BState := ⟨none, none, none, 0, fun _ => .start⟩

def BState.goto (s : BState) (i : Nat) (p : BPC) : BState := { s with pc := Function.update s.pc i p }

/-- The initialisation is complete. -/
def BState.complete (s : BState) (entries : Nat) : Bool := s.grid.isSome && s.sonMap == some entries

/-- One step of thread `i`; `entries` = number of entries of the son map (`concrete_grid.hpp:210-358`). -/
inductive BStep (entries : Nat) : BState → Nat → BState → Prop
  | test1Null (s i) (h : s.pc i = .start) (hv : s.grid = none) :
      BStep entries s i (s.goto i (.acquiring (s.complete entries)))
  | test1Set (s i) (h : s.pc i = .start) (hv : s.grid ≠ none) :
      BStep entries s i (s.goto i (.reading (s.complete entries) false))
  | acquire (s i l) (h : s.pc i = .acquiring l) (hl : s.lock = none) :
      BStep entries s i ({ s with lock := some i }.goto i (.locked l))
  | test2Null (s i l) (h : s.pc i = .locked l) (hv : s.grid = none) :
      BStep entries s i (s.goto i (.building l))
  | test2Set (s i l) (h : s.pc i = .locked l) (hv : s.grid ≠ none) :
      BStep entries s i (s.goto i (.unlocking l))
  | build (s i l) (h : s.pc i = .building l) :
      BStep entries s i ({ s with built := s.built + 1 }.goto i (.built l s.built))
  | publish (s i l g) (h : s.pc i = .built l g) :
      BStep entries s i ({ s with grid := some g }.goto i (.published l))
  | resize (s i l) (h : s.pc i = .published l) :
      BStep entries s i ({ s with sonMap := some 0 }.goto i (.filling l))
  | fill (s i l m) (h : s.pc i = .filling l) (hm : s.sonMap = some m) (hlt : m < entries) :
      BStep entries s i { s with sonMap := some (m + 1) }
  | filled (s i l) (h : s.pc i = .filling l) (hm : s.sonMap = some entries) :
      BStep entries s i (s.goto i (.unlocking l))
  | release (s i l) (h : s.pc i = .unlocking l) :
      BStep entries s i ({ s with lock := none }.goto i (.reading l true))
  | read (s i l v) (h : s.pc i = .reading l v) :
      BStep entries s i (s.goto i (.done l v ⟨s.grid, s.sonMap⟩))

inductive BReach (entries : Nat) : BState → Prop
  | init : BReach entries .init
  | step (s i s') : BReach entries s → BStep entries s i s' → BReach entries s'

end Verif.Conc
