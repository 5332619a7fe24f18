import Mathlib.Logic.Function.Basic
/-
Interleaving model of `getIntegrator`
(lib/fiber/default_local_assembler_for_integral_operators_on_surfaces_imp.hpp:618-691): a map from descriptors to integrators
filled on demand by any number of threads.  Operations on the `tbb::concurrent_unordered_map` are atomic steps.
-/
namespace Verif.Conc

/-- Where a call of `getIntegrator` is. -/
inductive GPC where
  | start             -- before the first `find`
  | acquiring         -- waiting for `scoped_lock lock(m_integratorCreationMutex)`
  | locked            -- before the second `find`
  | creating          -- in `fillQuadraturePointsAndWeights` and the constructor of the integrator
  | created (o : Nat) -- before `insert`
  | unlocking (o : Nat) -- `it` is set, about to leave the scope of the lock
  | done (o : Nat)    -- returned the integrator `o`
  | failed            -- an exception was thrown while creating the integrator
deriving DecidableEq

/-- Shared state and program counters.  `map` is `m_testKernelTrialIntegrators`; `kind o` is the descriptor for which the
integrator `o` was made; `made` is the number of integrators made, `deleted` those deleted. -/
structure GState (D : Type) where
  map : D → Option Nat
  lock : Option Nat
  made : Nat
  kind : Nat → Option D
  deleted : List Nat
  pc : Nat → GPC

def GState.init {D : Type} : GState D := ⟨fun _ => none, none, 0, fun _ => none, [], fun _ => .start⟩

def GState.goto {D : Type} (s : GState D) (i : Nat) (p : GPC) : GState D := { s with pc := Function.update s.pc i p }

/-- One step of the call number `i`, which asks for the integrator of `want i` (`:618-691`). -/
inductive GStep {D : Type} [DecidableEq D] (want : Nat → D) : GState D → Nat → GState D → Prop
  | find1Hit (s i o) (h : s.pc i = .start) (hm : s.map (want i) = some o) : GStep want s i (s.goto i (.done o))
  | find1Miss (s i) (h : s.pc i = .start) (hm : s.map (want i) = none) : GStep want s i (s.goto i .acquiring)
  | acquire (s i) (h : s.pc i = .acquiring) (hl : s.lock = none) :
      GStep want s i ({ s with lock := some i }.goto i .locked)
  | find2Hit (s i o) (h : s.pc i = .locked) (hm : s.map (want i) = some o) : GStep want s i (s.goto i (.unlocking o))
  | find2Miss (s i) (h : s.pc i = .locked) (hm : s.map (want i) = none) : GStep want s i (s.goto i .creating)
  | create (s i) (h : s.pc i = .creating) :
      GStep want s i ({ s with made := s.made + 1, kind := Function.update s.kind s.made (some (want i)) }.goto i
        (.created s.made))
  | throws (s i) (h : s.pc i = .creating) : GStep want s i ({ s with lock := none }.goto i .failed)
  | insertNew (s i o) (h : s.pc i = .created o) (hm : s.map (want i) = none) :
      GStep want s i ({ s with map := Function.update s.map (want i) (some o) }.goto i (.unlocking o))
  | insertOld (s i o o') (h : s.pc i = .created o) (hm : s.map (want i) = some o') :
      GStep want s i ({ s with deleted := o :: s.deleted }.goto i (.unlocking o'))
  | release (s i o) (h : s.pc i = .unlocking o) : GStep want s i ({ s with lock := none }.goto i (.done o))

/-- The states reachable by any interleaving of any number of calls. -/
inductive GReach {D : Type} [DecidableEq D] (want : Nat → D) : GState D → Prop
  | init : GReach want .init
  | step (s i s') : GReach want s → GStep want s i s' → GReach want s'

end Verif.Conc
