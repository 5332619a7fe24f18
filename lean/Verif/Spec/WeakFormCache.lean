import Verif.Model.WeakFormCache
/-
Specification of the cache of weak forms, in terms of requests, results and releases.
-/
namespace Verif.WeakCache
variable {V : Type} [DecidableEq V] (val : IdPtr → V)

/-- The operator that a request is about. -/
def Request.value : Request V → V
  | .cacheable id => val id
  | .uncacheable v => v

/-- Thread `t`, running alone, makes the request `req` and gets the result `res`. -/
def Call (t : Nat) (req : Request V) (res : Option Nat) (s s' : State V) : Prop :=
  Solo val t s s' ∧ s'.threads t = .idle ∧ s'.log = (t, req, res) :: s.log

/-- Histories in which calls do not overlap: complete calls (by any threads) and releases. -/
inductive Seq : State V → Prop where
  | init : Seq State.init
  | call (t : Nat) (req : Request V) (res : Option Nat) (s s' : State V) :
      Seq s → Call val t req res s s' → Seq s'
  | release (s s' : State V) : Seq s → Step val none s s' → Seq s'

end Verif.WeakCache
