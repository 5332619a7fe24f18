import Verif.Spec.WeakFormCache
import Mathlib.Data.List.Basic
/-
Property C50: the cache of weak forms.
-/
namespace Verif.WeakCache

/-- The hash separates addresses, so two keys are found equal only if they are the same object. -/
theorem hash_injective (p q : IdPtr) (h : hash p = hash q) : p = q := by
  have bit : ∀ i, p.getLsbD i = q.getLsbD i ∨ 64 ≤ i := by
    have key : ∀ d i, 64 ≤ i + d → p.getLsbD i = q.getLsbD i := by
      intro d
      induction d with
      | zero => intro i hi; rw [BitVec.getLsbD_of_ge _ _ (by omega), BitVec.getLsbD_of_ge _ _ (by omega)]
      | succ d ih =>
        intro i hi
        have h' := congrArg (fun x => BitVec.getLsbD x i) h
        simp only [hash, BitVec.getLsbD_xor, BitVec.getLsbD_ushiftRight] at h'
        have e := ih (3 + i) (by omega)
        rw [e] at h'
        exact Bool.xor_right_inj.mp h'
    exact fun i => .inl (key 64 i (by omega))
  apply BitVec.eq_of_getLsbD_eq
  intro i hi
  rcases bit i with h | h
  · exact h
  · omega

section
variable {V : Type} [DecidableEq V] {val : IdPtr → V}

theorem keyEq (p q : IdPtr) : (hash p == hash q && val p == val q) = decide (p = q) := by
  by_cases h : p = q
  · subst h; simp
  · have : hash p ≠ hash q := fun e => h (hash_injective p q e)
    simp [h, this]

/-- What the specification calls the weak form stored for an id object. -/
theorem find_eq (s : State V) (id : IdPtr) :
    s.find val id = (s.map.find? fun e => decide (e.1 = id)).map Prod.snd := by
  unfold State.find
  simp only [keyEq]

theorem find_mem {s : State V} {id : IdPtr} {o : Nat} (h : s.find val id = some o) : (id, o) ∈ s.map := by
  rw [find_eq] at h
  cases hf : s.map.find? (fun e => decide (e.1 = id)) with
  | none => rw [hf] at h; cases h
  | some e =>
    rw [hf] at h
    injection h with h
    have h1 := List.find?_some hf
    have h2 := List.mem_of_find?_eq_some hf
    have : e.1 = id := by simpa using h1
    rw [← this, ← h]; exact h2

/-- Invariant of the reachable states. -/
structure Inv (val : IdPtr → V) (s : State V) : Prop where
  stored : ∀ id o, (id, o) ∈ s.map → s.objs[o]? = some (val id)
  held : ∀ t id o, s.threads t = .assembled id o ∨ s.threads t = .created id o ∨ s.threads t = .stored id o →
    s.objs[o]? = some (val id)
  present : ∀ t id, (s.threads t = .found id ∨ s.threads t = .expired id ∨ (∃ o, s.threads t = .assembled id o) ∨
    ∃ o, s.threads t = .stored id o) → s.find val id ≠ none
  clients : ∀ o, 0 < s.clients o → o < s.objs.length

theorem inv_init : Inv val (State.init : State V) := by
  refine ⟨by simp [State.init], ?_, ?_, by simp [State.init]⟩
  · intro t id o h; simp [State.init] at h
  · intro t id h; simp [State.init] at h

theorem getElem?_append_of {l : List V} {o : Nat} {v x : V} (h : l[o]? = some v) : (l ++ [x])[o]? = some v := by
  rw [List.getElem?_append_left (List.getElem?_eq_some_iff.mp h).1]; exact h

theorem find_assign (s : State V) (id id' : IdPtr) (o : Nat) (s' : State V) (hs : s'.map = assign val s.map id o) :
    s'.find val id' = if id' = id then (s.find val id).map (fun _ => o) else s.find val id' := by
  rw [find_eq, find_eq, hs]
  unfold assign
  simp only [keyEq, List.find?_map, Option.map_map]
  split
  · rename_i h
    subst h
    have : ((fun e : IdPtr × Nat => decide (e.1 = id')) ∘
        fun e : IdPtr × Nat => if decide (e.1 = id') = true then (e.1, o) else e) =
        fun e : IdPtr × Nat => decide (e.1 = id') := by
      funext e; simp only [Function.comp]; split <;> simp_all
    rw [this]
    cases hf : s.map.find? (fun e => decide (e.1 = id')) with
    | none => rfl
    | some e =>
      have h1 := List.find?_some hf
      simp only [Option.map_some, Function.comp, if_pos h1]
  · rename_i h
    have : ((fun e : IdPtr × Nat => decide (e.1 = id')) ∘
        fun e : IdPtr × Nat => if decide (e.1 = id) = true then (e.1, o) else e) =
        fun e : IdPtr × Nat => decide (e.1 = id') := by
      funext e; simp only [Function.comp]; split <;> simp_all
    rw [this, find_eq]
    cases hf : s.map.find? (fun e => decide (e.1 = id')) with
    | none => rfl
    | some e =>
      have h1 := List.find?_some hf
      have : e.1 ≠ id := by
        intro e1; apply h; rw [← e1]; simpa using (of_decide_eq_true h1).symm
      simp [this]

theorem find_insert (s s' : State V) (id id' : IdPtr) (o : Nat) (hs : s'.map = (id, o) :: s.map) :
    s'.find val id' = if id' = id then some o else s.find val id' := by
  rw [find_eq, find_eq, hs, List.find?_cons]
  by_cases h : id' = id
  · simp [h]
  · have : decide (id = id') = false := by simpa using fun e => h e.symm
    simp [this, h]

theorem find_congr (s s' : State V) (h : s'.map = s.map) (id : IdPtr) : s'.find val id = s.find val id := by
  unfold State.find; rw [h]

/-- What the invariant says of the position of one thread. -/
def PcOk (val : IdPtr → V) (s : State V) : Pc → Prop
  | .idle => True
  | .found id => s.find val id ≠ none
  | .expired id => s.find val id ≠ none
  | .assembled id o => s.objs[o]? = some (val id) ∧ s.find val id ≠ none
  | .missed _ => True
  | .created id o => s.objs[o]? = some (val id)
  | .stored id o => s.objs[o]? = some (val id) ∧ s.find val id ≠ none

theorem Inv.pcOk {s : State V} (h : Inv val s) (t : Nat) : PcOk val s (s.threads t) := by
  unfold PcOk
  split
  all_goals rename_i e
  · trivial
  · exact h.present t _ (.inl e)
  · exact h.present t _ (.inr (.inl e))
  · exact ⟨h.held t _ _ (.inl e), h.present t _ (.inr (.inr (.inl ⟨_, e⟩)))⟩
  · trivial
  · exact h.held t _ _ (.inr (.inl e))
  · exact ⟨h.held t _ _ (.inr (.inr e)), h.present t _ (.inr (.inr (.inr ⟨_, e⟩)))⟩

theorem Inv.mk' {s : State V} (stored : ∀ id o, (id, o) ∈ s.map → s.objs[o]? = some (val id))
    (pc : ∀ t, PcOk val s (s.threads t)) (clients : ∀ o, 0 < s.clients o → o < s.objs.length) : Inv val s := by
  refine ⟨stored, ?_, ?_, clients⟩
  · intro t id o h
    have := pc t
    rcases h with h | h | h <;> rw [h] at this
    · exact this.1
    · exact this
    · exact this.1
  · intro t id h
    have := pc t
    rcases h with h | h | ⟨o, h⟩ | ⟨o, h⟩ <;> rw [h] at this
    · exact this
    · exact this
    · exact this.2
    · exact this.2

theorem PcOk.mono {s s' : State V} (ho : ∀ (o : Nat) (v : V), s.objs[o]? = some v → s'.objs[o]? = some v)
    (hf : ∀ id, s.find val id ≠ none → s'.find val id ≠ none) (c : Pc) (h : PcOk val s c) : PcOk val s' c := by
  cases c with
  | idle => trivial
  | found id => exact hf id h
  | expired id => exact hf id h
  | assembled id o => exact ⟨ho _ _ h.1, hf id h.2⟩
  | missed id => trivial
  | created id o => exact ho _ _ h
  | stored id o => exact ⟨ho _ _ h.1, hf id h.2⟩

theorem inv_move {s s' : State V} (h : Inv val s) (t : Nat) (c : Pc)
    (ht : s'.threads = Function.update s.threads t c)
    (ho : ∀ (o : Nat) (v : V), s.objs[o]? = some v → s'.objs[o]? = some v)
    (hf : ∀ id, s.find val id ≠ none → s'.find val id ≠ none)
    (hm : ∀ id o, (id, o) ∈ s'.map → s'.objs[o]? = some (val id))
    (hc : ∀ o, 0 < s'.clients o → o < s'.objs.length) (hp : PcOk val s' c) : Inv val s' := by
  refine Inv.mk' hm (fun t' => ?_) hc
  rw [ht]
  by_cases e : t' = t
  · subst e; rw [Function.update_self]; exact hp
  · rw [Function.update_of_ne e]; exact PcOk.mono ho hf _ (h.pcOk t')

theorem Inv.alive_lt {s : State V} (h : Inv val s) {o : Nat} (ha : s.Alive o) : o < s.objs.length := by
  rcases ha with h1 | ⟨t, h1⟩
  · exact h.clients o h1
  · have h2 := h.pcOk t
    revert h1 h2
    cases s.threads t <;> simp only [Pc.holds, PcOk] <;> intro h1 h2 <;>
      first
      | exact h1.elim
      | (subst h1; first
          | exact (List.getElem?_eq_some_iff.mp h2).1
          | exact (List.getElem?_eq_some_iff.mp h2.1).1)

theorem Inv.find_lt {s : State V} (h : Inv val s) {id : IdPtr} {o : Nat} (hf : s.find val id = some o) :
    o < s.objs.length :=
  (List.getElem?_eq_some_iff.mp (h.stored _ _ (find_mem hf))).1

theorem inv_step {l : Option Nat} {s s' : State V} (h : Inv val s) (st : Step val l s s') : Inv val s' := by
  cases st with
  | uncached _ t v ht =>
    refine Inv.mk' (fun id o hm => getElem?_append_of (h.stored id o hm)) (fun t' =>
      PcOk.mono (s := s) (s' := { s with objs := s.objs ++ [v], clients := _, log := _ })
        (fun o v hv => getElem?_append_of hv) (fun id hi => hi) _ (h.pcOk t')) ?_
    intro o ho
    simp only [List.length_append, List.length_singleton]
    by_cases e : o = s.objs.length
    · omega
    · simp only [Function.update_of_ne e] at ho
      have := h.clients o ho
      omega
  | findHit _ t o id ht hf =>
    exact inv_move h t (.found id) rfl (fun _ _ hv => hv) (fun _ hi => hi) h.stored h.clients
      (by show s.find val id ≠ none; rw [hf]; simp)
  | findMiss _ t id ht hf =>
    exact inv_move h t (.missed id) rfl (fun _ _ hv => hv) (fun _ hi => hi) h.stored h.clients trivial
  | lockValid _ t o id ht hf ha =>
    refine inv_move h t .idle rfl (fun _ _ hv => hv) (fun _ hi => hi) h.stored ?_ trivial
    intro q hq
    by_cases e : q = o
    · subst e; exact h.find_lt hf
    · simp only [Function.update_of_ne e] at hq; exact h.clients q hq
  | lockExpired _ t o id ht hf ha =>
    exact inv_move h t (.expired id) rfl (fun _ _ hv => hv) (fun _ hi => hi) h.stored h.clients
      (by show s.find val id ≠ none; rw [hf]; simp)
  | reassemble _ t id ht =>
    refine inv_move h t (.assembled id s.objs.length) rfl (fun _ _ hv => getElem?_append_of hv) (fun _ hi => hi)
      (fun id o hm => getElem?_append_of (h.stored id o hm)) ?_ ⟨by simp, h.present t id (.inr (.inl ht))⟩
    intro o ho
    have := h.clients o ho
    simp only [List.length_append, List.length_singleton]; omega
  | assign _ t o id ht =>
    have hp := h.pcOk t
    rw [ht] at hp
    refine inv_move h t (.stored id o) rfl (fun _ _ hv => hv) ?_ ?_ h.clients ⟨hp.1, ?_⟩
    · intro id' hi
      rw [find_assign s id id' o _ rfl]
      split
      · rename_i e; subst e
        intro hn
        exact hi (Option.map_eq_none_iff.mp hn)
      · exact hi
    · intro id' o' hm
      simp only [assign, keyEq, List.mem_map] at hm
      obtain ⟨e, he, h1⟩ := hm
      split at h1
      · rename_i h2
        have h2 := of_decide_eq_true h2
        obtain ⟨rfl, rfl⟩ := Prod.mk.inj h1
        rw [h2]; exact hp.1
      · subst h1; exact h.stored _ _ he
    · rw [find_assign s id id o _ rfl, if_pos rfl]
      intro hn
      exact hp.2 (Option.map_eq_none_iff.mp hn)
  | assemble _ t id ht =>
    refine inv_move h t (.created id s.objs.length) rfl (fun _ _ hv => getElem?_append_of hv) (fun _ hi => hi)
      (fun id o hm => getElem?_append_of (h.stored id o hm)) ?_ (by show _ = _; simp)
    intro o ho
    have := h.clients o ho
    simp only [List.length_append, List.length_singleton]; omega
  | insert _ t o id ht hf =>
    have hp := h.pcOk t
    rw [ht] at hp
    refine inv_move h t (.stored id o) rfl (fun _ _ hv => hv) ?_ ?_ h.clients ⟨hp, ?_⟩
    · intro id' hi
      rw [find_insert s _ id id' o rfl]
      split
      · simp
      · exact hi
    · intro id' o' hm
      rcases List.mem_cons.mp hm with e | hm
      · obtain ⟨rfl, rfl⟩ := Prod.mk.inj e; exact hp
      · exact h.stored _ _ hm
    · rw [find_insert s _ id id o rfl, if_pos rfl]; simp
  | insertLost _ t o q id ht hf =>
    have hp := h.pcOk t
    rw [ht] at hp
    exact inv_move h t (.stored id o) rfl (fun _ _ hv => hv) (fun _ hi => hi) h.stored h.clients
      ⟨hp, by show s.find val id ≠ none; rw [hf]; simp⟩
  | returnValid _ t o q id ht hf ha =>
    refine inv_move h t .idle rfl (fun _ _ hv => hv) (fun _ hi => hi) h.stored ?_ trivial
    intro q' hq
    by_cases e : q' = q
    · subst e; exact h.find_lt hf
    · simp only [Function.update_of_ne e] at hq; exact h.clients q' hq
  | returnNull _ t o q id ht hf ha =>
    exact inv_move h t .idle rfl (fun _ _ hv => hv) (fun _ hi => hi) h.stored h.clients trivial
  | release _ o ho =>
    refine Inv.mk' h.stored h.pcOk ?_
    intro q hq
    by_cases e : q = o
    · subst e; exact h.clients q ho
    · simp only [Function.update_of_ne e] at hq; exact h.clients q hq

theorem inv_reachable {s : State V} (h : Reachable val s) : Inv val s := by
  induction h with
  | init => exact inv_init
  | step l s s' _ st ih => exact inv_step ih st

/-- Results in the log have the value that was requested. -/
theorem log_sound {s : State V} (h : Reachable val s) :
    ∀ (t : Nat) (req : Request V) (o : Nat), (t, req, some o) ∈ s.log → s.objs[o]? = some (req.value val) := by
  induction h with
  | init => intro t req o h; simp [State.init] at h
  | step l s s' hr st ih =>
    have hi := inv_reachable hr
    intro t req o hm
    cases st with
    | uncached _ t' v ht =>
      rcases List.mem_cons.mp hm with e | hm
      · simp only [Prod.mk.injEq, Option.some.injEq] at e
        obtain ⟨rfl, rfl, rfl⟩ := e
        simp [Request.value]
      · exact getElem?_append_of (ih _ _ _ hm)
    | lockValid _ t' o' id ht hf ha =>
      rcases List.mem_cons.mp hm with e | hm
      · simp only [Prod.mk.injEq, Option.some.injEq] at e
        obtain ⟨rfl, rfl, rfl⟩ := e
        exact hi.stored _ _ (find_mem hf)
      · exact ih _ _ _ hm
    | returnValid _ t' o' q id ht hf ha =>
      rcases List.mem_cons.mp hm with e | hm
      · simp only [Prod.mk.injEq, Option.some.injEq] at e
        obtain ⟨rfl, rfl, rfl⟩ := e
        exact hi.stored _ _ (find_mem hf)
      · exact ih _ _ _ hm
    | returnNull _ t' o' q id ht hf ha =>
      rcases List.mem_cons.mp hm with e | hm
      · simp at e
      · exact ih _ _ _ hm
    | reassemble _ t' id ht => exact getElem?_append_of (ih _ _ _ hm)
    | assemble _ t' id ht => exact getElem?_append_of (ih _ _ _ hm)
    | findHit _ t' o' id ht hf => exact ih _ _ _ hm
    | findMiss _ t' id ht hf => exact ih _ _ _ hm
    | lockExpired _ t' o' id ht hf ha => exact ih _ _ _ hm
    | assign _ t' o' id ht => exact ih _ _ _ hm
    | insert _ t' o' id ht hf => exact ih _ _ _ hm
    | insertLost _ t' o' q id ht hf => exact ih _ _ _ hm
    | release _ o' ho => exact ih _ _ _ hm

/-- Number of steps a call has left at most. -/
def Pc.rank : Pc → Nat
  | .idle => 0
  | .stored _ _ => 1
  | .assembled _ _ => 2
  | .created _ _ => 2
  | .expired _ => 3
  | .missed _ => 3
  | .found _ => 4

/-- **C50, any interleaving (soundness).** Whenever a call returns a non-null weak form, it is the weak form of
the operator that was requested, and it is alive. -/
theorem C50_sound_partial {s s' : State V} (h : Reachable val s) {l : Option Nat} (st : Step val l s s')
    {t : Nat} {req : Request V} {o : Nat} (hl : s'.log = (t, req, some o) :: s.log) :
    s'.objs[o]? = some (req.value val) ∧ 0 < s'.clients o := by
  refine ⟨log_sound (.step l s s' h st) t req o (by rw [hl]; exact List.mem_cons_self), ?_⟩
  have none_ : ∀ {x : Nat × Request V × Option Nat} {a : List (Nat × Request V × Option Nat)}, a ≠ x :: a := by
    intro x a e
    have := congrArg List.length e
    simp at this
  cases st with
  | uncached _ t' v ht =>
    simp only [List.cons.injEq, Prod.mk.injEq, Option.some.injEq, and_true] at hl
    obtain ⟨rfl, rfl, rfl⟩ := hl
    simp
  | lockValid _ t' o' id ht hf ha =>
    simp only [List.cons.injEq, Prod.mk.injEq, Option.some.injEq, and_true] at hl
    obtain ⟨rfl, rfl, rfl⟩ := hl
    simp
  | returnValid _ t' o' q id ht hf ha =>
    simp only [List.cons.injEq, Prod.mk.injEq, Option.some.injEq, and_true] at hl
    obtain ⟨rfl, rfl, rfl⟩ := hl
    simp
  | returnNull _ t' o' q id ht hf ha => simp at hl
  | reassemble _ t' id ht => exact absurd hl none_
  | assemble _ t' id ht => exact absurd hl none_
  | findHit _ t' o' id ht hf => exact absurd hl none_
  | findMiss _ t' id ht hf => exact absurd hl none_
  | lockExpired _ t' o' id ht hf ha => exact absurd hl none_
  | assign _ t' o' id ht => exact absurd hl none_
  | insert _ t' o' id ht hf => exact absurd hl none_
  | insertLost _ t' o' q id ht hf => exact absurd hl none_
  | release _ o' ho => exact absurd hl none_

/-- **C50, any interleaving (no call gets stuck).** In every reachable state, a thread that is inside a call can
take a step, and each of its steps brings the call closer to its end, whatever the other threads do. -/
theorem C50_wait_free {s : State V} (h : Reachable val s) (t : Nat) (ht : s.threads t ≠ .idle) :
    (∃ s', Step val (some t) s s') ∧
      ∀ s', Step val (some t) s s' → (s'.threads t).rank < (s.threads t).rank := by
  classical
  have hi := (inv_reachable h).pcOk t
  constructor
  · cases e : s.threads t with
    | idle => exact absurd e ht
    | found id =>
      rw [e] at hi
      obtain ⟨o, ho⟩ := Option.ne_none_iff_exists'.mp hi
      by_cases ha : s.Alive o
      · exact ⟨_, .lockValid s t o id e ho ha⟩
      · exact ⟨_, .lockExpired s t o id e ho ha⟩
    | expired id => exact ⟨_, .reassemble s t id e⟩
    | assembled id o => exact ⟨_, .assign s t o id e⟩
    | missed id => exact ⟨_, .assemble s t id e⟩
    | created id o =>
      cases hf : s.find val id with
      | none => exact ⟨_, .insert s t o id e hf⟩
      | some q => exact ⟨_, .insertLost s t o q id e hf⟩
    | stored id o =>
      rw [e] at hi
      obtain ⟨q, hq⟩ := Option.ne_none_iff_exists'.mp hi.2
      by_cases ha : s.Alive q
      · exact ⟨_, .returnValid s t o q id e hq ha⟩
      · exact ⟨_, .returnNull s t o q id e hq ha⟩
  · intro s' st
    generalize hl : some t = l at st
    cases st
    case release => cases hl
    all_goals
      injection hl with hl
      subst hl
      first
      | exact absurd (by assumption) ht
      | (rename_i e; simp only [Function.update_self]; simp_all [Pc.rank])
      | (simp only [Function.update_self]; simp_all [Pc.rank])

/-- Each step of `t` either leaves `t` inside a call or completes one. -/
theorem growth {s s' : State V} {t : Nat} (st : Step val (some t) s s') :
    s.log.length ≤ s'.log.length ∧ (s'.threads t ≠ .idle ∨ s'.log.length = s.log.length + 1) := by
  generalize hl : some t = l at st
  cases st
  case release => cases hl
  all_goals
    injection hl with hl
    subst hl
    simp

/-- The effect of a complete call of thread `t` from `s`. -/
structure Outcome (val : IdPtr → V) (s : State V) (t : Nat) (req : Request V) (o : Nat) (x : State V) : Prop where
  threads : x.threads = s.threads
  log : x.log = (t, req, some o) :: s.log
  clients : x.clients = Function.update s.clients o (s.clients o + 1)
  how : (∃ id, req = .cacheable id ∧ s.find val id = some o ∧ s.Alive o ∧ x.objs = s.objs ∧ x.map = s.map) ∨
    (∃ v, req = .uncacheable v ∧ o = s.objs.length ∧ x.objs = s.objs ++ [v] ∧ x.map = s.map) ∨
    (∃ id, req = .cacheable id ∧ (∀ q, s.find val id = some q → ¬ s.Alive q) ∧ o = s.objs.length ∧
      x.objs = s.objs ++ [val id] ∧ x.find val id = some o ∧ ∀ id', id' ≠ id → x.find val id' = s.find val id')

/-- The states of a solo call, up to its end. -/
inductive Phase (val : IdPtr → V) (s : State V) (t : Nat) (x : State V) : Prop where
  | start (e : x = s)
  | found (id : IdPtr) (e : x = { s with threads := Function.update s.threads t (.found id) })
  | expired (id : IdPtr) (o : Nat) (hf : s.find val id = some o) (hd : ¬ s.Alive o)
      (e : x = { s with threads := Function.update s.threads t (.expired id) })
  | assembled (id : IdPtr) (o : Nat) (hf : s.find val id = some o) (hd : ¬ s.Alive o)
      (e : x = { s with objs := s.objs ++ [val id], threads := Function.update s.threads t (.assembled id s.objs.length) })
  | missed (id : IdPtr) (hf : s.find val id = none)
      (e : x = { s with threads := Function.update s.threads t (.missed id) })
  | created (id : IdPtr) (hf : s.find val id = none)
      (e : x = { s with objs := s.objs ++ [val id], threads := Function.update s.threads t (.created id s.objs.length) })
  | stored (id : IdPtr) (hd : ∀ q, s.find val id = some q → ¬ s.Alive q)
      (ht : x.threads = Function.update s.threads t (.stored id s.objs.length)) (ho : x.objs = s.objs ++ [val id])
      (hc : x.clients = s.clients) (hl : x.log = s.log) (hf : x.find val id = some s.objs.length)
      (hr : ∀ id', id' ≠ id → x.find val id' = s.find val id')
  | done (req : Request V) (o : Nat) (h : Outcome val s t req o x)
  | more (h1 : s.log.length < x.log.length) (h2 : x.threads t ≠ .idle ∨ s.log.length + 1 < x.log.length)

theorem alive_idle {s : State V} (hs : ∀ t, s.threads t = .idle) (o : Nat) : s.Alive o ↔ 0 < s.clients o := by
  constructor
  · rintro (h | ⟨t, h⟩)
    · exact h
    · rw [hs t] at h; exact h.elim
  · exact .inl

theorem alive_move {s x : State V} {t : Nat} {c : Pc} (hs : ∀ t, s.threads t = .idle)
    (ht : x.threads = Function.update s.threads t c) (hc : x.clients = s.clients) (o : Nat) :
    x.Alive o ↔ s.Alive o ∨ c.holds o := by
  rw [alive_idle hs]
  unfold State.Alive
  rw [hc, ht]
  constructor
  · rintro (h | ⟨t', h⟩)
    · exact .inl h
    · by_cases e : t' = t
      · subst e; rw [Function.update_self] at h; exact .inr h
      · rw [Function.update_of_ne e, hs] at h; exact h.elim
  · rintro (h | h)
    · exact .inl h
    · exact .inr ⟨t, by rw [Function.update_self]; exact h⟩

theorem update_idle {s : State V} (hs : ∀ t, s.threads t = .idle) (t : Nat) (f : Nat → Pc) (c : Pc)
    (h : f = Function.update s.threads t c) : Function.update f t .idle = s.threads := by
  rw [h, Function.update_idem, ← hs t, Function.update_eq_self]

theorem phase_step {s x y : State V} {t : Nat} (hi : Inv val s) (hs : ∀ t, s.threads t = .idle)
    (hp : Phase val s t x) (st : Step val (some t) x y) : Phase val s t y := by
  have hzero : s.clients s.objs.length = 0 := by
    by_contra h
    have := hi.clients s.objs.length (by omega)
    omega
  have hg := growth st
  cases hp with
  | more h1 h2 =>
    refine .more (by omega) ?_
    rcases hg.2 with h | h
    · exact .inl h
    · right; omega
  | done req o h =>
    have hl := congrArg List.length h.log
    simp only [List.length_cons] at hl
    refine .more (by omega) ?_
    rcases hg.2 with h | h
    · exact .inl h
    · right; omega
  | start e =>
    subst e
    have ht := hs t
    cases st with
    | uncached _ _ v h =>
      refine .done (.uncacheable v) x.objs.length ⟨rfl, rfl, ?_, .inr (.inl ⟨v, rfl, rfl, rfl, rfl⟩)⟩
      rw [hzero]
    | findHit _ _ o id h hf => exact .found id rfl
    | findMiss _ _ id h hf => exact .missed id hf rfl
    | lockValid _ _ o id h => rw [ht] at h; cases h
    | lockExpired _ _ o id h => rw [ht] at h; cases h
    | reassemble _ _ id h => rw [ht] at h; cases h
    | assign _ _ o id h => rw [ht] at h; cases h
    | assemble _ _ id h => rw [ht] at h; cases h
    | insert _ _ o id h => rw [ht] at h; cases h
    | insertLost _ _ o q id h => rw [ht] at h; cases h
    | returnValid _ _ o q id h => rw [ht] at h; cases h
    | returnNull _ _ o q id h => rw [ht] at h; cases h
  | found id0 e =>
    have ht : x.threads t = .found id0 := by rw [e]; exact Function.update_self ..
    have al := alive_move (x := x) (t := t) (c := .found id0) hs (by rw [e]) (by rw [e])
    cases st with
    | uncached _ _ v h => rw [ht] at h; cases h
    | findHit _ _ o id h hf => rw [ht] at h; cases h
    | findMiss _ _ id h hf => rw [ht] at h; cases h
    | lockValid _ _ o id h hf ha =>
      have hid : id0 = id := by rw [ht] at h; injection h
      subst hid
      have ha' : s.Alive o := by
        have := (al o).mp ha
        simpa only [Pc.holds, or_false] using this
      subst e
      refine .done (.cacheable id0) o ⟨update_idle hs t _ _ rfl, rfl, rfl, .inl ⟨id0, rfl, hf, ha', rfl, rfl⟩⟩
    | lockExpired _ _ o id h hf ha =>
      have hid : id0 = id := by rw [ht] at h; injection h
      subst hid
      rw [al] at ha
      simp only [Pc.holds, or_false] at ha
      subst e
      refine .expired id0 o hf ha (by simp [Function.update_idem])
    | reassemble _ _ id h => rw [ht] at h; cases h
    | assign _ _ o id h => rw [ht] at h; cases h
    | assemble _ _ id h => rw [ht] at h; cases h
    | insert _ _ o id h => rw [ht] at h; cases h
    | insertLost _ _ o q id h => rw [ht] at h; cases h
    | returnValid _ _ o q id h => rw [ht] at h; cases h
    | returnNull _ _ o q id h => rw [ht] at h; cases h
  | expired id0 o0 hf hd e =>
    have ht : x.threads t = .expired id0 := by rw [e]; exact Function.update_self ..
    cases st with
    | reassemble _ _ id h =>
      have hid : id0 = id := by rw [ht] at h; injection h
      subst hid
      subst e
      exact .assembled id0 o0 hf hd (by simp [Function.update_idem])
    | uncached _ _ v h => rw [ht] at h; cases h
    | findHit _ _ o id h hf => rw [ht] at h; cases h
    | findMiss _ _ id h hf => rw [ht] at h; cases h
    | lockValid _ _ o id h => rw [ht] at h; cases h
    | lockExpired _ _ o id h => rw [ht] at h; cases h
    | assign _ _ o id h => rw [ht] at h; cases h
    | assemble _ _ id h => rw [ht] at h; cases h
    | insert _ _ o id h => rw [ht] at h; cases h
    | insertLost _ _ o q id h => rw [ht] at h; cases h
    | returnValid _ _ o q id h => rw [ht] at h; cases h
    | returnNull _ _ o q id h => rw [ht] at h; cases h
  | assembled id0 o0 hf hd e =>
    have ht : x.threads t = .assembled id0 s.objs.length := by rw [e]; exact Function.update_self ..
    cases st with
    | assign _ _ o id h =>
      have hid : id0 = id ∧ s.objs.length = o := by rw [ht] at h; injection h with a b; exact ⟨a, b⟩
      obtain ⟨rfl, rfl⟩ := hid
      subst e
      refine .stored id0 (by intro q hq; rw [hf] at hq; injection hq with hq; subst hq; exact hd)
        (by simp [Function.update_idem]) rfl rfl rfl ?_ ?_
      · rw [find_assign s id0 id0 s.objs.length _ rfl, if_pos rfl, hf]; rfl
      · intro id' hne
        rw [find_assign s id0 id' s.objs.length _ rfl, if_neg hne]
    | reassemble _ _ id h => rw [ht] at h; cases h
    | uncached _ _ v h => rw [ht] at h; cases h
    | findHit _ _ o id h hf => rw [ht] at h; cases h
    | findMiss _ _ id h hf => rw [ht] at h; cases h
    | lockValid _ _ o id h => rw [ht] at h; cases h
    | lockExpired _ _ o id h => rw [ht] at h; cases h
    | assemble _ _ id h => rw [ht] at h; cases h
    | insert _ _ o id h => rw [ht] at h; cases h
    | insertLost _ _ o q id h => rw [ht] at h; cases h
    | returnValid _ _ o q id h => rw [ht] at h; cases h
    | returnNull _ _ o q id h => rw [ht] at h; cases h
  | missed id0 hf e =>
    have ht : x.threads t = .missed id0 := by rw [e]; exact Function.update_self ..
    cases st with
    | assemble _ _ id h =>
      have hid : id0 = id := by rw [ht] at h; injection h
      subst hid
      subst e
      exact .created id0 hf (by simp [Function.update_idem])
    | reassemble _ _ id h => rw [ht] at h; cases h
    | assign _ _ o id h => rw [ht] at h; cases h
    | uncached _ _ v h => rw [ht] at h; cases h
    | findHit _ _ o id h hf => rw [ht] at h; cases h
    | findMiss _ _ id h hf => rw [ht] at h; cases h
    | lockValid _ _ o id h => rw [ht] at h; cases h
    | lockExpired _ _ o id h => rw [ht] at h; cases h
    | insert _ _ o id h => rw [ht] at h; cases h
    | insertLost _ _ o q id h => rw [ht] at h; cases h
    | returnValid _ _ o q id h => rw [ht] at h; cases h
    | returnNull _ _ o q id h => rw [ht] at h; cases h
  | created id0 hf e =>
    have ht : x.threads t = .created id0 s.objs.length := by rw [e]; exact Function.update_self ..
    cases st with
    | insert _ _ o id h =>
      have hid : id0 = id ∧ s.objs.length = o := by rw [ht] at h; injection h with a b; exact ⟨a, b⟩
      obtain ⟨rfl, rfl⟩ := hid
      subst e
      refine .stored id0 (by intro q hq; rw [hf] at hq; cases hq)
        (by simp [Function.update_idem]) rfl rfl rfl ?_ ?_
      · rw [find_insert s _ id0 id0 s.objs.length rfl, if_pos rfl]
      · intro id' hne
        rw [find_insert s _ id0 id' s.objs.length rfl, if_neg hne]
    | insertLost _ _ o q id h hq =>
      have hid : id0 = id := by rw [ht] at h; injection h
      subst hid
      subst e
      have hq' : s.find val id0 = some q := hq
      rw [hf] at hq'
      cases hq'
    | assemble _ _ id h => rw [ht] at h; cases h
    | reassemble _ _ id h => rw [ht] at h; cases h
    | assign _ _ o id h => rw [ht] at h; cases h
    | uncached _ _ v h => rw [ht] at h; cases h
    | findHit _ _ o id h hf => rw [ht] at h; cases h
    | findMiss _ _ id h hf => rw [ht] at h; cases h
    | lockValid _ _ o id h => rw [ht] at h; cases h
    | lockExpired _ _ o id h => rw [ht] at h; cases h
    | returnValid _ _ o q id h => rw [ht] at h; cases h
    | returnNull _ _ o q id h => rw [ht] at h; cases h
  | stored id0 hd hth ho hc hl hf hr =>
    have ht : x.threads t = .stored id0 s.objs.length := by rw [hth]; exact Function.update_self ..
    have al := alive_move (x := x) (t := t) hs hth hc
    cases st with
    | returnValid _ _ o q id h hq ha =>
      have hid : id0 = id := by rw [ht] at h; injection h
      subst hid
      have hqq : s.objs.length = q := by rw [hf] at hq; injection hq
      subst hqq
      refine .done (.cacheable id0) s.objs.length ⟨update_idle hs t _ _ hth, ?_, ?_, .inr (.inr
        ⟨id0, rfl, hd, rfl, ho, hf, hr⟩)⟩
      · show _ :: x.log = _; rw [hl]
      · show Function.update x.clients _ _ = _; rw [hc]
    | returnNull _ _ o q id h hq ha =>
      have hid : id0 = id := by rw [ht] at h; injection h
      subst hid
      have hqq : s.objs.length = q := by rw [hf] at hq; injection hq
      subst hqq
      exact absurd ((al _).mpr (.inr rfl)) ha
    | insert _ _ o id h => rw [ht] at h; cases h
    | insertLost _ _ o q id h hq => rw [ht] at h; cases h
    | assemble _ _ id h => rw [ht] at h; cases h
    | reassemble _ _ id h => rw [ht] at h; cases h
    | assign _ _ o id h => rw [ht] at h; cases h
    | uncached _ _ v h => rw [ht] at h; cases h
    | findHit _ _ o id h hf => rw [ht] at h; cases h
    | findMiss _ _ id h hf => rw [ht] at h; cases h
    | lockValid _ _ o id h => rw [ht] at h; cases h
    | lockExpired _ _ o id h => rw [ht] at h; cases h

theorem call_outcome {s s' : State V} {t : Nat} {req : Request V} {res : Option Nat} (hi : Inv val s)
    (hs : ∀ t, s.threads t = .idle) (hc : Call val t req res s s') :
    ∃ o, res = some o ∧ Outcome val s t req o s' := by
  obtain ⟨h1, h2, h3⟩ := hc
  have hp : Phase val s t s' := by
    clear h2 h3
    induction h1 with
    | refl => exact .start rfl
    | tail _ st ih => exact phase_step hi hs ih st
  have hlen := congrArg List.length h3
  simp only [List.length_cons] at hlen
  have no : ∀ {c : Pc}, s'.threads = Function.update s.threads t c → c ≠ .idle → False := by
    intro c h hne
    rw [h, Function.update_self] at h2
    exact hne h2
  cases hp with
  | start e => subst e; omega
  | found id e => exact (no (c := .found id) (by rw [e]) (by simp)).elim
  | expired id o _ _ e => exact (no (c := .expired id) (by rw [e]) (by simp)).elim
  | assembled id o _ _ e => exact (no (c := .assembled id s.objs.length) (by rw [e]) (by simp)).elim
  | missed id _ e => exact (no (c := .missed id) (by rw [e]) (by simp)).elim
  | created id _ e => exact (no (c := .created id s.objs.length) (by rw [e]) (by simp)).elim
  | stored id _ e => exact (no e (by simp)).elim
  | done req' o h =>
    have := h.log
    rw [h3] at this
    simp only [List.cons.injEq, Prod.mk.injEq, true_and, and_true] at this
    obtain ⟨rfl, rfl⟩ := this
    exact ⟨o, rfl, h⟩
  | more a b =>
    rcases b with b | b
    · exact absurd h2 b
    · omega

/-- Invariant of histories without overlapping calls. -/
structure SeqInv (val : IdPtr → V) (s : State V) : Prop where
  reach : Reachable val s
  idle : ∀ t, s.threads t = .idle
  latest : ∀ (t : Nat) (id : IdPtr) (q : Nat), (t, .cacheable id, some q) ∈ s.log → s.Alive q → s.find val id = some q
  logged : ∀ (id : IdPtr) (q : Nat), s.find val id = some q → ∃ t : Nat, (t, .cacheable id, some q) ∈ s.log

theorem solo_reachable {s s' : State V} {t : Nat} (h : Reachable val s) (hs : Solo val t s s') : Reachable val s' := by
  induction hs with
  | refl => exact h
  | tail _ st ih => exact .step _ _ _ ih st

theorem seq_inv {s : State V} (h : Seq val s) : SeqInv val s := by
  induction h with
  | init => exact ⟨.init, fun _ => rfl, by intro t id q h; simp [State.init] at h,
    by intro id q h; simp [State.init, State.find] at h⟩
  | release s s' _ st ih =>
    refine ⟨.step _ _ _ ih.reach st, ?_, ?_, ?_⟩
    · cases st; exact ih.idle
    rotate_left
    · cases st; exact ih.logged
    · intro t id q hm ha
      generalize hl : (none : Option Nat) = l at st
      cases st
      case release o ho =>
        refine ih.latest t id q hm ?_
        rw [alive_idle ih.idle]
        have ha : 0 < Function.update s.clients o (s.clients o - 1) q := by
          rcases ha with h | ⟨t', h⟩
          · exact h
          · have h : (s.threads t').holds q := h
            rw [ih.idle t'] at h; exact h.elim
        by_cases e : q = o
        · subst e; exact ho
        · simpa only [Function.update_of_ne e] using ha
      all_goals cases hl
  | call t req res s s' _ hc ih =>
    have hi := inv_reachable ih.reach
    obtain ⟨o, rfl, h⟩ := call_outcome hi ih.idle hc
    have hidle : ∀ t, s'.threads t = .idle := by rw [h.threads]; exact ih.idle
    refine ⟨solo_reachable ih.reach hc.1, hidle, ?_, ?_⟩
    rotate_left
    · intro id q hq
      rw [h.log]
      have keep : s.find val id = some q → ∃ t' : Nat, (t', .cacheable id, some q) ∈ (t, req, some o) :: s.log := by
        intro hq
        obtain ⟨t', ht⟩ := ih.logged id q hq
        exact ⟨t', List.mem_cons_of_mem _ ht⟩
      rcases h.how with ⟨id', -, -, -, -, hmap⟩ | ⟨v, -, -, -, hmap⟩ | ⟨id', e, -, -, -, hf, hr⟩
      · rw [find_congr _ _ hmap] at hq; exact keep hq
      · rw [find_congr _ _ hmap] at hq; exact keep hq
      · by_cases e' : id = id'
        · subst e'
          rw [hf] at hq; injection hq with hq; subst hq
          exact ⟨t, by rw [e]; exact List.mem_cons_self⟩
        · rw [hr id e'] at hq; exact keep hq
    intro t' id q hm ha
    rw [alive_idle hidle, h.clients] at ha
    have old : q ≠ o → s.Alive q := by
      intro e
      rw [Function.update_of_ne e] at ha
      exact .inl ha
    rw [h.log] at hm
    rcases List.mem_cons.mp hm with e | hm
    · simp only [Prod.mk.injEq, Option.some.injEq] at e
      obtain ⟨rfl, rfl, rfl⟩ := e
      rcases h.how with ⟨id', e, hf, ha, -, hmap⟩ | ⟨v, e, -⟩ | ⟨id', e, -, -, -, hf, -⟩
      · cases e; rw [find_congr _ _ hmap]; exact hf
      · cases e
      · cases e; exact hf
    · have hq := log_sound ih.reach _ _ _ hm
      have hq := (List.getElem?_eq_some_iff.mp hq).1
      rcases h.how with ⟨id', -, hf, hal, -, hmap⟩ | ⟨v, -, ho, -, hmap⟩ | ⟨id', -, hdead, ho, -, hf, hr⟩
      · rw [find_congr _ _ hmap]
        refine ih.latest t' id q hm ?_
        by_cases e : q = o
        · subst e; exact hal
        · exact old e
      · rw [find_congr _ _ hmap]
        exact ih.latest t' id q hm (old (by omega))
      · have hal := old (by omega)
        have := ih.latest t' id q hm hal
        by_cases e : id = id'
        · subst e; exact absurd hal (hdead q this)
        · rw [hr id e]; exact this

/-- **C50, calls that do not overlap.** Every call returns a non-null weak form of the requested operator, which is
alive.  For an operator with an id object, it is the weak form returned earlier for that id object if this is still
alive (and nothing is assembled), and otherwise one that is newly assembled.  Weak forms of operators without id are
always newly assembled.

Missing from the full property: sharing between *equal* id objects at different addresses
(`C50_counterexample_equal_ids`), overlapping calls (`C50_counterexample_null`) and `aliveOperators`
(`C50_counterexample_alive_operators`). -/
theorem C50_sequential_partial {s s' : State V} (h : Seq val s) {t : Nat} {req : Request V} {res : Option Nat}
    (hc : Call val t req res s s') :
    ∃ o, res = some o ∧ s'.objs[o]? = some (req.value val) ∧ s'.Alive o ∧
      (∀ id, req = .cacheable id → ∀ t' q, (t', .cacheable id, some q) ∈ s.log → s.Alive q →
        o = q ∧ s'.objs = s.objs) ∧
      (∀ id, req = .cacheable id → (∀ t' q, (t', .cacheable id, some q) ∈ s.log → ¬ s.Alive q) →
        o = s.objs.length ∧ s'.objs = s.objs ++ [val id]) ∧
      (∀ v, req = .uncacheable v → o = s.objs.length ∧ s'.objs = s.objs ++ [v]) := by
  have hsi := seq_inv h
  have hi := inv_reachable hsi.reach
  obtain ⟨o, rfl, ho⟩ := call_outcome hi hsi.idle hc
  refine ⟨o, rfl, ?_, ?_, ?_, ?_, ?_⟩
  · exact log_sound (solo_reachable hsi.reach hc.1) t req o (by rw [hc.2.2]; exact List.mem_cons_self)
  · left; rw [ho.clients, Function.update_self]; omega
  · rintro id rfl t' q hm ha
    have hf := hsi.latest t' id q hm ha
    rcases ho.how with ⟨id', e, hf', -, hobj, -⟩ | ⟨v, e, -⟩ | ⟨id', e, hd, -⟩
    · cases e; rw [hf] at hf'; injection hf' with hf'; exact ⟨hf'.symm, hobj⟩
    · cases e
    · cases e; exact absurd ha (hd q hf)
  · rintro id rfl hdead
    rcases ho.how with ⟨id', e, hf', hal, hobj, -⟩ | ⟨v, e, -⟩ | ⟨id', e, hd, h1, h2, -⟩
    · cases e
      obtain ⟨t', hm⟩ := hsi.logged id o hf'
      exact absurd hal (hdead t' o hm)
    · cases e
    · cases e; exact ⟨h1, h2⟩
  · rintro v rfl
    rcases ho.how with ⟨id', e, -⟩ | ⟨v', e, h1, h2, -⟩ | ⟨id', e, -⟩
    · cases e
    · cases e; exact ⟨h1, h2⟩
    · cases e

end

/-! ## Reachable cases -/

section
variable {V : Type} [DecidableEq V] {val : IdPtr → V}

/-- A call for an id object that has not been requested before. -/
theorem call_miss {s : State V} (hs : ∀ t, s.threads t = .idle) (hi : Inv val s) (t : Nat) (id : IdPtr)
    (hf : s.find val id = none) : ∃ s', Call val t (.cacheable id) (some s.objs.length) s s' := by
  let s1 : State V := { s with threads := Function.update s.threads t (.missed id) }
  let s2 : State V := { s1 with objs := s.objs ++ [val id],
                                threads := Function.update s1.threads t (.created id s.objs.length) }
  let s3 : State V := { s2 with map := (id, s.objs.length) :: s.map,
                                threads := Function.update s2.threads t (.stored id s.objs.length) }
  let s4 : State V := { s3 with clients := Function.update s3.clients s.objs.length (s3.clients s.objs.length + 1),
                                threads := Function.update s3.threads t .idle,
                                log := (t, .cacheable id, some s.objs.length) :: s3.log }
  have h1 : Step val (some t) s s1 := .findMiss s t id (hs t) hf
  have h2 : Step val (some t) s1 s2 := .assemble s1 t id (Function.update_self ..)
  have h3 : Step val (some t) s2 s3 := .insert s2 t _ id (Function.update_self ..) hf
  have h4 : Step val (some t) s3 s4 := .returnValid s3 t _ _ id (Function.update_self ..)
    (by rw [find_insert s s3 id id s.objs.length rfl, if_pos rfl])
    (.inr ⟨t, by show Pc.holds (Function.update s2.threads t _ t) _; rw [Function.update_self]; rfl⟩)
  refine ⟨s4, ?_, Function.update_self .., rfl⟩
  exact (((Relation.ReflTransGen.single h1).tail h2).tail h3).tail h4

/-- A history with a call exists, in which the requested weak form is alive: the hypotheses of
`C50_sequential_partial` are met, in the case of a first request, a repeated request, and (after a release) a request
whose weak form has expired. -/
theorem C50_reachable_cases (p : IdPtr) : ∃ s s1 : State V, Seq val s ∧ Seq val s1 ∧
    (0, .cacheable p, some 0) ∈ s.log ∧ s.Alive 0 ∧ (∃ s', Call val 1 (.cacheable p) (some 0) s s') ∧
    (0, .cacheable p, some 0) ∈ s1.log ∧ ¬ s1.Alive 0 := by
  obtain ⟨s, hc⟩ := call_miss (val := val) (s := State.init) (fun _ => rfl) inv_init 0 p rfl
  have hseq : Seq val s := .call _ _ _ _ _ .init hc
  obtain ⟨o, ho, hout⟩ := call_outcome (val := val) inv_init (fun _ => rfl) hc
  injection ho with ho
  subst ho
  have hcl : s.clients 0 = 1 := by rw [hout.clients]; rfl
  have hidle : ∀ t, s.threads t = .idle := by rw [hout.threads]; intro t; rfl
  have hmem : (0, .cacheable p, some 0) ∈ s.log := by rw [hout.log]; exact List.mem_cons_self
  have hf : s.find val p = some 0 := (seq_inv hseq).latest 0 p 0 hmem (.inl (by omega))
  refine ⟨s, { s with clients := Function.update s.clients 0 (s.clients 0 - 1) }, hseq,
    .release s _ hseq (.release s 0 (by omega)), hmem, .inl (by omega), ?_, hmem, ?_⟩
  · let a : State V := { s with threads := Function.update s.threads 1 (.found p) }
    have h1 : Step val (some 1) s a := .findHit s 1 0 p (hidle 1) hf
    have h2 := Step.lockValid (val := val) a 1 0 p (Function.update_self (f := s.threads) 1 (.found p)) hf (.inl (by show 0 < s.clients 0; omega))
    exact ⟨_, (Relation.ReflTransGen.single h1).tail h2, Function.update_self (f := a.threads) 1 .idle, rfl⟩
  · rintro (h | ⟨t, h⟩)
    · have h : 0 < Function.update s.clients 0 (s.clients 0 - 1) 0 := h
      rw [Function.update_self] at h; omega
    · have h : (s.threads t).holds 0 := h
      rw [hidle t] at h; exact h

/-- **Disagreement with C50 (equal ids).** The hash is that of the address of the id object, so two operators with
equal ids at different addresses do not share a weak form: for any two addresses of equal ids, a first call for the
second assembles a new weak form although the one for the equal id is alive. -/
theorem C50_counterexample_equal_ids (p q : IdPtr) (hne : p ≠ q) (heq : val p = val q) :
    ∃ s s' : State V, Seq val s ∧ (0, .cacheable p, some 0) ∈ s.log ∧ s.Alive 0 ∧
      Call val 0 (.cacheable q) (some 1) s s' ∧ s'.objs = [val p, val p] := by
  obtain ⟨s, hc⟩ := call_miss (val := val) (s := State.init) (fun _ => rfl) inv_init 0 p rfl
  have hseq : Seq val s := .call _ _ _ _ _ .init hc
  obtain ⟨o, ho, hout⟩ := call_outcome (val := val) inv_init (fun _ => rfl) hc
  injection ho with ho
  subst ho
  have hcl : s.clients 0 = 1 := by rw [hout.clients]; rfl
  have hidle : ∀ t, s.threads t = .idle := by rw [hout.threads]; intro t; rfl
  have hmem : (0, .cacheable p, some 0) ∈ s.log := by rw [hout.log]; exact List.mem_cons_self
  have hinv := inv_reachable (seq_inv hseq).reach
  have hobj : s.objs = [val p] := by
    rcases hout.how with ⟨id, -, hf, -⟩ | ⟨v, e, -⟩ | ⟨id, e, -, -, h, -⟩
    · simp [State.find, State.init] at hf
    · cases e
    · cases e; simpa [State.init] using h
  have hf : s.find val q = none := by
    cases hf : s.find val q with
    | none => rfl
    | some o =>
      obtain ⟨t', hm⟩ := (seq_inv hseq).logged q o hf
      rw [hout.log] at hm
      simp [State.init] at hm
      exact absurd hm.2.1.symm hne
  obtain ⟨s', hc'⟩ := call_miss (val := val) (s := s) hidle hinv 0 q hf
  rw [hobj] at hc'
  refine ⟨s, s', hseq, hmem, .inl (by omega), hc', ?_⟩
  obtain ⟨o, ho, hs'⟩ := call_outcome hinv hidle hc'
  rcases hs'.how with ⟨id, e, hf', -⟩ | ⟨v, e, -⟩ | ⟨id, e, -, -, h, -⟩
  · cases e; rw [hf] at hf'; cases hf'
  · cases e
  · cases e; rw [h, hobj, heq]; rfl

/-- **Disagreement with C50 (null result).** Two threads request the same operator and both miss; the first inserts,
returns, and its client releases the weak form; then the second thread's insertion is ignored, the entry has expired,
and the second call returns a null pointer although it has just assembled the weak form. -/
theorem C50_counterexample_null (p : IdPtr) : ∃ s : State V, Reachable val s ∧
    s.log = [(1, .cacheable p, none), (0, .cacheable p, some 0)] ∧ s.objs = [val p, val p] := by
  let th (a b : Pc) : Nat → Pc := fun t => if t = 0 then a else if t = 1 then b else .idle
  let st (objs : List V) (c : Nat) (m : List (IdPtr × Nat)) (a b : Pc) (l) : State V :=
    ⟨objs, fun o => if o = 0 then c else 0, m, th a b, l⟩
  have up0 : ∀ a b c, Function.update (th a b) 0 c = th c b := by
    intro a b c; funext t; simp only [th, Function.update_apply]; split <;> simp_all
  have up1 : ∀ a b c, Function.update (th a b) 1 c = th a c := by
    intro a b c; funext t; simp only [th, Function.update_apply]; split <;> simp_all
  have upc : ∀ c d : Nat, Function.update (fun o : Nat => if o = 0 then c else 0) 0 d = fun o => if o = 0 then d else 0 := by
    intro c d; funext t; simp only [Function.update_apply]; split <;> simp_all
  have step : ∀ {l} {s s' : State V} (_ : Reachable val s) (x : State V) (_ : Step val l s x) (_ : x = s'),
      Reachable val s' := by
    intro l s s' h x hx e; subst e; exact .step _ _ _ h hx
  have h0 : Reachable val (st [] 0 [] .idle .idle []) := by
    have : (st [] 0 [] .idle .idle [] : State V) = State.init := by
      simp only [st, State.init, th, ite_self]
    rw [this]; exact .init
  have h1 : Reachable val (st [] 0 [] (.missed p) .idle []) :=
    step h0 _ (.findMiss _ 0 p rfl rfl) (by simp only [st, up0])
  have h2 : Reachable val (st [] 0 [] (.missed p) (.missed p) []) :=
    step h1 _ (.findMiss _ 1 p rfl rfl) (by simp only [st, up1])
  have h3 : Reachable val (st [val p] 0 [] (.created p 0) (.missed p) []) :=
    step h2 _ (.assemble _ 0 p rfl) (by simp only [st, up0, List.nil_append, List.length_nil])
  have h4 : Reachable val (st [val p, val p] 0 [] (.created p 0) (.created p 1) []) :=
    step h3 _ (.assemble _ 1 p rfl) (by simp [st, up1])
  have h5 : Reachable val (st [val p, val p] 0 [(p, 0)] (.stored p 0) (.created p 1) []) :=
    step h4 _ (.insert _ 0 0 p rfl rfl) (by simp only [st, up0])
  have fnd : ∀ objs c a b l, (st objs c [(p, 0)] a b l).find val p = some 0 := by
    intro objs c a b l
    simp [State.find, st]
  have h6 : Reachable val (st [val p, val p] 1 [(p, 0)] .idle (.created p 1) [(0, .cacheable p, some 0)]) :=
    step h5 _ (.returnValid _ 0 0 0 p rfl (fnd ..) (.inr ⟨0, rfl⟩)) (by simp only [st, up0, upc]; rfl)
  have h7 : Reachable val (st [val p, val p] 0 [(p, 0)] .idle (.created p 1) [(0, .cacheable p, some 0)]) :=
    step h6 _ (.release _ 0 Nat.one_pos) (by simp only [st, upc]; rfl)
  have h8 : Reachable val (st [val p, val p] 0 [(p, 0)] .idle (.stored p 1) [(0, .cacheable p, some 0)]) :=
    step h7 _ (.insertLost _ 1 1 0 p rfl (fnd ..)) (by simp only [st, up1])
  have dead : ¬ (st [val p, val p] 0 [(p, 0)] .idle (.stored p 1) [(0, .cacheable p, some 0)]).Alive 0 := by
    rintro (h | ⟨t, h⟩)
    · exact absurd h (by simp [st])
    · have h : (th .idle (.stored p 1) t).holds 0 := h
      simp only [th] at h
      split at h
      · exact h
      · split at h
        · exact absurd h (by simp [Pc.holds])
        · exact h
  have h9 : Reachable val (st [val p, val p] 0 [(p, 0)] .idle .idle
      [(1, .cacheable p, none), (0, .cacheable p, some 0)]) :=
    step h8 _ (.returnNull _ 1 1 0 p rfl (fnd ..) dead) (by simp only [st, up1])
  exact ⟨_, h9, rfl, rfl⟩

/-- **Disagreement with C50 (`aliveOperators`).** `aliveOperators()` is empty in every state, also where weak forms are
cached and alive. -/
theorem C50_counterexample_alive_operators (p : IdPtr) :
    (∀ (s : State V) (alive : Nat → Bool), s.aliveOperators alive = []) ∧
      ∃ s : State V, Seq val s ∧ s.find val p = some 0 ∧ s.Alive 0 := by
  refine ⟨fun s alive => by simp [State.aliveOperators, aliveLoop], ?_⟩
  obtain ⟨s, s1, h1, -, h2, h3, -⟩ := C50_reachable_cases (val := val) p
  exact ⟨s, h1, (seq_inv h1).latest 0 p 0 h2 h3, h3⟩

end
end Verif.WeakCache
