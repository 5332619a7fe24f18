import Verif.Model.ListsCache
import Mathlib.Data.List.Nodup
/-
Property C49 (caches of dof and component lists).
-/
namespace Verif.Cache

section
variable {V : Type} (one : Nat → V) (many : Nat → Nat → V)

/-- The address is in use by thread `t`, which has not inserted it yet. -/
def Private (s : State V) (t p : Nat) : Prop := ∃ st ct, s.threads t = .created st ct p

/-- Invariant of the reachable states. -/
structure Inv (s : State V) : Prop where
  /-- lists in the map are alive and were computed for their key -/
  stored : ∀ k p, (k, p) ∈ s.map → s.heap[p]? = some (some (many k.1 k.2)) ∧ k.2 ≠ 1
  ptrs : (s.map.map Prod.snd).Nodup
  priv : ∀ t st ct p, s.threads t = .created st ct p → s.heap[p]? = some (some (many st ct)) ∧ ct ≠ 1 ∧
    p ∉ s.map.map Prod.snd
  privInj : ∀ t t' p, Private s t p → Private s t' p → t = t'
  missed : ∀ t st ct, s.threads t = .missed st ct → ct ≠ 1
  /-- whatever was returned: owned lists are right, shared pointers are in the map under their key -/
  logged : ∀ t k r, (t, k, r) ∈ s.log → match r with
    | .owned v => k.2 = 1 ∧ v = one k.1
    | .shared p => (k, p) ∈ s.map
  /-- every live list is in the map or private to a thread -/
  live : ∀ p v, s.heap[p]? = some (some v) → p ∈ s.map.map Prod.snd ∨ ∃ t, Private s t p

theorem find_mem (s : State V) (st ct p : Nat) (h : s.find st ct = some p) : ((st, ct), p) ∈ s.map := by
  unfold State.find at h
  cases hf : s.map.find? (fun e => e.1 == (st, ct)) with
  | none => rw [hf] at h; cases h
  | some e =>
    rw [hf] at h
    injection h with h
    have h1 := List.find?_some hf
    have h2 := List.mem_of_find?_eq_some hf
    have : e.1 = (st, ct) := by simpa using h1
    rw [← this, ← h]; exact h2

variable {one many}

theorem private_update_ne {s : State V} {t t' p : Nat} {c : Pc} (th : Nat → Pc) (hth : th = Function.update s.threads t c)
    (hc : ∀ st ct q, c ≠ .created st ct q) :
    (∃ st ct, th t' = .created st ct p) ↔ t' ≠ t ∧ Private s t' p := by
  subst hth
  unfold Private
  by_cases h : t' = t
  · subst h
    simp only [Function.update_self, ne_eq, not_true_eq_false, false_and, iff_false]
    rintro ⟨st, ct, h⟩
    exact hc _ _ _ h
  · simp [Function.update_of_ne h, h]

theorem inv_step {s s' : State V} (hi : Inv one many s) (h : Step one many s s') : Inv one many s' := by
  cases h with
  | single t start ht =>
    refine ⟨hi.stored, hi.ptrs, hi.priv, hi.privInj, hi.missed, ?_, hi.live⟩
    intro t' k r hm
    rcases List.mem_cons.mp hm with h | h
    · cases h; exact ⟨rfl, rfl⟩
    · exact hi.logged t' k r h
  | hit t start count p ht hc hf =>
    refine ⟨hi.stored, hi.ptrs, hi.priv, hi.privInj, hi.missed, ?_, hi.live⟩
    intro t' k r hm
    rcases List.mem_cons.mp hm with h | h
    · cases h; exact find_mem s _ _ _ hf
    · exact hi.logged t' k r h
  | miss t start count ht hc hf =>
    have hpu : ∀ t' p, Private { s with threads := Function.update s.threads t (.missed start count) } t' p ↔
        t' ≠ t ∧ Private s t' p := fun t' p => private_update_ne _ rfl (by intros; simp)
    refine ⟨hi.stored, hi.ptrs, ?_, ?_, ?_, hi.logged, ?_⟩
    · intro t' st ct p h
      by_cases he : t' = t
      · subst he; simp at h
      · simp only [Function.update_of_ne he] at h; exact hi.priv t' st ct p h
    · intro a b p ha hb
      exact hi.privInj a b p ((hpu a p).mp ha).2 ((hpu b p).mp hb).2
    · intro t' st ct h
      by_cases he : t' = t
      · subst he
        simp only [Function.update_self, Pc.missed.injEq] at h
        rw [← h.2]; exact hc
      · simp only [Function.update_of_ne he] at h; exact hi.missed t' st ct h
    · intro p v h
      rcases hi.live p v h with h | ⟨t', h⟩
      · exact Or.inl h
      · refine Or.inr ⟨t', (hpu t' p).mpr ⟨?_, h⟩⟩
        intro he
        obtain ⟨st, ct, h'⟩ := h
        rw [he, ht] at h'; cases h'
  | create t start count ht =>
    have hlt : ∀ (p : Nat) (v : V), s.heap[p]? = some (some v) → p < s.heap.length := fun p v h =>
      (List.getElem?_eq_some_iff.mp h).1
    have hold : ∀ (p : Nat) (v : V), s.heap[p]? = some (some v) →
        (s.heap ++ [some (many start count)])[p]? = some (some v) := by
      intro p v h
      rw [List.getElem?_append_left (hlt p v h)]; exact h
    have hnew : s.heap.length ∉ s.map.map Prod.snd := by
      intro h
      obtain ⟨e, he, h⟩ := List.mem_map.mp h
      have := hlt _ _ (hi.stored e.1 e.2 he).1
      omega
    have hpl : ∀ t' p, Private s t' p → p < s.heap.length := by
      rintro t' p ⟨st, ct, h⟩
      exact hlt _ _ (hi.priv t' st ct p h).1
    have hpu : ∀ t' p, Private { s with
        heap := s.heap ++ [some (many start count)]
        threads := Function.update s.threads t (.created start count s.heap.length) } t' p ↔
        (t' = t ∧ p = s.heap.length) ∨ (t' ≠ t ∧ Private s t' p) := by
      intro t' p
      unfold Private
      by_cases he : t' = t
      · subst he
        simp only [Function.update_self, Pc.created.injEq, true_and, ne_eq, not_true_eq_false, false_and, or_false]
        constructor
        · rintro ⟨st, ct, -, -, h⟩; exact h.symm
        · rintro rfl; exact ⟨_, _, rfl, rfl, rfl⟩
      · simp [Function.update_of_ne he, he]
    refine ⟨fun k p h => ⟨hold _ _ (hi.stored k p h).1, (hi.stored k p h).2⟩, hi.ptrs, ?_, ?_, ?_, hi.logged, ?_⟩
    · intro t' st ct p h
      by_cases he : t' = t
      · subst he
        simp only [Function.update_self, Pc.created.injEq] at h
        obtain ⟨rfl, rfl, rfl⟩ := h
        refine ⟨?_, hi.missed _ _ _ ht, hnew⟩
        show (s.heap ++ [some (many start count)])[s.heap.length]? = _
        rw [List.getElem?_append_right le_rfl]; simp
      · simp only [Function.update_of_ne he] at h
        obtain ⟨h1, h2, h3⟩ := hi.priv t' st ct p h
        exact ⟨hold _ _ h1, h2, h3⟩
    · intro a b p ha hb
      rcases (hpu a p).mp ha with ⟨h1, h2⟩ | ⟨h1, h2⟩ <;> rcases (hpu b p).mp hb with ⟨h3, h4⟩ | ⟨h3, h4⟩
      · rw [h1, h3]
      · have := hpl _ _ h4; omega
      · have := hpl _ _ h2; omega
      · exact hi.privInj a b p h2 h4
    · intro t' st ct h
      by_cases he : t' = t
      · subst he; simp at h
      · simp only [Function.update_of_ne he] at h; exact hi.missed t' st ct h
    · intro p v h
      replace h : (s.heap ++ [some (many start count)])[p]? = some (some v) := h
      by_cases hp : p < s.heap.length
      · rw [List.getElem?_append_left hp] at h
        rcases hi.live p v h with h | ⟨t', h⟩
        · exact Or.inl h
        · refine Or.inr ⟨t', (hpu t' p).mpr (Or.inr ⟨?_, h⟩)⟩
          rintro rfl
          obtain ⟨st, ct, h⟩ := h
          rw [ht] at h; cases h
      · refine Or.inr ⟨t, (hpu t p).mpr (Or.inl ⟨rfl, ?_⟩)⟩
        have := (List.getElem?_eq_some_iff.mp h).1
        rw [List.length_append, List.length_singleton] at this
        omega
  | insert t start count p ht hf =>
    obtain ⟨hv, hc, hnot⟩ := hi.priv t start count p ht
    have hpu : ∀ t' q, Private { s with
        map := ((start, count), p) :: s.map
        threads := Function.update s.threads t .idle
        log := (t, (start, count), .shared p) :: s.log } t' q ↔ t' ≠ t ∧ Private s t' q :=
      fun t' q => private_update_ne _ rfl (by intros; simp)
    refine ⟨?_, ?_, ?_, ?_, ?_, ?_, ?_⟩
    · intro k q h
      rcases List.mem_cons.mp h with h | h
      · cases h; exact ⟨hv, hc⟩
      · exact hi.stored k q h
    · show (p :: s.map.map Prod.snd).Nodup
      exact List.nodup_cons.mpr ⟨hnot, hi.ptrs⟩
    · intro t' st ct q h
      by_cases he : t' = t
      · subst he; simp at h
      · simp only [Function.update_of_ne he] at h
        obtain ⟨h1, h2, h3⟩ := hi.priv t' st ct q h
        refine ⟨h1, h2, ?_⟩
        rw [List.map_cons, List.mem_cons, not_or]
        refine ⟨?_, h3⟩
        rintro rfl
        exact he (hi.privInj t' t _ ⟨st, ct, h⟩ ⟨start, count, ht⟩)
    · intro a b q ha hb
      exact hi.privInj a b q ((hpu a q).mp ha).2 ((hpu b q).mp hb).2
    · intro t' st ct h
      by_cases he : t' = t
      · subst he; simp at h
      · simp only [Function.update_of_ne he] at h; exact hi.missed t' st ct h
    · intro t' k r hm
      rcases List.mem_cons.mp hm with h | h
      · cases h; exact List.mem_cons_self
      · have := hi.logged t' k r h
        cases r with
        | owned v => exact this
        | shared q => exact List.mem_cons_of_mem _ this
    · intro q v h
      rcases hi.live q v h with h | ⟨t', h⟩
      · exact Or.inl (List.mem_cons_of_mem _ h)
      · by_cases he : t' = t
        · obtain ⟨st, ct, h'⟩ := h
          rw [he, ht] at h'
          injection h' with _ _ h'
          subst h'
          exact Or.inl List.mem_cons_self
        · exact Or.inr ⟨t', (hpu t' q).mpr ⟨he, h⟩⟩
  | lose t start count p q ht hf =>
    obtain ⟨hv, hc, hnot⟩ := hi.priv t start count p ht
    have hpu : ∀ t' r, Private { s with
        heap := s.heap.set p none
        threads := Function.update s.threads t .idle
        log := (t, (start, count), .shared q) :: s.log } t' r ↔ t' ≠ t ∧ Private s t' r :=
      fun t' r => private_update_ne _ rfl (by intros; simp)
    refine ⟨?_, hi.ptrs, ?_, ?_, ?_, ?_, ?_⟩
    · intro k r h
      have hne : p ≠ r := by
        rintro rfl
        exact hnot (List.mem_map.mpr ⟨_, h, rfl⟩)
      refine ⟨?_, (hi.stored k r h).2⟩
      show (s.heap.set p none)[r]? = _
      rw [List.getElem?_set_ne hne]; exact (hi.stored k r h).1
    · intro t' st ct r h
      by_cases he : t' = t
      · subst he; simp at h
      · simp only [Function.update_of_ne he] at h
        obtain ⟨h1, h2, h3⟩ := hi.priv t' st ct r h
        have hne : p ≠ r := by
          rintro rfl
          exact he (hi.privInj t' t _ ⟨st, ct, h⟩ ⟨start, count, ht⟩)
        refine ⟨?_, h2, h3⟩
        show (s.heap.set p none)[r]? = _
        rw [List.getElem?_set_ne hne]; exact h1
    · intro a b r ha hb
      exact hi.privInj a b r ((hpu a r).mp ha).2 ((hpu b r).mp hb).2
    · intro t' st ct h
      by_cases he : t' = t
      · subst he; simp at h
      · simp only [Function.update_of_ne he] at h; exact hi.missed t' st ct h
    · intro t' k r hm
      rcases List.mem_cons.mp hm with h | h
      · cases h; exact find_mem s _ _ _ hf
      · exact hi.logged t' k r h
    · intro r v h
      replace h : (s.heap.set p none)[r]? = some (some v) := h
      have hne : p ≠ r := by
        rintro rfl
        rw [List.getElem?_set_self (List.getElem?_eq_some_iff.mp hv).1] at h
        cases h
      rw [List.getElem?_set_ne hne] at h
      rcases hi.live r v h with h | ⟨t', h⟩
      · exact Or.inl h
      · refine Or.inr ⟨t', (hpu t' r).mpr ⟨?_, h⟩⟩
        rintro rfl
        obtain ⟨st, ct, h⟩ := h
        rw [ht] at h
        injection h with _ _ h
        exact hne h

theorem inv_reachable {s : State V} (h : Reachable one many s) : Inv one many s := by
  induction h with
  | init =>
    refine ⟨by simp [State.init], by simp [State.init], by simp [State.init], ?_, by simp [State.init],
      by simp [State.init], by simp [State.init]⟩
    rintro t t' p ⟨st, ct, h⟩
    simp [State.init] at h
  | step s s' _ h ih => exact inv_step ih h

/-- **C49** After any history of calls of any number of threads, everything that any call has returned so far is still
readable and is exactly what an uncached computation returns for that call's arguments. -/
theorem C49_transparent (s : State V) (h : Reachable one many s) (t start count : Nat) (r : Returned V)
    (hr : (t, (start, count), r) ∈ s.log) :
    r.read s.heap = some (if count = 1 then one start else many start count) := by
  have hi := inv_reachable h
  have := hi.logged t (start, count) r hr
  cases r with
  | owned v =>
    obtain ⟨h1, h2⟩ := this
    simp only at h1 h2
    rw [if_pos h1, h2]; rfl
  | shared p =>
    obtain ⟨h1, h2⟩ := hi.stored _ _ this
    rw [if_neg h2]
    show (s.heap[p]?).join = _
    rw [h1]; rfl

/-- **C49** No call gets stuck: from every reachable state an idle thread can start any call, and a thread inside a call
can take its next step. -/
theorem C49_progress (s : State V) (t : Nat) :
    match s.threads t with
    | .idle => ∀ start count, ∃ s', Step one many s s' ∧
        ((∃ r, s'.log = (t, (start, count), r) :: s.log) ∨ s'.threads t = .missed start count)
    | .missed start count => ∃ s' p, Step one many s s' ∧ s'.threads t = .created start count p
    | .created start count _ => ∃ s' r, Step one many s s' ∧ s'.threads t = .idle ∧
        s'.log = (t, (start, count), r) :: s.log := by
  cases ht : s.threads t with
  | idle =>
    intro start count
    by_cases hc : count = 1
    · subst hc
      exact ⟨_, .single s t start ht, Or.inl ⟨_, rfl⟩⟩
    · cases hf : s.find start count with
      | none => exact ⟨_, .miss s t start count ht hc hf, Or.inr (by simp)⟩
      | some p => exact ⟨_, .hit s t start count p ht hc hf, Or.inl ⟨_, rfl⟩⟩
  | missed start count => exact ⟨_, s.heap.length, .create s t start count ht, by simp⟩
  | created start count p =>
    cases hf : s.find start count with
    | none => exact ⟨_, _, .insert s t start count p ht hf, by simp, rfl⟩
    | some q => exact ⟨_, _, .lose s t start count p q ht hf, by simp, rfl⟩

theorem foldlM_free (l : List ((Nat × Nat) × Nat)) : ∀ heap : List (Option V), (l.map Prod.snd).Nodup →
    (∀ e ∈ l, ∃ v : V, heap[e.2]? = some (some v)) →
    ∃ heap', l.foldlM (fun heap e => free heap e.2) heap = some heap' ∧
      ∀ q, heap'[q]? = if q ∈ l.map Prod.snd then some none else heap[q]? := by
  induction l with
  | nil => intro heap _ _; exact ⟨heap, rfl, by simp⟩
  | cons e l ih =>
    intro heap hn hl
    rw [List.map_cons, List.nodup_cons] at hn
    obtain ⟨v, hv⟩ := hl e List.mem_cons_self
    have hlt := (List.getElem?_eq_some_iff.mp hv).1
    obtain ⟨heap', h1, h2⟩ := ih (heap.set e.2 none) hn.2 (by
      intro x hx
      obtain ⟨w, hw⟩ := hl x (List.mem_cons_of_mem _ hx)
      refine ⟨w, ?_⟩
      rw [List.getElem?_set_ne]; · exact hw
      intro he
      exact hn.1 (List.mem_map.mpr ⟨x, hx, he.symm⟩))
    refine ⟨heap', ?_, ?_⟩
    · rw [List.foldlM_cons]
      have : free heap e.2 = some (heap.set e.2 none) := by
        unfold free; rw [hv]
      rw [this]; exact h1
    · intro q
      rw [h2 q]
      by_cases hq : q ∈ l.map Prod.snd
      · rw [if_pos hq, if_pos (by rw [List.map_cons]; exact List.mem_cons_of_mem _ hq)]
      · rw [if_neg hq]
        by_cases he : e.2 = q
        · subst he
          rw [List.getElem?_set_self hlt, if_pos (by rw [List.map_cons]; exact List.mem_cons_self)]
        · rw [List.getElem?_set_ne he, if_neg]
          rw [List.map_cons, List.mem_cons, not_or]
          exact ⟨fun h => he h.symm, hq⟩

/-- **C49** When no call is in progress, the destructor frees every list exactly once: there is no double free, and no list
ever allocated stays alive. -/
theorem C49_destroy (s : State V) (h : Reachable one many s) (hq : ∀ t, s.threads t = .idle) :
    ∃ heap, s.destroy = some heap ∧ ∀ (p : Nat) (v : V), heap[p]? ≠ some (some v) := by
  have hi := inv_reachable h
  obtain ⟨heap, h1, h2⟩ := foldlM_free s.map s.heap hi.ptrs (fun e he => ⟨_, (hi.stored e.1 e.2 he).1⟩)
  refine ⟨heap, h1, fun p v hp => ?_⟩
  rw [h2] at hp
  split at hp
  · cases hp
  · rename_i hnm
    rcases hi.live p v hp with h | ⟨t, st, ct, h⟩
    · exact hnm h
    · rw [hq t] at h; cases h

end

section instances
open Verif.Assembly

/-- **C49** for `LocalDofListsCache`: what `get(start, count)` returned is what `computeDofLists` computes. -/
theorem C49_local_dof_lists {K : Type} (sp : ASpace K) (p2o : List Nat)
    (s : State (Option (LocalDofLists K)))
    (h : Reachable (findLocalDofsOfIndex sp p2o) (findLocalDofs sp p2o) s) (t start count : Nat)
    (r : Returned (Option (LocalDofLists K))) (hr : (t, (start, count), r) ∈ s.log) :
    r.read s.heap = some (computeDofLists sp p2o start count) := C49_transparent s h t start count r hr

/-- **C49** for `ComponentListsCache`. -/
theorem C49_component_lists (p2o : List Nat) (components : Nat) (s : State (Option ComponentLists))
    (h : Reachable (findComponentsOfIndex p2o components) (findComponents p2o components) s) (t start count : Nat)
    (r : Returned (Option ComponentLists)) (hr : (t, (start, count), r) ∈ s.log) :
    r.read s.heap = some (computeComponentLists p2o components start count) := C49_transparent s h t start count r hr

end instances

/-- Non-vacuity: two threads ask for the same range at the same time; thread 1 loses, deletes its list and returns the
list of thread 0; a third call hits. -/
example : ∃ s : State Nat, Reachable (fun n => n) (fun a b => 10 * a + b) s ∧ s.heap = [some 42, none] ∧
    s.log.length = 3 ∧ (1, (4, 2), Returned.shared 0) ∈ s.log := by
  refine ⟨_, .step _ _ (.step _ _ (.step _ _ (.step _ _ (.step _ _ (.step _ _ (.step _ _ .init
    (.miss _ 0 4 2 rfl (by decide) rfl)) (.miss _ 1 4 2 rfl (by decide) rfl)) (.create _ 0 4 2 rfl))
    (.create _ 1 4 2 rfl)) (.insert _ 0 4 2 0 rfl rfl)) (.lose _ 1 4 2 1 0 rfl rfl))
    (.hit _ 2 4 2 0 rfl (by decide) rfl), rfl, rfl, ?_⟩
  simp

end Verif.Cache
