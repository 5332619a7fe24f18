import Verif.Model.RowLocks
import Mathlib.Algebra.BigOperators.Fin
import Mathlib.Data.Fintype.BigOperators
import Mathlib.Algebra.BigOperators.Group.Finset.Piecewise
/-
Invariants of the row-lock protocol.
-/
namespace Verif.HMat.RowLocks
open HMatrix
variable {K : Type} [AddCommGroup K] {n : Nat}

/-- Sum of the contributions of a list of updates to cell `(i,j)`. -/
def total (l : List (RowUpdate K)) (i j : Nat) : K :=
  (l.map (fun u => if u.row = i then u.val j else 0)).sum

/-- The next column the thread will write in its current row. -/
def Phase.next : Phase K → Nat
  | .idle => 0
  | .hold j => j
  | .got j _ => j

/-- Contributions to cell `(i,j)` a thread has not yet written. -/
def pending (t : Thread K) (i j : Nat) : K :=
  match t.todo with
  | [] => 0
  | u :: rest => (if u.row = i ∧ t.phase.next ≤ j then u.val j else 0) + total rest i j

theorem pending_idle (l : List (RowUpdate K)) (i j : Nat) :
    pending ⟨l, .idle⟩ i j = total l i j := by
  cases l <;> simp [pending, total, Phase.next]

structure Inv (cols : Nat) (y0 : Nat → Nat → Option K) (work : Fin n → List (RowUpdate K))
    (s : State K n) : Prop where
  /-- a thread inside a critical section owns the lock of its row -/
  owns : ∀ t u rest, (s.th t).todo = u :: rest → (s.th t).phase ≠ .idle → s.lock u.row = some t
  /-- a held lock belongs to a thread in the critical section of that row -/
  held : ∀ i t, s.lock i = some t →
    ∃ u rest, (s.th t).todo = u :: rest ∧ u.row = i ∧ (s.th t).phase ≠ .idle
  busy : ∀ t, (s.th t).todo = [] → (s.th t).phase = .idle
  got : ∀ t u rest j v, (s.th t).todo = u :: rest → (s.th t).phase = .got j v →
    v = s.y u.row j ∧ j < cols
  le : ∀ t, (s.th t).phase.next ≤ cols
  cell : ∀ i j, j < cols → ∃ c, s.y i j = (y0 i j).map (· + c) ∧
    c + ∑ t, pending (s.th t) i j = ∑ t, total (work t) i j
  out : ∀ i j, cols ≤ j → s.y i j = y0 i j

theorem inv_start (cols : Nat) (y0 : Nat → Nat → Option K) (work : Fin n → List (RowUpdate K)) :
    Inv cols y0 work (start y0 work) := by
  refine ⟨?_, ?_, ?_, ?_, ?_, ?_, ?_⟩
  · intro t u rest _ h; exact absurd rfl h
  · intro i t h; simp [start] at h
  · intro t _; rfl
  · intro t u rest j v _ h; simp [start] at h
  · intro t; simp [start, Phase.next]
  · intro i j _
    refine ⟨0, by simp [start], ?_⟩
    simp [start, pending_idle]
  · intro i j _; rfl

theorem sum_update (th : Fin n → Thread K) (t : Fin n) (x : Thread K) (i j : Nat) :
    ∑ r, pending (Function.update th t x r) i j + pending (th t) i j =
      ∑ r, pending (th r) i j + pending x i j := by
  have h : ∀ f : Fin n → K, ∑ r, f r = f t + ∑ r ∈ Finset.univ.erase t, f r := by
    intro f; rw [Finset.add_sum_erase _ _ (Finset.mem_univ t)]
  rw [h (fun r => pending (Function.update th t x r) i j), h (fun r => pending (th r) i j)]
  have : ∑ r ∈ Finset.univ.erase t, pending (Function.update th t x r) i j =
      ∑ r ∈ Finset.univ.erase t, pending (th r) i j := by
    refine Finset.sum_congr rfl fun r hr => ?_
    rw [Function.update_of_ne (Finset.ne_of_mem_erase hr)]
  rw [this]; simp only [Function.update_self]; abel

theorem sum_update_same (th : Fin n → Thread K) (t : Fin n) (x : Thread K) (i j : Nat)
    (h : pending x i j = pending (th t) i j) :
    ∑ r, pending (Function.update th t x r) i j = ∑ r, pending (th r) i j := by
  have := sum_update th t x i j
  rw [h] at this
  exact add_right_cancel this

theorem inv_step (cols : Nat) (y0 : Nat → Nat → Option K) (work : Fin n → List (RowUpdate K))
    {s s' : State K n} (inv : Inv cols y0 work s) (st : Step cols s s') : Inv cols y0 work s' := by
  cases st with
  | acquire t u rest h free =>
    refine ⟨?_, ?_, ?_, ?_, ?_, ?_, ?_⟩
    · intro r u' rest' h1 h2
      by_cases hr : r = t
      · subst hr; simp only [Function.update_self, List.cons.injEq] at h1
        obtain ⟨rfl, _⟩ := h1; simp
      · simp only [Function.update_of_ne hr] at h1 h2
        have := inv.owns r u' rest' h1 h2
        have hne : u'.row ≠ u.row := by intro e; rw [e, free] at this; simp at this
        simp only [Function.update_of_ne hne]; exact this
    · intro i r hl
      by_cases hi : i = u.row
      · subst hi; simp only [Function.update_self, Option.some.injEq] at hl; subst hl
        exact ⟨u, rest, by simp, rfl, by simp⟩
      · simp only [Function.update_of_ne hi] at hl
        obtain ⟨u', rest', h1, h2, h3⟩ := inv.held i r hl
        have hr : r ≠ t := by rintro rfl; rw [h] at h3; simp at h3
        exact ⟨u', rest', by simp only [Function.update_of_ne hr]; exact h1, h2,
          by simp only [Function.update_of_ne hr]; exact h3⟩
    · intro r hr
      by_cases hrt : r = t
      · subst hrt; simp at hr
      · simp only [Function.update_of_ne hrt] at hr ⊢; exact inv.busy r hr
    · intro r u' rest' j v h1 h2
      by_cases hrt : r = t
      · subst hrt; simp at h2
      · simp only [Function.update_of_ne hrt] at h1 h2; exact inv.got r u' rest' j v h1 h2
    · intro r
      by_cases hrt : r = t
      · subst hrt; simp [Phase.next]
      · simp only [Function.update_of_ne hrt]; exact inv.le r
    · intro i j hj
      obtain ⟨c, h1, h2⟩ := inv.cell i j hj
      refine ⟨c, h1, ?_⟩
      rw [← h2, sum_update_same]
      rw [h]; simp [pending, Phase.next]
    · exact inv.out
  | load t u rest j h hj =>
    refine ⟨?_, ?_, ?_, ?_, ?_, ?_, ?_⟩
    · intro r u' rest' h1 h2
      by_cases hr : r = t
      · subst hr; simp only [Function.update_self, List.cons.injEq] at h1
        obtain ⟨rfl, _⟩ := h1
        exact inv.owns r u rest (by rw [h]) (by rw [h]; simp)
      · simp only [Function.update_of_ne hr] at h1 h2
        exact inv.owns r u' rest' h1 h2
    · intro i r hl
      obtain ⟨u', rest', h1, h2, h3⟩ := inv.held i r hl
      by_cases hr : r = t
      · subst hr; rw [h] at h1; simp only [List.cons.injEq] at h1
        obtain ⟨rfl, _⟩ := h1
        exact ⟨u, rest, by simp, h2, by simp⟩
      · exact ⟨u', rest', by simp only [Function.update_of_ne hr]; exact h1, h2,
          by simp only [Function.update_of_ne hr]; exact h3⟩
    · intro r hr
      by_cases hrt : r = t
      · subst hrt; simp at hr
      · simp only [Function.update_of_ne hrt] at hr ⊢; exact inv.busy r hr
    · intro r u' rest' j' v h1 h2
      by_cases hrt : r = t
      · subst hrt
        simp only [Function.update_self, List.cons.injEq, Phase.got.injEq] at h1 h2
        obtain ⟨rfl, _⟩ := h1
        obtain ⟨rfl, rfl⟩ := h2
        exact ⟨rfl, hj⟩
      · simp only [Function.update_of_ne hrt] at h1 h2; exact inv.got r u' rest' j' v h1 h2
    · intro r
      by_cases hrt : r = t
      · subst hrt; simp [Phase.next]; omega
      · simp only [Function.update_of_ne hrt]; exact inv.le r
    · intro i j' hj'
      obtain ⟨c, h1, h2⟩ := inv.cell i j' hj'
      refine ⟨c, h1, ?_⟩
      rw [← h2, sum_update_same]
      simp only [h, pending, Phase.next]; rfl
    · exact inv.out
  | store t u rest j v h =>
    obtain ⟨hv, hj⟩ := inv.got t u rest j v (by rw [h]) (by rw [h])
    subst hv
    have own : s.lock u.row = some t := inv.owns t u rest (by rw [h]) (by rw [h]; simp)
    refine ⟨?_, ?_, ?_, ?_, ?_, ?_, ?_⟩
    · intro r u' rest' h1 h2
      by_cases hr : r = t
      · subst hr; simp only [Function.update_self, List.cons.injEq] at h1
        obtain ⟨rfl, _⟩ := h1; exact own
      · simp only [Function.update_of_ne hr] at h1 h2
        exact inv.owns r u' rest' h1 h2
    · intro i r hl
      obtain ⟨u', rest', h1, h2, h3⟩ := inv.held i r hl
      by_cases hr : r = t
      · subst hr; rw [h] at h1; simp only [List.cons.injEq] at h1
        obtain ⟨rfl, _⟩ := h1
        exact ⟨u, rest, by simp, h2, by simp⟩
      · exact ⟨u', rest', by simp only [Function.update_of_ne hr]; exact h1, h2,
          by simp only [Function.update_of_ne hr]; exact h3⟩
    · intro r hr
      by_cases hrt : r = t
      · subst hrt; simp at hr
      · simp only [Function.update_of_ne hrt] at hr ⊢; exact inv.busy r hr
    · intro r u' rest' j' v' h1 h2
      by_cases hrt : r = t
      · subst hrt; simp at h2
      · simp only [Function.update_of_ne hrt] at h1 h2
        obtain ⟨e, hj2⟩ := inv.got r u' rest' j' v' h1 h2
        have o2 := inv.owns r u' rest' h1 (by rw [h2]; simp)
        have hne : u'.row ≠ u.row := by
          intro e'; rw [e', own] at o2; exact hrt (Option.some.inj o2).symm
        simp only [Function.update_of_ne hne]
        exact ⟨e, hj2⟩
    · intro r
      by_cases hrt : r = t
      · subst hrt; simp [Phase.next]; omega
      · simp only [Function.update_of_ne hrt]; exact inv.le r
    · intro i j' hj'
      obtain ⟨c, h1, h2⟩ := inv.cell i j' hj'
      have hsum := sum_update s.th t ⟨u :: rest, .hold (j + 1)⟩ i j'
      rw [h] at hsum
      by_cases hcell : u.row = i ∧ j' = j
      · obtain ⟨rfl, rfl⟩ := hcell
        refine ⟨c + u.val j', by simp [h1, Function.comp_def, add_assoc], ?_⟩
        simp only [pending, Phase.next, true_and, le_refl, if_true,
          Nat.not_succ_le_self, if_false, zero_add] at hsum
        rw [← h2]
        have : ∑ r, pending (Function.update s.th t ⟨u :: rest, .hold (j' + 1)⟩ r) u.row j' +
            u.val j' = ∑ r, pending (s.th r) u.row j' := by
          have := hsum
          rw [← add_assoc] at this
          exact add_right_cancel this
        rw [← this]; abel
      · refine ⟨c, ?_, ?_⟩
        · rw [← h1]
          by_cases hi : i = u.row
          · subst hi
            have : j' ≠ j := fun e => hcell ⟨rfl, e⟩
            simp [Function.update_of_ne this]
          · simp [Function.update_of_ne hi]
        · rw [← h2, sum_update_same]
          rw [h]
          simp only [pending, Phase.next]
          congr 1
          by_cases hi : u.row = i
          · have : j' ≠ j := fun e => hcell ⟨hi, e⟩
            have : (j + 1 ≤ j') ↔ (j ≤ j') := by omega
            simp [hi, this]
          · simp [hi]
    · intro i j' hj'
      rw [← inv.out i j' hj']
      by_cases hi : i = u.row
      · subst hi
        have : j' ≠ j := by omega
        simp [Function.update_of_ne this]
      · simp [Function.update_of_ne hi]
  | release t u rest j h hj =>
    have own : s.lock u.row = some t := inv.owns t u rest (by rw [h]) (by rw [h]; simp)
    refine ⟨?_, ?_, ?_, ?_, ?_, ?_, ?_⟩
    · intro r u' rest' h1 h2
      by_cases hr : r = t
      · subst hr; simp at h2
      · simp only [Function.update_of_ne hr] at h1 h2
        have o2 := inv.owns r u' rest' h1 h2
        have hne : u'.row ≠ u.row := by
          intro e'; rw [e', own] at o2; exact hr (Option.some.inj o2).symm
        simp only [Function.update_of_ne hne]; exact o2
    · intro i r hl
      by_cases hi : i = u.row
      · subst hi; simp at hl
      · simp only [Function.update_of_ne hi] at hl
        obtain ⟨u', rest', h1, h2, h3⟩ := inv.held i r hl
        have hr : r ≠ t := by
          rintro rfl; rw [h] at h1; simp only [List.cons.injEq] at h1
          obtain ⟨rfl, _⟩ := h1; exact hi h2.symm
        exact ⟨u', rest', by simp only [Function.update_of_ne hr]; exact h1, h2,
          by simp only [Function.update_of_ne hr]; exact h3⟩
    · intro r hr
      by_cases hrt : r = t
      · subst hrt; simp
      · simp only [Function.update_of_ne hrt] at hr ⊢; exact inv.busy r hr
    · intro r u' rest' j' v h1 h2
      by_cases hrt : r = t
      · subst hrt; simp at h2
      · simp only [Function.update_of_ne hrt] at h1 h2; exact inv.got r u' rest' j' v h1 h2
    · intro r
      by_cases hrt : r = t
      · subst hrt; simp [Phase.next]
      · simp only [Function.update_of_ne hrt]; exact inv.le r
    · intro i j' hj'
      obtain ⟨c, h1, h2⟩ := inv.cell i j' hj'
      refine ⟨c, h1, ?_⟩
      rw [← h2, sum_update_same]
      rw [h, pending_idle]
      have : ¬ j ≤ j' := by omega
      simp [pending, Phase.next, this]
    · exact inv.out

theorem inv_reach (cols : Nat) (y0 : Nat → Nat → Option K) (work : Fin n → List (RowUpdate K))
    {s : State K n} (h : Reach cols (start y0 work) s) : Inv cols y0 work s := by
  induction h with
  | refl => exact inv_start cols y0 work
  | tail _ st ih => exact inv_step cols y0 work ih st

/-- Steps a thread still has to make. -/
def remaining (cols : Nat) (t : Thread K) : Nat :=
  match t.phase with
  | .idle => t.todo.length * (2 * cols + 2)
  | .hold j => t.todo.length * (2 * cols + 2) - (2 * j + 1)
  | .got j _ => t.todo.length * (2 * cols + 2) - (2 * j + 2)

/-- Total number of steps still to be made. -/
def work_left (cols : Nat) (s : State K n) : Nat := ∑ t, remaining cols (s.th t)

theorem work_left_step (cols : Nat) (y0 : Nat → Nat → Option K)
    (work : Fin n → List (RowUpdate K)) {s s' : State K n} (inv : Inv cols y0 work s)
    (st : Step cols s s') : work_left cols s' < work_left cols s := by
  have key : ∀ (t : Fin n) (x : Thread K), remaining cols x < remaining cols (s.th t) →
      ∑ r, remaining cols (Function.update s.th t x r) < ∑ r, remaining cols (s.th r) := by
    intro t x hx
    refine Finset.sum_lt_sum (fun r _ => ?_) ⟨t, Finset.mem_univ t, by simpa using hx⟩
    by_cases hr : r = t
    · subst hr; simp only [Function.update_self]; exact hx.le
    · rw [Function.update_of_ne hr]
  cases st with
  | acquire t u rest h free =>
    refine key t _ ?_
    rw [h]; simp only [remaining, List.length_cons, Nat.add_mul, one_mul]; omega
  | load t u rest j h hj =>
    refine key t _ ?_
    rw [h]; simp only [remaining, List.length_cons, Nat.add_mul, one_mul]; omega
  | store t u rest j v h =>
    have := (inv.got t u rest j v (by rw [h]) (by rw [h])).2
    refine key t _ ?_
    rw [h]; simp only [remaining, List.length_cons, Nat.add_mul, one_mul]; omega
  | release t u rest j h hj =>
    have := inv.le t
    rw [h] at this; simp only [Phase.next] at this
    refine key t _ ?_
    rw [h]; simp only [remaining, List.length_cons, Nat.add_mul, one_mul]; omega

theorem progress (cols : Nat) (y0 : Nat → Nat → Option K)
    (work : Fin n → List (RowUpdate K)) {s : State K n} (inv : Inv cols y0 work s)
    (hnf : ¬ Finished s) : ∃ s', Step cols s s' := by
  have busyStep : ∀ t, (s.th t).phase ≠ .idle → ∃ s', Step cols s s' := by
    intro t ht
    rcases hth : s.th t with ⟨l, ph⟩
    rw [hth] at ht
    cases l with
    | nil => exact absurd (by have := inv.busy t (by rw [hth]); rw [hth] at this; exact this) ht
    | cons u rest =>
      cases ph with
      | idle => exact absurd rfl ht
      | hold j =>
        by_cases hj : j < cols
        · exact ⟨_, .load s t u rest j hth hj⟩
        · exact ⟨_, .release s t u rest j hth (by omega)⟩
      | got j v => exact ⟨_, .store s t u rest j v hth⟩
  unfold Finished at hnf
  push Not at hnf
  obtain ⟨t, ht⟩ := hnf
  by_cases hidle : (s.th t).phase = .idle
  · rcases hth : s.th t with ⟨l, ph⟩
    rw [hth] at ht hidle
    cases l with
    | nil => exact absurd rfl ht
    | cons u rest =>
      simp only at hidle; subst hidle
      cases hlock : s.lock u.row with
      | none => exact ⟨_, .acquire s t u rest hth hlock⟩
      | some r =>
        obtain ⟨_, _, _, _, h3⟩ := inv.held _ _ hlock
        exact busyStep r h3
  · exact busyStep t hidle

end Verif.HMat.RowLocks
