import Verif.Model.BuffaChristiansen
/-
Lemmas about the tables and the loops of the Buffa-Christiansen spaces.
-/
namespace Verif.Space
open Verif.Grid

/-! ### Tables -/

theorem foldl_set_get' {α : Type} (writes : List (Nat × α)) : ∀ (l : List α) (k : Nat) (b a : α), l[k]? = some b →
    (∀ w ∈ writes, w.1 = k → w.2 = a) → (b = a ∨ ∃ w ∈ writes, w.1 = k) →
    (writes.foldl (fun l w => l.set w.1 w.2) l)[k]? = some a := by
  induction writes with
  | nil =>
    intro l k b a hb _ h
    rcases h with h | ⟨w, hw, _⟩
    · simpa [h] using hb
    · exact absurd hw (List.not_mem_nil)
  | cons w ws ih =>
    intro l k b a hb hall h
    rw [List.foldl_cons]
    have hlt := (List.getElem?_eq_some_iff.mp hb).1
    by_cases hk : w.1 = k
    · apply ih (l.set w.1 w.2) k a a
      · rw [hk, List.getElem?_set_self hlt, hall w (by simp) hk]
      · exact fun w' hw' => hall w' (List.mem_cons_of_mem _ hw')
      · exact Or.inl rfl
    · apply ih (l.set w.1 w.2) k b a
      · rw [List.getElem?_set_ne hk]; exact hb
      · exact fun w' hw' => hall w' (List.mem_cons_of_mem _ hw')
      · rcases h with h | ⟨w', hw', hw''⟩
        · exact Or.inl h
        · rcases List.mem_cons.mp hw' with rfl | hw'
          · exact absurd hw'' hk
          · exact Or.inr ⟨w', hw', hw''⟩

/-- An entry all whose writes agree. -/
theorem table_get {α : Type} (n : Nat) (init : α) (writes : List (Nat × α)) (k : Nat) (a : α) (hk : k < n)
    (hall : ∀ w ∈ writes, w.1 = k → w.2 = a) (hex : init = a ∨ ∃ w ∈ writes, w.1 = k) :
    (table n init writes)[k]? = some a :=
  foldl_set_get' writes _ k init a (by simp [hk]) hall hex

theorem counts_get (n : Nat) (keys : List Nat) (k : Nat) (hk : k < n) : (counts n keys)[k]? = some (keys.count k) := by
  have : ∀ (keys : List Nat) (l : List Nat) (c : Nat), l[k]? = some c →
      (keys.foldl (fun l k => l.modify k (· + 1)) l)[k]? = some (c + keys.count k) := by
    intro keys
    induction keys with
    | nil => intro l c h; simpa using h
    | cons a ks ih =>
      intro l c h
      rw [List.foldl_cons]
      by_cases ha : a = k
      · subst ha
        rw [ih _ (c + 1) (by rw [List.getElem?_modify_eq, h]; rfl)]
        simp; omega
      · rw [ih _ c (by rw [List.getElem?_modify_ne _ _ ha]; exact h), List.count_cons_of_ne ha]
  have h := this keys (List.replicate n 0) 0 (by simp [hk])
  simpa [counts] using h

theorem vget_ok {α : Type} {l : List α} {i : Nat} {a : α} (h : l[i]? = some a) : vget l (i : Int) = .ok a := by
  unfold vget
  rw [if_neg (by omega)]
  simp [h]

theorem mget_ok {l : List (Option Nat)} {i a : Nat} (h : l[i]? = some (some a)) : mget l i = .ok a := by
  unfold mget
  rw [vget_ok h]
  rfl

/-! ### The loop around a vertex -/

variable {K : Type} [Field K]

/-- A column with its dof and weight. -/
def BcState.push (st : BcState K) (F : Nat) (c : Col K) (dof : Nat) (w : K) : BcState K := (st.append F c).record F dof w

omit [Field K] in
theorem setLast_append (st : BcState K) (F : Nat) (c : Col K) (f : Col K → Col K) :
    (st.append F c).setLast F f = st.append F (f c) := by
  unfold BcState.append BcState.setLast
  congr 1
  apply List.ext_getElem?
  intro k
  by_cases hk : F = k
  · subst hk
    rw [List.getElem?_modify_eq, List.getElem?_modify_eq, List.getElem?_modify_eq]
    cases st.coeffs[F]? with
    | none => rfl
    | some x => simp
  · rw [List.getElem?_modify_ne _ _ hk, List.getElem?_modify_ne _ _ hk, List.getElem?_modify_ne _ _ hk]

/-- First coefficient of the `k`-th column. -/
def colC0 (onB : Bool) (N b k : Nat) : K :=
  if onB then (if k = 0 then -((N : K) - 2) / (2 * N) else if b < k then -((N : K) - 1) / N else 1 / N)
  else (if k = 0 then 0 else ((N : K) - k) / (2 * N))

/-- Second coefficient. -/
def colC1 (onB : Bool) (N b k : Nat) : K :=
  if onB then (if k + 1 = 2 * N then ((N : K) - 2) / (2 * N) else if b < k then ((N : K) - 1) / N else -1 / N)
  else (if k + 1 = 2 * N then 0 else -((N : K) - 1 - k) / (2 * N))

/-- The `k`-th column. -/
def colAt (onB : Bool) (N b k : Nat) : Col K :=
  ⟨colC0 onB N b k, colC1 onB N b k, if k = 0 ∨ k + 1 = 2 * N then 1 / 2 else 0⟩

/-- The columns `k, …, k + m - 1`. -/
def pushFrom (w : Nat → Nat) (col : Nat → Col K) (dof : Nat) (wt : K) : Nat → Nat → BcState K → BcState K
  | _, 0, st => st
  | k, m + 1, st => pushFrom w col dof wt (k + 1) m (st.push (w k) (col k) dof wt)

/-- The first column is not finished when the loop begins. -/
def openCol (onB : Bool) (N b k : Nat) : Col K := ⟨colC0 onB N b k, 0, if k = 0 then 1 / 2 else 0⟩

/-- What the loop meets. -/
structure Walk (T : BcTables) (onB : Bool) (N b start : Nat) (w : Nat → Nat) : Prop where
  pos : 0 < N
  next : ∀ k, k + 1 < 2 * N → vget T.next (w k) = .ok (w (k + 1) : Int)
  around : vget T.next start = .ok (w 0 : Int)
  last : w (2 * N - 1) = start
  ne : ∀ k, k + 1 < 2 * N → w k ≠ start
  boundary : onB = true → ∀ k, k + 1 < 2 * N → T.atBoundary (w k) = .ok (decide (k = b))

theorem bcLoop_spec (T : BcTables) (checked onB : Bool) (N b start : Nat) (w : Nat → Nat) (h : Walk T onB N b start w)
    (dof : Nat) (wt : K) : ∀ (m k fuel : Nat) (st : BcState K), k + m = 2 * N - 1 → m < fuel →
    bcLoop T checked onB N start dof wt fuel ((N : Int) - 1 - k) (w k) (onB && decide (b < k)) (st.append (w k) (openCol onB N b k)) =
      .ok ((pushFrom w (colAt onB N b) dof wt k m st).append (w (2 * N - 1)) (openCol onB N b (2 * N - 1))) := by
  intro m
  induction m with
  | zero =>
    intro k fuel st hk hf
    obtain ⟨fuel, rfl⟩ : ∃ f, fuel = f + 1 := ⟨fuel - 1, by omega⟩
    have : k = 2 * N - 1 := by omega
    subst this
    simp only [bcLoop]
    rw [if_pos h.last]
    rfl
  | succ m ih =>
    intro k fuel st hk hf
    have hN := h.pos
    obtain ⟨fuel, rfl⟩ : ∃ f, fuel = f + 1 := ⟨fuel - 1, by omega⟩
    simp only [bcLoop]
    rw [if_neg (h.ne k (by omega)), if_neg (by rintro ⟨-, h2⟩; omega)]
    have hb : bcBefore T onB N dof wt ((N : Int) - 1 - k) (w k) (onB && decide (b < k)) (st.append (w k) (openCol onB N b k)) =
        .ok (onB && decide (b < k + 1), st.push (w k) (colAt onB N b k) dof wt) := by
      unfold bcBefore
      cases onB with
      | false =>
        simp only [Bool.false_and, Bool.false_eq_true, if_false]
        show Except.ok _ = _
        congr 2
        rw [setLast_append]
        unfold BcState.push
        congr 2
        simp only [openCol, colAt, colC1, Bool.false_eq_true, if_false]
        rw [if_neg (show ¬ (k + 1 = 2 * N) by omega)]
        simp only [Col.mk.injEq, true_and]
        refine ⟨by push_cast; ring, ?_⟩
        by_cases h0 : k = 0
        · simp [h0]
        · simp [h0, show ¬ (k + 1 = 2 * N) by omega]
      | true =>
        simp only [Bool.true_and, if_true]
        have hc2 : (if k = 0 then (1 / 2 : K) else 0) = if k = 0 ∨ k + 1 = 2 * N then 1 / 2 else 0 := by
          by_cases h0 : k = 0
          · simp [h0]
          · simp [h0, show ¬ (k + 1 = 2 * N) by omega]
        by_cases hp : b < k
        · rw [if_pos (by simpa using hp)]
          show Except.ok _ = _
          congr 2
          · simp [hp, Nat.lt_succ_of_lt hp]
          · rw [setLast_append]
            unfold BcState.push
            congr 2
            simp only [openCol, colAt, colC1, if_true]
            rw [if_neg (show ¬ (k + 1 = 2 * N) by omega), if_pos hp, hc2]
        · rw [if_neg (by simpa using hp), h.boundary rfl k (by omega)]
          show Except.ok _ = _
          congr 2
          · rw [decide_eq_decide]; omega
          · rw [setLast_append]
            unfold BcState.push
            congr 2
            simp only [openCol, colAt, colC1, if_true]
            rw [if_neg (show ¬ (k + 1 = 2 * N) by omega), if_neg hp, hc2]
    rw [hb]
    show (do
      let f ← vget T.next (w k)
      if f < 0 then Except.error BcFail.ub
      else bcLoop T checked onB N start dof wt fuel ((N : Int) - 1 - k - 1) f.toNat (onB && decide (b < k + 1)) (bcAfter onB N ((N : Int) - 1 - k) f.toNat (onB && decide (b < k + 1)) (st.push (w k) (colAt onB N b k) dof wt))) = _
    rw [h.next k (by omega)]
    simp only [Bind.bind, Except.bind]
    rw [if_neg (by omega), Int.toNat_natCast]
    have ha : bcAfter onB N ((N : Int) - 1 - k) (w (k + 1)) (onB && decide (b < k + 1)) (st.push (w k) (colAt onB N b k) dof wt) =
        (st.push (w k) (colAt onB N b k) dof wt).append (w (k + 1)) (openCol onB N b (k + 1)) := by
      unfold bcAfter
      congr 1
      cases onB with
      | false =>
        simp only [openCol, colC0, Bool.false_eq_true, if_false, Nat.succ_ne_zero]
        simp only [Col.mk.injEq, and_true]
        push_cast; ring
      | true =>
        simp [openCol, colC0]
    rw [ha, show ((N : Int) - 1 - k - 1) = (N : Int) - 1 - ((k + 1 : Nat) : Int) by push_cast; ring]
    rw [ih (k + 1) fuel _ (by omega) (by omega)]
    rfl

theorem pushFrom_snoc (w : Nat → Nat) (col : Nat → Col K) (dof : Nat) (wt : K) : ∀ (m k : Nat) (st : BcState K),
    pushFrom w col dof wt k (m + 1) st = (pushFrom w col dof wt k m st).push (w (k + m)) (col (k + m)) dof wt := by
  intro m
  induction m with
  | zero => intro k st; rfl
  | succ m ih =>
    intro k st
    rw [pushFrom, ih]
    simp only [pushFrom]
    rw [show k + 1 + m = k + (m + 1) by omega]

/-- One vertex of an edge. -/
theorem bcHalf_spec (T : BcTables) (checked onB : Bool) (N b start vertex : Nat) (w : Nat → Nat) (h : Walk T onB N b start w)
    (hN : T.edgeCount[vertex]? = some N) (hB : T.onBoundary[vertex]? = some onB) (dof : Nat) (wt : K) (st : BcState K) :
    bcHalf T checked start vertex dof wt st = .ok (pushFrom w (colAt onB N b) dof wt 0 (2 * N) st) := by
  have hp := h.pos
  unfold bcHalf
  rw [vget_ok hN, vget_ok hB, h.around]
  simp only [Bind.bind, Except.bind]
  rw [if_neg (by omega), Int.toNat_natCast]
  have hl := bcLoop_spec T checked onB N b start w h dof wt (2 * N - 1) 0 (T.next.length + 4 * N + 2) st (by omega) (by omega)
  have e0 : (⟨if onB then -((N : K) - 2) / (2 * N) else 0, 0, 1 / 2⟩ : Col K) = openCol onB N b 0 := by
    cases onB <;> simp [openCol, colC0]
  have e1 : (onB && decide (b < 0)) = false := by simp
  rw [e1] at hl
  simp only [e0]
  simp only [Int.natCast_zero, Int.sub_zero, Nat.cast_zero] at hl
  rw [hl]
  show Except.ok _ = _
  congr 1
  rw [h.last, setLast_append]
  have : 2 * N = (2 * N - 1) + 1 := by omega
  rw [this, pushFrom_snoc, Nat.zero_add]
  unfold BcState.push
  rw [show 2 * N - 1 + 1 = 2 * N by omega, h.last]
  congr 2
  simp only [openCol, colAt, colC1]
  rw [if_pos (show 2 * N - 1 + 1 = 2 * N by omega), if_pos (show (2 * N - 1 = 0 ∨ 2 * N - 1 + 1 = 2 * N) by omega)]
  cases onB
  · rw [if_neg (by simp), if_neg (by simp), if_pos (show 2 * N - 1 + 1 = 2 * N by omega)]
  · rw [if_pos rfl, if_pos rfl]

end Verif.Space
