import Verif.Spec.Arrays
import Mathlib.Tactic.Ring
import Mathlib.Data.List.Nodup
/-
Property C111: the multi-dimensional arrays of the quadrature code.
-/
namespace Verif.Arrays
variable {T : Type}

/-! ### Layout -/

theorem range_mul (a b : Nat) : (List.range b).flatMap (fun i => (List.range a).map fun j => j + a * i) = List.range (a * b) := by
  induction b with
  | zero => simp
  | succ b ih =>
    rw [List.range_succ, List.flatMap_append, ih, Nat.mul_succ, List.range_add]
    simp [Nat.add_comm]

theorem range_mul' {α : Type} (a b : Nat) (f : Nat → α) :
    (List.range b).flatMap (fun i => (List.range a).map fun j => f (j + a * i)) = (List.range (a * b)).map f := by
  rw [← range_mul, List.map_flatMap]
  refine List.flatMap_congr ?_
  intro i _
  rw [List.map_map]
  rfl

/-- **C111, layout** Iterating over the array from `begin()` visits the elements in the order of the nested loops: every tuple of
indices in range once, with the first index fastest. -/
theorem C111_layout (rank : Rank) (ext : List Nat) (h : ext.length = rank.dims) :
    (loopIndices ext).map (addr ext) = List.range ext.prod ∧
    (∀ idx, idx ∈ loopIndices ext ↔ InRange ext idx) ∧
    (∀ idx, InRange ext idx → addr ext idx = colMajor ext idx ∧ addr ext idx < ext.prod ∧ checkIndices ext idx = true) ∧
    (∀ idx, idx.length = ext.length → checkIndices ext idx = true → InRange ext idx) ∧
    (∀ idx idx', InRange ext idx → InRange ext idx' → addr ext idx = addr ext idx' → idx = idx') := by
  have main : (loopIndices ext).map (addr ext) = List.range ext.prod ∧
      (∀ idx, idx ∈ loopIndices ext ↔ InRange ext idx) ∧
      (∀ idx, InRange ext idx → addr ext idx = colMajor ext idx ∧ checkIndices ext idx = true) ∧
      (∀ idx, idx.length = ext.length → checkIndices ext idx = true → InRange ext idx) := by
    cases rank with
    | two =>
      obtain ⟨e0, e1, rfl⟩ := List.length_eq_two.mp h
      refine ⟨?_, ?_, ?_, ?_⟩
      · simp only [loopIndices, List.map_flatMap, List.map_map]
        rw [List.prod_cons, List.prod_cons, List.prod_nil, mul_one, ← range_mul]
        rfl
      · intro idx
        simp only [loopIndices, List.mem_flatMap, List.mem_map, List.mem_range, InRange]
        constructor
        · rintro ⟨i, hi, j, hj, rfl⟩
          exact .cons hj (.cons hi .nil)
        · intro hx
          cases hx with | cons hj hx => cases hx with | cons hi hx => cases hx; exact ⟨_, hi, _, hj, rfl⟩
      · intro idx hx
        cases hx with | cons hj hx => cases hx with | cons hi hx => cases hx; exact ⟨by simp [addr, colMajor], by simp [checkIndices, hi, hj]⟩
      · intro idx hl hc
        obtain ⟨i0, i1, rfl⟩ := List.length_eq_two.mp hl
        simp [checkIndices] at hc
        exact .cons hc.1 (.cons hc.2 .nil)
    | three =>
      obtain ⟨e0, e1, e2, rfl⟩ := List.length_eq_three.mp h
      refine ⟨?_, ?_, ?_, ?_⟩
      · simp only [loopIndices, List.map_flatMap, List.map_map]
        rw [List.prod_cons, List.prod_cons, List.prod_cons, List.prod_nil, mul_one, ← mul_assoc, ← range_mul]
        refine List.flatMap_congr ?_
        intro i _
        rw [← range_mul' e0 e1 (fun x => x + e0 * e1 * i)]
        rfl
      · intro idx
        simp only [loopIndices, List.mem_flatMap, List.mem_map, List.mem_range, InRange]
        constructor
        · rintro ⟨i, hi, j, hj, k, hk, rfl⟩
          exact .cons hk (.cons hj (.cons hi .nil))
        · intro hx
          cases hx with | cons hk hx => cases hx with | cons hj hx => cases hx with | cons hi hx =>
            cases hx; exact ⟨_, hi, _, hj, _, hk, rfl⟩
      · intro idx hx
        cases hx with | cons hk hx => cases hx with | cons hj hx => cases hx with | cons hi hx =>
          cases hx; exact ⟨by simp only [addr, colMajor]; ring, by simp [checkIndices, hi, hj, hk]⟩
      · intro idx hl hc
        obtain ⟨i0, i1, i2, rfl⟩ := List.length_eq_three.mp hl
        simp [checkIndices] at hc
        exact .cons hc.1 (.cons hc.2.1 (.cons hc.2.2 .nil))
    | four =>
      obtain ⟨e0, e1, e2, e3, rfl⟩ : ∃ e0 e1 e2 e3, ext = [e0, e1, e2, e3] := by
        match ext, h with
        | [a, b, c, d], _ => exact ⟨a, b, c, d, rfl⟩
      refine ⟨?_, ?_, ?_, ?_⟩
      · simp only [loopIndices, List.map_flatMap, List.map_map]
        rw [List.prod_cons, List.prod_cons, List.prod_cons, List.prod_cons, List.prod_nil, mul_one, ← mul_assoc, ← mul_assoc,
          ← range_mul]
        refine List.flatMap_congr ?_
        intro i _
        rw [← range_mul' (e0 * e1) e2 (fun x => x + e0 * e1 * e2 * i)]
        refine List.flatMap_congr ?_
        intro j _
        rw [← range_mul' e0 e1 (fun x => x + e0 * e1 * j + e0 * e1 * e2 * i)]
        rfl
      · intro idx
        simp only [loopIndices, List.mem_flatMap, List.mem_map, List.mem_range, InRange]
        constructor
        · rintro ⟨i, hi, j, hj, k, hk, l, hl, rfl⟩
          exact .cons hl (.cons hk (.cons hj (.cons hi .nil)))
        · intro hx
          cases hx with | cons hl hx => cases hx with | cons hk hx => cases hx with | cons hj hx => cases hx with | cons hi hx =>
            cases hx; exact ⟨_, hi, _, hj, _, hk, _, hl, rfl⟩
      · intro idx hx
        cases hx with | cons hl hx => cases hx with | cons hk hx => cases hx with | cons hj hx => cases hx with | cons hi hx =>
          cases hx; exact ⟨by simp only [addr, colMajor]; ring, by simp [checkIndices, hi, hj, hk, hl]⟩
      · intro idx hl hc
        match idx, hl with
        | [i0, i1, i2, i3], _ =>
          simp [checkIndices] at hc
          exact .cons hc.1 (.cons hc.2.1 (.cons hc.2.2.1 (.cons hc.2.2.2 .nil)))
  obtain ⟨h1, h2, h3, h4⟩ := main
  refine ⟨h1, h2, ?_, h4, ?_⟩
  · intro idx hx
    refine ⟨(h3 idx hx).1, ?_, (h3 idx hx).2⟩
    have : addr ext idx ∈ (loopIndices ext).map (addr ext) := List.mem_map_of_mem ((h2 idx).mpr hx)
    rw [h1] at this
    exact List.mem_range.mp this
  · intro idx idx' hx hx' heq
    have hnd : ((loopIndices ext).map (addr ext)).Nodup := by rw [h1]; exact List.nodup_range
    exact List.inj_on_of_nodup_map hnd ((h2 idx).mpr hx) ((h2 idx').mpr hx') heq

/-! ### The invariant -/

/-- The array object is consistent with the memory. -/
def ArrOk (st : State T) (a : Arr) : Prop :=
  a.ext.length = a.rank.dims ∧
  ((a.storage = none ∧ a.owns = false ∧ a.ext.prod = 0) ∨
    ∃ (b : Nat) (d : List T), a.storage = some b ∧ st.blocks[b]? = some ⟨!a.owns, some d⟩ ∧
      (a.owns = true → d.length = a.ext.prod) ∧ a.ext.prod ≤ d.length) ∧
  (a.strict = true → a.owns = false ∧ a.rank = .three)

structure WF (st : State T) : Prop where
  arr : ∀ (i : Nat) (a : Arr), st.arr i = some a → ArrOk st a
  own : ∀ (i j : Nat) (a a' : Arr) (b : Nat), st.arr i = some a → st.arr j = some a' → a.owns = true → a.storage = some b → a'.storage = some b → i = j
  leak : ∀ (b : Nat) (d : List T), st.blocks[b]? = some ⟨false, some d⟩ → ∃ (i : Nat) (a : Arr), st.arr i = some a ∧ a.owns = true ∧ a.storage = some b
  user : ∀ (b : Nat) (x : Option (List T)), st.blocks[b]? = some ⟨true, x⟩ → ∃ d, x = some d

theorem arr_lt (st : State T) (i : Nat) (a : Arr) (h : st.arr i = some a) : i < st.vars.length := by
  unfold State.arr at h
  cases hv : st.vars[i]? with
  | none => rw [hv] at h; exact absurd h (by simp)
  | some x => exact (List.getElem?_eq_some_iff.mp hv).1

theorem arr_setVar (st : State T) (i j : Nat) (x : Option Arr) (hi : i < st.vars.length) :
    (st.setVar i x).arr j = if j = i then x else st.arr j := by
  unfold State.arr State.setVar
  dsimp only
  by_cases h : j = i
  · subst h; rw [List.getElem?_set_self hi, if_pos rfl]; rfl
  · rw [List.getElem?_set_ne (Ne.symm h), if_neg h]

theorem arr_push (st : State T) (bs : List (Block T)) (j : Nat) (x : Option Arr) :
    (⟨bs, st.vars ++ [x]⟩ : State T).arr j = if j = st.vars.length then x else st.arr j := by
  unfold State.arr
  dsimp only
  by_cases h : j = st.vars.length
  · subst h; rw [List.getElem?_concat_length, if_pos rfl]; rfl
  · rw [if_neg h]
    by_cases hlt : j < st.vars.length
    · rw [List.getElem?_append_left hlt]
    · rw [List.getElem?_eq_none (by simp; omega), List.getElem?_eq_none (by omega)]

theorem blocks_put (st : State T) (b b' : Nat) (x : Option (List T)) :
    (st.putData b x).blocks[b']? = if b' = b then (st.blocks[b]?).map (fun k => { k with data := x }) else st.blocks[b']? := by
  unfold State.putData
  dsimp only
  rw [List.getElem?_modify]
  by_cases h : b' = b
  · subst h; rw [if_pos rfl]; simp
  · rw [if_neg h]
    cases st.blocks[b']? <;> simp [Ne.symm h]

theorem arr_put (st : State T) (b j : Nat) (x : Option (List T)) : (st.putData b x).arr j = st.arr j := rfl

theorem data_put (st : State T) (b : Nat) (x : Option (List T)) (s : Option Nat) (k : Block T) (hk : st.blocks[b]? = some k) :
    (st.putData b x).data s = if s = some b then x else st.data s := by
  cases s with
  | none => rfl
  | some c =>
    show ((st.putData b x).blocks[c]?).bind Block.data = _
    rw [blocks_put]
    by_cases h : c = b
    · subst h; rw [if_pos rfl, if_pos rfl, hk]; rfl
    · rw [if_neg h, if_neg (by simpa using h)]; rfl

theorem data_of_block (st : State T) (b : Nat) (k : Block T) (hk : st.blocks[b]? = some k) : st.data (some b) = k.data := by
  show (st.blocks[b]?).bind Block.data = _
  rw [hk]; rfl

/-- Writing data of the same length into a live block keeps the invariant. -/
theorem wf_put (st : State T) (h : WF st) (b : Nat) (u : Bool) (d d' : List T) (hb : st.blocks[b]? = some ⟨u, some d⟩)
    (hl : d'.length = d.length) : WF (st.putData b (some d')) := by
  have hblk : ∀ (c : Nat) (k : Block T), st.blocks[c]? = some k → ∃ (x : Option (List T)), (st.putData b (some d')).blocks[c]? = some ⟨k.user, x⟩ ∧
      (∀ (y : List T), k.data = some y → ∃ (y' : List T), x = some y' ∧ y'.length = y.length) := by
    intro c k hk
    rw [blocks_put]
    by_cases hc : c = b
    · subst hc
      rw [if_pos rfl, hk]
      rw [hb] at hk
      cases hk
      exact ⟨_, rfl, fun y hy => ⟨d', rfl, by cases hy; exact hl⟩⟩
    · rw [if_neg hc, hk]
      exact ⟨k.data, rfl, fun y hy => ⟨y, hy, rfl⟩⟩
  constructor
  · intro i a ha
    obtain ⟨h1, h2, h3⟩ := h.arr i a ha
    refine ⟨h1, ?_, h3⟩
    rcases h2 with h2 | ⟨c, dc, e1, e2, e3, e4⟩
    · exact Or.inl h2
    · right
      obtain ⟨x, hx, hy⟩ := hblk c _ e2
      obtain ⟨y', rfl, hy'⟩ := hy dc rfl
      exact ⟨c, y', e1, hx, fun ho => by rw [hy', e3 ho], by omega⟩
  · exact h.own
  · intro c dc hc
    rw [blocks_put] at hc
    by_cases hcb : c = b
    · subst hcb
      rw [if_pos rfl, hb] at hc
      simp only [Option.map_some, Option.some.injEq, Block.mk.injEq] at hc
      rw [hc.1] at hb
      exact h.leak c d hb
    · rw [if_neg hcb] at hc
      exact h.leak c dc hc
  · intro c x hc
    rw [blocks_put] at hc
    by_cases hcb : c = b
    · subst hcb
      rw [if_pos rfl, hb] at hc
      simp only [Option.map_some, Option.some.injEq, Block.mk.injEq] at hc
      exact ⟨d', hc.2.symm⟩
    · rw [if_neg hcb] at hc
      exact h.user c x hc

/-- An array object is removed and its memory freed. -/
theorem wf_free (st : State T) (h : WF st) (i : Nat) (a : Arr) (ha : st.arr i = some a) :
    ∃ st1, freeMemory st a = some st1 ∧ st1.vars = st.vars ∧ WF (st1.setVar i none) ∧
      (∀ (s : Option Nat), (s ≠ a.storage ∨ a.owns = false) → st1.data s = st.data s) ∧
      (∀ (b : Nat) (x : Option (List T)), st.blocks[b]? = some ⟨true, x⟩ → st1.blocks[b]? = some ⟨true, x⟩) ∧
      st1.blocks.length = st.blocks.length := by
  have hi := arr_lt st i a ha
  obtain ⟨h1, h2, h3⟩ := h.arr i a ha
  by_cases ho : a.owns = true
  · rcases h2 with h2 | ⟨b, d, e1, e2, e3, e4⟩
    · rw [h2.2.1] at ho; exact absurd ho (by simp)
    rw [ho] at e2
    refine ⟨st.putData b none, ?_, rfl, ?_, ?_, ?_, ?_⟩
    · unfold freeMemory
      rw [if_pos ho, e1]
      unfold State.delete
      dsimp only
      rw [e2]
      rfl
    · have harr : ∀ j, ((st.putData b none).setVar i none).arr j = if j = i then none else st.arr j :=
        fun j => arr_setVar (st.putData b none) i j none hi
      have hblk : ∀ c, ((st.putData b none).setVar i none).blocks[c]? = if c = b then some ⟨false, none⟩ else st.blocks[c]? := by
        intro c
        show (st.putData b none).blocks[c]? = _
        rw [blocks_put, e2]
        rfl
      constructor
      · intro j a' hj
        rw [harr] at hj
        by_cases hji : j = i
        · rw [if_pos hji] at hj; exact absurd hj (by simp)
        rw [if_neg hji] at hj
        obtain ⟨g1, g2, g3⟩ := h.arr j a' hj
        refine ⟨g1, ?_, g3⟩
        rcases g2 with g2 | ⟨c, dc, f1, f2, f3, f4⟩
        · exact Or.inl g2
        · right
          refine ⟨c, dc, f1, ?_, f3, f4⟩
          rw [hblk, if_neg, f2]
          rintro rfl
          exact hji (h.own i j a a' c ha hj ho e1 f1).symm
      · intro j k a1 a2 c hj hk
        rw [harr] at hj hk
        by_cases hji : j = i
        · rw [if_pos hji] at hj; exact absurd hj (by simp)
        by_cases hki : k = i
        · rw [if_pos hki] at hk; exact absurd hk (by simp)
        rw [if_neg hji] at hj
        rw [if_neg hki] at hk
        exact h.own j k a1 a2 c hj hk
      · intro c dc hc
        rw [hblk] at hc
        by_cases hcb : c = b
        · rw [if_pos hcb] at hc; simp at hc
        rw [if_neg hcb] at hc
        obtain ⟨j, a', g1, g2, g3⟩ := h.leak c dc hc
        refine ⟨j, a', ?_, g2, g3⟩
        rw [harr, if_neg, g1]
        rintro rfl
        rw [ha] at g1
        cases g1
        rw [e1] at g3
        exact hcb (Option.some.inj g3).symm
      · intro c x hc
        rw [hblk] at hc
        by_cases hcb : c = b
        · rw [if_pos hcb] at hc; simp at hc
        rw [if_neg hcb] at hc
        exact h.user c x hc
    · intro s hs
      rw [data_put st b none s _ e2, if_neg]
      rintro rfl
      rcases hs with hs | hs
      · exact hs e1.symm
      · rw [ho] at hs; exact absurd hs (by simp)
    · intro c x hc
      rw [blocks_put, if_neg, hc]
      rintro rfl
      rw [e2] at hc
      simp at hc
    · unfold State.putData
      simp
  · have ho' : a.owns = false := by simpa using ho
    refine ⟨st, by unfold freeMemory; rw [if_neg ho], rfl, ?_, fun _ _ => rfl, fun _ _ hb => hb, rfl⟩
    have harr : ∀ j, (st.setVar i none).arr j = if j = i then none else st.arr j := fun j => arr_setVar st i j none hi
    constructor
    · intro j a' hj
      rw [harr] at hj
      by_cases hji : j = i
      · rw [if_pos hji] at hj; exact absurd hj (by simp)
      rw [if_neg hji] at hj
      exact h.arr j a' hj
    · intro j k a1 a2 c hj hk
      rw [harr] at hj hk
      by_cases hji : j = i
      · rw [if_pos hji] at hj; exact absurd hj (by simp)
      by_cases hki : k = i
      · rw [if_pos hki] at hk; exact absurd hk (by simp)
      rw [if_neg hji] at hj
      rw [if_neg hki] at hk
      exact h.own j k a1 a2 c hj hk
    · intro c dc hc
      obtain ⟨j, a', g1, g2, g3⟩ := h.leak c dc hc
      refine ⟨j, a', ?_, g2, g3⟩
      rw [harr, if_neg, g1]
      rintro rfl
      rw [ha] at g1
      cases g1
      exact ho g2
    · exact h.user

/-- A slot that holds no object. -/
theorem wf_slot (st : State T) (h : WF st) : WF (⟨st.blocks, st.vars ++ [none]⟩ : State T) := by
  have harr : ∀ j, (⟨st.blocks, st.vars ++ [none]⟩ : State T).arr j = st.arr j := by
    intro j
    rw [arr_push]
    by_cases hj : j = st.vars.length
    · rw [if_pos hj]
      cases hc : st.arr j with
      | none => rfl
      | some a => exact absurd (arr_lt st j a hc) (by omega)
    · rw [if_neg hj]
  constructor
  · intro i a ha; rw [harr] at ha; exact h.arr i a ha
  · intro i j a a' b hi hj; rw [harr] at hi hj; exact h.own i j a a' b hi hj
  · intro b d hb
    obtain ⟨i, a, g1, g2⟩ := h.leak b d hb
    exact ⟨i, a, by rw [harr, g1], g2⟩
  · exact h.user

/-- A new object without memory of its own. -/
theorem wf_place (st : State T) (h : WF st) (i : Nat) (hi : i < st.vars.length) (hnone : st.arr i = none) (a : Arr)
    (ha : ArrOk st a) (ho : a.owns = false) : WF (st.setVar i (some a)) := by
  have harr : ∀ j, (st.setVar i (some a)).arr j = if j = i then some a else st.arr j := fun j => arr_setVar st i j _ hi
  constructor
  · intro j a' hj
    rw [harr] at hj
    by_cases hji : j = i
    · rw [if_pos hji] at hj; cases hj; exact ha
    · rw [if_neg hji] at hj; exact h.arr j a' hj
  · intro j k a1 a2 b hj hk hown hs hs'
    rw [harr] at hj hk
    by_cases hji : j = i
    · rw [if_pos hji] at hj; cases hj; rw [ho] at hown; exact absurd hown (by simp)
    rw [if_neg hji] at hj
    by_cases hki : k = i
    · rw [if_pos hki] at hk
      cases hk
      exfalso
      obtain ⟨-, h2, -⟩ := ha
      rcases h2 with h2 | ⟨c, d, e1, e2, -⟩
      · rw [h2.1] at hs'; exact absurd hs' (by simp)
      · rw [hs'] at e1
        cases e1
        obtain ⟨-, g2, -⟩ := h.arr j a1 hj
        rcases g2 with g2 | ⟨c, dc, f1, f2, -⟩
        · rw [g2.1] at hs; exact absurd hs (by simp)
        · rw [hs] at f1
          cases f1
          rw [e2, hown, ho] at f2
          simp at f2
    · rw [if_neg hki] at hk
      exact h.own j k a1 a2 b hj hk hown hs hs'
  · intro b d hb
    obtain ⟨j, a', g1, g2⟩ := h.leak b d hb
    refine ⟨j, a', ?_, g2⟩
    rw [harr, if_neg, g1]
    rintro rfl
    rw [hnone] at g1
    exact absurd g1 (by simp)
  · exact h.user

theorem blocks_alloc (st : State T) (junk : Nat → Nat → T) (n b : Nat) :
    (st.alloc junk n).blocks[b]? = if b = st.blocks.length then some ⟨false, some ((List.range n).map (junk st.blocks.length))⟩
      else st.blocks[b]? := by
  unfold State.alloc
  dsimp only
  by_cases h : b = st.blocks.length
  · subst h; rw [List.getElem?_concat_length, if_pos rfl]
  · rw [if_neg h]
    by_cases hlt : b < st.blocks.length
    · rw [List.getElem?_append_left hlt]
    · rw [List.getElem?_eq_none (by simp; omega), List.getElem?_eq_none (by omega)]

/-- A new object with new memory. -/
theorem wf_alloc (st : State T) (h : WF st) (i : Nat) (hi : i < st.vars.length) (hnone : st.arr i = none) (junk : Nat → Nat → T)
    (rank : Rank) (ext : List Nat) (hext : ext.length = rank.dims) :
    WF ((st.alloc junk ext.prod).setVar i (some (initMemory st rank ext))) := by
  have harr : ∀ j, ((st.alloc junk ext.prod).setVar i (some (initMemory st rank ext))).arr j =
      if j = i then some (initMemory st rank ext) else st.arr j := fun j => arr_setVar (st.alloc junk ext.prod) i j _ hi
  have hblk : ∀ b, ((st.alloc junk ext.prod).setVar i (some (initMemory st rank ext))).blocks[b]? =
      if b = st.blocks.length then some ⟨false, some ((List.range ext.prod).map (junk st.blocks.length))⟩ else st.blocks[b]? :=
    fun b => blocks_alloc st junk ext.prod b
  have hold : ∀ j a', st.arr j = some a' → a'.storage ≠ some st.blocks.length := by
    intro j a' hj hs
    obtain ⟨-, g2, -⟩ := h.arr j a' hj
    rcases g2 with g2 | ⟨c, dc, f1, f2, -⟩
    · rw [g2.1] at hs; exact absurd hs (by simp)
    · rw [hs] at f1
      cases f1
      rw [List.getElem?_eq_none (le_refl _)] at f2
      exact absurd f2 (by simp)
  constructor
  · intro j a' hj
    rw [harr] at hj
    by_cases hji : j = i
    · rw [if_pos hji] at hj
      cases hj
      refine ⟨hext, Or.inr ⟨st.blocks.length, (List.range ext.prod).map (junk st.blocks.length), rfl, ?_, ?_, ?_⟩, ?_⟩
      · rw [hblk, if_pos rfl]; rfl
      · intro _; simp [initMemory]
      · simp [initMemory]
      · intro hs; exact absurd hs (by simp [initMemory])
    · rw [if_neg hji] at hj
      obtain ⟨g1, g2, g3⟩ := h.arr j a' hj
      refine ⟨g1, ?_, g3⟩
      rcases g2 with g2 | ⟨c, dc, f1, f2, f3⟩
      · exact Or.inl g2
      · right
        refine ⟨c, dc, f1, ?_, f3⟩
        rw [hblk, if_neg, f2]
        rintro rfl
        exact hold j a' hj f1
  · intro j k a1 a2 b hj hk hown hs hs'
    rw [harr] at hj hk
    by_cases hji : j = i
    · rw [if_pos hji] at hj
      cases hj
      cases hs
      by_cases hki : k = i
      · omega
      · rw [if_neg hki] at hk
        exact absurd hs' (hold k a2 hk)
    · rw [if_neg hji] at hj
      by_cases hki : k = i
      · rw [if_pos hki] at hk
        cases hk
        cases hs'
        exact absurd hs (hold j a1 hj)
      · rw [if_neg hki] at hk
        exact h.own j k a1 a2 b hj hk hown hs hs'
  · intro b d hb
    rw [hblk] at hb
    by_cases hbn : b = st.blocks.length
    · subst hbn
      exact ⟨i, initMemory st rank ext, by rw [harr, if_pos rfl], rfl, rfl⟩
    · rw [if_neg hbn] at hb
      obtain ⟨j, a', g1, g2⟩ := h.leak b d hb
      refine ⟨j, a', ?_, g2⟩
      rw [harr, if_neg, g1]
      rintro rfl
      rw [hnone] at g1
      exact absurd g1 (by simp)
  · intro b x hb
    rw [hblk] at hb
    by_cases hbn : b = st.blocks.length
    · rw [if_pos hbn] at hb; simp at hb
    · rw [if_neg hbn] at hb
      exact h.user b x hb

/-- The extents change, their product does not. -/
theorem wf_reshape (st : State T) (h : WF st) (i : Nat) (a : Arr) (ha : st.arr i = some a) (ext : List Nat)
    (hl : ext.length = a.rank.dims) (hp : ext.prod = a.ext.prod) : WF (st.setVar i (some { a with ext := ext })) := by
  have hi := arr_lt st i a ha
  have harr : ∀ j, (st.setVar i (some { a with ext := ext })).arr j = if j = i then some { a with ext := ext } else st.arr j :=
    fun j => arr_setVar st i j _ hi
  have hst : ∀ j a', (st.setVar i (some { a with ext := ext })).arr j = some a' → ∃ a0, st.arr j = some a0 ∧
      a0.storage = a'.storage ∧ a0.owns = a'.owns := by
    intro j a' hj
    rw [harr] at hj
    by_cases hji : j = i
    · rw [if_pos hji] at hj; cases hj; subst hji; exact ⟨a, ha, rfl, rfl⟩
    · rw [if_neg hji] at hj; exact ⟨a', hj, rfl, rfl⟩
  constructor
  · intro j a' hj
    rw [harr] at hj
    by_cases hji : j = i
    · rw [if_pos hji] at hj
      cases hj
      obtain ⟨h1, h2, h3⟩ := h.arr i a ha
      refine ⟨hl, ?_, h3⟩
      rcases h2 with h2 | ⟨b, d, e1, e2, e3, e4⟩
      · exact Or.inl ⟨h2.1, h2.2.1, by show ext.prod = 0; rw [hp]; exact h2.2.2⟩
      · exact Or.inr ⟨b, d, e1, e2, fun ho => by show d.length = ext.prod; rw [hp]; exact e3 ho, by show ext.prod ≤ _; rw [hp]; exact e4⟩
    · rw [if_neg hji] at hj
      exact h.arr j a' hj
  · intro j k a1 a2 b hj hk hown hs hs'
    obtain ⟨b1, g1, g2, g3⟩ := hst j a1 hj
    obtain ⟨b2, f1, f2, f3⟩ := hst k a2 hk
    exact h.own j k b1 b2 b g1 f1 (by rw [g3, hown]) (by rw [g2, hs]) (by rw [f2, hs'])
  · intro b d hb
    obtain ⟨j, a', g1, g2, g3⟩ := h.leak b d hb
    by_cases hji : j = i
    · subst hji
      rw [ha] at g1
      cases g1
      exact ⟨j, { a with ext := ext }, by rw [harr, if_pos rfl], g2, g3⟩
    · exact ⟨j, a', by rw [harr, if_neg hji, g1], g2, g3⟩
  · exact h.user

/-! ### Reading -/

theorem elem_eq (st : State T) (i : Nat) (a : Arr) (h : st.arr i = some a) (idx : List Nat) :
    st.elem i idx = (st.data a.storage).bind fun d => d[addr a.ext idx]? := by
  unfold State.elem readAt
  rw [h]
  dsimp only
  rw [if_neg (by simp)]
  cases (st.data a.storage).bind fun d => d[addr a.ext idx]? <;> rfl

theorem elem_put (st : State T) (b : Nat) (x : Option (List T)) (i : Nat) (a : Arr) (h : st.arr i = some a) (idx : List Nat) :
    (st.putData b x).elem i idx = ((st.putData b x).data a.storage).bind fun d => d[addr a.ext idx]? :=
  elem_eq (st.putData b x) i a h idx

theorem readAt_eq (checked : Bool) (st : State T) (a : Arr) (b : Nat) (d : List T) (hs : a.storage = some b)
    (hd : st.data (some b) = some d) (idx : List Nat) (hc : checkIndices a.ext idx = true) (x : T) (hx : d[addr a.ext idx]? = some x) :
    readAt checked st a idx = .inl x := by
  unfold readAt
  rw [if_neg (by simp [hc]), hs, hd]
  simp only [Option.bind_some, hx]

theorem writeAt_eq (checked : Bool) (st : State T) (a : Arr) (b : Nat) (d : List T) (hs : a.storage = some b)
    (hd : st.data (some b) = some d) (idx : List Nat) (hc : checkIndices a.ext idx = true) (hl : addr a.ext idx < d.length) (x : T) :
    writeAt checked st a idx x = .ok (st.putData b (some (d.set (addr a.ext idx) x))) := by
  unfold writeAt
  rw [if_neg (by simp [hc]), hs]
  dsimp only
  rw [hd]
  dsimp only
  rw [if_pos hl]

theorem same_of (st st' : State T) (j : Nat) (ha : st'.arr j = st.arr j)
    (hd : ∀ a, st.arr j = some a → st'.data a.storage = st.data a.storage) : SameArray st st' j := by
  refine ⟨ha, ?_⟩
  intro idx
  cases hc : st.arr j with
  | none => unfold State.elem; rw [ha, hc]
  | some a => rw [elem_eq st j a hc, elem_eq st' j a (ha.trans hc), hd a hc]

theorem same_refl (st : State T) (j : Nat) : SameArray st st j := ⟨rfl, fun _ => rfl⟩

/-- A write into the block of array `i` is not seen by arrays that lie elsewhere. -/
theorem same_put (st : State T) (i j : Nat) (a : Arr) (b : Nat) (k : Block T) (x : Option (List T)) (ha : st.arr i = some a)
    (hs : a.storage = some b) (hb : st.blocks[b]? = some k) (hsh : ¬ st.Shares i j) : SameArray st (st.putData b x) j := by
  refine same_of _ _ _ rfl ?_
  intro a' ha'
  rw [data_put st b x _ k hb, if_neg]
  intro hs'
  exact hsh ⟨a, a', b, ha, ha', hs, hs'⟩

/-! ### set_size -/

/-- What `set_size` does when it does not throw. -/
structure Resized (st st' : State T) (i : Nat) (a : Arr) (ext : List Nat) (a' : Arr) : Prop where
  wf : WF st'
  arr : st'.arr i = some a'
  rank : a'.rank = a.rank
  count : a'.ext.prod = ext.prod
  extents : a'.ext = if a.rank = .three ∧ ext.prod = 0 ∧ a.ext.prod ≠ 0 then [0, 0, 0] else ext
  others : ∀ j, j ≠ i → SameArray st st' j
  keep : ext.prod = a.ext.prod → a'.storage = a.storage ∧ st'.data a.storage = st.data a.storage
  fresh : ext.prod ≠ a.ext.prod → ∀ j, j ≠ i → ¬ st'.Shares i j

theorem free_same (st st1 : State T) (h : WF st) (i j : Nat) (a : Arr) (ha : st.arr i = some a) (hv : st1.vars = st.vars)
    (hd : ∀ (s : Option Nat), (s ≠ a.storage ∨ a.owns = false) → st1.data s = st.data s) (hj : j ≠ i) : SameArray st st1 j := by
  refine same_of _ _ _ ?_ ?_
  · unfold State.arr; rw [hv]
  · intro a' ha'
    cases hs' : a'.storage with
    | none => rfl
    | some b' =>
      refine hd _ ?_
      by_cases ho : a.owns = true
      · left
        intro hs
        exact hj (h.own i j a a' b' ha ha' ho hs.symm hs').symm
      · right; simpa using ho

theorem same_trans (a b c : State T) (j : Nat) (h1 : SameArray a b j) (h2 : SameArray b c j) : SameArray a c j :=
  ⟨h2.1.trans h1.1, fun idx => (h2.2 idx).trans (h1.2 idx)⟩

/-- Free, then allocate. -/
theorem resized_alloc (junk : Nat → Nat → T) (st : State T) (h : WF st) (i : Nat) (a : Arr) (ha : st.arr i = some a) (ext : List Nat)
    (hl : ext.length = a.rank.dims) (hp : ext.prod ≠ a.ext.prod) (h3 : a.rank = .three → ext.prod ≠ 0) :
    ∃ st1, freeMemory st a = some st1 ∧
      Resized st ((st1.alloc junk ext.prod).setVar i (some (initMemory st1 a.rank ext))) i a ext (initMemory st1 a.rank ext) := by
  obtain ⟨st1, f1, f2, f3, f4, f5, f6⟩ := wf_free st h i a ha
  refine ⟨st1, f1, ?_⟩
  have hi : i < st1.vars.length := by rw [f2]; exact arr_lt st i a ha
  have hnone : (st1.setVar i none).arr i = none := by rw [arr_setVar st1 i i none hi, if_pos rfl]
  have hwf := wf_alloc (st1.setVar i none) f3 i (by simpa [State.setVar] using hi) hnone junk a.rank ext hl
  have heq : ((st1.setVar i none).alloc junk ext.prod).setVar i (some (initMemory (st1.setVar i none) a.rank ext)) =
      (st1.alloc junk ext.prod).setVar i (some (initMemory st1 a.rank ext)) := by
    unfold State.setVar State.alloc initMemory
    simp [List.set_set]
  rw [heq] at hwf
  have harr : ∀ j, ((st1.alloc junk ext.prod).setVar i (some (initMemory st1 a.rank ext))).arr j =
      if j = i then some (initMemory st1 a.rank ext) else st1.arr j :=
    fun j => arr_setVar (st1.alloc junk ext.prod) i j _ hi
  have hme := harr i
  rw [if_pos rfl] at hme
  refine ⟨hwf, hme, rfl, rfl, ?_, ?_, fun hp' => absurd hp' hp, ?_⟩
  · show ext = _
    rw [if_neg]
    rintro ⟨g1, g2, -⟩
    exact h3 g1 g2
  · intro j hj
    refine same_trans _ st1 _ _ (free_same st st1 h i j a ha f2 f4 hj) (same_of _ _ _ ?_ ?_)
    · rw [harr, if_neg hj]
    · intro a' ha'
      have hok : ArrOk (st1.setVar i none) a' := f3.arr j a' (by rw [arr_setVar st1 i j none hi, if_neg hj, ha'])
      obtain ⟨-, g2, -⟩ := hok
      rcases g2 with g2 | ⟨c, d, e1, e2, -⟩
      · rw [g2.1]; rfl
      · rw [e1]
        show ((st1.alloc junk ext.prod).blocks[c]?).bind Block.data = (st1.blocks[c]?).bind Block.data
        rw [blocks_alloc, if_neg]
        intro hc
        have : st1.blocks[c]? = some ⟨!a'.owns, some d⟩ := e2
        rw [List.getElem?_eq_none (by omega)] at this
        exact absurd this (by simp)
  · rintro - j hj ⟨a1, a2, b, g1, g2, g3, g4⟩
    rw [hme] at g1
    cases g1
    exact hj (hwf.own i j _ a2 b hme g2 rfl g3 g4).symm

theorem resized_empty (st : State T) (h : WF st) (i : Nat) (a : Arr) (ha : st.arr i = some a) (ext : List Nat)
    (hp : ext.prod ≠ a.ext.prod) (h3 : a.rank = .three) (h0 : ext.prod = 0) :
    ∃ st1, freeMemory st a = some st1 ∧ Resized st (st1.setVar i (some (initEmpty .three))) i a ext (initEmpty .three) := by
  obtain ⟨st1, f1, f2, f3, f4, f5, f6⟩ := wf_free st h i a ha
  refine ⟨st1, f1, ?_⟩
  have hi : i < st1.vars.length := by rw [f2]; exact arr_lt st i a ha
  have hnone : (st1.setVar i none).arr i = none := by rw [arr_setVar st1 i i none hi, if_pos rfl]
  have hwf := wf_place (st1.setVar i none) f3 i (by simpa [State.setVar] using hi) hnone (initEmpty .three)
    ⟨rfl, Or.inl ⟨rfl, rfl, rfl⟩, fun hs => absurd hs (by simp [initEmpty])⟩ rfl
  have heq : (st1.setVar i none).setVar i (some (initEmpty .three)) = st1.setVar i (some (initEmpty .three)) := by
    unfold State.setVar
    simp [List.set_set]
  rw [heq] at hwf
  have harr : ∀ j, (st1.setVar i (some (initEmpty .three))).arr j = if j = i then some (initEmpty .three) else st1.arr j :=
    fun j => arr_setVar st1 i j _ hi
  have hme := harr i
  rw [if_pos rfl] at hme
  refine ⟨hwf, hme, h3.symm, by rw [h0]; rfl, ?_, ?_, fun hp' => absurd hp' hp, ?_⟩
  · rw [if_pos ⟨h3, h0, fun hc => hp (by omega)⟩]; rfl
  · intro j hj
    refine same_trans _ st1 _ _ (free_same st st1 h i j a ha f2 f4 hj) (same_of _ _ _ ?_ ?_)
    · rw [harr, if_neg hj]
    · intro a' _; rfl
  · rintro - j hj ⟨a1, a2, b, g1, g2, g3, g4⟩
    rw [hme] at g1
    cases g1
    exact absurd g3 (by simp [initEmpty])

theorem setSize_spec (junk : Nat → Nat → T) (st : State T) (h : WF st) (i : Nat) (a : Arr) (ha : st.arr i = some a) (ext : List Nat)
    (hl : ext.length = a.rank.dims) :
    (setSize junk st i a ext = .throws st ∧ a.strict = true ∧ ext.prod ≠ a.ext.prod) ∨
    (¬(a.strict = true ∧ ext.prod ≠ a.ext.prod) ∧ ∃ st' a', setSize junk st i a ext = .ok st' ∧ Resized st st' i a ext a') := by
  unfold setSize
  by_cases hp : ext.prod = a.ext.prod
  · right
    refine ⟨fun hc => hc.2 hp, _, { a with ext := ext }, if_pos hp, ?_⟩
    have hi := arr_lt st i a ha
    refine ⟨wf_reshape st h i a ha ext hl hp, by rw [arr_setVar st i i _ hi, if_pos rfl], rfl, rfl, ?_, ?_, fun _ => ⟨rfl, rfl⟩,
      fun hc => absurd hp hc⟩
    · show ext = _
      rw [if_neg]
      rintro ⟨-, g1, g2⟩
      exact g2 (by omega)
    · intro j hj
      refine same_of _ _ _ (by rw [arr_setVar st i j _ hi, if_neg hj]) (fun _ _ => rfl)
  · rw [if_neg hp]
    obtain ⟨rank, aext, storage, owns, strict⟩ := a
    cases rank with
    | two =>
      right
      have hns : strict ≠ true := by
        intro hs
        have := ((h.arr i _ ha).2.2 hs).2
        exact absurd this (by simp)
      obtain ⟨st1, f1, f2⟩ := resized_alloc junk st h i _ ha ext hl hp (by simp)
      refine ⟨fun hc => hns hc.1, _, _, ?_, f2⟩
      dsimp only
      rw [f1]
    | three =>
      dsimp only
      by_cases hs : strict = true
      · left
        exact ⟨by rw [if_pos hs], hs, hp⟩
      · right
        refine ⟨fun hc => hs hc.1, ?_⟩
        rw [if_neg hs]
        by_cases h0 : ext.prod = 0
        · obtain ⟨st1, f1, f2⟩ := resized_empty st h i _ ha ext hp rfl h0
          refine ⟨_, _, ?_, f2⟩
          rw [f1]
          dsimp only
          rw [if_neg (by simpa using h0)]
        · obtain ⟨st1, f1, f2⟩ := resized_alloc junk st h i _ ha ext hl hp (fun _ => h0)
          refine ⟨_, _, ?_, f2⟩
          rw [f1]
          dsimp only
          rw [if_pos h0]
    | four =>
      right
      have hns : strict ≠ true := by
        intro hs
        have := ((h.arr i _ ha).2.2 hs).2
        exact absurd this (by simp)
      obtain ⟨st1, f1, f2⟩ := resized_alloc junk st h i _ ha ext hl hp (by simp)
      refine ⟨fun hc => hns hc.1, _, _, ?_, f2⟩
      dsimp only
      rw [f1]

/-! ### std::copy -/

theorem copyRange_spec (st : State T) (h : WF st) (i j : Nat) (a a' : Arr) (ha : st.arr i = some a) (ha' : st.arr j = some a')
    (hn : a.ext.prod = a'.ext.prod) : ∃ st', copyRange st a'.ext.prod a'.storage a.storage = .ok st' ∧ WF st' ∧
      (∀ k, st'.arr k = st.arr k) ∧ (∀ k, k ≠ i → ¬ st.Shares i k → SameArray st st' k) ∧
      ∀ n, n < a'.ext.prod → ((st'.data a.storage).bind fun d => d[n]?) = (st.data a'.storage).bind fun d => d[n]? := by
  by_cases h0 : a'.ext.prod = 0
  · refine ⟨st, by unfold copyRange; rw [if_pos h0], h, fun _ => rfl, fun _ _ _ => same_refl _ _, fun n hn => by omega⟩
  · obtain ⟨-, g2, -⟩ := h.arr i a ha
    obtain ⟨-, g2', -⟩ := h.arr j a' ha'
    rcases g2 with g2 | ⟨b, d, e1, e2, e3, e4⟩
    · exact absurd (hn.symm.trans g2.2.2) h0
    rcases g2' with g2' | ⟨b', d', e1', e2', e3', e4'⟩
    · exact absurd g2'.2.2 h0
    have hlen : (d'.take a'.ext.prod ++ d.drop a'.ext.prod).length = d.length := by
      rw [List.length_append, List.length_take, List.length_drop]; omega
    refine ⟨st.putData b (some (d'.take a'.ext.prod ++ d.drop a'.ext.prod)), ?_, wf_put st h b _ d _ e2 hlen, fun _ => rfl, ?_, ?_⟩
    · unfold copyRange
      rw [if_neg h0, e1', data_of_block st b' _ e2', e1]
      dsimp only
      rw [data_of_block st b _ e2]
      dsimp only
      rw [if_pos ⟨e4', by omega⟩]
    · intro k _ hsh
      exact same_put st i k a b _ _ ha e1 e2 hsh
    · intro n hn'
      rw [e1, data_put st b _ _ _ e2, if_pos rfl, e1', data_of_block st b' _ e2']
      simp only [Option.bind_some]
      rw [List.getElem?_append_left (by rw [List.length_take]; omega), List.getElem?_take_of_lt hn']

/-! ### The loops -/

theorem put_put (st : State T) (b : Nat) (x y : Option (List T)) : (st.putData b x).putData b y = st.putData b y := by
  unfold State.putData
  dsimp only
  congr 1
  refine List.ext_getElem? ?_
  intro c
  rw [List.getElem?_modify, List.getElem?_modify, List.getElem?_modify]
  cases st.blocks[c]? with
  | none => rfl
  | some k => by_cases h : b = c <;> simp [h]

theorem put_self (st : State T) (b : Nat) (u : Bool) (d : List T) (h : st.blocks[b]? = some ⟨u, some d⟩) :
    st.putData b (some d) = st := by
  unfold State.putData
  have : (st.blocks.modify b fun k => { k with data := some d }) = st.blocks := by
    refine List.ext_getElem? ?_
    intro c
    rw [List.getElem?_modify]
    by_cases hc : b = c
    · subst hc; rw [h]; simp
    · cases st.blocks[c]? <;> simp [hc]
  rw [this]

theorem addLoop_spec [Add T] (checked : Bool) (a rhs : Arr) (b c : Nat) (hs : a.storage = some b) (hs' : rhs.storage = some c)
    (hext : rhs.ext = a.ext) (rest : List (List Nat)) :
    ∀ (st : State T) (u u' : Bool) (d dc : List T), st.blocks[b]? = some ⟨u, some d⟩ → st.blocks[c]? = some ⟨u', some dc⟩ →
      (rest.map (addr a.ext)).Nodup →
      (∀ idx ∈ rest, checkIndices a.ext idx = true ∧ addr a.ext idx < d.length ∧ addr a.ext idx < dc.length) →
      ∃ d', addLoop checked a rhs st rest = .ok (st.putData b (some d')) ∧ d'.length = d.length ∧
        ∀ n, d'[n]? = if n ∈ rest.map (addr a.ext) then (d[n]?).bind fun x => (dc[n]?).map fun y => x + y else d[n]? := by
  induction rest with
  | nil =>
    intro st u u' d dc hb hc _ _
    exact ⟨d, by unfold addLoop; rw [put_self st b u d hb], rfl, fun n => by simp⟩
  | cons idx rest ih =>
    intro st u u' d dc hb hc hnd hok
    obtain ⟨o1, o2, o3⟩ := hok idx (List.mem_cons_self ..)
    rw [List.map_cons, List.nodup_cons] at hnd
    have hx : d[addr a.ext idx]? = some d[addr a.ext idx] := List.getElem?_eq_getElem o2
    have hy : dc[addr a.ext idx]? = some dc[addr a.ext idx] := List.getElem?_eq_getElem o3
    have r1 := readAt_eq checked st a b d hs (data_of_block st b _ hb) idx o1 _ hx
    have r2 := readAt_eq checked st rhs c dc hs' (data_of_block st c _ hc) idx (by rw [hext]; exact o1) _ (by rw [hext]; exact hy)
    have r3 := writeAt_eq checked st a b d hs (data_of_block st b _ hb) idx o1 o2 (d[addr a.ext idx] + dc[addr a.ext idx])
    generalize hd1 : d.set (addr a.ext idx) (d[addr a.ext idx] + dc[addr a.ext idx]) = d1 at r3
    have hl1 : d1.length = d.length := by rw [← hd1, List.length_set]
    have hb1 : (st.putData b (some d1)).blocks[b]? = some ⟨u, some d1⟩ := by rw [blocks_put, if_pos rfl, hb]; rfl
    obtain ⟨dc1, hc1, hlc, hdc⟩ : ∃ dc1 : List T, (st.putData b (some d1)).blocks[c]? = some ⟨u', some dc1⟩ ∧ dc1.length = dc.length ∧
        ∀ n, n ≠ addr a.ext idx → dc1[n]? = dc[n]? := by
      rw [blocks_put]
      by_cases hcb : c = b
      · subst hcb
        rw [hb] at hc
        cases hc
        rw [if_pos rfl, hb]
        exact ⟨d1, rfl, hl1, fun n hn => by rw [← hd1, List.getElem?_set_ne (Ne.symm hn)]⟩
      · rw [if_neg hcb, hc]
        exact ⟨dc, rfl, rfl, fun _ _ => rfl⟩
    obtain ⟨d', e1, e2, e3⟩ := ih (st.putData b (some d1)) u u' d1 dc1 hb1 hc1 hnd.2 (by
      intro idx' hm
      have := hok idx' (List.mem_cons_of_mem _ hm)
      rw [hl1, hlc]
      exact this)
    refine ⟨d', ?_, by rw [e2, hl1], ?_⟩
    · unfold addLoop
      rw [r1, r2]
      dsimp only
      rw [r3]
      dsimp only
      rw [e1, put_put]
    · intro n
      rw [e3, List.map_cons]
      by_cases hn : n = addr a.ext idx
      · subst hn
        rw [if_neg hnd.1, if_pos (List.mem_cons_self ..), hx, hy, ← hd1, List.getElem?_set_self o2]
        rfl
      · rw [hdc n hn, ← hd1, List.getElem?_set_ne (Ne.symm hn)]
        by_cases hm : n ∈ rest.map (addr a.ext)
        · rw [if_pos hm, if_pos (List.mem_cons_of_mem _ hm)]
        · rw [if_neg hm, if_neg]
          intro hc
          rcases List.mem_cons.mp hc with hc | hc
          · exact hn hc
          · exact hm hc

theorem scaleLoop_spec [Mul T] (checked : Bool) (a : Arr) (b : Nat) (hs : a.storage = some b) (c : T) (rest : List (List Nat)) :
    ∀ (st : State T) (u : Bool) (d : List T), st.blocks[b]? = some ⟨u, some d⟩ → (rest.map (addr a.ext)).Nodup →
      (∀ idx ∈ rest, checkIndices a.ext idx = true ∧ addr a.ext idx < d.length) →
      ∃ d', scaleLoop checked a c st rest = .ok (st.putData b (some d')) ∧ d'.length = d.length ∧
        ∀ n, d'[n]? = if n ∈ rest.map (addr a.ext) then (d[n]?).map fun x => x * c else d[n]? := by
  induction rest with
  | nil =>
    intro st u d hb _ _
    exact ⟨d, by unfold scaleLoop; rw [put_self st b u d hb], rfl, fun n => by simp⟩
  | cons idx rest ih =>
    intro st u d hb hnd hok
    obtain ⟨o1, o2⟩ := hok idx (List.mem_cons_self ..)
    rw [List.map_cons, List.nodup_cons] at hnd
    have hx : d[addr a.ext idx]? = some d[addr a.ext idx] := List.getElem?_eq_getElem o2
    have r1 := readAt_eq checked st a b d hs (data_of_block st b _ hb) idx o1 _ hx
    have r3 := writeAt_eq checked st a b d hs (data_of_block st b _ hb) idx o1 o2 (d[addr a.ext idx] * c)
    generalize hd1 : d.set (addr a.ext idx) (d[addr a.ext idx] * c) = d1 at r3
    have hl1 : d1.length = d.length := by rw [← hd1, List.length_set]
    have hb1 : (st.putData b (some d1)).blocks[b]? = some ⟨u, some d1⟩ := by rw [blocks_put, if_pos rfl, hb]; rfl
    obtain ⟨d', e1, e2, e3⟩ := ih (st.putData b (some d1)) u d1 hb1 hnd.2 (by
      intro idx' hm
      have := hok idx' (List.mem_cons_of_mem _ hm)
      rw [hl1]
      exact this)
    refine ⟨d', ?_, by rw [e2, hl1], ?_⟩
    · unfold scaleLoop
      rw [r1]
      dsimp only
      rw [r3]
      dsimp only
      rw [e1, put_put]
    · intro n
      rw [e3, List.map_cons]
      by_cases hn : n = addr a.ext idx
      · subst hn
        rw [if_neg hnd.1, if_pos (List.mem_cons_self ..), hx, ← hd1, List.getElem?_set_self o2]
        rfl
      · rw [← hd1, List.getElem?_set_ne (Ne.symm hn)]
        by_cases hm : n ∈ rest.map (addr a.ext)
        · rw [if_pos hm, if_pos (List.mem_cons_of_mem _ hm)]
        · rw [if_neg hm, if_neg]
          intro hc
          rcases List.mem_cons.mp hc with hc | hc
          · exact hn hc
          · exact hm hc

/-! ### One operation -/

theorem loop_empty (a : Arr) (hl : a.ext.length = a.rank.dims) (h : a.ext.prod = 0) : loopIndices a.ext = [] := by
  have := (C111_layout a.rank a.ext hl).1
  rw [h] at this
  simpa using this

theorem step_add [Add T] (checked : Bool) (st : State T) (h : WF st) (i j : Nat) (a a' : Arr) (ha : st.arr i = some a)
    (ha' : st.arr j = some a') (hext : a.ext = a'.ext) :
    ∃ st', addAssign checked st a a' = .ok st' ∧ WF st' ∧ (∀ k, st'.arr k = st.arr k) ∧
      (∀ k, ¬ st.Shares i k → k ≠ i → SameArray st st' k) ∧
      ∀ idx, InRange a.ext idx → ∃ x y, st.elem i idx = some x ∧ st.elem j idx = some y ∧ st'.elem i idx = some (x + y) := by
  obtain ⟨l1, g2, -⟩ := h.arr i a ha
  obtain ⟨l1', g2', -⟩ := h.arr j a' ha'
  obtain ⟨lay1, lay2, lay3, -, -⟩ := C111_layout a.rank a.ext l1
  by_cases h0 : a.ext.prod = 0
  · refine ⟨st, by unfold addAssign; rw [loop_empty a l1 h0]; rfl, h, fun _ => rfl, fun _ _ _ => same_refl _ _, ?_⟩
    intro idx hidx
    have := (lay3 idx hidx).2.1
    omega
  rcases g2 with g2 | ⟨b, d, e1, e2, e3, e4⟩
  · exact absurd g2.2.2 h0
  rcases g2' with g2' | ⟨c, dc, f1, f2, f3, f4⟩
  · exact absurd (hext ▸ g2'.2.2) h0
  rw [← hext] at f4
  have hidx : ∀ idx ∈ loopIndices a.ext, checkIndices a.ext idx = true ∧ addr a.ext idx < d.length ∧ addr a.ext idx < dc.length := by
    intro idx hm
    have := lay3 idx ((lay2 idx).mp hm)
    exact ⟨this.2.2, by omega, by omega⟩
  obtain ⟨d', q1, q2, q3⟩ := addLoop_spec checked a a' b c e1 f1 hext.symm (loopIndices a.ext) st _ _ d dc e2 f2
    (by rw [lay1]; exact List.nodup_range) hidx
  refine ⟨_, q1, wf_put st h b _ d d' e2 q2, fun _ => rfl, fun k hk _ => same_put st i k a b _ _ ha e1 e2 hk, ?_⟩
  intro idx hin
  obtain ⟨p1, p2, p3⟩ := hidx idx ((lay2 idx).mpr hin)
  refine ⟨d[addr a.ext idx], dc[addr a.ext idx], ?_, ?_, ?_⟩
  · rw [elem_eq st i a ha, e1, data_of_block st b _ e2]
    exact List.getElem?_eq_getElem p2
  · rw [elem_eq st j a' ha', f1, data_of_block st c _ f2, ← hext]
    exact List.getElem?_eq_getElem p3
  · rw [elem_put st b _ i a ha, e1, data_put st b _ _ _ e2, if_pos rfl]
    show d'[addr a.ext idx]? = _
    rw [q3, if_pos (List.mem_map_of_mem ((lay2 idx).mpr hin)), List.getElem?_eq_getElem p2, List.getElem?_eq_getElem p3]
    rfl

theorem step_scale [Mul T] (checked : Bool) (st : State T) (h : WF st) (i : Nat) (a : Arr) (ha : st.arr i = some a) (c : T) :
    ∃ st', scaleLoop checked a c st (loopIndices a.ext) = .ok st' ∧ WF st' ∧ (∀ k, st'.arr k = st.arr k) ∧
      (∀ k, ¬ st.Shares i k → k ≠ i → SameArray st st' k) ∧
      ∀ idx, InRange a.ext idx → ∃ x, st.elem i idx = some x ∧ st'.elem i idx = some (x * c) := by
  obtain ⟨l1, g2, -⟩ := h.arr i a ha
  obtain ⟨lay1, lay2, lay3, -, -⟩ := C111_layout a.rank a.ext l1
  by_cases h0 : a.ext.prod = 0
  · refine ⟨st, by rw [loop_empty a l1 h0]; rfl, h, fun _ => rfl, fun _ _ _ => same_refl _ _, ?_⟩
    intro idx hidx
    have := (lay3 idx hidx).2.1
    omega
  rcases g2 with g2 | ⟨b, d, e1, e2, e3, e4⟩
  · exact absurd g2.2.2 h0
  have hidx : ∀ idx ∈ loopIndices a.ext, checkIndices a.ext idx = true ∧ addr a.ext idx < d.length := by
    intro idx hm
    have := lay3 idx ((lay2 idx).mp hm)
    exact ⟨this.2.2, by omega⟩
  obtain ⟨d', q1, q2, q3⟩ := scaleLoop_spec checked a b e1 c (loopIndices a.ext) st _ d e2
    (by rw [lay1]; exact List.nodup_range) hidx
  refine ⟨_, q1, wf_put st h b _ d d' e2 q2, fun _ => rfl, fun k hk _ => same_put st i k a b _ _ ha e1 e2 hk, ?_⟩
  intro idx hin
  obtain ⟨p1, p2⟩ := hidx idx ((lay2 idx).mpr hin)
  refine ⟨d[addr a.ext idx], ?_, ?_⟩
  · rw [elem_eq st i a ha, e1, data_of_block st b _ e2]
    exact List.getElem?_eq_getElem p2
  · rw [elem_put st b _ i a ha, e1, data_put st b _ _ _ e2, if_pos rfl]
    show d'[addr a.ext idx]? = _
    rw [q3, if_pos (List.mem_map_of_mem ((lay2 idx).mpr hin)), List.getElem?_eq_getElem p2]
    rfl

theorem step_write (checked : Bool) (st : State T) (h : WF st) (i : Nat) (a : Arr) (ha : st.arr i = some a) (idx : List Nat)
    (hin : InRange a.ext idx) (x : T) :
    ∃ st', writeAt checked st a idx x = .ok st' ∧ WF st' ∧ (∀ k, st'.arr k = st.arr k) ∧
      (∀ k, ¬ st.Shares i k → k ≠ i → SameArray st st' k) ∧ st'.elem i idx = some x ∧
      ∀ idx', InRange a.ext idx' → idx' ≠ idx → st'.elem i idx' = st.elem i idx' := by
  obtain ⟨l1, g2, -⟩ := h.arr i a ha
  obtain ⟨-, -, lay3, -, lay5⟩ := C111_layout a.rank a.ext l1
  obtain ⟨-, p2, p3⟩ := lay3 idx hin
  rcases g2 with g2 | ⟨b, d, e1, e2, e3, e4⟩
  · omega
  have hlt : addr a.ext idx < d.length := by omega
  refine ⟨_, writeAt_eq checked st a b d e1 (data_of_block st b _ e2) idx p3 hlt x, wf_put st h b _ d _ e2 (List.length_set ..),
    fun _ => rfl, fun k hk _ => same_put st i k a b _ _ ha e1 e2 hk, ?_, ?_⟩
  · rw [elem_put st b _ i a ha, e1, data_put st b _ _ _ e2, if_pos rfl]
    exact List.getElem?_set_self hlt
  · intro idx' hin' hne
    rw [elem_put st b _ i a ha, elem_eq st i a ha, e1, data_put st b _ _ _ e2, if_pos rfl, data_of_block st b _ e2]
    show (d.set _ _)[_]? = d[_]?
    rw [List.getElem?_set_ne]
    intro hc
    exact hne (lay5 idx' idx hin' hin hc.symm)

theorem step_assign (junk : Nat → Nat → T) (st : State T) (h : WF st) (i j : Nat) (a a' : Arr) (ha : st.arr i = some a)
    (ha' : st.arr j = some a') (hr : a.rank = a'.rank) :
    (assign junk st i j a a' = .throws st ∧ a.strict = true ∧ a'.ext.prod ≠ a.ext.prod) ∨
    (¬(a.strict = true ∧ a'.ext.prod ≠ a.ext.prod) ∧ ∃ st' b, assign junk st i j a a' = .ok st' ∧ WF st' ∧
      st'.arr i = some b ∧ b.rank = a.rank ∧
      b.ext = (if a.rank = .three ∧ a'.ext.prod = 0 ∧ a.ext.prod ≠ 0 then [0, 0, 0] else a'.ext) ∧
      (∀ k, k ≠ i → ¬ st.Shares i k → SameArray st st' k) ∧ (∀ k, k ≠ i → st'.arr k = st.arr k) ∧
      ∀ idx, InRange a'.ext idx → st'.elem i idx = st.elem j idx) := by
  by_cases hij : i = j
  · subst hij
    rw [ha] at ha'
    cases ha'
    right
    refine ⟨fun hc => hc.2 rfl, st, a, by unfold assign; rw [if_pos rfl], h, ha, rfl, ?_, fun _ _ _ => same_refl _ _, fun _ _ => rfl,
      fun _ _ => rfl⟩
    rw [if_neg]
    rintro ⟨-, h1, h2⟩
    exact h2 h1
  · obtain ⟨l1', -, -⟩ := h.arr j a' ha'
    have hunf : assign junk st i j a a' = (match setSize junk st i a a'.ext with
      | .ok st1 => copyRange st1 a'.ext.prod a'.storage ((st1.arr i).bind Arr.storage)
      | r => r) := by unfold assign; rw [if_neg hij]; cases setSize junk st i a a'.ext <;> rfl
    rcases setSize_spec junk st h i a ha a'.ext (by rw [hr]; exact l1') with ⟨e, hs, hp⟩ | ⟨hns, st1, b, e, R⟩
    · left
      exact ⟨by rw [hunf, e], hs, hp⟩
    · right
      have hj : SameArray st st1 j := R.others j (fun hc => hij hc.symm)
      have ha1 : st1.arr j = some a' := hj.1.trans ha'
      obtain ⟨st2, c1, c2, c3, c4, c5⟩ := copyRange_spec st1 R.wf i j b a' R.arr ha1 R.count
      refine ⟨hns, st2, b, ?_, c2, (c3 i).trans R.arr, R.rank, R.extents, ?_, ?_, ?_⟩
      · rw [hunf, e]
        dsimp only
        rw [R.arr]
        exact c1
      · intro k hk hsh
        refine same_trans _ st1 _ _ (R.others k hk) (c4 k hk ?_)
        by_cases hp : a'.ext.prod = a.ext.prod
        · rintro ⟨a1, a2, s, g1, g2, g3, g4⟩
          rw [R.arr] at g1
          cases g1
          rw [(R.keep hp).1] at g3
          exact hsh ⟨a, a2, s, ha, (R.others k hk).1 ▸ g2, g3, g4⟩
        · exact R.fresh hp k hk
      · intro k hk
        rw [c3, (R.others k hk).1]
      · intro idx hin
        have lay := (C111_layout a'.rank a'.ext l1').2.2.1 idx hin
        have hbext : b.ext = a'.ext := by
          rw [R.extents, if_neg]
          rintro ⟨-, g1, -⟩
          omega
        rw [elem_eq st2 i b ((c3 i).trans R.arr), hbext, c5 _ lay.2.1, ← hj.2 idx, elem_eq st1 j a' ha1]

theorem step_copy (junk : Nat → Nat → T) (st : State T) (h : WF st) (i : Nat) (a : Arr) (ha : st.arr i = some a) :
    ∃ st' b, copyConstruct junk st a = .ok st' ∧ WF st' ∧ st'.arr st.vars.length = some b ∧ b.rank = a.rank ∧ b.strict = false ∧
      b.ext = (if a.rank = .three ∧ a.ext.prod = 0 then [0, 0, 0] else a.ext) ∧
      (∀ k, k ≠ st.vars.length → SameArray st st' k ∧ ¬ st'.Shares st.vars.length k) ∧
      ∀ idx, InRange a.ext idx → st'.elem st.vars.length idx = st.elem i idx := by
  obtain ⟨l1, g2, -⟩ := h.arr i a ha
  have hs := wf_slot st h
  have hilt := arr_lt st i a ha
  have hnone : (⟨st.blocks, st.vars ++ [none]⟩ : State T).arr st.vars.length = none := by rw [arr_push, if_pos rfl]
  have hlt : st.vars.length < (⟨st.blocks, st.vars ++ [none]⟩ : State T).vars.length := by simp
  have hset : ∀ x : Option Arr, (st.vars ++ [none]).set st.vars.length x = st.vars ++ [x] := by
    intro x
    rw [List.set_append_right _ _ (le_refl _), Nat.sub_self]
    rfl
  by_cases hc : a.rank = .three ∧ a.ext.prod = 0
  · have hwf := wf_place _ hs st.vars.length hlt hnone (initEmpty .three)
      ⟨rfl, Or.inl ⟨rfl, rfl, rfl⟩, fun hs => absurd hs (by simp [initEmpty])⟩ rfl
    have heq : (⟨st.blocks, st.vars ++ [none]⟩ : State T).setVar st.vars.length (some (initEmpty .three)) =
        ⟨st.blocks, st.vars ++ [some (initEmpty .three)]⟩ := by
      unfold State.setVar; rw [hset]
    rw [heq] at hwf
    refine ⟨⟨st.blocks, st.vars ++ [some (initEmpty .three)]⟩, initEmpty .three, by unfold copyConstruct; rw [if_pos hc], hwf,
      by rw [arr_push, if_pos rfl], hc.1.symm, rfl, by rw [if_pos hc]; rfl, ?_, ?_⟩
    · intro k hk
      refine ⟨same_of _ _ _ (by rw [arr_push, if_neg hk]) (fun _ _ => rfl), ?_⟩
      rintro ⟨a1, a2, s, g1, -, g3, -⟩
      rw [arr_push, if_pos rfl] at g1
      cases g1
      exact absurd g3 (by simp [initEmpty])
    · intro idx hin
      have := ((C111_layout a.rank a.ext l1).2.2.1 idx hin).2.1
      omega
  · have hwf := wf_alloc _ hs st.vars.length hlt hnone junk a.rank a.ext l1
    have heq : ((⟨st.blocks, st.vars ++ [none]⟩ : State T).alloc junk a.ext.prod).setVar st.vars.length
        (some (initMemory ⟨st.blocks, st.vars ++ [none]⟩ a.rank a.ext)) =
        { st.alloc junk a.ext.prod with vars := st.vars ++ [some (initMemory st a.rank a.ext)] } := by
      unfold State.setVar State.alloc initMemory; rw [hset]
    rw [heq] at hwf
    generalize hst1 : ({ st.alloc junk a.ext.prod with vars := st.vars ++ [some (initMemory st a.rank a.ext)] } : State T) = st1 at hwf
    have harr : ∀ k, st1.arr k = if k = st.vars.length then some (initMemory st a.rank a.ext) else st.arr k := by
      intro k; rw [← hst1]; exact arr_push st _ k _
    have hblk : ∀ c, st1.blocks[c]? = if c = st.blocks.length then
        some ⟨false, some ((List.range a.ext.prod).map (junk st.blocks.length))⟩ else st.blocks[c]? := by
      intro c; rw [← hst1]; exact blocks_alloc st junk _ c
    have hme : st1.arr st.vars.length = some (initMemory st a.rank a.ext) := by rw [harr, if_pos rfl]
    have hsame : ∀ k, k ≠ st.vars.length → SameArray st st1 k := by
      intro k hk
      refine same_of _ _ _ (by rw [harr, if_neg hk]) ?_
      intro a' ha'
      obtain ⟨-, g2, -⟩ := h.arr k a' ha'
      rcases g2 with g2 | ⟨c, d, e1, e2, -⟩
      · rw [g2.1]; rfl
      · rw [e1]
        show (st1.blocks[c]?).bind Block.data = (st.blocks[c]?).bind Block.data
        rw [hblk, if_neg]
        intro hcc
        rw [List.getElem?_eq_none (by omega)] at e2
        exact absurd e2 (by simp)
    have hshare : ∀ k, k ≠ st.vars.length → ¬ st1.Shares st.vars.length k := by
      rintro k hk ⟨a1, a2, s, g1, g2, g3, g4⟩
      rw [hme] at g1
      cases g1
      exact hk (hwf.own _ k _ a2 s hme g2 rfl g3 g4).symm
    have hai : st1.arr i = some a := by rw [harr, if_neg (by omega), ha]
    obtain ⟨st2, c1, c2, c3, c4, c5⟩ := copyRange_spec st1 hwf st.vars.length i _ a hme hai rfl
    refine ⟨st2, initMemory st a.rank a.ext, ?_, c2, (c3 _).trans hme, rfl, rfl, by rw [if_neg hc]; rfl, ?_, ?_⟩
    · unfold copyConstruct
      rw [if_neg hc, hst1]
      exact c1
    · intro k hk
      refine ⟨same_trans _ st1 _ _ (hsame k hk) (c4 k hk (hshare k hk)), ?_⟩
      rintro ⟨a1, a2, s, g1, g2, g3, g4⟩
      rw [c3] at g1 g2
      exact hshare k hk ⟨a1, a2, s, g1, g2, g3, g4⟩
    · intro idx hin
      have lay := (C111_layout a.rank a.ext l1).2.2.1 idx hin
      rw [elem_eq st2 _ _ ((c3 _).trans hme)]
      show ((st2.data (initMemory st a.rank a.ext).storage).bind fun d => d[addr a.ext idx]?) = _
      rw [c5 _ lay.2.1, ← (hsame i (by omega)).2 idx, elem_eq st1 i a hai]

/-- Adding an object to the end of the list. -/
theorem wf_push (st : State T) (h : WF st) (a : Arr) (ha : ArrOk st a) (ho : a.owns = false) :
    WF (⟨st.blocks, st.vars ++ [some a]⟩ : State T) := by
  have hwf := wf_place _ (wf_slot st h) st.vars.length (by simp) (by rw [arr_push, if_pos rfl]) a ha ho
  have heq : (⟨st.blocks, st.vars ++ [none]⟩ : State T).setVar st.vars.length (some a) = ⟨st.blocks, st.vars ++ [some a]⟩ := by
    unfold State.setVar
    rw [List.set_append_right _ _ (le_refl _), Nat.sub_self]
    rfl
  rw [heq] at hwf
  exact hwf

theorem wf_push_alloc (st : State T) (h : WF st) (junk : Nat → Nat → T) (rank : Rank) (ext : List Nat) (hl : ext.length = rank.dims) :
    WF { st.alloc junk ext.prod with vars := st.vars ++ [some (initMemory st rank ext)] } := by
  have hwf := wf_alloc _ (wf_slot st h) st.vars.length (by simp) (by rw [arr_push, if_pos rfl]) junk rank ext hl
  have heq : ((⟨st.blocks, st.vars ++ [none]⟩ : State T).alloc junk ext.prod).setVar st.vars.length
      (some (initMemory ⟨st.blocks, st.vars ++ [none]⟩ rank ext)) =
      { st.alloc junk ext.prod with vars := st.vars ++ [some (initMemory st rank ext)] } := by
    unfold State.setVar State.alloc initMemory
    dsimp only
    rw [List.set_append_right _ _ (le_refl _), Nat.sub_self]
    rfl
  rw [heq] at hwf
  exact hwf

theorem wf_userBlock (st : State T) (h : WF st) (d : List T) : WF (⟨st.blocks ++ [⟨true, some d⟩], st.vars⟩ : State T) := by
  have hblk : ∀ b, (st.blocks ++ [⟨true, some d⟩])[b]? = if b = st.blocks.length then some ⟨true, some d⟩ else st.blocks[b]? := by
    intro b
    by_cases hb : b = st.blocks.length
    · subst hb; rw [List.getElem?_concat_length, if_pos rfl]
    · rw [if_neg hb]
      by_cases hlt : b < st.blocks.length
      · rw [List.getElem?_append_left hlt]
      · rw [List.getElem?_eq_none (by simp; omega), List.getElem?_eq_none (by omega)]
  constructor
  · intro i a ha
    obtain ⟨g1, g2, g3⟩ := h.arr i a ha
    refine ⟨g1, ?_, g3⟩
    rcases g2 with g2 | ⟨b, d', e1, e2, e3⟩
    · exact Or.inl g2
    · right
      refine ⟨b, d', e1, ?_, e3⟩
      show (st.blocks ++ [⟨true, some d⟩])[b]? = _
      rw [hblk, if_neg, e2]
      rintro rfl
      rw [List.getElem?_eq_none (le_refl _)] at e2
      exact absurd e2 (by simp)
  · exact h.own
  · intro b d' hb
    have hb : (st.blocks ++ [⟨true, some d⟩])[b]? = _ := hb
    rw [hblk] at hb
    by_cases hbn : b = st.blocks.length
    · rw [if_pos hbn] at hb; simp at hb
    · rw [if_neg hbn] at hb; exact h.leak b d' hb
  · intro b x hb
    have hb : (st.blocks ++ [⟨true, some d⟩])[b]? = _ := hb
    rw [hblk] at hb
    by_cases hbn : b = st.blocks.length
    · rw [if_pos hbn] at hb
      simp only [Option.some.injEq, Block.mk.injEq, true_and] at hb
      exact ⟨d, hb.symm⟩
    · rw [if_neg hbn] at hb; exact h.user b x hb

/-- The object an operation is allowed to change. -/
def target : Op T → Option Nat
  | .assign i _ => some i
  | .setSize i _ => some i
  | .write i _ _ => some i
  | .add i _ => some i
  | .scale i _ => some i
  | .destroy i => some i
  | _ => none

theorem same_push (st : State T) (bs : List (Block T)) (x : Option Arr) (h : WF st)
    (hb : ∀ b, b < st.blocks.length → bs[b]? = st.blocks[b]?) (k : Nat) (hk : k < st.vars.length) :
    SameArray st ⟨bs, st.vars ++ [x]⟩ k := by
  refine same_of _ _ _ (by rw [arr_push, if_neg (by omega)]) ?_
  intro a ha
  obtain ⟨-, g2, -⟩ := h.arr k a ha
  rcases g2 with g2 | ⟨b, d, e1, e2, -⟩
  · rw [g2.1]; rfl
  · rw [e1]
    show (bs[b]?).bind Block.data = (st.blocks[b]?).bind Block.data
    rw [hb b (List.getElem?_eq_some_iff.mp e2).1]

theorem step_main [Add T] [Mul T] (checked : Bool) (junk : Nat → Nat → T) (st : State T) (h : WF st) (op : Op T)
    (hop : Allowed st op) :
    (step checked junk st op = .throws st ∧ ∃ i a, target op = some i ∧ st.arr i = some a ∧ a.strict = true ∧
      ((∃ ext, op = .setSize i ext ∧ ext.prod ≠ a.ext.prod) ∨
       ∃ j a', op = .assign i j ∧ st.arr j = some a' ∧ a'.ext.prod ≠ a.ext.prod)) ∨
    ∃ st', step checked junk st op = .ok st' ∧ WF st' ∧
      (∀ k, k < st.vars.length → target op ≠ some k → (∀ i, target op = some i → ¬ st.Shares i k) → SameArray st st' k) := by
  cases op with
  | userBlock d =>
    refine Or.inr ⟨_, rfl, wf_userBlock st h d, ?_⟩
    intro k _ _ _
    refine same_of _ _ _ rfl ?_
    intro a ha
    obtain ⟨-, g2, -⟩ := h.arr k a ha
    rcases g2 with g2 | ⟨b, d', e1, e2, -⟩
    · rw [g2.1]; rfl
    · rw [e1]
      show ((st.blocks ++ [⟨true, some d⟩])[b]?).bind Block.data = (st.blocks[b]?).bind Block.data
      rw [List.getElem?_append_left (List.getElem?_eq_some_iff.mp e2).1]
  | default rank =>
    refine Or.inr ⟨_, rfl, wf_push st h (initEmpty rank) ?_ rfl, fun k hk _ _ => same_push st _ _ h (fun _ _ => rfl) k hk⟩
    refine ⟨by simp [initEmpty], Or.inl ⟨rfl, rfl, ?_⟩, fun hs => absurd hs (by simp [initEmpty])⟩
    cases rank <;> rfl
  | construct rank ext =>
    refine Or.inr ⟨_, rfl, wf_push_alloc st h junk rank ext hop, fun k hk _ _ => same_push st _ _ h ?_ k hk⟩
    intro b hb
    unfold State.alloc
    dsimp only
    rw [List.getElem?_append_left hb]
  | wrap rank ext block strict =>
    obtain ⟨hl, d, hb, hd⟩ := hop
    refine Or.inr ⟨_, rfl, wf_push st h _ ?_ rfl, fun k hk _ _ => same_push st _ _ h (fun _ _ => rfl) k hk⟩
    refine ⟨hl, Or.inr ⟨block, d, rfl, hb, fun ho => absurd ho (by simp), hd⟩, ?_⟩
    intro hs
    simp at hs
    exact ⟨rfl, hs.2⟩
  | copy i =>
    obtain ⟨a, ha⟩ := hop
    obtain ⟨st', b, e1, e2, -, -, -, -, e3, -⟩ := step_copy junk st h i a ha
    refine Or.inr ⟨st', ?_, e2, fun k hk _ _ => (e3 k (by omega)).1⟩
    unfold step
    dsimp only
    rw [ha]
    exact e1
  | assign i j =>
    obtain ⟨a, a', ha, ha', hr⟩ := hop
    have hst : step checked junk st (.assign i j) = assign junk st i j a a' := by
      unfold step; dsimp only; rw [ha, ha']
    rcases step_assign junk st h i j a a' ha ha' hr with ⟨e1, e2, e3⟩ | ⟨-, st', b, e1, e2, -, -, -, e3, -, -⟩
    · exact Or.inl ⟨hst.trans e1, i, a, rfl, ha, e2, Or.inr ⟨j, a', rfl, ha', e3⟩⟩
    · refine Or.inr ⟨st', hst.trans e1, e2, ?_⟩
      intro k _ hk hsh
      exact e3 k (fun hc => hk (by rw [hc]; rfl)) (hsh i rfl)
  | setSize i ext =>
    obtain ⟨a, ha, hl⟩ := hop
    have hst : step checked junk st (.setSize i ext) = setSize junk st i a ext := by
      unfold step; dsimp only; rw [ha]
    rcases setSize_spec junk st h i a ha ext hl with ⟨e1, e2, e3⟩ | ⟨-, st', b, e1, R⟩
    · exact Or.inl ⟨hst.trans e1, i, a, rfl, ha, e2, Or.inl ⟨ext, rfl, e3⟩⟩
    · refine Or.inr ⟨st', hst.trans e1, R.wf, ?_⟩
      intro k _ hk _
      exact R.others k (fun hc => hk (by rw [hc]; rfl))
  | write i idx x =>
    obtain ⟨a, ha, hin⟩ := hop
    obtain ⟨st', e1, e2, -, e3, -⟩ := step_write checked st h i a ha idx hin x
    refine Or.inr ⟨st', ?_, e2, ?_⟩
    · unfold step; dsimp only; rw [ha]; exact e1
    · intro k _ hk hsh
      exact e3 k (hsh i rfl) (fun hc => hk (by rw [hc]; rfl))
  | add i j =>
    obtain ⟨a, a', ha, ha', hext⟩ := hop
    obtain ⟨st', e1, e2, -, e3, -⟩ := step_add checked st h i j a a' ha ha' hext
    refine Or.inr ⟨st', ?_, e2, ?_⟩
    · unfold step; dsimp only; rw [ha, ha']; exact e1
    · intro k _ hk hsh
      exact e3 k (hsh i rfl) (fun hc => hk (by rw [hc]; rfl))
  | scale i c =>
    obtain ⟨a, ha⟩ := hop
    obtain ⟨st', e1, e2, -, e3, -⟩ := step_scale checked st h i a ha c
    refine Or.inr ⟨st', ?_, e2, ?_⟩
    · unfold step; dsimp only; rw [ha]; exact e1
    · intro k _ hk hsh
      exact e3 k (hsh i rfl) (fun hc => hk (by rw [hc]; rfl))
  | destroy i =>
    obtain ⟨a, ha⟩ := hop
    obtain ⟨st1, f1, f2, f3, f4, f5, f6⟩ := wf_free st h i a ha
    refine Or.inr ⟨st1.setVar i none, ?_, f3, ?_⟩
    · unfold step; dsimp only; rw [ha]; dsimp only; rw [f1]
    · intro k _ hk _
      have hki : k ≠ i := fun hc => hk (by rw [hc]; rfl)
      refine same_trans _ st1 _ _ (free_same st st1 h i k a ha f2 f4 hki) (same_of _ _ _ ?_ (fun _ _ => rfl))
      rw [arr_setVar st1 i k none (by rw [f2]; exact arr_lt st i a ha), if_neg hki]

theorem reach_wf [Add T] [Mul T] (checked : Bool) (junk : Nat → Nat → T) (st : State T) (h : Reach checked junk st) : WF st := by
  induction h with
  | init =>
    constructor
    · intro i a ha; exact absurd ha (by simp [State.arr])
    · intro i j a a' b ha; exact absurd ha (by simp [State.arr])
    · intro b d hb; exact absurd hb (by simp)
    · intro b d hb; exact absurd hb (by simp)
  | next st op st' _ hop hst ih =>
    rcases step_main checked junk st ih op hop with ⟨e, -⟩ | ⟨st1, e, hw, -⟩
    · rw [e] at hst; cases hst; exact ih
    · rw [e] at hst; cases hst; exact hw

/-! ### The theorems -/

/-- **C111, memory safety** A program that keeps to the rules of `Allowed` never has undefined behaviour, whatever it did before,
with or without the checks of a debug build: no access outside of an array, no use of freed memory, no double `delete[]`, no
`delete[]` of the user's memory.  An exception is only thrown when the size of a strict array would change, and then nothing has
changed. -/
theorem C111_memory_safe [Add T] [Mul T] (checked : Bool) (junk : Nat → Nat → T) (st : State T) (h : Reach checked junk st) (op : Op T)
    (hop : Allowed st op) :
    step checked junk st op ≠ .ub ∧
    ∀ st', step checked junk st op = .throws st' → st' = st ∧ ∃ i a, st.arr i = some a ∧ a.strict = true ∧
      ((∃ ext, op = .setSize i ext ∧ ext.prod ≠ a.ext.prod) ∨
       ∃ j a', op = .assign i j ∧ st.arr j = some a' ∧ a'.ext.prod ≠ a.ext.prod) := by
  rcases step_main checked junk st (reach_wf checked junk st h) op hop with ⟨e, i, a, -, h1, h2, h3⟩ | ⟨st1, e, -⟩
  · refine ⟨by rw [e]; simp, ?_⟩
    intro st' hst
    rw [e] at hst
    cases hst
    exact ⟨rfl, i, a, h1, h2, h3⟩
  · refine ⟨by rw [e]; simp, ?_⟩
    intro st' hst
    rw [e] at hst
    exact absurd hst (by simp)

/-- **C111, no leak** In every reachable state the memory allocated by the library and not freed belongs to some live array; so when
all arrays are destroyed all of it is freed.  The memory of the user is never freed. -/
theorem C111_no_leak [Add T] [Mul T] (checked : Bool) (junk : Nat → Nat → T) (st : State T) (h : Reach checked junk st) :
    (∀ (b : Nat) (d : List T), st.blocks[b]? = some ⟨false, some d⟩ → ∃ i a, st.arr i = some a ∧ a.storage = some b ∧
      d.length = a.ext.prod) ∧
    ((∀ i, st.arr i = none) → ∀ k ∈ st.blocks, k.user = false → k.data = none) ∧
    ∀ k ∈ st.blocks, k.user = true → k.data ≠ none := by
  have hw := reach_wf checked junk st h
  refine ⟨?_, ?_, ?_⟩
  · intro b d hb
    obtain ⟨i, a, g1, g2, g3⟩ := hw.leak b d hb
    obtain ⟨-, q, -⟩ := hw.arr i a g1
    rcases q with q | ⟨b', d', e1, e2, e3, -⟩
    · rw [q.1] at g3; exact absurd g3 (by simp)
    · rw [g3] at e1
      cases e1
      rw [hb] at e2
      simp only [Option.some.injEq, Block.mk.injEq] at e2
      rw [e2.2]
      exact ⟨i, a, g1, g3, e3 g2⟩
  · intro hnone k hk hu
    obtain ⟨b, hb⟩ := List.mem_iff_getElem?.mp hk
    obtain ⟨u, x⟩ := k
    simp only at hu
    subst hu
    cases x with
    | none => rfl
    | some d =>
      obtain ⟨i, a, g1, -⟩ := hw.leak b d hb
      rw [hnone i] at g1
      exact absurd g1 (by simp)
  · intro k hk hu
    obtain ⟨b, hb⟩ := List.mem_iff_getElem?.mp hk
    obtain ⟨u, x⟩ := k
    simp only at hu
    subst hu
    obtain ⟨d, hd⟩ := hw.user b x hb
    simp [hd]

/-- **C111, independence** Different arrays lie in the same memory only if the user put both on the same memory.  No operation
changes the extents or elements of an array that is not its target and does not share memory with its target; in particular nothing
changes an array that owns its memory except operations on it. -/
theorem C111_independent [Add T] [Mul T] (checked : Bool) (junk : Nat → Nat → T) (st : State T) (h : Reach checked junk st) :
    (∀ i j, i ≠ j → st.Shares i j → st.OnUserMemory i ∧ st.OnUserMemory j) ∧
    ∀ (op : Op T) (st' : State T), Allowed st op → (step checked junk st op).state = some st' →
      ∀ k, k < st.vars.length → target op ≠ some k → (∀ i, target op = some i → ¬ st.Shares i k) → SameArray st st' k := by
  have hw := reach_wf checked junk st h
  constructor
  · rintro i j hij ⟨a, a', b, h1, h2, h3, h4⟩
    have key : ∀ i j (a a' : Arr), i ≠ j → st.arr i = some a → st.arr j = some a' → a.storage = some b → a'.storage = some b →
        st.OnUserMemory i := by
      intro i j a a' hij h1 h2 h3 h4
      obtain ⟨-, q, -⟩ := hw.arr i a h1
      rcases q with q | ⟨b', d', e1, e2, -⟩
      · rw [q.1] at h3; exact absurd h3 (by simp)
      · rw [h3] at e1
        cases e1
        have ho : a.owns = false := by
          by_contra hc
          exact hij (hw.own i j a a' b h1 h2 (by simpa using hc) h3 h4)
        rw [ho] at e2
        exact ⟨a, b, _, h1, h3, e2⟩
    exact ⟨key i j a a' hij h1 h2 h3 h4, key j i a' a (Ne.symm hij) h2 h1 h4 h3⟩
  · intro op st' hop hst k hk ht hsh
    rcases step_main checked junk st hw op hop with ⟨e, -⟩ | ⟨st1, e, -, hf⟩
    · rw [e] at hst; cases hst; exact same_refl _ _
    · rw [e] at hst; cases hst; exact hf k hk ht hsh

/-- **C111, elements** What an operation does to the array it works on: an element that was written is read back and the others
keep their values; the copy and the target of an assignment have the elements and (unless they are empty) the extents of the source;
`+=` adds and `*=` scales element by element, also when the arrays lie in the same memory; a new size with the same number of
elements keeps them in order, and any other size is as asked (unless there are no elements).  Every element in range can be read.
Missing: the extents of arrays without elements (`C111_counterexample_empty_extents`) and the rejection of arrays of different
extents by `+=` (`C111_counterexample_add`). -/
theorem C111_elements_partial [Add T] [Mul T] (checked : Bool) (junk : Nat → Nat → T) (st : State T) (h : Reach checked junk st) :
    (∀ i a idx, st.arr i = some a → InRange a.ext idx → ∃ x, st.elem i idx = some x) ∧
    (∀ i a idx x st', st.arr i = some a → InRange a.ext idx → step checked junk st (.write i idx x) = .ok st' →
      st'.ext i = some a.ext ∧ st'.elem i idx = some x ∧ ∀ idx', InRange a.ext idx' → idx' ≠ idx → st'.elem i idx' = st.elem i idx') ∧
    (∀ i a st', st.arr i = some a → step checked junk st (.copy i) = .ok st' →
      (a.ext.prod ≠ 0 → st'.ext st.vars.length = some a.ext) ∧
      (∀ k, k ≠ st.vars.length → ¬ st'.Shares st.vars.length k) ∧
      ∀ idx, InRange a.ext idx → st'.elem st.vars.length idx = st.elem i idx) ∧
    (∀ i j a a' st', st.arr i = some a → st.arr j = some a' → a.rank = a'.rank → step checked junk st (.assign i j) = .ok st' →
      (a'.ext.prod ≠ 0 → st'.ext i = some a'.ext) ∧ ∀ idx, InRange a'.ext idx → st'.elem i idx = st.elem j idx) ∧
    (∀ i j a a' st', st.arr i = some a → st.arr j = some a' → a.ext = a'.ext → step checked junk st (.add i j) = .ok st' →
      st'.ext i = some a.ext ∧
      ∀ idx, InRange a.ext idx → ∃ x y, st.elem i idx = some x ∧ st.elem j idx = some y ∧ st'.elem i idx = some (x + y)) ∧
    (∀ i a c st', st.arr i = some a → step checked junk st (.scale i c) = .ok st' →
      st'.ext i = some a.ext ∧ ∀ idx, InRange a.ext idx → ∃ x, st.elem i idx = some x ∧ st'.elem i idx = some (x * c)) ∧
    (∀ i a ext st', st.arr i = some a → ext.length = a.rank.dims → step checked junk st (.setSize i ext) = .ok st' →
      (ext.prod ≠ 0 → st'.ext i = some ext) ∧
      (ext.prod = a.ext.prod → ∀ idx idx', InRange ext idx → InRange a.ext idx' → colMajor ext idx = colMajor a.ext idx' →
        st'.elem i idx = st.elem i idx')) ∧
    (∀ rank ext st', ext.length = rank.dims → step checked junk st (.construct rank ext) = .ok st' →
      st'.ext st.vars.length = some ext) ∧
    (∀ i st', (∃ a, st.arr i = some a) → step checked junk st (.destroy i) = .ok st' → st'.arr i = none) := by
  have hw := reach_wf checked junk st h
  refine ⟨?_, ?_, ?_, ?_, ?_, ?_, ?_, ?_, ?_⟩
  · intro i a idx ha hin
    obtain ⟨l1, q, -⟩ := hw.arr i a ha
    have lay := ((C111_layout a.rank a.ext l1).2.2.1 idx hin).2.1
    rcases q with q | ⟨b, d, e1, e2, e3, e4⟩
    · omega
    · refine ⟨d[addr a.ext idx]'(by omega), ?_⟩
      rw [elem_eq st i a ha, e1, data_of_block st b _ e2]
      exact List.getElem?_eq_getElem _
  · intro i a idx x st' ha hin hst
    obtain ⟨st1, e1, -, e2, -, e3, e4⟩ := step_write checked st hw i a ha idx hin x
    have : step checked junk st (.write i idx x) = .ok st1 := by unfold step; dsimp only; rw [ha]; exact e1
    rw [this] at hst
    cases hst
    exact ⟨by unfold State.ext; rw [e2, ha]; rfl, e3, e4⟩
  · intro i a st' ha hst
    obtain ⟨st1, b, e1, -, e2, -, -, e3, e4, e5⟩ := step_copy junk st hw i a ha
    have : step checked junk st (.copy i) = .ok st1 := by unfold step; dsimp only; rw [ha]; exact e1
    rw [this] at hst
    cases hst
    refine ⟨?_, fun k hk => (e4 k hk).2, e5⟩
    intro h0
    unfold State.ext
    rw [e2, Option.map_some, e3, if_neg (fun hc => h0 hc.2)]
  · intro i j a a' st' ha ha' hr hst
    have hs : step checked junk st (.assign i j) = assign junk st i j a a' := by unfold step; dsimp only; rw [ha, ha']
    rw [hs] at hst
    rcases step_assign junk st hw i j a a' ha ha' hr with ⟨e1, -⟩ | ⟨-, st1, b, e1, -, e2, -, e3, -, -, e4⟩
    · rw [e1] at hst; exact absurd hst (by simp)
    · rw [e1] at hst
      cases hst
      refine ⟨?_, e4⟩
      intro h0
      unfold State.ext
      rw [e2, Option.map_some, e3, if_neg (fun hc => h0 hc.2.1)]
  · intro i j a a' st' ha ha' hext hst
    obtain ⟨st1, e1, -, e2, -, e3⟩ := step_add checked st hw i j a a' ha ha' hext
    have : step checked junk st (.add i j) = .ok st1 := by unfold step; dsimp only; rw [ha, ha']; exact e1
    rw [this] at hst
    cases hst
    exact ⟨by unfold State.ext; rw [e2, ha]; rfl, e3⟩
  · intro i a c st' ha hst
    obtain ⟨st1, e1, -, e2, -, e3⟩ := step_scale checked st hw i a ha c
    have : step checked junk st (.scale i c) = .ok st1 := by unfold step; dsimp only; rw [ha]; exact e1
    rw [this] at hst
    cases hst
    exact ⟨by unfold State.ext; rw [e2, ha]; rfl, e3⟩
  · intro i a ext st' ha hl hst
    have hs : step checked junk st (.setSize i ext) = setSize junk st i a ext := by unfold step; dsimp only; rw [ha]
    rw [hs] at hst
    rcases setSize_spec junk st hw i a ha ext hl with ⟨e1, -⟩ | ⟨-, st1, b, e1, R⟩
    · rw [e1] at hst; exact absurd hst (by simp)
    · rw [e1] at hst
      cases hst
      constructor
      · intro h0
        unfold State.ext
        rw [R.arr, Option.map_some, R.extents, if_neg (fun hc => h0 hc.2.1)]
      · intro hp idx idx' hin hin' hcm
        have lay := (C111_layout a.rank ext hl).2.2.1 idx hin
        have lay' := (C111_layout a.rank a.ext (hw.arr i a ha).1).2.2.1 idx' hin'
        have hb : b.ext = ext := by
          rw [R.extents, if_neg]
          rintro ⟨-, g1, -⟩
          omega
        rw [elem_eq _ i b R.arr, hb, (R.keep hp).1, (R.keep hp).2, elem_eq st i a ha, lay.1, lay'.1, hcm]
  · intro rank ext st' hl hst
    cases hst
    unfold State.ext
    rw [arr_push, if_pos rfl]
    rfl
  · rintro i st' ⟨a, ha⟩ hst
    obtain ⟨st1, f1, f2, -⟩ := wf_free st hw i a ha
    have : step checked junk st (.destroy i) = .ok (st1.setVar i none) := by unfold step; dsimp only; rw [ha]; dsimp only; rw [f1]
    rw [this] at hst
    cases hst
    rw [arr_setVar st1 i i none (by rw [f2]; exact arr_lt st i a ha), if_pos rfl]

/-- **C111, slices** The elements of a slice are those of the array with the trailing indices fixed; indices in range of the slice
are in range of the array, and the slices for different trailing indices have no element in common. -/
theorem C111_slices (a : Arr) (hl : a.ext.length = a.rank.dims) (fixed : List Nat) (idx : List Nat)
    (hin : InRange (Slice.ext ⟨a, fixed⟩) idx)
    (hf : InRange (a.ext.drop (a.ext.length - fixed.length)) fixed) :
    InRange a.ext (Slice.index idx ⟨a, fixed⟩) ∧
    ∀ fixed' idx', InRange (Slice.ext ⟨a, fixed'⟩) idx' → InRange (a.ext.drop (a.ext.length - fixed'.length)) fixed' →
      fixed'.length = fixed.length →
      addr a.ext (Slice.index idx ⟨a, fixed⟩) = addr a.ext (Slice.index idx' ⟨a, fixed'⟩) → fixed' = fixed ∧ idx' = idx := by
  have key : ∀ fixed idx : List Nat, InRange (Slice.ext ⟨a, fixed⟩) idx →
      InRange (a.ext.drop (a.ext.length - fixed.length)) fixed → InRange a.ext (Slice.index idx ⟨a, fixed⟩) := by
    intro fixed idx h1 h2
    have := List.rel_append h1 h2
    unfold Slice.ext at this
    dsimp only at this
    rw [List.take_append_drop] at this
    exact this
  refine ⟨key fixed idx hin hf, ?_⟩
  intro fixed' idx' h1 h2 hlen heq
  have := (C111_layout a.rank a.ext hl).2.2.2.2 _ _ (key fixed idx hin hf) (key fixed' idx' h1 h2) heq
  unfold Slice.index at this
  dsimp only at this
  have hli : idx.length = idx'.length := by
    have := congrArg List.length this
    simp only [List.length_append] at this
    omega
  obtain ⟨g1, g2⟩ := List.append_inj this hli
  exact ⟨g2.symm, g1.symm⟩

/-! ### What the code gets wrong -/

/-- The operations one after the other; `none` is undefined behaviour. -/
def run [Add T] [Mul T] (checked : Bool) (junk : Nat → Nat → T) : State T → List (Op T) → Option (State T)
  | st, [] => some st
  | st, op :: ops => (step checked junk st op).state.bind fun st' => run checked junk st' ops

/-- **C111, counterexample** The copy of a three-dimensional array without elements has other extents than the original: `0 × 3 × 5`
becomes `0 × 0 × 0`; so does a non-empty array that is resized to `0 × 3 × 5`. -/
theorem C111_counterexample_empty_extents (junk : Nat → Nat → Nat) :
    ∃ st, run false junk ⟨[], []⟩ [.construct .three [0, 3, 5], .copy 0, .construct .three [1, 1, 1], .setSize 2 [0, 3, 5]] = some st ∧
      st.ext 0 = some [0, 3, 5] ∧ st.ext 1 = some [0, 0, 0] ∧ st.ext 2 = some [0, 0, 0] := ⟨_, rfl, rfl, rfl, rfl⟩

/-- The two-dimensional array keeps them. -/
example (junk : Nat → Nat → Nat) :
    ∃ st, run false junk ⟨[], []⟩ [.construct .two [0, 3], .copy 0] = some st ∧ st.ext 1 = some [0, 3] := ⟨_, rfl, rfl⟩

/-- **C111, counterexample** `+=` does not reject arrays of different extents: the exception object is made but not thrown.  In a
release build a `2 × 2` array plus a `1 × 4` array is computed from wrong elements, and a `2 × 2` array plus a `1 × 1` array reads
outside of the memory; in a debug build the latter throws after part of the array was changed. -/
theorem C111_counterexample_add (junk : Nat → Nat → Nat) :
    (∃ st, run false junk ⟨[], []⟩ [.userBlock [1, 2, 3, 4], .userBlock [10, 20, 30, 40], .wrap .two [2, 2] 0 false,
      .wrap .two [1, 4] 1 false, .add 0 1] = some st ∧ st.data (some 0) = some [11, 22, 23, 34]) ∧
    run false junk ⟨[], []⟩ [.userBlock [1, 2, 3, 4], .userBlock [10], .wrap .two [2, 2] 0 false, .wrap .two [1, 1] 1 false,
      .add 0 1] = none ∧
    (∃ st, run true junk ⟨[], []⟩ [.userBlock [1, 2, 3, 4], .userBlock [10], .wrap .two [2, 2] 0 false, .wrap .two [1, 1] 1 false,
      .add 0 1] = some st ∧ st.data (some 0) = some [11, 2, 3, 4]) := ⟨⟨_, rfl, rfl⟩, rfl, ⟨_, rfl, rfl⟩⟩

/-! ### Non-vacuity -/

/-- A reachable state with an array on user memory, an owned copy of it and a strict array on the same memory. -/
def demo : State Nat :=
  ⟨[⟨true, some [1, 2, 3, 4, 5, 6]⟩, ⟨false, some [1, 2, 3, 4, 5, 6]⟩],
   [some ⟨.three, [1, 2, 3], some 0, false, false⟩, some ⟨.three, [1, 2, 3], some 1, true, false⟩,
    some ⟨.three, [3, 2, 1], some 0, false, true⟩]⟩

theorem demo_reach (junk : Nat → Nat → Nat) : Reach true junk demo := by
  refine .next _ (.wrap .three [3, 2, 1] 0 true) _ (.next _ (.copy 0) _ (.next _ (.wrap .three [1, 2, 3] 0 false) _
    (.next _ (.userBlock [1, 2, 3, 4, 5, 6]) _ .init trivial rfl) ⟨rfl, _, rfl, ?_⟩ rfl) ⟨_, rfl⟩ rfl) ⟨rfl, _, rfl, ?_⟩ rfl <;> decide

example (junk : Nat → Nat → Nat) : demo.Shares 0 2 ∧ ¬ demo.Shares 1 0 ∧ step true junk demo (.setSize 2 [1, 1, 1]) = .throws demo ∧
    (∃ st, step true junk demo (.add 1 0) = .ok st ∧ st.elem 1 [0, 1, 2] = some 12) := by
  refine ⟨⟨_, _, 0, rfl, rfl, rfl, rfl⟩, ?_, rfl, ⟨_, rfl, rfl⟩⟩
  rintro ⟨a, a', b, h1, h2, h3, h4⟩
  cases h1
  cases h2
  cases h3
  cases h4

example (junk : Nat → Nat → Nat) : step true junk demo (.write 1 [0, 1, 2] 7) ≠ .ub :=
  (C111_memory_safe true junk demo (demo_reach junk) (.write 1 [0, 1, 2] 7) ⟨_, rfl, .cons (by decide) (.cons (by decide) (.cons (by decide) .nil))⟩).1

end Verif.Arrays
