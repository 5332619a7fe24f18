import Verif.Lemmas.BcCoarse
import Verif.Lemmas.BcState
import Mathlib.Data.List.Rotate
import Mathlib.Tactic.FieldSimp
/-
The columns of the coefficients for one end of an edge.
-/
namespace Verif.Space
open Verif.Grid

variable {K : Type}

/-- The tables of an oriented surface. -/
structure GoodTables (g : GridData K) (T : BcTables) : Prop where
  odd : ∀ x < 3 * g.data.elements.length, T.next[2 * x + 1]? = some (2 * x : Int)
  even : ∀ v l, v < g.data.nnodes → Fan g v l → (FanClosed g l ∨ FanOpen g l) → ∀ (i x y : Nat), l[i]? = some x →
    l[(i + 1) % l.length]? = some y → T.next[2 * x]? = some (2 * y + 1 : Int)
  boundary : ∀ v l, Fan g v l → FanOpen g l → ∀ (i x : Nat), l[i]? = some x →
    T.atBoundary (2 * x + 1) = .ok false ∧ T.atBoundary (2 * x) = .ok (decide (i + 1 = l.length))
  count : ∀ v < g.data.nnodes, T.edgeCount[v]? = some (valence g v)
  onB : ∀ v l, v < g.data.nnodes → Fan g v l → l ≠ [] → (FanClosed g l ∨ FanOpen g l) →
    ∃ bb, T.onBoundary[v]? = some bb ∧ (bb = true ↔ FanOpen g l)

open Classical in
/-- What the columns of one end of an edge satisfy: `z` is the corner at the end of the edge in the first triangle. -/
structure HalfCols {L : Type} [Field L] (g : GridData K) (z : Nat) (isOpen : Prop) (col : Nat → Col L) : Prop where
  inner : ∀ x < 3 * g.data.elements.length, cornerAt g x = cornerAt g z → (col (2 * x + 1)).c1 + (col (2 * x)).c0 = 0
  across : ∀ x < 3 * g.data.elements.length, ∀ y < 3 * g.data.elements.length, cornerAt g x = cornerAt g z → cornerAt g y = cornerAt g z →
    cornerAt g (prevCorner x) = cornerAt g (nextCorner y) → (col (2 * x)).c1 + (col (2 * y + 1)).c0 = 0
  rim_even : ∀ x < 3 * g.data.elements.length, cornerAt g x = cornerAt g z → (col (2 * x)).c2 = if x = z then 1 / 2 else 0
  rim_odd : ∀ y < 3 * g.data.elements.length, cornerAt g y = cornerAt g z →
    (col (2 * y + 1)).c2 = if cornerAt g (prevCorner z) = cornerAt g (nextCorner y) then 1 / 2 else 0
  half : (col (2 * z)).c1 = if isOpen then ((valence g (cornerAt g z) : L) - 2) / (2 * valence g (cornerAt g z)) else 0
  div : ∀ F < 6 * g.data.elements.length, cornerAt g (F / 2) = cornerAt g z →
    (col F).c0 + (col F).c1 + (col F).c2 = if isOpen then (0 : L) else 1 / (2 * (valence g (cornerAt g z) : L))

theorem half_spec {L : Type} [Field L] [CharZero L] (g : GridData K) (hg : g.Valid) (T : BcTables) (hT : GoodTables g T)
    (l : List Nat) (z y0 : Nat) (hz : z < 3 * g.data.elements.length) (hl : Fan g (cornerAt g z) l) (hco : FanClosed g l ∨ FanOpen g l)
    (hy0 : y0 < 3 * g.data.elements.length) (hy0v : cornerAt g y0 = cornerAt g z) (hy0a : cornerAt g (prevCorner z) = cornerAt g (nextCorner y0))
    (checked : Bool) :
    ∃ (faces : List Nat) (col : Nat → Col L), faces.Nodup ∧
      (∀ F, F ∈ faces ↔ F < 6 * g.data.elements.length ∧ cornerAt g (F / 2) = cornerAt g z) ∧
      (∀ st dof wt, bcHalf T checked (2 * z) (cornerAt g z) dof wt st = .ok (pushAll (faces.map fun F => ⟨F, col F, dof, wt⟩) st)) ∧
      HalfCols g z (FanOpen g l) col := by
  classical
  have hzm : z ∈ l := (hl.mem z).mpr ⟨hz, rfl⟩
  have hy0m : y0 ∈ l := (hl.mem y0).mpr ⟨hy0, hy0v⟩
  obtain ⟨p, hp⟩ := List.getElem?_of_mem hzm
  have hpl := (List.getElem?_eq_some_iff.mp hp).1
  have hNv : valence g (cornerAt g z) = l.length := hl.valence_eq
  obtain ⟨N, hN⟩ : ∃ N, N = l.length := ⟨_, rfl⟩
  have hNpos : 0 < N := by omega
  have hvz : cornerAt g z < g.data.nnodes := corner_lt g hg z hz
  -- an open fan does not end at `z`
  have hpopen : FanOpen g l → p + 1 < N := by
    intro ho
    by_contra h
    refine ho z ?_ (List.mem_map.mpr ⟨y0, hy0m, hy0a.symm⟩)
    rw [List.getLast?_eq_getElem?, show l.length - 1 = p by omega]; exact hp
  -- the rotated fan
  obtain ⟨r, hr⟩ : ∃ r : Nat → Nat, ∀ j, l[(p + 1 + j) % N]? = some (r j) := by
    refine ⟨fun j => l[(p + 1 + j) % N]'(by rw [← hN]; exact Nat.mod_lt _ hNpos), fun j => List.getElem?_eq_getElem _⟩
  have hrm : ∀ j, r j ∈ l := fun j => List.mem_of_getElem? (hr j)
  have hrl : ∀ j, r j < 3 * g.data.elements.length := fun j => ((hl.mem _).mp (hrm j)).1
  have hrv : ∀ j, cornerAt g (r j) = cornerAt g z := fun j => ((hl.mem _).mp (hrm j)).2
  have hnd := hl.nodup
  have hrinj : ∀ i j, r i = r j ↔ (p + 1 + i) % N = (p + 1 + j) % N := by
    intro i j
    constructor
    · intro h
      have h1 := hr i
      rw [h, ← hr j] at h1
      exact (List.getElem?_inj (by rw [← hN]; exact Nat.mod_lt _ hNpos) hnd).mp h1
    · intro h
      have h1 := hr i
      rw [h, hr j] at h1
      exact (Option.some.inj h1).symm
  have hrinj' : ∀ i j, i < N → j < N → r i = r j → i = j := by
    intro i j hi hj h
    have h1 := (hrinj i j).mp h
    have h2 : i % N = j % N := Nat.ModEq.add_left_cancel' (p + 1) h1
    rwa [Nat.mod_eq_of_lt hi, Nat.mod_eq_of_lt hj] at h2
  have hrsurj : ∀ x ∈ l, ∃ j < N, r j = x := by
    intro x hx
    obtain ⟨i, hi⟩ := List.getElem?_of_mem hx
    have hil := (List.getElem?_eq_some_iff.mp hi).1
    refine ⟨(i + (N - (p + 1) % N)) % N, Nat.mod_lt _ hNpos, ?_⟩
    have h1 := hr ((i + (N - (p + 1) % N)) % N)
    have hlt := Nat.mod_lt (p + 1) hNpos
    rw [Nat.add_mod_mod, Nat.add_mod, ← Nat.add_mod, show p + 1 + (i + (N - (p + 1) % N)) = (p + 1) + (N - (p + 1) % N) + i by omega,
      Nat.add_mod, show (p + 1 + (N - (p + 1) % N)) % N = 0 by
        conv_lhs => rw [Nat.add_mod]
        by_cases h0 : (p + 1) % N = 0
        · rw [h0, Nat.sub_zero, Nat.mod_self]; simp
        · rw [Nat.mod_eq_of_lt (show N - (p + 1) % N < N by omega), show (p + 1) % N + (N - (p + 1) % N) = N by omega, Nat.mod_self],
      Nat.zero_add, Nat.mod_mod, Nat.mod_eq_of_lt (by omega), hi] at h1
    cases h1; rfl
  have hrz : r (N - 1) = z := by
    have h1 := hr (N - 1)
    rw [show p + 1 + (N - 1) = p + N by omega, Nat.add_mod_right, Nat.mod_eq_of_lt (by omega), hp] at h1
    cases h1; rfl
  have hrN : ∀ j, r (j % N) = r j := by
    intro j; rw [hrinj, Nat.add_mod_mod]
  -- next faces
  have nodd : ∀ j, T.next[2 * r j + 1]? = some (2 * r j : Int) := fun j => hT.odd _ (hrl j)
  have neven : ∀ j, T.next[2 * r j]? = some (2 * r (j + 1) + 1 : Int) := by
    intro j
    refine hT.even _ l hvz hl hco _ _ _ (hr j) ?_
    rw [← hN, Nat.mod_add_mod, Nat.add_assoc]
    exact hr (j + 1)
  -- the break
  obtain ⟨m, hm⟩ : ∃ m, m = N - 2 - p := ⟨_, rfl⟩
  have hbrk : FanOpen g l → ∀ j < N, ((p + 1 + j) % N + 1 = l.length ↔ j = m) := by
    intro ho j hj
    have hp1 := hpopen ho
    rw [← hN]
    by_cases hlt : p + 1 + j < N
    · rw [Nat.mod_eq_of_lt hlt]; omega
    · rw [Nat.mod_eq_sub_mod (by omega), Nat.mod_eq_of_lt (by omega)]; omega
  have hfollow : ∀ j < N, ¬ (FanOpen g l ∧ j = m) → cornerAt g (prevCorner (r j)) = cornerAt g (nextCorner (r (j + 1))) := by
    intro j hj hno
    by_cases ho : FanOpen g l
    · have h1 : (p + 1 + j) % N + 1 ≠ l.length := by
        intro h; exact hno ⟨ho, (hbrk ho j hj).mp h⟩
      refine hl.chain _ _ _ (hr j) ?_
      have h2 := hr (j + 1)
      have h3 := Nat.mod_lt (p + 1 + j) hNpos
      rwa [← Nat.add_assoc, ← Nat.mod_add_mod, Nat.mod_eq_of_lt (by omega)] at h2
    · have hc : FanClosed g l := by tauto
      refine hl.cyclic hc _ _ _ (hr j) ?_
      rw [← hN, Nat.mod_add_mod, Nat.add_assoc]
      exact hr (j + 1)
  have hstop : FanOpen g l → ∀ y ∈ l, cornerAt g (prevCorner (r m)) ≠ cornerAt g (nextCorner y) := by
    intro ho y hy h
    have hp1 := hpopen ho
    refine ho (r m) ?_ (List.mem_map.mpr ⟨y, hy, h.symm⟩)
    have h1 := hr m
    rw [List.getLast?_eq_getElem?]
    rwa [show p + 1 + m = l.length - 1 by omega, Nat.mod_eq_of_lt (by omega)] at h1
  -- successors
  have hsucc : ∀ j < N, ∀ y ∈ l, cornerAt g (prevCorner (r j)) = cornerAt g (nextCorner y) → y = r (j + 1) ∧ ¬ (FanOpen g l ∧ j = m) := by
    intro j hj y hy h
    have hno : ¬ (FanOpen g l ∧ j = m) := by
      rintro ⟨ho, rfl⟩
      exact hstop ho y hy h
    exact ⟨hl.after_inj hy (hrm _) (h.symm.trans (hfollow j hj hno)), hno⟩
  obtain ⟨w, hw⟩ : ∃ w : Nat → Nat, w = fun k => 2 * r (k / 2) + (1 - k % 2) := ⟨_, rfl⟩
  have we : ∀ j, w (2 * j) = 2 * r j + 1 := by
    intro j; rw [hw]; simp only [show 2 * j / 2 = j by omega, show 2 * j % 2 = 0 by omega]
  have wo : ∀ j, w (2 * j + 1) = 2 * r j := by
    intro j; rw [hw]; simp only [show (2 * j + 1) / 2 = j by omega, show (2 * j + 1) % 2 = 1 by omega]; omega
  have winj : ∀ i j, i < 2 * N → j < 2 * N → w i = w j → i = j := by
    intro i j hi hj h
    rw [hw] at h
    simp only at h
    have h1 : i % 2 = j % 2 := by omega
    have h2 := hrinj' (i / 2) (j / 2) (by omega) (by omega) (by omega)
    omega
  obtain ⟨onB, honB, hon⟩ := hT.onB _ l hvz hl (List.ne_nil_of_mem hzm) hco
  have hwalk : Walk T onB N (2 * m + 1) (2 * z) w := by
    refine ⟨hNpos, ?_, ?_, ?_, ?_, ?_⟩
    · intro k hk
      rcases Nat.mod_two_eq_zero_or_one k with h0 | h1
      · obtain ⟨j, rfl⟩ : ∃ j, k = 2 * j := ⟨k / 2, by omega⟩
        rw [we, wo, vget_ok (nodd j)]
        push_cast; rfl
      · obtain ⟨j, rfl⟩ : ∃ j, k = 2 * j + 1 := ⟨k / 2, by omega⟩
        rw [show 2 * j + 1 + 1 = 2 * (j + 1) by omega, we, wo, vget_ok (neven j)]
        push_cast; rfl
    · have h1 := neven (N - 1)
      rw [hrz, show N - 1 + 1 = N by omega, ← hrN N, Nat.mod_self] at h1
      rw [vget_ok h1]
      have := we 0
      rw [Nat.mul_zero] at this
      rw [this]
      push_cast; rfl
    · rw [show 2 * N - 1 = 2 * (N - 1) + 1 by omega, wo, hrz]
    · intro k hk h
      have : w k = w (2 * (N - 1) + 1) := by rw [h, wo, hrz]
      have := winj _ _ (by omega) (by omega) this
      omega
    · intro hB k hk
      have ho := hon.mp hB
      have hp1 := hpopen ho
      rcases Nat.mod_two_eq_zero_or_one k with h0 | h1
      · obtain ⟨j, rfl⟩ : ∃ j, k = 2 * j := ⟨k / 2, by omega⟩
        rw [we, (hT.boundary _ l hl ho _ _ (hr j)).1, decide_eq_false (by omega)]
      · obtain ⟨j, rfl⟩ : ∃ j, k = 2 * j + 1 := ⟨k / 2, by omega⟩
        rw [wo, (hT.boundary _ l hl ho _ _ (hr j)).2]
        congr 1
        rw [decide_eq_decide, hbrk ho j (by omega)]
        omega
  -- columns as a function of the face
  let col : Nat → Col L := fun F => if h : ∃ k < 2 * N, w k = F then colAt onB N (2 * m + 1) h.choose else ⟨0, 0, 0⟩
  have hcol : ∀ k < 2 * N, col (w k) = colAt onB N (2 * m + 1) k := by
    intro k hk
    have hex : ∃ k' < 2 * N, w k' = w k := ⟨k, hk, rfl⟩
    show (if h : ∃ k' < 2 * N, w k' = w k then colAt onB N (2 * m + 1) h.choose else ⟨0, 0, 0⟩) = _
    rw [dif_pos hex, winj _ _ hex.choose_spec.1 hk hex.choose_spec.2]
  have hcolo : ∀ j < N, col (2 * r j + 1) = colAt onB N (2 * m + 1) (2 * j) := by
    intro j hj; rw [← we, hcol _ (by omega)]
  have hcole : ∀ j < N, col (2 * r j) = colAt onB N (2 * m + 1) (2 * j + 1) := by
    intro j hj; rw [← wo, hcol _ (by omega)]
  have hN0 : (N : L) ≠ 0 := Nat.cast_ne_zero.mpr (by omega)
  have h20 : (2 : L) ≠ 0 := two_ne_zero
  -- the break lies before the last corner
  have hmlt : onB = true → m + 1 < N := by
    intro hB
    have := hpopen (hon.mp hB)
    omega
  refine ⟨(List.range' 0 (2 * N)).map w, col, ?_, ?_, ?_, ?_⟩
  · refine List.Nodup.map_on ?_ List.nodup_range'
    intro i hi j hj h
    rw [List.mem_range'_1] at hi hj
    exact winj i j (by omega) (by omega) h
  · intro F
    rw [List.mem_map]
    constructor
    · rintro ⟨k, -, rfl⟩
      rw [hw]
      simp only
      have h1 := hrl (k / 2)
      refine ⟨by omega, ?_⟩
      rw [show (2 * r (k / 2) + (1 - k % 2)) / 2 = r (k / 2) by omega]
      exact hrv _
    · rintro ⟨h1, h2⟩
      obtain ⟨j, hj, hjx⟩ := hrsurj (F / 2) ((hl.mem _).mpr ⟨by omega, h2⟩)
      rcases Nat.mod_two_eq_zero_or_one F with h3 | h3
      · exact ⟨2 * j + 1, by rw [List.mem_range'_1]; omega, by rw [wo, hjx]; omega⟩
      · exact ⟨2 * j, by rw [List.mem_range'_1]; omega, by rw [we, hjx]; omega⟩
  · intro st dof wt
    rw [bcHalf_spec T checked onB N (2 * m + 1) (2 * z) (cornerAt g z) w hwalk (by rw [hT.count _ hvz, hNv, hN]) honB, pushFrom_eq]
    congr 2
    rw [List.map_map]
    apply List.map_congr_left
    intro k hk
    rw [List.mem_range'_1] at hk
    simp only [Function.comp_apply]
    rw [hcol k (by omega)]
  · have hcast : ∀ j : Nat, ((2 * j : Nat) : L) = 2 * (j : L) := fun j => by push_cast; ring
    refine ⟨?_, ?_, ?_, ?_, ?_, ?_⟩
    · intro x hx hxv
      obtain ⟨j, hj, rfl⟩ := hrsurj x ((hl.mem _).mpr ⟨hx, hxv⟩)
      rw [hcolo j hj, hcole j hj]
      simp only [colAt, colC0, colC1]
      rw [if_neg (show ¬ (2 * j + 1 = 2 * N) by omega), if_neg (show ¬ (2 * j + 1 = 2 * N) by omega), if_neg (show ¬ (2 * j + 1 = 0) by omega), if_neg (show ¬ (2 * j + 1 = 0) by omega)]
      cases onB with
      | true =>
        simp only [if_true]
        by_cases h : 2 * m + 1 < 2 * j
        · rw [if_pos h, if_pos (by omega)]; field_simp; ring
        · rw [if_neg h, if_neg (by omega)]; field_simp; ring
      | false =>
        simp only [Bool.false_eq_true, if_false]
        push_cast; field_simp; ring
    · intro x hx y hy hxv hyv h
      obtain ⟨j, hj, rfl⟩ := hrsurj x ((hl.mem _).mpr ⟨hx, hxv⟩)
      obtain ⟨rfl, hno⟩ := hsucc j hj y ((hl.mem _).mpr ⟨hy, hyv⟩) h
      by_cases hlast : j + 1 = N
      · rw [← hrN (j + 1), hlast, Nat.mod_self, hcole j hj, hcolo 0 hNpos]
        simp only [colAt, colC0, colC1]
        rw [if_pos (show 2 * j + 1 + 1 = 2 * N by omega), if_pos (show 2 * j + 1 + 1 = 2 * N by omega)]
        simp only [if_true]
        cases onB with
        | true => simp only [if_true]; field_simp; ring
        | false => simp
      · rw [hcole j hj, hcolo (j + 1) (by omega)]
        simp only [colAt, colC0, colC1]
        rw [if_neg (show ¬ (2 * j + 1 + 1 = 2 * N) by omega), if_neg (show ¬ (2 * j + 1 + 1 = 2 * N) by omega), if_neg (show ¬ (2 * (j + 1) = 0) by omega), if_neg (show ¬ (2 * (j + 1) = 0) by omega)]
        cases onB with
        | true =>
          have hjm : j ≠ m := fun h => hno ⟨hon.mp rfl, h⟩
          simp only [if_true]
          by_cases h : 2 * m + 1 < 2 * j + 1
          · rw [if_pos h, if_pos (by omega)]; field_simp; ring
          · rw [if_neg h, if_neg (by omega)]; field_simp; ring
        | false =>
          simp only [Bool.false_eq_true, if_false]
          push_cast; field_simp; ring
    · intro x hx hxv
      obtain ⟨j, hj, rfl⟩ := hrsurj x ((hl.mem _).mpr ⟨hx, hxv⟩)
      rw [hcole j hj]
      simp only [colAt]
      have : r j = z ↔ j + 1 = N := by
        rw [← hrz]
        constructor
        · intro h; have := hrinj' _ _ hj (by omega) h; omega
        · intro h; rw [show N - 1 = j by omega]
      by_cases h : j + 1 = N
      · rw [if_pos (Or.inr (by omega)), if_pos (this.mpr h)]
      · rw [if_neg (by omega), if_neg (by rw [this]; exact h)]
    · intro y hy hyv
      obtain ⟨j, hj, rfl⟩ := hrsurj y ((hl.mem _).mpr ⟨hy, hyv⟩)
      rw [hcolo j hj]
      simp only [colAt]
      have : cornerAt g (prevCorner z) = cornerAt g (nextCorner (r j)) ↔ j = 0 := by
        constructor
        · intro h
          rw [← hrz] at h
          obtain ⟨h1, -⟩ := hsucc (N - 1) (by omega) (r j) (hrm j) h
          rw [show N - 1 + 1 = N by omega, ← hrN N, Nat.mod_self] at h1
          exact hrinj' _ _ hj hNpos h1
        · rintro rfl
          have h1 := hfollow (N - 1) (by omega) (by
            rintro ⟨ho, h2⟩
            have := hpopen ho
            omega)
          rwa [hrz, show N - 1 + 1 = N by omega, ← hrN N, Nat.mod_self] at h1
      by_cases h : j = 0
      · rw [if_pos (Or.inl (by omega)), if_pos (this.mpr h)]
      · rw [if_neg (by omega), if_neg (by rw [this]; exact h)]
    · rw [← hrz, hcole (N - 1) (by omega), hrz, hNv, ← hN]
      simp only [colAt, colC1]
      rw [if_pos (show 2 * (N - 1) + 1 + 1 = 2 * N by omega), if_pos (show 2 * (N - 1) + 1 + 1 = 2 * N by omega)]
      cases onB with
      | true => rw [if_pos rfl, if_pos (hon.mp rfl)]
      | false => rw [if_neg (by simp), if_neg (by rw [← hon]; simp)]
    · intro F hF hFv
      obtain ⟨k, hk, rfl⟩ : ∃ k < 2 * N, w k = F := by
        obtain ⟨j, hj, hjx⟩ := hrsurj (F / 2) ((hl.mem _).mpr ⟨by omega, hFv⟩)
        rcases Nat.mod_two_eq_zero_or_one F with h3 | h3
        · exact ⟨2 * j + 1, by omega, by rw [wo, hjx]; omega⟩
        · exact ⟨2 * j, by omega, by rw [we, hjx]; omega⟩
      rw [hcol k hk, hNv, ← hN]
      have ho : (if FanOpen g l then (0 : L) else 1 / (2 * (N : L))) = if onB = true then (0 : L) else 1 / (2 * (N : L)) := by
        by_cases h : FanOpen g l
        · rw [if_pos h, if_pos (hon.mpr h)]
        · rw [if_neg h, if_neg (by rw [hon]; exact h)]
      rw [ho]
      simp only [colAt, colC0, colC1]
      by_cases h0 : k = 0
      · subst h0
        rw [if_pos rfl, if_pos rfl, if_neg (show ¬ (0 + 1 = 2 * N) by omega), if_neg (show ¬ (0 + 1 = 2 * N) by omega), if_neg (show ¬ (2 * m + 1 < 0) by omega), if_pos (Or.inl rfl)]
        cases onB with
        | true => simp only [if_true]; field_simp; ring
        | false => simp only [Bool.false_eq_true, if_false]; push_cast; field_simp; ring
      · rw [if_neg h0, if_neg h0]
        by_cases h1 : k + 1 = 2 * N
        · rw [if_pos h1, if_pos h1, if_pos (Or.inr h1)]
          cases onB with
          | true =>
            have := hmlt rfl
            rw [if_pos (show 2 * m + 1 < k by omega)]
            simp only [if_true]; field_simp; ring
          | false =>
            simp only [Bool.false_eq_true, if_false]
            have hk2 : (k : L) = 2 * N - 1 := by
              have : ((k + 1 : Nat) : L) = ((2 * N : Nat) : L) := by rw [h1]
              push_cast at this
              linear_combination this
            rw [hk2]; field_simp; ring
        · rw [if_neg h1, if_neg h1, if_neg (show ¬ (k = 0 ∨ k + 1 = 2 * N) by omega)]
          cases onB with
          | true =>
            simp only [if_true]
            by_cases h : 2 * m + 1 < k
            · rw [if_pos h, if_pos h]; field_simp; ring
            · rw [if_neg h, if_neg h]; field_simp; ring
          | false =>
            simp only [Bool.false_eq_true, if_false]
            field_simp; ring

end Verif.Space
