import Verif.Lemmas.Morton
import Verif.Model.Octree
import Verif.Spec.Octree
import Mathlib.Data.List.Nodup
/-
Lemmas about octree cells.
-/
namespace Verif.Fmm

theorem zcode_stable (n : Nat) : ∀ x y z, x < 2 ^ n → y < 2 ^ n → z < 2 ^ n →
    zcode (n + 1) x y z = zcode n x y z := by
  induction n with
  | zero => intro x y z hx hy hz; simp [zcode]; omega
  | succ n ih =>
    intro x y z hx hy hz
    rw [zcode, ih, ← zcode]
    all_goals rw [pow_succ] at *; omega

theorem pow_le_1024 {l : Nat} (h : l ≤ 10) : 2 ^ l ≤ 1024 :=
  calc 2 ^ l ≤ 2 ^ 10 := Nat.pow_le_pow_right (by norm_num) h
    _ = 1024 := rfl

theorem Cell.In.lt {c : Cell} {l : Nat} (hl : l ≤ 10) (h : c.In l) :
    c.x < 1024 ∧ c.y < 1024 ∧ c.z < 1024 := by
  have := pow_le_1024 hl
  obtain ⟨h1, h2, h3⟩ := h
  omega

theorem Cell.index_toNat (c : Cell) : c.index.toNat = zcode 10 c.x c.y c.z := by
  unfold Cell.index
  rw [BitVec.toNat_ofNat]
  apply Nat.mod_eq_of_lt
  have := zcode_lt 10 c.x c.y c.z
  calc zcode 10 c.x c.y c.z < 8 ^ 10 := this
    _ < 2 ^ 64 := by norm_num

theorem Cell.deMorton_index {c : Cell} {l : Nat} (hl : l ≤ 10) (h : c.In l) :
    (deMorton c.index).1.toNat = c.x ∧ (deMorton c.index).2.1.toNat = c.y ∧
      (deMorton c.index).2.2.toNat = c.z := by
  obtain ⟨h1, h2, h3⟩ := h.lt hl
  exact deMorton_zcode c.index c.x c.y c.z h1 h2 h3 c.index_toNat

theorem Cell.index_inj {a b : Cell} {l : Nat} (hl : l ≤ 10) (ha : a.In l) (hb : b.In l)
    (h : a.index = b.index) : a = b := by
  obtain ⟨a1, a2, a3⟩ := Cell.deMorton_index hl ha
  obtain ⟨b1, b2, b3⟩ := Cell.deMorton_index hl hb
  rw [h] at a1 a2 a3
  cases a; cases b
  simp only [Cell.mk.injEq] at *
  omega

theorem Cell.parent_in {c : Cell} {l : Nat} (h : c.In (l + 1)) : c.parent.In l := by
  obtain ⟨h1, h2, h3⟩ := h
  rw [pow_succ] at h1 h2 h3
  refine ⟨?_, ?_, ?_⟩ <;> simp only [Cell.parent] <;> omega

theorem Cell.in_mono {c : Cell} {l m : Nat} (hlm : l ≤ m) (h : c.In l) : c.In m := by
  have : 2 ^ l ≤ 2 ^ m := Nat.pow_le_pow_right (by norm_num) hlm
  obtain ⟨h1, h2, h3⟩ := h
  exact ⟨by omega, by omega, by omega⟩

theorem zcode_parent {c : Cell} {l : Nat} (hl : l + 1 ≤ 10) (h : c.In (l + 1)) :
    zcode 10 c.x c.y c.z / 8 = zcode 10 c.parent.x c.parent.y c.parent.z := by
  have hp := Cell.in_mono (show l ≤ 9 by omega) (Cell.parent_in h)
  obtain ⟨h1, h2, h3⟩ := hp
  rw [zcode_stable 9 _ _ _ h1 h2 h3]
  rw [zcode]
  simp only [Cell.parent]
  omega

/-- Level of the parent, any level up to 10. -/
theorem Cell.parent_index {c : Cell} {l : Nat} (hl : l ≤ 10) (h : c.In l) :
    getParent c.index = c.parent.index := by
  apply BitVec.eq_of_toNat_eq
  have h' : c.In 10 := Cell.in_mono hl h
  rw [Cell.index_toNat, ← zcode_parent (l := 9) (le_refl _) h', ← Cell.index_toNat]
  unfold getParent
  rw [BitVec.toNat_ushiftRight, Nat.shiftRight_eq_div_pow]

theorem Cell.firstChild_toNat {c : Cell} {l : Nat} (hl : l + 1 ≤ 10) (h : c.In l) :
    (getFirstChild c.index).toNat = 8 * zcode 10 c.x c.y c.z := by
  unfold getFirstChild
  rw [BitVec.toNat_shiftLeft, Cell.index_toNat, Nat.shiftLeft_eq]
  have := zcode_lt 10 c.x c.y c.z
  rw [Nat.mod_eq_of_lt]
  · ring
  · calc zcode 10 c.x c.y c.z * 2 ^ 3 < 8 ^ 10 * 2 ^ 3 := by omega
      _ ≤ 2 ^ 64 := by norm_num

theorem Cell.lastChild_toNat {c : Cell} {l : Nat} (hl : l + 1 ≤ 10) (h : c.In l) :
    (getLastChild c.index).toNat = 8 * zcode 10 c.x c.y c.z + 7 := by
  have h1 := Cell.firstChild_toNat hl h
  unfold getLastChild
  unfold getFirstChild at h1
  rw [BitVec.toNat_add, h1]
  have := zcode_lt 10 c.x c.y c.z
  rw [Nat.mod_eq_of_lt]
  · rfl
  · show 8 * zcode 10 c.x c.y c.z + 7 < 2 ^ 64
    omega

/-- Codes below `8^l` are the codes of cells of level `l`. -/
theorem exists_cell {l : Nat} (hl : l ≤ 10) (n : ULong) (h : n.toNat < 8 ^ l) :
    ∃ c : Cell, c.In l ∧ c.index = n := by
  have h10 : n.toNat < 8 ^ 10 := lt_of_lt_of_le h (Nat.pow_le_pow_right (by norm_num) hl)
  have hz := zcode_deMorton n h10
  refine ⟨⟨(deMorton n).1.toNat, (deMorton n).2.1.toNat, (deMorton n).2.2.toNat⟩, ?_, ?_⟩
  · have hlow : ∀ i, l ≤ i → ∀ r, r < 3 → n.toNat.testBit (r + 3 * i) = false := by
      intro i hi r _
      refine Nat.testBit_lt_two_pow (lt_of_lt_of_le h ?_)
      calc 8 ^ l = 2 ^ (3 * l) := by rw [pow_mul]; norm_num
        _ ≤ 2 ^ (r + 3 * i) := Nat.pow_le_pow_right (by norm_num) (by omega)
    refine ⟨?_, ?_, ?_⟩ <;> apply Nat.lt_pow_two_of_testBit <;> intro i hi
    · show (contract3 n).getLsbD i = false
      rw [contract3_bits]
      have := hlow i hi 0 (by norm_num)
      rw [zero_add] at this
      unfold BitVec.getLsbD; rw [this]; simp
    · show (contract3 (n >>> 1)).getLsbD i = false
      rw [contract3_bits, BitVec.getLsbD_ushiftRight]
      unfold BitVec.getLsbD; rw [hlow i hi 1 (by norm_num)]; simp
    · show (contract3 (n >>> 2)).getLsbD i = false
      rw [contract3_bits, BitVec.getLsbD_ushiftRight]
      unfold BitVec.getLsbD; rw [hlow i hi 2 (by norm_num)]; simp
  · apply BitVec.eq_of_toNat_eq
    rw [Cell.index_toNat]; exact hz.symm

theorem zcode_lt_level {c : Cell} {l : Nat} (hl : l ≤ 10) (h : c.In l) :
    zcode 10 c.x c.y c.z < 8 ^ l := by
  obtain ⟨d, hd⟩ : ∃ d, 10 = l + d := ⟨10 - l, by omega⟩
  have key : ∀ d, zcode (l + d) c.x c.y c.z = zcode l c.x c.y c.z := by
    intro d
    induction d with
    | zero => rfl
    | succ d ih =>
      obtain ⟨h1, h2, h3⟩ := Cell.in_mono (Nat.le_add_right l d) h
      rw [← Nat.add_assoc, zcode_stable _ _ _ _ h1 h2 h3, ih]
  rw [hd, key]; exact zcode_lt _ _ _ _

/-! ### Neighbours -/

theorem nodesPerSide_toNat {l : Nat} (hl : l ≤ 10) : (getNodesPerSide l).toNat = 2 ^ l := by
  interval_cases l <;> rfl

theorem mem_offsets (i : Int) : i ∈ offsets ↔ i = -1 ∨ i = 0 ∨ i = 1 := by
  simp [offsets]

theorem mem_offsetTriples (t : Int × Int × Int) : t ∈ offsetTriples ↔
    t.1 ∈ offsets ∧ t.2.1 ∈ offsets ∧ t.2.2 ∈ offsets := by
  obtain ⟨i, j, k⟩ := t
  simp only [offsetTriples, List.mem_flatMap, List.mem_map, Prod.mk.injEq]
  constructor
  · rintro ⟨a, ha, b, hb, c, hc, rfl, rfl, rfl⟩; exact ⟨ha, hb, hc⟩
  · rintro ⟨ha, hb, hc⟩; exact ⟨i, ha, j, hb, k, hc, rfl, rfl, rfl⟩

/-- Adding an offset and testing the range on machine words. -/
theorem shift_coord (w : ULong) (i : Int) (hi : i ∈ offsets) (l : Nat) (hl : l ≤ 10)
    (hw : w.toNat < 2 ^ l) :
    (decide (0 ≤ (w + BitVec.ofInt 64 i).toInt) &&
        decide (w + BitVec.ofInt 64 i < getNodesPerSide l)) = true ↔
      (0 ≤ (w.toNat : Int) + i ∧ (w.toNat : Int) + i < 2 ^ l) := by
  have hp := pow_le_1024 hl
  have hs := nodesPerSide_toNat hl
  have hle : ((2 : Int) ^ l) = ((2 ^ l : Nat) : Int) := by push_cast; rfl
  rw [hle]
  generalize 2 ^ l = q at *
  simp only [Bool.and_eq_true, decide_eq_true_eq]
  rw [mem_offsets] at hi
  rcases hi with rfl | rfl | rfl
  · have : (w + BitVec.ofInt 64 (-1)).toNat = (w.toNat + (2 ^ 64 - 1)) % 2 ^ 64 := by
      rw [BitVec.toNat_add]; rfl
    rw [BitVec.lt_def, hs, this, BitVec.toInt_eq_toNat_cond, this]
    split <;> omega
  · have : (w + BitVec.ofInt 64 0).toNat = w.toNat := by
      rw [BitVec.toNat_add]
      show (w.toNat + 0) % 2 ^ 64 = _
      omega
    rw [BitVec.lt_def, hs, this, BitVec.toInt_eq_toNat_cond, this]
    split <;> omega
  · have : (w + BitVec.ofInt 64 1).toNat = w.toNat + 1 := by
      rw [BitVec.toNat_add]
      show (w.toNat + 1) % 2 ^ 64 = _
      omega
    rw [BitVec.lt_def, hs, this, BitVec.toInt_eq_toNat_cond, this]
    split <;> omega

theorem shift_coord_toNat (w : ULong) (i : Int) (hi : i ∈ offsets) (hw : w.toNat < 1024)
    (h : 0 ≤ (w.toNat : Int) + i) :
    (w + BitVec.ofInt 64 i).toNat = ((w.toNat : Int) + i).toNat := by
  rw [mem_offsets] at hi
  rcases hi with rfl | rfl | rfl
  · have : (w + BitVec.ofInt 64 (-1)).toNat = (w.toNat + (2 ^ 64 - 1)) % 2 ^ 64 := by
      rw [BitVec.toNat_add]; rfl
    rw [this]; omega
  · have : (w + BitVec.ofInt 64 0).toNat = (w.toNat + 0) % 2 ^ 64 := by
      rw [BitVec.toNat_add]; rfl
    rw [this]; omega
  · have : (w + BitVec.ofInt 64 1).toNat = (w.toNat + 1) % 2 ^ 64 := by
      rw [BitVec.toNat_add]; rfl
    rw [this]; omega

theorem mapM_ok {α β ε : Type} (f : α → Except ε β) (g : α → β) (l : List α)
    (h : ∀ a ∈ l, f a = .ok (g a)) : l.mapM f = .ok (l.map g) := by
  induction l with
  | nil => rfl
  | cons a l ih =>
    rw [List.mapM_cons, h a List.mem_cons_self, ih fun b hb => h b (List.mem_cons_of_mem _ hb)]
    rfl

/-- Cell moved by an offset. -/
def Cell.move (c : Cell) (t : Int × Int × Int) : Cell :=
  ⟨((c.x : Int) + t.1).toNat, ((c.y : Int) + t.2.1).toNat, ((c.z : Int) + t.2.2).toNat⟩

/-- The offsets that lead to a different cell of the grid. -/
def Cell.Ok (c : Cell) (l : Nat) (t : Int × Int × Int) : Prop :=
  t ≠ (0, 0, 0) ∧ (0 ≤ (c.x : Int) + t.1 ∧ (c.x : Int) + t.1 < 2 ^ l) ∧
    (0 ≤ (c.y : Int) + t.2.1 ∧ (c.y : Int) + t.2.1 < 2 ^ l) ∧
    (0 ≤ (c.z : Int) + t.2.2 ∧ (c.z : Int) + t.2.2 < 2 ^ l)

instance (c : Cell) (l : Nat) (t : Int × Int × Int) : Decidable (c.Ok l t) := by
  unfold Cell.Ok; infer_instance

theorem prop_aux (p q r A B C : Prop) :
    (((¬p ∨ ¬q) ∨ ¬r) ∧ (A ∧ B) ∧ C) ↔ (¬(p ∧ q ∧ r) ∧ A ∧ B ∧ C) := by
  by_cases p <;> by_cases q <;> by_cases r <;> simp [*, and_assoc]

theorem getNeighbors_eq {c : Cell} {l : Nat} (hl : l ≤ 10) (h : c.In l) :
    getNeighbors c.index l =
      .ok ((offsetTriples.filter fun t => decide (c.Ok l t)).map fun t => (c.move t).index) := by
  obtain ⟨d1, d2, d3⟩ := Cell.deMorton_index hl h
  obtain ⟨h1, h2, h3⟩ := h
  have hp := pow_le_1024 hl
  unfold getNeighbors
  rcases hd : deMorton c.index with ⟨wx, wy, wz⟩
  rw [hd] at d1 d2 d3
  simp only at d1 d2 d3 ⊢
  have hf : (offsetTriples.filter fun (i, j, k) =>
      !(decide (i = 0) && decide (j = 0) && decide (k = 0)) &&
      inRange (getNodesPerSide l) (wx + BitVec.ofInt 64 i) (wy + BitVec.ofInt 64 j)
        (wz + BitVec.ofInt 64 k)) = offsetTriples.filter fun t => decide (c.Ok l t) := by
    apply List.filter_congr
    rintro ⟨i, j, k⟩ ht
    obtain ⟨hi, hj, hk⟩ := (mem_offsetTriples _).mp ht
    rw [Bool.eq_iff_iff]
    simp only [Bool.and_eq_true, decide_eq_true_eq, inRange]
    have ex := shift_coord wx i hi l hl (by omega)
    have ey := shift_coord wy j hj l hl (by omega)
    have ez := shift_coord wz k hk l hl (by omega)
    simp only [Bool.and_eq_true, decide_eq_true_eq] at ex ey ez
    rw [ex, ey, ez, d1, d2, d3]
    unfold Cell.Ok
    simp only [Bool.not_eq_true', Bool.and_eq_false_iff, decide_eq_false_iff_not, ne_eq,
      Prod.mk.injEq]
    exact prop_aux _ _ _ _ _ _
  rw [hf]
  apply mapM_ok
  rintro ⟨i, j, k⟩ ht
  obtain ⟨ht, hok⟩ := List.mem_filter.mp ht
  obtain ⟨hi, hj, hk⟩ := (mem_offsetTriples _).mp ht
  obtain ⟨_, ⟨x1, x2⟩, ⟨y1, y2⟩, ⟨z1, z2⟩⟩ := of_decide_eq_true hok
  simp only at x1 x2 y1 y2 z1 z2 hi hj hk ⊢
  have ex := shift_coord_toNat wx i hi (by omega) (by omega)
  have ey := shift_coord_toNat wy j hj (by omega) (by omega)
  have ez := shift_coord_toNat wz k hk (by omega) (by omega)
  have hle : ((2 : Int) ^ l) = ((2 ^ l : Nat) : Int) := by push_cast; rfl
  rw [hle] at x2 y2 z2
  obtain ⟨m, hm, hmn⟩ := morton_eq (wx + BitVec.ofInt 64 i) (wy + BitVec.ofInt 64 j)
    (wz + BitVec.ofInt 64 k) (by omega) (by omega) (by omega)
  have hme : m = (c.move (i, j, k)).index := by
    apply BitVec.eq_of_toNat_eq
    rw [hmn, Cell.index_toNat, ex, ey, ez, d1, d2, d3]
    simp only [Cell.move]
  rw [hm, hme]

theorem move_in {c : Cell} {l : Nat} {t : Int × Int × Int} (h : c.Ok l t) : (c.move t).In l := by
  obtain ⟨_, ⟨x1, x2⟩, ⟨y1, y2⟩, ⟨z1, z2⟩⟩ := h
  have hle : ((2 : Int) ^ l) = ((2 ^ l : Nat) : Int) := by push_cast; rfl
  rw [hle] at x2 y2 z2
  refine ⟨?_, ?_, ?_⟩ <;> simp only [Cell.move] <;> omega

theorem move_inj {c : Cell} {l : Nat} {t u : Int × Int × Int} (ht : c.Ok l t) (hu : c.Ok l u)
    (h : c.move t = c.move u) : t = u := by
  obtain ⟨_, ⟨x1, x2⟩, ⟨y1, y2⟩, ⟨z1, z2⟩⟩ := ht
  obtain ⟨_, ⟨x3, x4⟩, ⟨y3, y4⟩, ⟨z3, z4⟩⟩ := hu
  simp only [Cell.move, Cell.mk.injEq] at h
  obtain ⟨t1, t2, t3⟩ := t
  obtain ⟨u1, u2, u3⟩ := u
  simp only [Prod.mk.injEq] at *
  omega

theorem neighbors_spec {c : Cell} {l : Nat} (hl : l ≤ 10) (h : c.In l) :
    ∃ L, getNeighbors c.index l = .ok L ∧ L.Nodup ∧
      ∀ n, n ∈ L ↔ ∃ d : Cell, d.In l ∧ d ≠ c ∧ d.Near c ∧ n = d.index := by
  refine ⟨_, getNeighbors_eq hl h, ?_, ?_⟩
  · apply List.Nodup.map_on
    · intro t ht u hu he
      have ht := of_decide_eq_true (List.mem_filter.mp ht).2
      have hu := of_decide_eq_true (List.mem_filter.mp hu).2
      exact move_inj ht hu (Cell.index_inj hl (move_in ht) (move_in hu) he)
    · apply List.Nodup.filter
      decide
  · intro n
    simp only [List.mem_map, List.mem_filter, decide_eq_true_eq]
    have hle : ((2 : Int) ^ l) = ((2 ^ l : Nat) : Int) := by push_cast; rfl
    constructor
    · rintro ⟨t, ⟨ht, hok⟩, rfl⟩
      refine ⟨c.move t, move_in hok, ?_, ?_, rfl⟩
      · intro he
        obtain ⟨h0, ⟨x1, x2⟩, ⟨y1, y2⟩, ⟨z1, z2⟩⟩ := hok
        apply h0
        have ex := congrArg Cell.x he
        have ey := congrArg Cell.y he
        have ez := congrArg Cell.z he
        simp only [Cell.move] at ex ey ez
        obtain ⟨t1, t2, t3⟩ := t
        simp only [Prod.mk.injEq] at *
        omega
      · obtain ⟨h0, ⟨x1, x2⟩, ⟨y1, y2⟩, ⟨z1, z2⟩⟩ := hok
        obtain ⟨hi, hj, hk⟩ := (mem_offsetTriples _).mp ht
        rw [mem_offsets] at hi hj hk
        simp only [Cell.Near, Cell.move]
        omega
    · rintro ⟨d, ⟨a1, a2, a3⟩, hne, ⟨⟨n1, n2⟩, ⟨n3, n4⟩, ⟨n5, n6⟩⟩, rfl⟩
      refine ⟨((d.x : Int) - c.x, (d.y : Int) - c.y, (d.z : Int) - c.z), ⟨?_, ?_, ?_, ?_, ?_⟩, ?_⟩
      · rw [mem_offsetTriples]
        simp only [mem_offsets]
        omega
      · intro h0
        apply hne
        simp only [Prod.mk.injEq] at h0
        cases d; cases c
        simp only [Cell.mk.injEq] at *
        omega
      · simp only; rw [hle]; omega
      · simp only; rw [hle]; omega
      · simp only; rw [hle]; omega
      · congr 1
        cases d; cases c
        simp only [Cell.move, Cell.mk.injEq]
        omega

end Verif.Fmm
