import Verif.Lemmas.OctreeGeometry
/-
Properties C23 - C28, C55, C56: the FMM octree.
-/
namespace Verif.Fmm

/-! ### C23 -/

/-- **C23** For coordinates in 0..1023, `morton` succeeds and `deMorton` recovers the coordinates. -/
theorem C23_morton_roundtrip (x y z : ULong) (hx : x.toNat ≤ 1023) (hy : y.toNat ≤ 1023)
    (hz : z.toNat ≤ 1023) : ∃ m, morton x y z = .ok m ∧ deMorton m = (x, y, z) := by
  obtain ⟨m, hm, hmn⟩ := morton_eq x y z (by omega) (by omega) (by omega)
  obtain ⟨h1, h2, h3⟩ := deMorton_zcode m _ _ _ (by omega) (by omega) (by omega) hmn
  refine ⟨m, hm, ?_⟩
  rcases hd : deMorton m with ⟨a, b, c⟩
  rw [hd] at h1 h2 h3
  simp only at h1 h2 h3
  rw [BitVec.eq_of_toNat_eq h1, BitVec.eq_of_toNat_eq h2, BitVec.eq_of_toNat_eq h3]

/-- **C23** Conversely every code below `8^10` is recovered from its coordinates. -/
theorem C23_deMorton_roundtrip (n : ULong) (h : n.toNat < 8 ^ 10) :
    morton (deMorton n).1 (deMorton n).2.1 (deMorton n).2.2 = .ok n := by
  obtain ⟨m, hm, hmn⟩ := morton_eq (deMorton n).1 (deMorton n).2.1 (deMorton n).2.2
    (contract3_lt _) (contract3_lt _) (contract3_lt _)
  rw [hm, BitVec.eq_of_toNat_eq (hmn.trans (zcode_deMorton n h).symm)]

/-- **C23** Different cells have different codes. -/
theorem C23_morton_injective (x y z x' y' z' m : ULong) (h : morton x y z = .ok m)
    (h' : morton x' y' z' = .ok m) : x = x' ∧ y = y' ∧ z = z' := by
  have ok : ∀ a b c : ULong, morton a b c = .ok m →
      a.toNat ≤ 1023 ∧ b.toNat ≤ 1023 ∧ c.toNat ≤ 1023 := by
    intro a b c e
    by_contra hc
    rw [morton_error a b c (by omega)] at e
    cases e
  obtain ⟨a1, a2, a3⟩ := ok x y z h
  obtain ⟨b1, b2, b3⟩ := ok x' y' z' h'
  obtain ⟨m1, e1, d1⟩ := C23_morton_roundtrip x y z a1 a2 a3
  obtain ⟨m2, e2, d2⟩ := C23_morton_roundtrip x' y' z' b1 b2 b3
  rw [h] at e1
  rw [h'] at e2
  cases e1
  cases e2
  rw [d1] at d2
  simpa using d2

/-- **C23** Coordinates above 1023 are rejected (and only those). -/
theorem C23_morton_rejects (x y z : ULong) :
    morton x y z = .error .invalidArgument ↔
      1023 < x.toNat ∨ 1023 < y.toNat ∨ 1023 < z.toNat := by
  constructor
  · intro h
    by_contra hc
    obtain ⟨m, hm, _⟩ := morton_eq x y z (by omega) (by omega) (by omega)
    rw [hm] at h
    cases h
  · intro h; exact morton_error x y z (by omega)

/-- **C23** The code is the interleaving of the coordinates' bits. -/
theorem C23_morton_interleaves (x y z m : ULong) (h : morton x y z = .ok m) (i : Nat) (hi : i < 10) :
    m.getLsbD (3 * i) = x.getLsbD i ∧ m.getLsbD (3 * i + 1) = y.getLsbD i ∧
      m.getLsbD (3 * i + 2) = z.getLsbD i := by
  have hok : x.toNat ≤ 1023 ∧ y.toNat ≤ 1023 ∧ z.toNat ≤ 1023 := by
    by_contra hc
    rw [morton_error x y z (by omega)] at h
    cases h
  obtain ⟨m', hm, hmn⟩ := morton_eq x y z (by omega) (by omega) (by omega)
  rw [h] at hm
  cases hm
  unfold BitVec.getLsbD
  rw [hmn]
  simp only [zcode_testBit]
  refine ⟨?_, ?_, ?_⟩
  · have e1 : 3 * i % 3 = 0 := by omega
    have e2 : 3 * i / 3 = i := by omega
    have e3 : 3 * i < 3 * 10 := by omega
    rw [e1, e2, decide_eq_true e3]; rfl
  · have e1 : (3 * i + 1) % 3 = 1 := by omega
    have e2 : (3 * i + 1) / 3 = i := by omega
    have e3 : 3 * i + 1 < 3 * 10 := by omega
    rw [e1, e2, decide_eq_true e3]; rfl
  · have e1 : (3 * i + 2) % 3 = 2 := by omega
    have e2 : (3 * i + 2) / 3 = i := by omega
    have e3 : 3 * i + 2 < 3 * 10 := by omega
    rw [e1, e2, decide_eq_true e3]; rfl

/-- Example. -/
example : morton 5 3 1023 = .ok 613566839#64 ∧ deMorton 613566839#64 = (5, 3, 1023) := by
  constructor <;> rfl

/-! ### C24 -/

/-- **C24** The parent of a cell is the cell with halved coordinates, at every level up to 10. -/
theorem C24_parent_halves (c : Cell) (level : Nat) (hl : level ≤ 10) (h : c.In level) :
    getParent c.index = (⟨c.x / 2, c.y / 2, c.z / 2⟩ : Cell).index :=
  Cell.parent_index hl h

/-- **C24** `firstChild..lastChild` enumerates exactly the cells of the next level whose parent is the
given cell, there are eight of them, and no wrap-around occurs. -/
theorem C24_children (c : Cell) (level : Nat) (hl : level < 10) (h : c.In level) (n : ULong) :
    ((getFirstChild c.index).toNat ≤ n.toNat ∧ n.toNat ≤ (getLastChild c.index).toNat) ↔
      ∃ d : Cell, d.In (level + 1) ∧ d.index = n ∧ d.x / 2 = c.x ∧ d.y / 2 = c.y ∧ d.z / 2 = c.z := by
  rw [Cell.firstChild_toNat hl h, Cell.lastChild_toNat hl h]
  have hlt := zcode_lt_level (show level ≤ 10 by omega) h
  constructor
  · rintro ⟨h1, h2⟩
    obtain ⟨d, hd, rfl⟩ := exists_cell (show level + 1 ≤ 10 by omega) n (by rw [pow_succ]; omega)
    have hz := zcode_parent (show level + 1 ≤ 10 by omega) hd
    have : d.parent = c := by
      apply Cell.index_inj (show level ≤ 10 by omega) (Cell.parent_in hd) h
      apply BitVec.eq_of_toNat_eq
      rw [Cell.index_toNat] at h1 h2
      rw [Cell.index_toNat, Cell.index_toNat, ← hz]
      omega
    subst this
    exact ⟨d, hd, rfl, rfl, rfl, rfl⟩
  · rintro ⟨d, hd, rfl, e1, e2, e3⟩
    have hz := zcode_parent (show level + 1 ≤ 10 by omega) hd
    simp only [Cell.parent, e1, e2, e3] at hz
    rw [Cell.index_toNat]
    omega

theorem C24_eight_children (c : Cell) (level : Nat) (hl : level < 10) (h : c.In level) :
    (getLastChild c.index).toNat = (getFirstChild c.index).toNat + 7 := by
  rw [Cell.firstChild_toNat hl h, Cell.lastChild_toNat hl h]

/-- Example: cell (1,0,1) of level 1 and its children. -/
example : (⟨1, 0, 1⟩ : Cell).In 1 ∧ (⟨1, 0, 1⟩ : Cell).index = 5 ∧ getFirstChild 5 = 40 ∧
    getLastChild 5 = 47 := by
  refine ⟨⟨by decide, by decide, by decide⟩, rfl, rfl, rfl⟩

/-! ### C25 -/

/-- **C25** At every level up to 10, `getNeighbors` of a cell returns, without repetition, exactly the
cells of the level other than the cell itself whose coordinates differ by at most one. -/
theorem C25_neighbors (c : Cell) (level : Nat) (hl : level ≤ 10) (h : c.In level) :
    ∃ L, getNeighbors c.index level = .ok L ∧ L.Nodup ∧
      ∀ n, n ∈ L ↔ ∃ d : Cell, d.In level ∧ d ≠ c ∧ d.Near c ∧ n = d.index :=
  neighbors_spec hl h

/-- **C25** The neighbour relation is symmetric. -/
theorem C25_neighbors_symmetric (c d : Cell) (level : Nat) (hl : level ≤ 10) (hc : c.In level)
    (hd : d.In level) (Lc Ld : List ULong) (ec : getNeighbors c.index level = .ok Lc)
    (ed : getNeighbors d.index level = .ok Ld) : d.index ∈ Lc ↔ c.index ∈ Ld := by
  have sym : ∀ a b : Cell, a.Near b → b.Near a := by
    intro a b h
    simp only [Cell.Near] at *
    omega
  have one : ∀ (c d : Cell), c.In level → d.In level → ∀ Lc Ld,
      getNeighbors c.index level = .ok Lc → getNeighbors d.index level = .ok Ld →
      d.index ∈ Lc → c.index ∈ Ld := by
    intro c d hc hd Lc Ld ec ed hm
    obtain ⟨L, e, _, m⟩ := neighbors_spec hl hc
    obtain ⟨L', e', _, m'⟩ := neighbors_spec hl hd
    rw [ec] at e; cases e
    rw [ed] at e'; cases e'
    obtain ⟨d', hd', hne, hn, he⟩ := (m _).mp hm
    have := Cell.index_inj hl hd hd' he
    subst this
    exact (m' _).mpr ⟨c, hc, Ne.symm hne, sym _ _ hn, rfl⟩
  exact ⟨one c d hc hd Lc Ld ec ed, one d c hd hc Ld Lc ed ec⟩

/-- Example: a corner cell of level 2 has seven neighbours, an interior one twenty-six. -/
example : (getNeighbors (⟨0, 0, 0⟩ : Cell).index 2).toOption.map List.length = some 7 ∧
    (getNeighbors (⟨1, 2, 1⟩ : Cell).index 2).toOption.map List.length = some 26 := by
  constructor <;> rfl

/-! ### C26 -/

/-- `b` is in the near field of `a`: it is the same leaf or a neighbour. -/
def NearField (a b : Cell) (L : Nat) : Prop :=
  a = b ∨ ∃ lst, getNeighbors a.index L = .ok lst ∧ b.index ∈ lst

/-- At level `l` the ancestor of `b` is in the interaction list of the ancestor of `a`, both leaves
being of level `L`. -/
def Interacts (o : Octree) (L : Nat) (a b : Cell) (l : Nat) : Prop :=
  1 ≤ l ∧ l ≤ L ∧ ∃ lst, interactionList o (a.up (L - l)).index l = .ok lst ∧
    (b.up (L - l)).index ∈ lst

theorem nearField_iff {a b : Cell} {L : Nat} (hL : L ≤ 10) (ha : a.In L) (hb : b.In L) :
    NearField a b L ↔ b.Near a := by
  obtain ⟨lst, e, _, m⟩ := neighbors_spec hL ha
  constructor
  · rintro (rfl | ⟨lst', e', hm⟩)
    · simp only [Cell.Near]; omega
    · rw [e] at e'; cases e'
      obtain ⟨d, hd, _, hn, he⟩ := (m _).mp hm
      rw [Cell.index_inj hL hb hd he]; exact hn
  · intro h
    by_cases hab : a = b
    · exact Or.inl hab
    · exact Or.inr ⟨lst, e, (m _).mpr ⟨b, hb, Ne.symm hab, h, rfl⟩⟩

theorem interacts_iff (o : Octree) {a b : Cell} {L : Nat} (hL : L ≤ 10) (ha : a.In L) (hb : b.In L)
    (l : Nat) : Interacts o L a b l ↔ 2 ≤ l ∧ l ≤ L ∧ o.isEmpty (b.up (L - l)).index l = false ∧
      (b.up (L - l + 1)).Near (a.up (L - l + 1)) ∧ ¬ (b.up (L - l)).Near (a.up (L - l)) := by
  by_cases hl : 2 ≤ l ∧ l ≤ L
  · have hal := Cell.up_in ha (L - l) (by omega)
    have hbl := Cell.up_in hb (L - l) (by omega)
    have e : L - (L - l) = l := by omega
    rw [e] at hal hbl
    obtain ⟨lst, el, _, m⟩ := interactionList_spec o (show 1 < l by omega) (by omega) hal
    constructor
    · rintro ⟨_, _, lst', el', hm⟩
      rw [el] at el'; cases el'
      obtain ⟨d, hd, he, hemp, hp, hn⟩ := (m _).mp hm
      have := Cell.index_inj (show l ≤ 10 by omega) hbl hd he
      subst this
      exact ⟨hl.1, hl.2, hemp, hp, hn⟩
    · rintro ⟨_, _, hemp, hp, hn⟩
      exact ⟨by omega, hl.2, lst, el, (m _).mpr ⟨_, hbl, rfl, hemp, hp, hn⟩⟩
  · constructor
    · rintro ⟨h1, h2, lst, el, hm⟩
      exfalso
      have : l = 1 := by omega
      subst this
      have : lst = [] := by
        simp only [interactionList, gt_iff_lt, lt_self_iff_false, if_false, pure, Except.pure] at el
        cases el; rfl
      rw [this] at hm
      simp at hm
    · rintro ⟨h1, h2, _⟩; exact absurd ⟨h1, h2⟩ hl

/-- **C26** (partial: assumes that the octree reports the ancestors of the leaf `b` as non-empty, which
the constructor does not ensure for three or more levels, see the counterexample)  Two leaf cells
either are in each other's near field and interact at no level, or they interact at exactly one
level. -/
theorem C26_cover_exactly_once_partial (o : Octree) (L : Nat) (hL1 : 1 ≤ L) (hL : L ≤ 10) (a b : Cell)
    (ha : a.In L) (hb : b.In L)
    (hne : ∀ l, 2 ≤ l → l ≤ L → o.isEmpty (b.up (L - l)).index l = false) :
    (NearField a b L ∧ ∀ l, ¬ Interacts o L a b l) ∨
    (¬ NearField a b L ∧ ∃! l, Interacts o L a b l) := by
  rw [nearField_iff hL ha hb]
  simp only [interacts_iff o hL ha hb]
  by_cases hn : b.Near a
  · refine Or.inl ⟨hn, ?_⟩
    rintro l ⟨_, _, _, _, hfar⟩
    exact hfar (near_up_mono (Nat.zero_le _) hn)
  · refine Or.inr ⟨hn, ?_⟩
    -- the smallest `k` at which the ancestors are near
    have hex : ∃ k, (b.up k).Near (a.up k) := by
      refine ⟨L - 1, near_level_one ?_ ?_⟩
      · have := Cell.up_in hb (L - 1) (by omega)
        rwa [show L - (L - 1) = 1 by omega] at this
      · have := Cell.up_in ha (L - 1) (by omega)
        rwa [show L - (L - 1) = 1 by omega] at this
    classical
    set k := Nat.find hex with hk
    have hk1 : (b.up k).Near (a.up k) := Nat.find_spec hex
    have hk2 : ∀ j, j < k → ¬ (b.up j).Near (a.up j) := fun j hj => Nat.find_min hex hj
    have hk0 : 0 < k := by
      by_contra h0
      have : k = 0 := by omega
      rw [this] at hk1
      exact hn hk1
    have hkL : k ≤ L - 1 := by
      apply Nat.find_min' hex
      refine near_level_one ?_ ?_
      · have := Cell.up_in hb (L - 1) (by omega)
        rwa [show L - (L - 1) = 1 by omega] at this
      · have := Cell.up_in ha (L - 1) (by omega)
        rwa [show L - (L - 1) = 1 by omega] at this
    refine ⟨L - k + 1, ⟨by omega, by omega, hne _ (by omega) (by omega), ?_, ?_⟩, ?_⟩
    · rw [show L - (L - k + 1) + 1 = k by omega]; exact hk1
    · rw [show L - (L - k + 1) = k - 1 by omega]; exact hk2 _ (by omega)
    · rintro l ⟨h1, h2, _, h3, h4⟩
      by_contra hne'
      rcases lt_or_gt_of_ne hne' with hlt | hgt
      · exact h4 (near_up_mono (show k ≤ L - l by omega) hk1)
      · exact hk2 (L - l + 1) (by omega) h3

theorem construct_ok {levels maxLevels : Int} {leafOf : Nat → List (Nat × ULong)} {o : Octree}
    (hc : construct levels maxLevels leafOf = .ok o) :
    ∃ l, ¬ (l = 0 ∧ leafOf l ≠ []) ∧
      o = (leafOf l).foldl (fun o en => addElement o en.1 en.2) ⟨l, fun _ => [], fun _ => []⟩ := by
  unfold construct at hc
  simp only at hc
  generalize (if levels < 0 ∨ levels > maxLevels then maxLevels else levels) = m at hc
  by_cases hm : m < 0
  · rw [if_pos hm] at hc; cases hc
  · rw [if_neg hm] at hc
    by_cases hz : m.toNat = 0 ∧ leafOf m.toNat ≠ []
    · rw [if_pos hz] at hc; cases hc
    · rw [if_neg hz] at hc
      simp only [CtorResult.ok.injEq] at hc
      exact ⟨m.toNat, hz, hc.symm⟩

/-- **C26** The octrees with at most two levels that the constructor builds have the property in
full: any two leaves that contain elements are in each other's near field or interact at exactly
one level. -/
theorem C26_two_levels_partial (levels maxLevels : Int) (leafOf : Nat → List (Nat × ULong)) (o : Octree)
    (hc : construct levels maxLevels leafOf = .ok o) (hL1 : 1 ≤ o.levels) (hL : o.levels ≤ 2)
    (a b : Cell) (ha : a.In o.levels) (hb : b.In o.levels)
    (hbe : ∃ e, (e, b.index) ∈ leafOf o.levels) :
    (NearField a b o.levels ∧ ∀ l, ¬ Interacts o o.levels a b l) ∨
    (¬ NearField a b o.levels ∧ ∃! l, Interacts o o.levels a b l) := by
  apply C26_cover_exactly_once_partial o o.levels hL1 (by omega) a b ha hb
  intro l h2 hl
  have hll : l = o.levels := by omega
  subst hll
  rw [Nat.sub_self]
  show o.isEmpty b.index o.levels = false
  obtain ⟨e, he⟩ := hbe
  obtain ⟨l, hz, rfl⟩ := construct_ok hc
  rw [foldl_levels] at he
  unfold Octree.isEmpty
  rw [foldl_levels]
  have := foldl_leaf _ ⟨l, fun _ => [], fun _ => []⟩ (e, b.index) he
  simp [this]

/-- The octree of the counterexamples: three levels, two elements, in the leaves (0,0,0) and (7,7,7). -/
def badLeafs : Nat → List (Nat × ULong) := fun _ =>
  [(0, (⟨0, 0, 0⟩ : Cell).index), (1, (⟨7, 7, 7⟩ : Cell).index)]

/-- The octree the constructor builds from `badLeafs`. -/
def badOctree : Octree :=
  (badLeafs 3).foldl (fun o en => addElement o en.1 en.2) ⟨3, fun _ => [], fun _ => []⟩

theorem badOctree_constructed : construct 3 5 badLeafs = .ok badOctree := rfl

/-- **C26** Counterexample for three levels: the leaves (0,0,0) and (7,7,7) both contain an element,
are not neighbours, and interact at no level: their interaction is lost. -/
theorem C26_counterexample : ∃ (levels maxLevels : Int) (leafOf : Nat → List (Nat × ULong)) (o : Octree),
    construct levels maxLevels leafOf = .ok o ∧ o.levels = 3 ∧ ∃ a b : Cell, a.In 3 ∧ b.In 3 ∧
      (∃ e, (e, a.index) ∈ leafOf 3) ∧ (∃ e, (e, b.index) ∈ leafOf 3) ∧
      ¬ NearField a b 3 ∧ ∀ l, ¬ Interacts o 3 a b l := by
  refine ⟨3, 5, badLeafs, badOctree, rfl, rfl, ⟨0, 0, 0⟩, ⟨7, 7, 7⟩, ?_, ?_, ⟨0, ?_⟩, ⟨1, ?_⟩, ?_, ?_⟩
  · refine ⟨?_, ?_, ?_⟩ <;> decide
  · refine ⟨?_, ?_, ?_⟩ <;> decide
  · exact List.mem_cons_self
  · exact List.mem_cons_of_mem _ List.mem_cons_self
  · rw [nearField_iff (by norm_num) (by refine ⟨?_, ?_, ?_⟩ <;> decide)
      (by refine ⟨?_, ?_, ?_⟩ <;> decide)]
    decide
  · intro l
    rw [interacts_iff _ (by norm_num) (by refine ⟨?_, ?_, ?_⟩ <;> decide)
      (by refine ⟨?_, ?_, ?_⟩ <;> decide)]
    rintro ⟨h2, h3, hemp, hp, _⟩
    interval_cases l
    · exact absurd hemp (by decide)
    · exact absurd hp (by decide)

/-- Example for the partial theorem: a two-level octree built by the constructor whose leaves (0,0,0)
and (3,3,3) are not neighbours; they interact at exactly one level. -/
example : ∃ o, construct 2 5 (fun _ => [(0, (⟨0, 0, 0⟩ : Cell).index), (1, (⟨3, 3, 3⟩ : Cell).index)]) =
      .ok o ∧ o.levels = 2 ∧ ¬ NearField ⟨0, 0, 0⟩ ⟨3, 3, 3⟩ 2 ∧
      ∃! l, Interacts o 2 ⟨0, 0, 0⟩ ⟨3, 3, 3⟩ l := by
  refine ⟨_, rfl, rfl, ?_⟩
  have hn : ¬ NearField ⟨0, 0, 0⟩ ⟨3, 3, 3⟩ 2 := by
    rw [nearField_iff (by norm_num) (by refine ⟨?_, ?_, ?_⟩ <;> decide)
      (by refine ⟨?_, ?_, ?_⟩ <;> decide)]
    decide
  refine ⟨hn, ?_⟩
  rcases C26_two_levels_partial 2 5
    (fun _ => [(0, (⟨0, 0, 0⟩ : Cell).index), (1, (⟨3, 3, 3⟩ : Cell).index)]) _ rfl (by decide) (by decide) ⟨0, 0, 0⟩ ⟨3, 3, 3⟩
    (by refine ⟨?_, ?_, ?_⟩ <;> decide) (by refine ⟨?_, ?_, ?_⟩ <;> decide)
    ⟨1, List.mem_cons_of_mem _ List.mem_cons_self⟩ with h | h
  · exact absurd h.1 hn
  · exact h.2

/-! ### C27 -/

/-- **C27** (partial: leaf level, one direction)  Whatever the elements and the number of levels, the
leaf of every element is reported non-empty at the leaf level. -/
theorem C27_leaves_nonempty_partial (levels maxLevels : Int) (leafOf : Nat → List (Nat × ULong))
    (o : Octree) (hc : construct levels maxLevels leafOf = .ok o) (e : Nat) (n : ULong)
    (he : (e, n) ∈ leafOf o.levels) : o.isEmpty n o.levels = false := by
  obtain ⟨l, hz, rfl⟩ := construct_ok hc
  rw [foldl_levels] at he
  unfold Octree.isEmpty
  rw [foldl_levels]
  have := foldl_leaf _ ⟨l, fun _ => [], fun _ => []⟩ (e, n) he
  simp [this]

/-- **C27** (partial: what the code does instead)  A cell that is reported non-empty at a level below the
leaf level is the ancestor one level *higher* of some leaf with an element; at the leaf level it is
such a leaf or the parent of one. -/
theorem C27_nodes_one_level_off_partial (levels maxLevels : Int) (leafOf : Nat → List (Nat × ULong))
    (o : Octree) (hc : construct levels maxLevels leafOf = .ok o) (l : Nat) (h1 : 1 ≤ l)
    (n : ULong) (hn : o.isEmpty n l = false) :
    ∃ e leaf, (e, leaf) ∈ leafOf o.levels ∧
      ((l = o.levels ∧ n = leaf) ∨ n = leaf >>> (3 * (o.levels - l + 1))) := by
  obtain ⟨L, hz, rfl⟩ := construct_ok hc
  rw [foldl_levels]
  unfold Octree.isEmpty at hn
  simp only [Bool.not_eq_false', decide_eq_true_eq] at hn
  rcases foldl_nodes _ _ _ _ hn with h | ⟨en, hen, h | h⟩
  · simp at h
  · refine ⟨en.1, en.2, hen, Or.inl ⟨?_, h.2⟩⟩
    have h2 := h.1
    simp only at h2 ⊢
    by_contra hne
    apply hz
    refine ⟨by omega, ?_⟩
    intro he
    rw [he] at hen
    simp at hen
  · refine ⟨en.1, en.2, hen, Or.inr ?_⟩
    have h2 := h.1
    simp only at h2
    rw [h.2]
    simp only
    congr 2
    omega

/-- **C27** Counterexample: in the three-level octree with elements in the leaves (0,0,0) and (7,7,7),
the level-2 ancestor (3,3,3) of the second leaf is reported empty, and the level-3 cell (3,3,3), which
contains no element, is reported non-empty. -/
theorem C27_counterexample : construct 3 5 badLeafs = .ok badOctree ∧
    badOctree.isEmpty ((⟨7, 7, 7⟩ : Cell).up 1).index 2 = true ∧
    badOctree.isEmpty (⟨3, 3, 3⟩ : Cell).index 3 = false ∧
    ∀ en ∈ badLeafs 3, en.2 ≠ (⟨3, 3, 3⟩ : Cell).index := by
  refine ⟨rfl, by decide, by decide, by decide⟩

/-- **C27** An octree with zero levels (`levels = 0`, or a grid whose width is less than four element
diameters) is not constructed at all: the constructor writes to `m_Nodes[-1]`. -/
theorem C27_zero_levels_undefined (maxLevels : Int) (h : 0 ≤ maxLevels)
    (leafOf : Nat → List (Nat × ULong)) (hne : leafOf 0 ≠ []) :
    construct 0 maxLevels leafOf = .undefinedBehaviour := by
  unfold construct
  have : ¬ ((0 : Int) < 0 ∨ (0 : Int) > maxLevels) := by omega
  simp only [this, if_false]
  simp [hne]

/-! ### C28 -/

/-- **C28** For every point of the (cubic) bounding box and up to ten levels, `getLeafContainingPoint`
succeeds and returns a leaf whose cube, as given by `cubeBounds`, contains the point: half-open in
each direction, except that points on the upper boundary of the box go to the last cell. -/
theorem C28_leaf_contains_point (lb ub p : R3) (w : ℝ) (hw : 0 < w) (hub : ub = ⟨lb.x + w, lb.y + w, lb.z + w⟩)
    (levels : Nat) (hl : levels ≤ 10)
    (hx : lb.x ≤ p.x ∧ p.x ≤ ub.x) (hy : lb.y ≤ p.y ∧ p.y ≤ ub.y) (hz : lb.z ≤ p.z ∧ p.z ≤ ub.z) :
    ∃ n, getLeafContainingPoint lb ub levels p = .ok n ∧ n.toNat < 8 ^ levels ∧
      (let (lo, hi) := cubeBounds lb ub n levels
       (lo.x ≤ p.x ∧ (p.x < hi.x ∨ (p.x = ub.x ∧ hi.x = ub.x))) ∧
       (lo.y ≤ p.y ∧ (p.y < hi.y ∨ (p.y = ub.y ∧ hi.y = ub.y))) ∧
       (lo.z ≤ p.z ∧ (p.z < hi.z ∨ (p.z = ub.z ∧ hi.z = ub.z)))) := by
  obtain ⟨c, hc, he, ex, ey, ez⟩ := leaf_cell lb ub levels hl p
  refine ⟨c.index, he, by rw [Cell.index_toNat]; exact zcode_lt_level hl hc, ?_⟩
  rw [cubeBounds_cell lb ub hl hc]
  simp only
  have hpos : 0 < 2 ^ levels := by positivity
  have wx : ub.x - lb.x = w := by rw [hub]; ring
  have wy : ub.y - lb.y = w := by rw [hub]; ring
  have wz : ub.z - lb.z = w := by rw [hub]; ring
  have top : ∀ (b u : ℝ) (k : Nat), u - b = w → k = 2 ^ levels - 1 →
      b + ((k : ℝ) + 1) * (w / (2 ^ levels : Nat)) = u := by
    intro b u k hb hk
    have : (k : ℝ) + 1 = ((2 ^ levels : Nat) : ℝ) := by
      rw [hk, Nat.cast_sub (by omega)]; push_cast; ring
    rw [this]
    have h0 : ((2 ^ levels : Nat) : ℝ) ≠ 0 := by positivity
    field_simp
    linarith
  obtain ⟨_, a1, a2⟩ := cellCoord_spec p.x lb.x ub.x _ hpos (by linarith) hx.1 hx.2
  obtain ⟨_, b1, b2⟩ := cellCoord_spec p.y lb.y ub.y _ hpos (by linarith) hy.1 hy.2
  obtain ⟨_, c1, c2⟩ := cellCoord_spec p.z lb.z ub.z _ hpos (by linarith) hz.1 hz.2
  rw [← ex] at a1 a2
  rw [← ey] at b1 b2
  rw [← ez] at c1 c2
  rw [wx] at a1 a2 ⊢
  rw [wy] at b1 b2
  rw [wz] at c1 c2
  refine ⟨⟨a1, ?_⟩, ⟨b1, ?_⟩, ⟨c1, ?_⟩⟩
  · rcases a2 with h | ⟨h, hk⟩
    · exact Or.inl h
    · exact Or.inr ⟨h, top _ _ _ wx hk⟩
  · rcases b2 with h | ⟨h, hk⟩
    · exact Or.inl h
    · exact Or.inr ⟨h, top _ _ _ wy hk⟩
  · rcases c2 with h | ⟨h, hk⟩
    · exact Or.inl h
    · exact Or.inr ⟨h, top _ _ _ wz hk⟩

/-- **C28** The box used by the octree has the required shape and contains the grid's bounding box. -/
theorem C28_extended_box (lb ub : R3) (h : lb.x ≤ ub.x ∧ lb.y ≤ ub.y ∧ lb.z ≤ ub.z) :
    ∃ w, 0 ≤ w ∧ extendBox lb ub = ⟨lb.x + w, lb.y + w, lb.z + w⟩ ∧
      ub.x ≤ (extendBox lb ub).x ∧ ub.y ≤ (extendBox lb ub).y ∧ ub.z ≤ (extendBox lb ub).z := by
  have h1 := le_max_left (ub.x - lb.x) (ub.y - lb.y)
  have h2 := le_max_right (ub.x - lb.x) (ub.y - lb.y)
  have h3 := le_max_left (max (ub.x - lb.x) (ub.y - lb.y)) (ub.z - lb.z)
  have h4 := le_max_right (max (ub.x - lb.x) (ub.y - lb.y)) (ub.z - lb.z)
  refine ⟨max (max (ub.x - lb.x) (ub.y - lb.y)) (ub.z - lb.z), ?_, rfl, ?_, ?_, ?_⟩
  · linarith [h.1]
  · simp only [extendBox]; linarith
  · simp only [extendBox]; linarith
  · simp only [extendBox]; linarith

/-- Example: the hypotheses of C28 hold for the unit cube, a corner point and three levels. -/
example : ∃ n, getLeafContainingPoint ⟨0, 0, 0⟩ ⟨1, 1, 1⟩ 3 ⟨1, 0, 1 / 2⟩ = .ok n ∧ n.toNat < 8 ^ 3 := by
  obtain ⟨n, h1, h2, _⟩ := C28_leaf_contains_point ⟨0, 0, 0⟩ ⟨1, 1, 1⟩ ⟨1, 0, 1 / 2⟩ 1 (by norm_num)
    (by norm_num) 3 (by norm_num) (by norm_num) (by norm_num) (by norm_num)
  exact ⟨n, h1, h2⟩

/-! ### C55 -/

/-- **C55** The entities stored for a leaf are exactly the elements whose centroid lies in it, in
iteration order. -/
theorem C55_leaf_entities (levels maxLevels : Int) (leafOf : Nat → List (Nat × ULong)) (o : Octree)
    (hc : construct levels maxLevels leafOf = .ok o) (n : ULong) :
    o.leafs n = ((leafOf o.levels).filter fun en => decide (en.2 = n)).map (·.1) := by
  obtain ⟨l, hz, rfl⟩ := construct_ok hc
  rw [foldl_leafs, foldl_levels]
  rfl

/-- Example. -/
example : badOctree.leafs (⟨7, 7, 7⟩ : Cell).index = [1] := by
  rw [C55_leaf_entities 3 5 badLeafs badOctree rfl]; decide

/-! ### C56 -/

/-- **C56** Every corner of an element lies in the extended cube of the leaf that contains the
element's centroid, provided no element is degenerate. -/
theorem C56_extended_cube_contains_element (lb ub : R3) (w : ℝ) (hw : 0 < w)
    (hub : ub = ⟨lb.x + w, lb.y + w, lb.z + w⟩) (levels : Nat) (hl : levels ≤ 10)
    (ts : List (R3 × R3 × R3)) (t : R3 × R3 × R3) (ht : t ∈ ts)
    (hnd : 0 < ((t.2.1.sub t.1).cross (t.2.2.sub t.1)).norm)
    (hx : lb.x ≤ (centroid t).x ∧ (centroid t).x ≤ ub.x)
    (hy : lb.y ≤ (centroid t).y ∧ (centroid t).y ≤ ub.y)
    (hz : lb.z ≤ (centroid t).z ∧ (centroid t).z ≤ ub.z) :
    ∃ n, getLeafContainingPoint lb ub levels (centroid t) = .ok n ∧
      ∀ v, v = t.1 ∨ v = t.2.1 ∨ v = t.2.2 →
        (let (lo, hi) := extendedCubeBounds lb ub (extensionSize ts) n levels
         (lo.x ≤ v.x ∧ v.x ≤ hi.x) ∧ (lo.y ≤ v.y ∧ v.y ≤ hi.y) ∧ (lo.z ≤ v.z ∧ v.z ≤ hi.z)) := by
  obtain ⟨n, hn, _, hcube⟩ :=
    C28_leaf_contains_point lb ub (centroid t) w hw hub levels hl hx hy hz
  refine ⟨n, hn, ?_⟩
  obtain ⟨s1, s2, s3⟩ := sides_le_diam t hnd
  have hmax := diam_le_max ts t ht
  have hd0 : 0 ≤ elementDiam t := le_trans (norm_nonneg _) s1
  have hext : elementDiam t ≤ extensionSize ts := by unfold extensionSize; linarith
  unfold extendedCubeBounds
  rcases hb : cubeBounds lb ub n levels with ⟨lo, hi⟩
  rw [hb] at hcube
  obtain ⟨⟨x1, x2⟩, ⟨y1, y2⟩, ⟨z1, z2⟩⟩ := hcube
  have x3 : (centroid t).x ≤ hi.x := by rcases x2 with h | h <;> linarith [h]
  have y3 : (centroid t).y ≤ hi.y := by rcases y2 with h | h <;> linarith [h]
  have z3 : (centroid t).z ≤ hi.z := by rcases z2 with h | h <;> linarith [h]
  obtain ⟨a1, a2, a3⟩ := comp_le (t.2.1.sub t.1)
  obtain ⟨b1, b2, b3⟩ := comp_le (t.2.2.sub t.1)
  obtain ⟨c1, c2, c3⟩ := comp_le ((t.2.1.sub t.1).sub (t.2.2.sub t.1))
  generalize (t.2.1.sub t.1).norm = na at *
  generalize (t.2.2.sub t.1).norm = nb at *
  generalize ((t.2.1.sub t.1).sub (t.2.2.sub t.1)).norm = nc at *
  generalize elementDiam t = D at *
  generalize extensionSize ts = E at *
  obtain ⟨⟨p1, p2, p3⟩, ⟨q1, q2, q3⟩, ⟨r1, r2, r3⟩⟩ := t
  simp only [R3.sub, centroid, abs_le] at *
  intro v hv
  rcases hv with rfl | rfl | rfl <;> simp only <;> refine ⟨⟨?_, ?_⟩, ⟨?_, ?_⟩, ⟨?_, ?_⟩⟩ <;> linarith

/-- Example: one triangle in the unit cube. -/
example : ∃ n, getLeafContainingPoint ⟨0, 0, 0⟩ ⟨1, 1, 1⟩ 2
    (centroid (⟨0, 0, 0⟩, ⟨1, 0, 0⟩, ⟨0, 1, 0⟩)) = .ok n := by
  obtain ⟨n, h, _⟩ := C56_extended_cube_contains_element ⟨0, 0, 0⟩ ⟨1, 1, 1⟩ 1 (by norm_num)
    (by norm_num) 2 (by norm_num) [(⟨0, 0, 0⟩, ⟨1, 0, 0⟩, ⟨0, 1, 0⟩)] (⟨0, 0, 0⟩, ⟨1, 0, 0⟩, ⟨0, 1, 0⟩)
    List.mem_cons_self (by simp [R3.cross, R3.sub, R3.norm]) (by norm_num [centroid])
    (by norm_num [centroid]) (by norm_num [centroid])
  exact ⟨n, h⟩

end Verif.Fmm
