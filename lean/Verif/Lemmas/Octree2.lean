import Verif.Lemmas.Octree
/-
Interaction lists and the constructor of the octree.
-/
namespace Verif.Fmm

theorem Cell.near_parent {a b : Cell} (h : a.Near b) : a.parent.Near b.parent := by
  obtain ⟨⟨h1, h2⟩, ⟨h3, h4⟩, ⟨h5, h6⟩⟩ := h
  simp only [Cell.Near, Cell.parent]
  omega

theorem Cell.near_of_parent_eq {a b : Cell} (h : a.parent = b.parent) : a.Near b := by
  simp only [Cell.parent, Cell.mk.injEq] at h
  simp only [Cell.Near]
  omega

theorem childLoop_eq {p : Cell} {l : Nat} (hl : l + 1 ≤ 10) (hp : p.In l) :
    childLoop (getFirstChild p.index) (getLastChild p.index) =
      (List.range 8).map fun i => getFirstChild p.index + BitVec.ofNat 64 i := by
  unfold childLoop
  rw [Cell.firstChild_toNat hl hp, Cell.lastChild_toNat hl hp]
  have : 8 * zcode 10 p.x p.y p.z + 7 - 8 * zcode 10 p.x p.y p.z + 1 = 8 := by omega
  rw [this]

theorem child_toNat {p : Cell} {l : Nat} (hl : l + 1 ≤ 10) (hp : p.In l) {i : Nat} (hi : i < 8) :
    (getFirstChild p.index + BitVec.ofNat 64 i).toNat = 8 * zcode 10 p.x p.y p.z + i := by
  rw [BitVec.toNat_add, Cell.firstChild_toNat hl hp, BitVec.toNat_ofNat]
  have := zcode_lt 10 p.x p.y p.z
  rw [Nat.mod_eq_of_lt (show i < 2 ^ 64 by omega), Nat.mod_eq_of_lt]
  omega

theorem mem_childLoop {p : Cell} {l : Nat} (hl : l + 1 ≤ 10) (hp : p.In l) (n : ULong) :
    n ∈ childLoop (getFirstChild p.index) (getLastChild p.index) ↔
      ∃ d : Cell, d.In (l + 1) ∧ d.parent = p ∧ n = d.index := by
  rw [childLoop_eq hl hp]
  simp only [List.mem_map, List.mem_range]
  constructor
  · rintro ⟨i, hi, rfl⟩
    have ht := child_toNat hl hp hi
    have hlt := zcode_lt_level (show l ≤ 10 by omega) hp
    obtain ⟨d, hd, he⟩ := exists_cell hl (getFirstChild p.index + BitVec.ofNat 64 i)
      (by rw [ht, pow_succ]; omega)
    refine ⟨d, hd, ?_, he.symm⟩
    apply Cell.index_inj (show l ≤ 10 by omega) (Cell.parent_in hd) hp
    apply BitVec.eq_of_toNat_eq
    rw [Cell.index_toNat, Cell.index_toNat, ← zcode_parent hl hd, ← Cell.index_toNat, he, ht]
    omega
  · rintro ⟨d, hd, rfl, rfl⟩
    have hz := zcode_parent hl hd
    refine ⟨zcode 10 d.x d.y d.z % 8, Nat.mod_lt _ (by norm_num), ?_⟩
    apply BitVec.eq_of_toNat_eq
    rw [child_toNat hl hp (Nat.mod_lt _ (by norm_num)), ← hz, Cell.index_toNat]
    omega

theorem childLoop_nodup {p : Cell} {l : Nat} (hl : l + 1 ≤ 10) (hp : p.In l) :
    (childLoop (getFirstChild p.index) (getLastChild p.index)).Nodup := by
  rw [childLoop_eq hl hp]
  apply List.Nodup.map_on
  · intro i hi j hj h
    rw [List.mem_range] at hi hj
    have := congrArg BitVec.toNat h
    rw [child_toNat hl hp hi, child_toNat hl hp hj] at this
    omega
  · exact List.nodup_range

theorem interactionList_spec (o : Octree) {c : Cell} {l : Nat} (hl1 : 1 < l) (hl : l ≤ 10)
    (h : c.In l) :
    ∃ L, interactionList o c.index l = .ok L ∧ L.Nodup ∧
      ∀ n, n ∈ L ↔ ∃ d : Cell, d.In l ∧ n = d.index ∧ o.isEmpty d.index l = false ∧
        d.parent.Near c.parent ∧ ¬ d.Near c := by
  obtain ⟨q, rfl⟩ : ∃ q, l = q + 1 := ⟨l - 1, by omega⟩
  have hpin := Cell.parent_in h
  obtain ⟨L1, e1, nd1, m1⟩ := neighbors_spec (show q ≤ 10 by omega) hpin
  obtain ⟨L2, e2, nd2, m2⟩ := neighbors_spec hl h
  refine ⟨L1.flatMap fun nb => (childLoop (getFirstChild nb) (getLastChild nb)).filter fun c =>
        !o.isEmpty c (q + 1) && !decide (c ∈ L2), ?_, ?_, ?_⟩
  · unfold interactionList
    rw [if_pos hl1, Cell.parent_index hl h, Nat.add_sub_cancel, e1, e2]
    rfl
  · rw [List.nodup_flatMap]
    constructor
    · intro nb hnb
      obtain ⟨p, hp, _, _, rfl⟩ := (m1 nb).mp hnb
      exact (childLoop_nodup hl hp).filter _
    · refine nd1.imp_of_mem ?_
      intro a b ha hb hab
      obtain ⟨pa, hpa, _, _, rfl⟩ := (m1 a).mp ha
      obtain ⟨pb, hpb, _, _, rfl⟩ := (m1 b).mp hb
      intro n hna hnb
      obtain ⟨d, hd, hdp, rfl⟩ := (mem_childLoop hl hpa n).mp (List.mem_of_mem_filter hna)
      obtain ⟨d', hd', hdp', he⟩ := (mem_childLoop hl hpb _).mp (List.mem_of_mem_filter hnb)
      have := Cell.index_inj hl hd hd' he
      subst this
      apply hab
      rw [← hdp, ← hdp']
  · intro n
    simp only [List.mem_flatMap, List.mem_filter, Bool.and_eq_true, Bool.not_eq_true',
      decide_eq_false_iff_not]
    constructor
    · rintro ⟨nb, hnb, hn, hemp, hnot⟩
      obtain ⟨p, hp, hne, hnear, rfl⟩ := (m1 nb).mp hnb
      obtain ⟨d, hd, rfl, rfl⟩ := (mem_childLoop hl hp n).mp hn
      refine ⟨d, hd, rfl, hemp, hnear, ?_⟩
      intro hdc
      apply hnot
      rw [m2]
      exact ⟨d, hd, fun he => hne (by rw [he]), hdc, rfl⟩
    · rintro ⟨d, hd, rfl, hemp, hnear, hfar⟩
      have hne : d.parent ≠ c.parent := fun he => hfar (Cell.near_of_parent_eq he)
      refine ⟨d.parent.index, ?_, ?_, hemp, ?_⟩
      · rw [m1]; exact ⟨d.parent, Cell.parent_in hd, hne, hnear, rfl⟩
      · rw [mem_childLoop hl (Cell.parent_in hd)]; exact ⟨d, hd, rfl, rfl⟩
      · rw [m2]
        rintro ⟨d', hd', _, hn', he⟩
        rw [Cell.index_inj hl hd hd' he] at hfar
        exact hfar hn'

/-! ### Ancestors -/

theorem Cell.up_in {c : Cell} {L : Nat} (h : c.In L) : ∀ k, k ≤ L → (c.up k).In (L - k) := by
  intro k
  induction k with
  | zero => intro _; exact h
  | succ k ih =>
    intro hk
    have := ih (by omega)
    have e : L - k = (L - (k + 1)) + 1 := by omega
    rw [e] at this
    exact Cell.parent_in this

/-- The levels at which the ancestors of `a` and `b` are near form an initial segment. -/
theorem near_up_mono {a b : Cell} {k k' : Nat} (hkk : k ≤ k') (h : (a.up k).Near (b.up k)) :
    (a.up k').Near (b.up k') := by
  induction k', hkk using Nat.le_induction with
  | base => exact h
  | succ n hn ih => exact Cell.near_parent ih

theorem near_level_one {a b : Cell} (ha : a.In 1) (hb : b.In 1) : a.Near b := by
  obtain ⟨h1, h2, h3⟩ := ha
  obtain ⟨h4, h5, h6⟩ := hb
  simp only [Cell.Near]
  omega

/-! ### The constructor -/

theorem insertNode_mono (nodes : Nat → List ULong) (k : Nat) (n : ULong) (q : Nat) :
    ∀ x ∈ nodes q, x ∈ insertNode nodes k n q := by
  intro x hx
  unfold insertNode
  by_cases hq : q = k
  · subst hq
    rw [Function.update_self]
    split
    · exact hx
    · exact List.mem_cons_of_mem _ hx
  · rw [Function.update_of_ne hq]; exact hx

theorem mem_insertNode (nodes : Nat → List ULong) (k : Nat) (n : ULong) (q : Nat) (x : ULong) :
    x ∈ insertNode nodes k n q ↔ x ∈ nodes q ∨ (q = k ∧ x = n) := by
  unfold insertNode
  by_cases hq : q = k
  · subst hq
    rw [Function.update_self]
    split
    · rename_i h
      constructor
      · intro hx; exact Or.inl hx
      · rintro (hx | ⟨_, rfl⟩)
        · exact hx
        · exact h
    · simp only [List.mem_cons, true_and]; tauto
  · rw [Function.update_of_ne hq]; simp [hq]

theorem markParents_mono (level : Nat) : ∀ (p : ULong) (nodes : Nat → List ULong) (q : Nat),
    ∀ x ∈ nodes q, x ∈ markParents level p nodes q := by
  induction level with
  | zero => intro _ _ _ x hx; exact hx
  | succ l ih => intro p nodes q x hx; exact ih _ _ _ _ (insertNode_mono _ _ _ _ _ hx)

/-- What `markParents` inserts. -/
theorem mem_markParents (level : Nat) : ∀ (p : ULong) (nodes : Nat → List ULong) (q : Nat) (x : ULong),
    x ∈ markParents level p nodes q ↔
      x ∈ nodes q ∨ (q < level ∧ x = p >>> (3 * (level - q))) := by
  induction level with
  | zero => intro p nodes q x; simp [markParents]
  | succ l ih =>
    intro p nodes q x
    rw [markParents, ih, mem_insertNode]
    have key : q ≤ l → getParent p >>> (3 * (l - q)) = p >>> (3 * (l + 1 - q)) := by
      intro hq
      unfold getParent
      rw [← BitVec.shiftRight_add]
      congr 1; omega
    constructor
    · rintro ((h | ⟨rfl, rfl⟩) | ⟨hq, rfl⟩)
      · exact Or.inl h
      · refine Or.inr ⟨by omega, ?_⟩
        have := key (le_refl _)
        simpa using this
      · exact Or.inr ⟨by omega, key (by omega)⟩
    · rintro (h | ⟨hq, rfl⟩)
      · exact Or.inl (Or.inl h)
      · by_cases hql : q = l
        · subst hql
          refine Or.inl (Or.inr ⟨rfl, ?_⟩)
          have := key (le_refl _)
          simpa using this.symm
        · exact Or.inr ⟨by omega, (key (by omega)).symm⟩

theorem addElement_levels (o : Octree) (e : Nat) (n : ULong) : (addElement o e n).levels = o.levels := rfl

theorem foldl_levels (es : List (Nat × ULong)) : ∀ o : Octree,
    (es.foldl (fun o en => addElement o en.1 en.2) o).levels = o.levels := by
  induction es with
  | nil => intro o; rfl
  | cons e es ih => intro o; rw [List.foldl_cons, ih, addElement_levels]

theorem addElement_mono (o : Octree) (e : Nat) (n : ULong) (q : Nat) :
    ∀ x ∈ o.nodes q, x ∈ (addElement o e n).nodes q := by
  intro x hx
  unfold addElement
  simp only
  split
  · exact hx
  · exact markParents_mono _ _ _ _ _ (insertNode_mono _ _ _ _ _ hx)

theorem foldl_mono (es : List (Nat × ULong)) : ∀ (o : Octree) (q : Nat), ∀ x ∈ o.nodes q,
    x ∈ (es.foldl (fun o en => addElement o en.1 en.2) o).nodes q := by
  induction es with
  | nil => intro o q x hx; exact hx
  | cons e es ih => intro o q x hx; exact ih _ _ _ (addElement_mono _ _ _ _ _ hx)

theorem foldl_leaf (es : List (Nat × ULong)) : ∀ (o : Octree), ∀ en ∈ es,
    en.2 ∈ (es.foldl (fun o en => addElement o en.1 en.2) o).nodes (o.levels - 1) := by
  induction es with
  | nil => intro o en h; simp at h
  | cons e es ih =>
    intro o en h
    rw [List.foldl_cons]
    rcases List.mem_cons.mp h with rfl | h
    · apply foldl_mono
      unfold addElement
      simp only
      split
      · assumption
      · apply markParents_mono
        rw [mem_insertNode]; exact Or.inr ⟨rfl, rfl⟩
    · have := ih (addElement o e.1 e.2) en h
      rwa [addElement_levels] at this

theorem foldl_nodes (es : List (Nat × ULong)) : ∀ (o : Octree) (q : Nat), ∀ x,
    x ∈ (es.foldl (fun o en => addElement o en.1 en.2) o).nodes q →
      x ∈ o.nodes q ∨ ∃ en ∈ es, (q = o.levels - 1 ∧ x = en.2) ∨
        (q < o.levels ∧ x = en.2 >>> (3 * (o.levels - q))) := by
  induction es with
  | nil => intro o q x h; exact Or.inl h
  | cons e es ih =>
    intro o q x h
    rw [List.foldl_cons] at h
    rcases ih _ _ _ h with h | ⟨en, hen, h⟩
    · unfold addElement at h
      simp only at h
      split at h
      · exact Or.inl h
      · rw [mem_markParents, mem_insertNode] at h
        rcases h with (h | h) | h
        · exact Or.inl h
        · exact Or.inr ⟨e, List.mem_cons_self, Or.inl h⟩
        · exact Or.inr ⟨e, List.mem_cons_self, Or.inr h⟩
    · rw [addElement_levels] at h
      exact Or.inr ⟨en, List.mem_cons_of_mem _ hen, h⟩

theorem foldl_leafs (es : List (Nat × ULong)) : ∀ (o : Octree) (n : ULong),
    (es.foldl (fun o en => addElement o en.1 en.2) o).leafs n =
      o.leafs n ++ (es.filter (fun en => decide (en.2 = n))).map (·.1) := by
  induction es with
  | nil => intro o n; simp
  | cons e es ih =>
    intro o n
    rw [List.foldl_cons, ih, List.filter_cons]
    unfold addElement
    simp only
    by_cases h : e.2 = n
    · subst h; simp
    · rw [Function.update_of_ne (Ne.symm h)]; simp [h]

end Verif.Fmm
