import Verif.Lemmas.ClusterTree
import Verif.Lemmas.TreeNode
import Verif.Lemmas.BoundingBox
import Verif.Spec.Block
/-
Lemmas about block cluster trees.
-/
namespace Verif.HMat
open CTree NTree
variable {G : Type}

theorem oversized_false {maxB : Int} {r c : CTree G} :
    oversized maxB r c = false ↔ r.size ≤ toSizeT maxB ∧ c.size ≤ toSizeT maxB := by
  simp [oversized, and_comm]

theorem splitBlock_stop (admFun : NodeData G → NodeData G → Bool) (maxB : Int)
    (row col : CTree G) (flag : Bool)
    (h : (flag = true ∧ oversized maxB row col = false) ∨ row.isLeaf = true ∨ col.isLeaf = true) :
    splitBlock admFun maxB row col flag = .node ⟨row, col, flag⟩ [] := by
  unfold splitBlock
  rcases h with ⟨h1, h2⟩ | h | h
  · simp [h1, h2]
  · cases row with
    | leaf d ix => simp
    | node d ix l r => simp [CTree.isLeaf] at h
  · cases col with
    | leaf d ix => cases row <;> simp
    | node d ix l r => simp [CTree.isLeaf] at h

theorem splitBlock_refine (admFun : NodeData G → NodeData G → Bool) (maxB : Int)
    (d : NodeData G) (ix : List Nat) (r0 r1 : CTree G) (d' : NodeData G) (ix' : List Nat)
    (c0 c1 : CTree G) (flag : Bool)
    (h : ¬ (flag = true ∧ oversized maxB (.node d ix r0 r1) (.node d' ix' c0 c1) = false)) :
    splitBlock admFun maxB (.node d ix r0 r1) (.node d' ix' c0 c1) flag =
      .node ⟨.node d ix r0 r1, .node d' ix' c0 c1, flag⟩
        [splitBlock admFun maxB r0 c0 (admFun d d'), splitBlock admFun maxB r0 c1 (admFun d d'),
         splitBlock admFun maxB r1 c0 (admFun d d'), splitBlock admFun maxB r1 c1 (admFun d d')] := by
  conv_lhs => unfold splitBlock
  rw [if_neg]
  intro h'
  apply h
  by_cases ho : oversized maxB (.node d ix r0 r1) (.node d' ix' c0 c1) = true
  · simp [ho] at h'
  · rw [if_neg ho] at h'
    exact ⟨h', by simpa using ho⟩

theorem splitBlock_data (admFun : NodeData G → NodeData G → Bool) (maxB : Int)
    (row col : CTree G) (flag : Bool) :
    (splitBlock admFun maxB row col flag).data = ⟨row, col, flag⟩ := by
  by_cases h : (flag = true ∧ oversized maxB row col = false) ∨ row.isLeaf = true ∨ col.isLeaf = true
  · rw [splitBlock_stop _ _ _ _ _ h]; rfl
  · cases row with
    | leaf d ix => simp [CTree.isLeaf] at h
    | node d ix r0 r1 =>
      cases col with
      | leaf d ix => simp [CTree.isLeaf] at h
      | node d' ix' c0 c1 =>
        rw [splitBlock_refine _ _ _ _ _ _ _ _ _ _ _ (fun x => h (Or.inl x))]; rfl

theorem splitBlock_children_adm (admFun : NodeData G → NodeData G → Bool) (maxB : Int)
    (row col : CTree G) (flag : Bool) :
    ∀ s ∈ allNodes (splitBlock admFun maxB row col flag), ∀ c ∈ s.children,
      c.data.adm = admFun s.data.row.data s.data.col.data := by
  have stopped : ∀ r c : CTree G, ∀ s ∈ allNodes (.node ⟨r, c, flag⟩ [] : NTree (BlockData G)),
      ∀ c ∈ s.children, c.data.adm = admFun s.data.row.data s.data.col.data := by
    intro r c s hs
    simp only [allNodes, allNodesL, List.mem_singleton] at hs
    subst hs; simp [children]
  induction row generalizing col flag with
  | leaf d ix =>
    rw [splitBlock_stop _ _ _ _ _ (Or.inr (Or.inl rfl))]; exact stopped _ _
  | node d ix r0 r1 ih0 ih1 =>
    by_cases hs : (flag = true ∧ oversized maxB (.node d ix r0 r1) col = false) ∨ col.isLeaf = true
    · have hs' : (flag = true ∧ oversized maxB (.node d ix r0 r1) col = false) ∨
          (CTree.node d ix r0 r1).isLeaf = true ∨ col.isLeaf = true :=
        hs.elim Or.inl fun x => Or.inr (Or.inr x)
      rw [splitBlock_stop _ _ _ _ _ hs']; exact stopped _ _
    · rw [not_or] at hs
      cases col with
      | leaf d' ix' => simp [CTree.isLeaf] at hs
      | node d' ix' c0 c1 =>
        have st : ∀ f : Bool, ∀ r c : CTree G, ∀ s ∈ allNodes (.node ⟨r, c, f⟩ [] : NTree (BlockData G)),
            ∀ c ∈ s.children, c.data.adm = admFun s.data.row.data s.data.col.data := by
          intro f r c s hs
          simp only [allNodes, allNodesL, List.mem_singleton] at hs
          subst hs; simp [children]
        rw [splitBlock_refine _ _ _ _ _ _ _ _ _ _ _ hs.1]
        intro s hs
        simp only [allNodes, allNodesL, List.append_nil, List.mem_append, List.mem_cons] at hs
        rcases hs with rfl | hs | hs | hs | hs
        · intro c hc
          simp only [children, List.mem_cons, List.not_mem_nil, or_false] at hc
          rcases hc with rfl | rfl | rfl | rfl <;> rw [splitBlock_data] <;> rfl
        · exact ih0 _ _ (st _) s hs
        · exact ih0 _ _ (st _) s hs
        · exact ih1 _ _ (st _) s hs
        · exact ih1 _ _ (st _) s hs

/-- Induction principle: a predicate that is preserved by splitting holds for all leaves, and a leaf
is either admissible and not oversized, or one of its clusters is a leaf. -/
theorem splitBlock_leaves (admFun : NodeData G → NodeData G → Bool) (maxB : Int)
    (P : CTree G → CTree G → Bool → Prop)
    (step : ∀ d ix r0 r1 d' ix' c0 c1 f, P (.node d ix r0 r1) (.node d' ix' c0 c1) f →
      P r0 c0 (admFun d d') ∧ P r0 c1 (admFun d d') ∧ P r1 c0 (admFun d d') ∧ P r1 c1 (admFun d d'))
    (row col : CTree G) (flag : Bool) (h : P row col flag) :
    ∀ b ∈ allLeaves (splitBlock admFun maxB row col flag),
      P b.data.row b.data.col b.data.adm ∧
      ((b.data.adm = true ∧ oversized maxB b.data.row b.data.col = false) ∨
        b.data.row.isLeaf = true ∨ b.data.col.isLeaf = true) := by
  induction row generalizing col flag with
  | leaf d ix =>
    intro b hb
    rw [splitBlock_stop _ _ _ _ _ (Or.inr (Or.inl rfl))] at hb
    simp only [allLeaves, List.mem_singleton] at hb
    subst hb; simpa [NTree.data, CTree.isLeaf] using h
  | node d ix r0 r1 ih0 ih1 =>
    intro b hb
    by_cases hs : (flag = true ∧ oversized maxB (.node d ix r0 r1) col = false) ∨ col.isLeaf = true
    · have hs' : (flag = true ∧ oversized maxB (.node d ix r0 r1) col = false) ∨
          (CTree.node d ix r0 r1).isLeaf = true ∨ col.isLeaf = true :=
        hs.elim Or.inl fun x => Or.inr (Or.inr x)
      rw [splitBlock_stop _ _ _ _ _ hs'] at hb
      simp only [allLeaves, List.mem_singleton] at hb
      subst hb
      exact ⟨h, hs'⟩
    · rw [not_or] at hs
      cases col with
      | leaf d' ix' => simp [CTree.isLeaf] at hs
      | node d' ix' c0 c1 =>
        rw [splitBlock_refine _ _ _ _ _ _ _ _ _ _ _ hs.1] at hb
        obtain ⟨p00, p01, p10, p11⟩ := step _ _ _ _ _ _ _ _ _ h
        simp only [allLeaves, allLeavesL, List.append_nil, List.mem_append] at hb
        rcases hb with hb | hb | hb | hb
        · exact ih0 _ _ p00 b hb
        · exact ih0 _ _ p01 b hb
        · exact ih1 _ _ p10 b hb
        · exact ih1 _ _ p11 b hb

theorem leaf_cover (i j : Nat) (r c : CTree G) (f : Bool) :
    ((allLeaves (.node ⟨r, c, f⟩ [] : NTree (BlockData G))).countP fun b => b.data.covers i j) =
      if r.data.lo ≤ i ∧ i < r.data.hi ∧ c.data.lo ≤ j ∧ j < c.data.hi then 1 else 0 := by
  by_cases h : r.data.lo ≤ i ∧ i < r.data.hi ∧ c.data.lo ≤ j ∧ j < c.data.hi
  · rw [if_pos h]
    simp [allLeaves, NTree.data, BlockData.covers, h]
  · rw [if_neg h]
    have : BlockData.covers i j ⟨r, c, f⟩ = false := decide_eq_false h
    simp [allLeaves, NTree.data, this]

theorem splitBlock_cover {geo geo' : List Nat → G} {minB minB' : Int}
    (admFun : NodeData G → NodeData G → Bool) (maxB : Int)
    (row col : CTree G) (hr : Good geo minB row) (hc : Good geo' minB' col) (flag : Bool) (i j : Nat) :
    (allLeaves (splitBlock admFun maxB row col flag)).countP (fun b => b.data.covers i j) =
      if row.data.lo ≤ i ∧ i < row.data.hi ∧ col.data.lo ≤ j ∧ j < col.data.hi then 1 else 0 := by
  induction row generalizing col flag with
  | leaf d ix => rw [splitBlock_stop _ _ _ _ _ (Or.inr (Or.inl rfl)), leaf_cover]
  | node d ix r0 r1 ih0 ih1 =>
    by_cases hs : (flag = true ∧ oversized maxB (.node d ix r0 r1) col = false) ∨ col.isLeaf = true
    · have hs' : (flag = true ∧ oversized maxB (.node d ix r0 r1) col = false) ∨
          (CTree.node d ix r0 r1).isLeaf = true ∨ col.isLeaf = true :=
        hs.elim Or.inl fun x => Or.inr (Or.inr x)
      rw [splitBlock_stop _ _ _ _ _ hs', leaf_cover]
    · rw [not_or] at hs
      cases col with
      | leaf d' ix' => simp [CTree.isLeaf] at hs
      | node d' ix' c0 c1 =>
        rw [splitBlock_refine _ _ _ _ _ _ _ _ _ _ _ hs.1]
        obtain ⟨_, _, _, _, h1, h2, h3, h4, h5, _, _, _, hr0, hr1⟩ := id hr
        obtain ⟨_, _, _, _, k1, k2, k3, k4, k5, _, _, _, hc0, hc1⟩ := id hc
        simp only [allLeaves, allLeavesL, List.append_nil, List.countP_append]
        rw [ih0 _ hr0 hc0, ih0 _ hr0 hc1, ih1 _ hr1 hc0, ih1 _ hr1 hc1]
        have e1 : (CTree.node d ix r0 r1).data = d := rfl
        have e2 : (CTree.node d' ix' c0 c1).data = d' := rfl
        by_cases a1 : d.lo ≤ i ∧ i < d.hi
        · by_cases a2 : d'.lo ≤ j ∧ j < d'.hi
          · conv_rhs => rw [if_pos (by rw [e1, e2]; omega)]
            split_ifs <;> first | rfl | omega
          · conv_rhs => rw [if_neg (by rw [e1, e2]; omega)]
            rw [if_neg (by omega), if_neg (by omega), if_neg (by omega), if_neg (by omega)]
        · conv_rhs => rw [if_neg (by rw [e1, e2]; omega)]
          rw [if_neg (by omega), if_neg (by omega), if_neg (by omega), if_neg (by omega)]

end Verif.HMat
