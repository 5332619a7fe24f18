import Verif.Spec.Tree
/-
Helper lemmas about cluster trees.
-/
namespace Verif.HMat
open CTree
variable {G : Type}

theorem deal_perm (s : List Nat) : ((deal s).1 ++ (deal s).2).Perm s := by
  rw [deal_eq]
  exact ((List.Perm.refl _).append (List.reverse_perm _)).trans (by rw [List.take_append_drop])

/-- Structural invariant of a tree grown over `[lo,hi)` with index set `ix`. -/
def Good (geo : List Nat → G) (minB : Int) : CTree G → Prop
  | .leaf d ix => ix.length = d.hi - d.lo ∧ d.lo ≤ d.hi ∧ d.geo = geo ix ∧
      (ix.length ≤ toSizeT minB ∨ ix.length ≤ 1)
  | .node d ix l r =>
      ix.length = d.hi - d.lo ∧ d.lo ≤ d.hi ∧ d.geo = geo ix ∧ toSizeT minB < ix.length ∧
      l.data.lo = d.lo ∧ l.data.hi = r.data.lo ∧ r.data.hi = d.hi ∧
      l.data.lo < l.data.hi ∧ r.data.lo < r.data.hi ∧
      l.ix.length = (ix.length + 1) / 2 ∧ r.ix.length = ix.length / 2 ∧
      (l.ix ++ r.ix).Perm ix ∧ Good geo minB l ∧ Good geo minB r

theorem splitTree_data (geo : List Nat → G) (srt : Sorter G) (minB : Int) (lo hi : Nat)
    (ix : List Nat) :
    (splitTree geo srt minB lo hi ix).data = ⟨lo, hi, geo ix⟩ ∧
    (splitTree geo srt minB lo hi ix).ix = ix := by
  rw [splitTree]; split
  · simp [CTree.data, CTree.ix]
  · split <;> simp [CTree.data, CTree.ix]

theorem splitTree_good (geo : List Nat → G) (srt : Sorter G) (minB : Int) (lo hi : Nat)
    (ix : List Nat) (hlen : ix.length = hi - lo) (hle : lo ≤ hi) :
    Good geo minB (splitTree geo srt minB lo hi ix) := by
  fun_induction splitTree geo srt minB lo hi ix with
  | case1 lo hi ix hs => exact ⟨hlen, hle, rfl, Or.inl hs⟩
  | case2 lo hi ix hs hd =>
    refine ⟨hlen, hle, rfl, Or.inr ?_⟩
    have hp := (srt.perm (geo ix) ix).length_eq
    rw [deal_fst_length, deal_snd_length, hp] at hd
    omega
  | case3 lo hi ix hs hd ih1 ih2 =>
    have hp := (srt.perm (geo ix) ix).length_eq
    have l1 := deal_fst_length (srt.run (geo ix) ix)
    have l2 := deal_snd_length (srt.run (geo ix) ix)
    rw [hp] at l1 l2
    refine ⟨hlen, hle, rfl, by omega, ?_⟩
    simp only [(splitTree_data _ _ _ _ _ _).1, (splitTree_data _ _ _ _ _ _).2]
    refine ⟨trivial, trivial, trivial, by omega, by omega, by omega, by omega, ?_, ?_, ?_⟩
    · exact (deal_perm _).trans (srt.perm _ _)
    · exact ih1 (by omega) (by omega)
    · exact ih2 (by omega) (by omega)

theorem clusterTree_good (geo : List Nat → G) (srt : Sorter G) (minB : Int) (n : Nat) :
    Good geo minB (clusterTree geo srt minB n) :=
  splitTree_good _ _ _ _ _ _ (by simp) (by omega)

theorem good_len {geo : List Nat → G} {minB : Int} {t : CTree G} (h : Good geo minB t) :
    t.ix.length = t.data.hi - t.data.lo ∧ t.data.lo ≤ t.data.hi ∧ t.data.geo = geo t.ix := by
  cases t with
  | leaf d ix => exact ⟨h.1, h.2.1, h.2.2.1⟩
  | node d ix l r => exact ⟨h.1, h.2.1, h.2.2.1⟩

theorem good_sub {geo : List Nat → G} {minB : Int} {t : CTree G} (h : Good geo minB t) :
    ∀ s ∈ t.subtrees, Good geo minB s := by
  induction t with
  | leaf d ix => intro s hs; simp [subtrees] at hs; subst hs; exact h
  | node d ix l r ihl ihr =>
    intro s hs
    obtain ⟨_, _, _, _, _, _, _, _, _, _, _, _, hl, hr⟩ := id h
    simp only [subtrees, List.mem_cons, List.mem_append] at hs
    rcases hs with rfl | hs | hs
    · exact h
    · exact ihl hl s hs
    · exact ihr hr s hs

theorem leaf_mem_subtrees {t s : CTree G} (h : s ∈ t.leaves) : s ∈ t.subtrees := by
  induction t with
  | leaf d ix => simpa [leaves, subtrees] using h
  | node d ix l r ihl ihr =>
    simp only [leaves, List.mem_append] at h
    simp only [subtrees, List.mem_cons, List.mem_append]
    rcases h with h | h
    · exact Or.inr (Or.inl (ihl h))
    · exact Or.inr (Or.inr (ihr h))

theorem leaf_isLeaf {t s : CTree G} (h : s ∈ t.leaves) : s.isLeaf = true := by
  induction t with
  | leaf d ix => simp [leaves] at h; subst h; rfl
  | node d ix l r ihl ihr =>
    simp only [leaves, List.mem_append] at h
    rcases h with h | h
    · exact ihl h
    · exact ihr h

theorem self_mem_subtrees (t : CTree G) : t ∈ t.subtrees := by
  cases t <;> simp [subtrees]

theorem subtrees_trans {s t u : CTree G} (h1 : s ∈ t.subtrees) (h2 : t ∈ u.subtrees) :
    s ∈ u.subtrees := by
  induction u with
  | leaf d ix => simp [subtrees] at h2; subst h2; exact h1
  | node d ix l r ihl ihr =>
    simp only [subtrees, List.mem_cons, List.mem_append] at h2 ⊢
    rcases h2 with rfl | h2 | h2
    · simpa [subtrees] using h1
    · exact Or.inr (Or.inl (ihl h2))
    · exact Or.inr (Or.inr (ihr h2))

theorem child_mem_subtrees {d : NodeData G} {ix : List Nat} {l r t : CTree G}
    (h : CTree.node d ix l r ∈ t.subtrees) : l ∈ t.subtrees ∧ r ∈ t.subtrees :=
  ⟨subtrees_trans (by simp [subtrees, self_mem_subtrees]) h,
   subtrees_trans (by simp [subtrees, self_mem_subtrees]) h⟩

theorem good_leaves_tile {geo : List Nat → G} {minB : Int} {t : CTree G} (h : Good geo minB t) :
    t.leaves.flatMap rangeList = t.rangeList := by
  induction t with
  | leaf d ix => simp [leaves]
  | node d ix l r ihl ihr =>
    obtain ⟨_, _, _, _, h1, h2, h3, h4, h5, _, _, _, hl, hr⟩ := id h
    simp only [leaves, List.flatMap_append, ihl hl, ihr hr]
    show List.range' _ _ ++ List.range' _ _ = List.range' d.lo (d.hi - d.lo)
    have e : r.data.lo = l.data.lo + (l.data.hi - l.data.lo) := by omega
    rw [e, ← h1, List.range'_append_1]
    congr 1
    omega

@[simp] theorem data_leaf (d : NodeData G) (ix : List Nat) : (CTree.leaf d ix).data = d := rfl
@[simp] theorem data_node (d : NodeData G) (ix : List Nat) (l r : CTree G) :
    (CTree.node d ix l r).data = d := rfl
@[simp] theorem ix_leaf (d : NodeData G) (ix : List Nat) : (CTree.leaf d ix).ix = ix := rfl
@[simp] theorem ix_node (d : NodeData G) (ix : List Nat) (l r : CTree G) :
    (CTree.node d ix l r).ix = ix := rfl

/-- Concatenation of the index sets of the leaves. -/
def order : CTree G → List Nat
  | .leaf _ ix => ix
  | .node _ _ l r => order l ++ order r

theorem order_perm {geo : List Nat → G} {minB : Int} {t : CTree G} (h : Good geo minB t) :
    (order t).Perm t.ix := by
  induction t with
  | leaf d ix => exact List.Perm.refl _
  | node d ix l r ihl ihr =>
    obtain ⟨_, _, _, _, h1, h2, h3, h4, h5, _, _, hp, hl, hr⟩ := id h
    exact ((ihl hl).append (ihr hr)).trans hp

theorem order_length {geo : List Nat → G} {minB : Int} {t : CTree G} (h : Good geo minB t) :
    (order t).length = t.data.hi - t.data.lo := by
  rw [(order_perm h).length_eq, (good_len h).1]

/-- Effect of writing the pairs `(l[k], lo+k)` one after the other. -/
def writeSeq : List Nat → Nat → DofPermutation → Option DofPermutation
  | [], _, p => some p
  | o :: l, lo, p => (p.add o lo).bind (writeSeq l (lo + 1))

theorem leafWrites_aux (ix : List Nat) (lo j : Nat) (p : DofPermutation) :
    (List.range' j (ix.length - j)).foldlM (fun p k => do
      let o ← ix[k]?
      p.add o (lo + k)) p = writeSeq (ix.drop j) (lo + j) p := by
  generalize hm : ix.length - j = m
  induction m generalizing j p with
  | zero =>
    rw [List.drop_eq_nil_of_le (by omega)]; simp [writeSeq]
  | succ m ih =>
    have hj : j < ix.length := by omega
    rw [List.drop_eq_getElem_cons hj]
    simp only [List.range'_succ, List.foldlM_cons, List.getElem?_eq_getElem hj, writeSeq]
    have : ∀ q, (List.range' (j + 1) m).foldlM (fun p k => do
      let o ← ix[k]?
      p.add o (lo + k)) q = writeSeq (ix.drop (j+1)) (lo + j + 1) q := fun q => ih (j + 1) q (by omega)
    simp only [this]
    rfl

theorem leafWrites_eq (lo hi : Nat) (ix : List Nat) (p : DofPermutation)
    (h : ix.length = hi - lo) : leafWrites lo hi ix p = writeSeq ix lo p := by
  unfold leafWrites
  rw [← h, List.range_eq_range']
  simpa using leafWrites_aux ix lo 0 p

theorem writeSeq_append (a b : List Nat) (lo : Nat) (p : DofPermutation) :
    writeSeq (a ++ b) lo p = (writeSeq a lo p).bind (writeSeq b (lo + a.length)) := by
  induction a generalizing lo p with
  | nil => simp [writeSeq]
  | cons o a ih =>
    simp only [List.cons_append, writeSeq, List.length_cons]
    cases hq : p.add o lo with
    | none => rfl
    | some q =>
      simp only [Option.bind_some, ih]
      rw [show lo + 1 + a.length = lo + (a.length + 1) by omega]

theorem writes_eq {geo : List Nat → G} {minB : Int} {t : CTree G} (h : Good geo minB t)
    (p : DofPermutation) : writes t p = writeSeq (order t) t.data.lo p := by
  induction t generalizing p with
  | leaf d ix => exact leafWrites_eq _ _ _ _ h.1
  | node d ix l r ihl ihr =>
    obtain ⟨_, _, _, _, h1, h2, h3, h4, h5, _, _, hp, hl, hr⟩ := id h
    simp only [writes, order, writeSeq_append, order_length hl, data_node]
    rw [ihl hl, h1]
    congr 1
    funext q
    rw [ihr hr]
    congr 1
    omega

theorem writeSeq_spec (l : List Nat) (lo : Nat) (p : DofPermutation)
    (hn : l.Nodup) (ho : ∀ o ∈ l, o < p.o2h.length) (hh : lo + l.length ≤ p.h2o.length) :
    ∃ q, writeSeq l lo p = some q ∧ q.o2h.length = p.o2h.length ∧ q.h2o.length = p.h2o.length ∧
      (∀ k (hk : k < l.length), q.h2o[lo + k]? = some l[k] ∧ q.o2h[l[k]]? = some (lo + k)) ∧
      (∀ i, i < lo → q.h2o[i]? = p.h2o[i]?) ∧ (∀ i, i ∉ l → q.o2h[i]? = p.o2h[i]?) := by
  induction l generalizing lo p with
  | nil => exact ⟨p, rfl, rfl, rfl, by simp, by simp, by simp⟩
  | cons o l ih =>
    have h1 : o < p.o2h.length := ho o (by simp)
    have h2 : lo < p.h2o.length := by simp at hh; omega
    have hadd : p.add o lo = some ⟨p.o2h.set o lo, p.h2o.set lo o⟩ := by
      simp [DofPermutation.add, h1, h2]
    obtain ⟨hno, hnl⟩ := List.nodup_cons.mp hn
    obtain ⟨q, e, l1, l2, c1, c2, c3⟩ := ih (lo + 1) ⟨p.o2h.set o lo, p.h2o.set lo o⟩ hnl
      (by intro x hx; simpa using ho x (by simp [hx])) (by simp at hh ⊢; omega)
    refine ⟨q, by simp [writeSeq, hadd, e], by simpa using l1, by simpa using l2, ?_, ?_, ?_⟩
    · intro k hk
      cases k with
      | zero =>
        constructor
        · have := c2 lo (by omega)
          simpa [h2] using this
        · have := c3 o hno
          simpa [h1] using this
      | succ k =>
        have := c1 k (by simpa using hk)
        simpa [Nat.add_assoc, Nat.add_comm 1 k] using this
    · intro i hi
      rw [c2 i (by omega)]
      simp [show lo ≠ i by omega]
    · intro i hi
      simp at hi
      rw [c3 i hi.2]
      simp [show o ≠ i from fun e => hi.1 e.symm]

theorem order_sub_range {geo : List Nat → G} {minB : Int} {t : CTree G} (h : Good geo minB t) :
    ∀ s ∈ t.subtrees, ∃ a b, order t = a ++ order s ++ b ∧ t.data.lo + a.length = s.data.lo := by
  induction t with
  | leaf d ix => intro s hs; simp [subtrees] at hs; subst hs; exact ⟨[], [], by simp, by simp⟩
  | node d ix l r ihl ihr =>
    intro s hs
    obtain ⟨_, _, _, _, h1, h2, h3, h4, h5, _, _, hp, hl, hr⟩ := id h
    simp only [subtrees, List.mem_cons, List.mem_append] at hs
    rcases hs with rfl | hs | hs
    · exact ⟨[], [], by simp, by simp⟩
    · obtain ⟨a, b, e, el⟩ := ihl hl s hs
      exact ⟨a, b ++ order r, by simp [order, e], by simp; omega⟩
    · obtain ⟨a, b, e, el⟩ := ihr hr s hs
      refine ⟨order l ++ a, b, by simp [order, e], ?_⟩
      simp [order_length hl]; omega

end Verif.HMat
