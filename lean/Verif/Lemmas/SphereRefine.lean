import Verif.Spec.Sphere
import Verif.Lemmas.KochCode
import Mathlib.Data.List.GetD
import Mathlib.Tactic.Linarith
import Mathlib.Tactic.Ring
import Mathlib.Tactic.FieldSimp
import Mathlib.Tactic.Positivity
import Mathlib.Tactic.LinearCombination
import Mathlib.Analysis.Real.Sqrt

/-!
# One refinement step of the regular sphere: what the loop over the elements computes
-/

noncomputable section

namespace Verif.Shapes

/-! ## Keys -/

theorem edgeKey_comm (a b : ℕ) : edgeKey a b = edgeKey b a := by
  unfold edgeKey
  split_ifs with h1 h2 h2
  · omega
  · rfl
  · rfl
  · have : a = b := by omega
    rw [this]

theorem edgeKey_eq {a b a' b' : ℕ} (h : edgeKey a b = edgeKey a' b') :
    (a = a' ∧ b = b') ∨ (a = b' ∧ b = a') := by
  unfold edgeKey at h
  split_ifs at h <;> simp only [Prod.mk.injEq] at h <;> omega

theorem edgeKey_lt {a b : ℕ} (h : a ≠ b) : (edgeKey a b).1 < (edgeKey a b).2 := by
  unfold edgeKey
  split_ifs with h1
  · exact h1
  · show b < a
    omega

/-- the point half way between nodes -/
def midNode (P : List V3) (a b : ℕ) : V3 := fun i => 0.5 * (nodeAt P a i + nodeAt P b i)

theorem midNode_comm (P : List V3) (a b : ℕ) : midNode P a b = midNode P b a := by
  funext i
  unfold midNode
  rw [add_comm]

theorem midNode_edgeKey (P : List V3) (a b : ℕ) : midNode P (edgeKey a b).1 (edgeKey a b).2 = midNode P a b := by
  unfold edgeKey
  split_ifs
  · rfl
  · exact midNode_comm _ _ _

/-- what the loop keeps -/
structure Looped (P : List V3) (s : SphereState) : Prop where
  len : s.n = s.nodes.length
  pre : ∀ k < P.length, nodeAt s.nodes k = nodeAt P k
  le : P.length ≤ s.n
  new : ∀ t k, s.map t = some k → P.length ≤ k ∧ k < s.n ∧ nodeAt s.nodes k = midNode P t.1 t.2
  inj : ∀ t t' k, s.map t = some k → s.map t' = some k → t = t'
  surj : ∀ k, P.length ≤ k → k < s.n → ∃ t, s.map t = some k

theorem nodeAt_append_left {l l' : List V3} {k : ℕ} (h : k < l.length) :
    nodeAt (l ++ l') k = nodeAt l k := by
  unfold nodeAt
  rw [List.getD_append _ _ _ _ h]

theorem nodeAt_append_end {l : List V3} {p : V3} : nodeAt (l ++ [p]) l.length = p := by
  unfold nodeAt
  rw [List.getD_append_right _ _ _ _ le_rfl]
  simp

theorem edgeNode_spec {P : List V3} {s : SphereState} (L : Looped P s) {a b : ℕ}
    (ha : a < P.length) (hb : b < P.length) :
    Looped P (edgeNode s a b).2 ∧ (edgeNode s a b).2.map (edgeKey a b) = some (edgeNode s a b).1 ∧
    (∀ t k, s.map t = some k → (edgeNode s a b).2.map t = some k) ∧
    (∀ t k, (edgeNode s a b).2.map t = some k → s.map t = some k ∨ t = edgeKey a b) := by
  cases hm : s.map (edgeKey a b) with
  | some k =>
    have he : edgeNode s a b = (k, s) := by unfold edgeNode; rw [hm]
    rw [he]
    exact ⟨L, hm, fun _ _ h => h, fun _ _ h => Or.inl h⟩
  | none =>
    have he : edgeNode s a b = (s.n,
      { nodes := s.nodes ++ [fun k => 0.5 * (nodeAt s.nodes a k + nodeAt s.nodes b k)]
        map := fun t => if t = edgeKey a b then some s.n else s.map t
        n := s.n + 1 }) := by unfold edgeNode; rw [hm]
    rw [he]
    have hlt : ∀ k < s.n, nodeAt (s.nodes ++ [fun k => 0.5 * (nodeAt s.nodes a k + nodeAt s.nodes b k)]) k
        = nodeAt s.nodes k := fun k hk => nodeAt_append_left (by rw [← L.len]; exact hk)
    have hend : nodeAt (s.nodes ++ [fun k => 0.5 * (nodeAt s.nodes a k + nodeAt s.nodes b k)]) s.n
        = midNode P a b := by
      rw [L.len, nodeAt_append_end, L.pre a ha, L.pre b hb]
      rfl
    refine ⟨⟨?_, ?_, ?_, ?_, ?_, ?_⟩, ?_, ?_, ?_⟩
    · show s.n + 1 = (s.nodes ++ [_]).length
      rw [List.length_append, L.len]
      rfl
    · intro k hk
      show nodeAt (s.nodes ++ [_]) k = _
      rw [hlt k (lt_of_lt_of_le hk L.le), L.pre k hk]
    · exact le_trans L.le (Nat.le_succ _)
    · intro t k h
      show P.length ≤ k ∧ k < s.n + 1 ∧ nodeAt (s.nodes ++ [_]) k = _
      dsimp only at h
      split_ifs at h with ht
      · cases h
        exact ⟨L.le, Nat.lt_succ_self _, by rw [hend, ht, midNode_edgeKey]⟩
      · obtain ⟨h1, h2, h3⟩ := L.new t k h
        exact ⟨h1, by omega, by rw [hlt k h2, h3]⟩
    · intro t t' k h h'
      dsimp only at h h'
      split_ifs at h h' with h1 h2 h2
      · rw [h1, h2]
      · cases h
        have := (L.new _ _ h').2.1
        omega
      · cases h'
        have := (L.new _ _ h).2.1
        omega
      · exact L.inj _ _ _ h h'
    · intro k h1 h2
      dsimp only at h2 ⊢
      by_cases hk : k = s.n
      · exact ⟨edgeKey a b, by rw [if_pos rfl, hk]⟩
      · obtain ⟨t, ht⟩ := L.surj k h1 (by omega)
        refine ⟨t, ?_⟩
        rw [if_neg, ht]
        intro h
        rw [h, hm] at ht
        exact absurd ht (by simp)
    · dsimp only
      rw [if_pos rfl]
    · intro t k h
      dsimp only
      rw [if_neg, h]
      intro h'
      rw [h', hm] at h
      exact absurd h (by simp)
    · intro t k h
      dsimp only at h
      split_ifs at h with ht
      · exact Or.inr ht
      · exact Or.inl h

/-- the four elements that replace an element, if the edge from `a` to `b` is given the node `m a b` -/
def sub (m : ℕ → ℕ → ℕ) (t : Tri) : List Tri :=
  [(t.1, m t.1 t.2.1, m t.2.2 t.1), (m t.1 t.2.1, t.2.1, m t.2.1 t.2.2),
   (m t.2.1 t.2.2, t.2.2, m t.2.2 t.1), (m t.1 t.2.1, m t.2.1 t.2.2, m t.2.2 t.1)]

theorem sides_corners (t : Tri) : sides (cornersOf t) = [(t.1, t.2.1), (t.2.1, t.2.2), (t.2.2, t.1)] := rfl

theorem refineElement_spec {P : List V3} {s : SphereState} (L : Looped P s) {t : Tri}
    (ht : ∀ k ∈ cornersOf t, k < P.length) :
    Looped P (refineElement s t).2 ∧
    (∀ f : ℕ × ℕ → Option ℕ, (∀ e k, (refineElement s t).2.map e = some k → f e = some k) →
      (refineElement s t).1 = sub (fun a b => (f (edgeKey a b)).getD 0) t) ∧
    (∀ e k, s.map e = some k → (refineElement s t).2.map e = some k) ∧
    (∀ e k, (refineElement s t).2.map e = some k → s.map e = some k ∨ ∃ d ∈ sides (cornersOf t), e = edgeKey d.1 d.2) ∧
    ∀ d ∈ sides (cornersOf t), ∃ k, (refineElement s t).2.map (edgeKey d.1 d.2) = some k := by
  have h0 : t.1 < P.length := ht _ (by simp [cornersOf])
  have h1 : t.2.1 < P.length := ht _ (by simp [cornersOf])
  have h2 : t.2.2 < P.length := ht _ (by simp [cornersOf])
  obtain ⟨L0, a0, b0, c0⟩ := edgeNode_spec L h0 h1
  obtain ⟨L1, a1, b1, c1⟩ := edgeNode_spec L0 h1 h2
  obtain ⟨L2, a2, b2, c2⟩ := edgeNode_spec L1 h2 h0
  have a1' := b2 _ _ a1
  have a0' := b2 _ _ (b1 _ _ a0)
  refine ⟨L2, ?_, fun e k h => b2 _ _ (b1 _ _ (b0 _ _ h)), ?_, ?_⟩
  · intro f hf
    have f0 := hf _ _ a0'
    have f1 := hf _ _ a1'
    have f2 := hf _ _ a2
    unfold refineElement sub
    dsimp only
    rw [f0, f1, f2]
    rfl
  · intro e k h
    rw [sides_corners]
    rcases c2 e k h with h | h
    · rcases c1 e k h with h | h
      · rcases c0 e k h with h | h
        · exact Or.inl h
        · exact Or.inr ⟨(t.1, t.2.1), by simp, h⟩
      · exact Or.inr ⟨(t.2.1, t.2.2), by simp, h⟩
    · exact Or.inr ⟨(t.2.2, t.1), by simp, h⟩
  · intro d hd
    rw [sides_corners] at hd
    simp only [List.mem_cons, List.not_mem_nil, or_false] at hd
    rcases hd with rfl | rfl | rfl
    · exact ⟨_, a0'⟩
    · exact ⟨_, a1'⟩
    · exact ⟨_, a2⟩

theorem refineElements_spec {P : List V3} (els : List Tri) {s : SphereState} (L : Looped P s)
    (ht : ∀ t ∈ els, ∀ k ∈ cornersOf t, k < P.length) :
    Looped P (refineElements els s).2 ∧
    (∀ f : ℕ × ℕ → Option ℕ, (∀ e k, (refineElements els s).2.map e = some k → f e = some k) →
      (refineElements els s).1 = els.flatMap (sub fun a b => (f (edgeKey a b)).getD 0)) ∧
    (∀ e k, s.map e = some k → (refineElements els s).2.map e = some k) ∧
    (∀ e k, (refineElements els s).2.map e = some k →
      s.map e = some k ∨ ∃ t ∈ els, ∃ d ∈ sides (cornersOf t), e = edgeKey d.1 d.2) ∧
    ∀ t ∈ els, ∀ d ∈ sides (cornersOf t), ∃ k, (refineElements els s).2.map (edgeKey d.1 d.2) = some k := by
  induction els generalizing s with
  | nil => exact ⟨L, fun _ _ => rfl, fun _ _ h => h, fun _ _ h => Or.inl h, fun t h => by simp at h⟩
  | cons t ts ih =>
    obtain ⟨L1, a1, b1, c1, d1⟩ := refineElement_spec L (ht t (by simp))
    obtain ⟨L2, a2, b2, c2, d2⟩ := ih L1 fun t' h => ht t' (by simp [h])
    refine ⟨L2, ?_, fun e k h => b2 _ _ (b1 _ _ h), ?_, ?_⟩
    · intro f hf
      rw [List.flatMap_cons, ← a2 f hf, ← a1 f fun e k h => hf _ _ (b2 _ _ h)]
      rfl
    · intro e k h
      rcases c2 e k h with h | ⟨t', h', h⟩
      · rcases c1 e k h with h | h
        · exact Or.inl h
        · exact Or.inr ⟨t, by simp, h⟩
      · exact Or.inr ⟨t', by simp [h'], h⟩
    · intro t' ht' d hd
      rcases List.mem_cons.1 ht' with rfl | h
      · obtain ⟨k, hk⟩ := d1 d hd
        exact ⟨k, b2 _ _ hk⟩
      · exact d2 t' h d hd

/-- all directed sides -/
def allSides (els : List Tri) : List (ℕ × ℕ) := (els.map cornersOf).flatMap sides

theorem mem_allSides {els : List Tri} {e : ℕ × ℕ} :
    e ∈ allSides els ↔ ∃ t ∈ els, e ∈ sides (cornersOf t) := by
  unfold allSides
  rw [List.mem_flatMap]
  simp

/-- what one refinement does -/
structure Refined (P : List V3) (els : List Tri) (P' : List V3) (els' : List Tri) (m : ℕ → ℕ → ℕ) : Prop where
  le : P.length ≤ P'.length
  els' : els' = els.flatMap (sub m)
  comm : ∀ a b, m a b = m b a
  range : ∀ e ∈ allSides els, P.length ≤ m e.1 e.2 ∧ m e.1 e.2 < P'.length
  old : ∀ k < P.length, nodeAt P' k = normalise (nodeAt P k)
  new : ∀ e ∈ allSides els, nodeAt P' (m e.1 e.2) = normalise (midNode P e.1 e.2)
  inj : ∀ e ∈ allSides els, ∀ f ∈ allSides els, m e.1 e.2 = m f.1 f.2 → e = f ∨ e = f.swap
  surj : ∀ k, P.length ≤ k → k < P'.length → ∃ e ∈ allSides els, k = m e.1 e.2

theorem nodeAt_map {l : List V3} (f : V3 → V3) {k : ℕ} (h : k < l.length) :
    nodeAt (l.map f) k = f (nodeAt l k) := by
  unfold nodeAt
  rw [List.getD_eq_getElem _ _ (by simpa using h), List.getD_eq_getElem _ _ h, List.getElem_map]

theorem refineTriangles_spec (P : List V3) (els : List Tri)
    (ht : ∀ t ∈ els, ∀ k ∈ cornersOf t, k < P.length) :
    ∃ m, Refined P els (refineTriangles (P, els)).1 (refineTriangles (P, els)).2 m := by
  have L0 : Looped P ⟨P, fun _ => none, P.length⟩ :=
    ⟨rfl, fun _ _ => rfl, le_rfl, fun _ _ h => by simp at h, fun _ _ _ h => by simp at h,
      fun k h1 h2 => absurd h2 (by simpa using h1)⟩
  obtain ⟨L, a, -, c, d⟩ := refineElements_spec els L0 ht
  have h1 : (refineTriangles (P, els)).1
      = (refineElements els ⟨P, fun _ => none, P.length⟩).2.nodes.map normalise := rfl
  have h2 : (refineTriangles (P, els)).2 = (refineElements els ⟨P, fun _ => none, P.length⟩).1 := rfl
  rw [h1, h2]
  generalize refineElements els ⟨P, fun _ => none, P.length⟩ = r at *
  have hd : ∀ e ∈ allSides els, ∃ k, r.2.map (edgeKey e.1 e.2) = some k := by
    intro e he
    obtain ⟨t, ht, he⟩ := mem_allSides.1 he
    exact d t ht e he
  refine ⟨fun a b => (r.2.map (edgeKey a b)).getD 0, ?_, a _ fun _ _ h => h, ?_, ?_, ?_, ?_, ?_, ?_⟩
  · rw [List.length_map, ← L.len]
    exact L.le
  · intro a b
    rw [edgeKey_comm]
  · intro e he
    obtain ⟨k, hk⟩ := hd e he
    obtain ⟨h1, h2, h3⟩ := L.new _ _ hk
    rw [hk, List.length_map, ← L.len]
    exact ⟨h1, h2⟩
  · intro k hk
    rw [nodeAt_map _ (by rw [← L.len]; exact lt_of_lt_of_le hk L.le), L.pre k hk]
  · intro e he
    obtain ⟨k, hk⟩ := hd e he
    obtain ⟨h1, h2, h3⟩ := L.new _ _ hk
    rw [hk, Option.getD_some, nodeAt_map _ (by rw [← L.len]; exact h2), h3, midNode_edgeKey]
  · intro e he f hf h
    obtain ⟨k, hk⟩ := hd e he
    obtain ⟨l, hl⟩ := hd f hf
    rw [hk, hl] at h
    cases (show k = l from h)
    rcases edgeKey_eq (L.inj _ _ _ hk hl) with ⟨h1, h2⟩ | ⟨h1, h2⟩
    · exact Or.inl (Prod.ext h1 h2)
    · exact Or.inr (Prod.ext h1 h2)
  · intro k h1 h2
    rw [List.length_map, ← L.len] at h2
    obtain ⟨t, ht⟩ := L.surj k h1 h2
    rcases c t k ht with h | ⟨t', ht', e, he, rfl⟩
    · simp at h
    · exact ⟨e, mem_allSides.2 ⟨t', ht', he⟩, by rw [ht]; rfl⟩

end Verif.Shapes
