import Verif.Spec.DofBoxes
import Verif.Lemmas.Space
import Verif.Lemmas.SpaceP1
import Mathlib.Tactic.Linarith
/-
Lemmas about the boxes of dofs.
-/
namespace Verif.DofGeo
open Verif.Grid Verif.Space
noncomputable section

/-- The box lies in the box with corners `lo` and `hi` (an empty box has its bounds reversed). -/
def BBox.Inside (b : BBox) (lo hi : P3 ℝ) : Prop :=
  (lo.x ≤ b.lbound.x ∧ lo.y ≤ b.lbound.y ∧ lo.z ≤ b.lbound.z) ∧ (b.ubound.x ≤ hi.x ∧ b.ubound.y ≤ hi.y ∧ b.ubound.z ≤ hi.z)

theorem inside_extendPoint (b : BBox) (p lo hi : P3 ℝ) :
    (b.extendPoint p).Inside lo hi ↔ b.Inside lo hi ∧ Between lo p hi := by
  unfold BBox.Inside BBox.extendPoint Between
  simp only [le_min_iff, max_le_iff]
  tauto

theorem inside_extend (lo hi : P3 ℝ) : ∀ (pts : List (P3 ℝ)) (b : BBox),
    (b.extend pts).Inside lo hi ↔ b.Inside lo hi ∧ ∀ p ∈ pts, Between lo p hi := by
  intro pts
  induction pts with
  | nil => intro b; simp [BBox.extend]
  | cons q pts ih =>
    intro b
    have := ih (b.extendPoint q)
    unfold BBox.extend at *
    rw [List.foldl_cons, this, inside_extendPoint]
    simp only [List.forall_mem_cons, and_assoc]

theorem inside_setReference (b : BBox) (q lo hi : P3 ℝ) : (b.setReference q).Inside lo hi ↔ b.Inside lo hi := Iff.rfl

theorem extend_reference (pts : List (P3 ℝ)) : ∀ b : BBox, (b.extend pts).reference = b.reference := by
  induction pts with
  | nil => intro b; rfl
  | cons q pts ih => intro b; exact ih (b.extendPoint q)

/-! ### convex combinations -/

theorem weighted_le (c : ℝ) : ∀ (w xs : List ℝ), w.length = xs.length → (∀ a ∈ w, 0 ≤ a) → (∀ x ∈ xs, x ≤ c) →
    (List.zipWith (· * ·) w xs).sum ≤ w.sum * c := by
  intro w
  induction w with
  | nil => intro xs _ _ _; simp
  | cons a w ih =>
    intro xs hl ha hx
    cases xs with
    | nil => simp at hl
    | cons x xs =>
      simp only [List.zipWith_cons_cons, List.sum_cons]
      have h1 := ih xs (by simpa using hl) (fun b hb => ha b (by simp [hb])) (fun b hb => hx b (by simp [hb]))
      have h2 := mul_le_mul_of_nonneg_left (hx x (by simp)) (ha a (by simp))
      linarith [add_mul a w.sum c]

theorem le_weighted (c : ℝ) : ∀ (w xs : List ℝ), w.length = xs.length → (∀ a ∈ w, 0 ≤ a) → (∀ x ∈ xs, c ≤ x) →
    w.sum * c ≤ (List.zipWith (· * ·) w xs).sum := by
  intro w
  induction w with
  | nil => intro xs _ _ _; simp
  | cons a w ih =>
    intro xs hl ha hx
    cases xs with
    | nil => simp at hl
    | cons x xs =>
      simp only [List.zipWith_cons_cons, List.sum_cons]
      have h1 := ih xs (by simpa using hl) (fun b hb => ha b (by simp [hb])) (fun b hb => hx b (by simp [hb]))
      have h2 := mul_le_mul_of_nonneg_left (hx x (by simp)) (ha a (by simp))
      linarith [add_mul a w.sum c]

/-- A box that contains the corners contains the element. -/
theorem hull_between (pts : List (P3 ℝ)) (p lo hi : P3 ℝ) (hp : InHull pts p) (h : ∀ q ∈ pts, Between lo q hi) : Between lo p hi := by
  obtain ⟨w, hl, hw, hs, rfl⟩ := hp
  have up : ∀ (f : P3 ℝ → ℝ) (c : ℝ), (∀ q ∈ pts, f q ≤ c) → (List.zipWith (· * ·) w (pts.map f)).sum ≤ c := by
    intro f c hc
    have := weighted_le c w (pts.map f) (by simpa using hl) hw (by simpa using hc)
    rwa [hs, one_mul] at this
  have lw : ∀ (f : P3 ℝ → ℝ) (c : ℝ), (∀ q ∈ pts, c ≤ f q) → c ≤ (List.zipWith (· * ·) w (pts.map f)).sum := by
    intro f c hc
    have := le_weighted c w (pts.map f) (by simpa using hl) hw (by simpa using hc)
    rwa [hs, one_mul] at this
  exact ⟨lw _ _ fun q hq => (h q hq).1, up _ _ fun q hq => (h q hq).2.1, lw _ _ fun q hq => (h q hq).2.2.1,
    up _ _ fun q hq => (h q hq).2.2.2.1, lw _ _ fun q hq => (h q hq).2.2.2.2.1, up _ _ fun q hq => (h q hq).2.2.2.2.2⟩

theorem zero_weights (xs : List ℝ) : (List.zipWith (· * ·) (List.replicate xs.length (0 : ℝ)) xs).sum = 0 := by
  induction xs with
  | nil => rfl
  | cons x xs ih => simp [List.replicate_succ, ih]

/-- A corner belongs to the element. -/
theorem corner_in_hull (pts : List (P3 ℝ)) : ∀ p ∈ pts, InHull pts p := by
  induction pts with
  | nil => intro p hp; cases hp
  | cons q pts ih =>
    intro p hp
    rcases List.mem_cons.mp hp with h | h
    · subst h
      refine ⟨1 :: List.replicate pts.length 0, by simp, ?_, by simp, ?_⟩
      · intro a ha
        rcases List.mem_cons.mp ha with h | h
        · simp [h]
        · rw [(List.mem_replicate.mp h).2]
      · have := fun f : P3 ℝ → ℝ => zero_weights (pts.map f)
        simp only [List.length_map] at this
        simp [this]
    · obtain ⟨w, hl, hw, hs, he⟩ := ih p h
      refine ⟨0 :: w, by simp [hl], ?_, by simp [hs], ?_⟩
      · intro a ha
        rcases List.mem_cons.mp ha with h | h
        · simp [h]
        · exact hw a h
      · rw [he]; simp

/-- A box obtained from the empty box and a set of corners is the bounding box of the elements with these corners. -/
theorem isBoundingBox_of_corners (big : ℝ) (junk : P3 ℝ) (b : BBox) (E : List (P3 ℝ) → Prop)
    (hin : ∀ lo hi, b.Inside lo hi ↔ (BBox.model big junk).Inside lo hi ∧ ∀ pts, E pts → ∀ p ∈ pts, Between lo p hi)
    (hne : ∃ pts p, E pts ∧ p ∈ pts) (hfin : ∀ pts, E pts → ∀ p ∈ pts, Between ⟨-big, -big, -big⟩ p ⟨big, big, big⟩) :
    IsBoundingBox b fun p => ∃ pts, E pts ∧ InHull pts p := by
  have hself : ∀ pts, E pts → ∀ p ∈ pts, Between b.lbound p b.ubound :=
    ((hin b.lbound b.ubound).mp ⟨⟨le_refl _, le_refl _, le_refl _⟩, ⟨le_refl _, le_refl _, le_refl _⟩⟩).2
  refine ⟨?_, ?_⟩
  · rintro p ⟨pts, hE, hp⟩
    exact hull_between pts p _ _ hp (hself pts hE)
  · intro lo hi h
    obtain ⟨pts, p, hE, hp⟩ := hne
    have hc : ∀ pts, E pts → ∀ p ∈ pts, Between lo p hi := fun pts hE p hp => h p ⟨pts, hE, corner_in_hull pts p hp⟩
    have h0 := hc pts hE p hp
    have h1 := hfin pts hE p hp
    have h2 := hself pts hE p hp
    unfold Between at h0 h1 h2
    simp only at h1
    have hmod : (BBox.model big junk).Inside lo hi := by
      unfold BBox.Inside BBox.model
      simp only
      refine ⟨⟨?_, ?_, ?_⟩, ?_, ?_, ?_⟩ <;> linarith
    obtain ⟨⟨a1, a2, a3⟩, a4, a5, a6⟩ := (hin lo hi).mpr ⟨hmod, hc⟩
    unfold Between
    refine ⟨⟨?_, ?_, ?_, ?_, ?_, ?_⟩, ⟨?_, ?_, ?_, ?_, ?_, ?_⟩⟩ <;> linarith

/-! ### the loops -/

/-- One use of a box. -/
def boxStep (b : BBox) (c : List (P3 ℝ) × Int × P3 ℝ) : BBox := (b.extend c.1).setReference c.2.2

theorem useBox_fold (g : Nat) : ∀ (L : List (List (P3 ℝ) × Int × P3 ℝ)) (bs : List BBox),
    (L.foldl (fun bs c => useBox c.1 bs c.2) bs)[g]? = bs[g]?.map fun b => (L.filter fun c => c.2.1 = (g : Int)).foldl boxStep b := by
  intro L
  induction L with
  | nil => intro bs; simp
  | cons c L ih =>
    intro bs
    rw [List.foldl_cons, ih]
    unfold useBox
    by_cases h0 : 0 ≤ c.2.1
    · rw [if_pos h0, List.getElem?_modify]
      by_cases hg : c.2.1 = (g : Int)
      · have : c.2.1.toNat = g := by omega
        rw [List.filter_cons, if_pos (by simpa using hg)]
        simp only [this, if_true]
        cases bs[g]? <;> rfl
      · have : c.2.1.toNat ≠ g := by omega
        rw [List.filter_cons, if_neg (by simpa using hg)]
        simp only [this, if_false]
        cases bs[g]? <;> rfl
    · rw [if_neg h0]
      have hg : ¬ c.2.1 = (g : Int) := by omega
      rw [List.filter_cons, if_neg (by simpa using hg)]

theorem useBox_length : ∀ (L : List (List (P3 ℝ) × Int × P3 ℝ)) (bs : List BBox),
    (L.foldl (fun bs c => useBox c.1 bs c.2) bs).length = bs.length := by
  intro L
  induction L with
  | nil => intro bs; rfl
  | cons c L ih =>
    intro bs
    rw [List.foldl_cons, ih]
    unfold useBox
    split <;> simp

theorem boxStep_inside (lo hi : P3 ℝ) : ∀ (L : List (List (P3 ℝ) × Int × P3 ℝ)) (b : BBox),
    (L.foldl boxStep b).Inside lo hi ↔ b.Inside lo hi ∧ ∀ c ∈ L, ∀ p ∈ c.1, Between lo p hi := by
  intro L
  induction L with
  | nil => intro b; simp
  | cons c L ih =>
    intro b
    rw [List.foldl_cons, ih]
    unfold boxStep
    rw [inside_setReference, inside_extend]
    simp only [List.forall_mem_cons, and_assoc]

theorem boxStep_reference : ∀ (L : List (List (P3 ℝ) × Int × P3 ℝ)) (b : BBox), L ≠ [] →
    ∃ c ∈ L, (L.foldl boxStep b).reference = c.2.2 := by
  intro L
  induction L with
  | nil => intro b h; exact absurd rfl h
  | cons c L ih =>
    intro b _
    by_cases hL : L = []
    · subst hL
      exact ⟨c, by simp, rfl⟩
    · obtain ⟨d, hd, he⟩ := ih (boxStep b c) hL
      exact ⟨d, by simp [hd], he⟩

theorem loopBoxes_flat (big : ℝ) (junk : P3 ℝ) (count : Nat) (elems : List Elem) (corners : Elem → List (P3 ℝ))
    (uses : Elem → List (Int × P3 ℝ)) : loopBoxes big junk count elems corners uses =
      (elems.flatMap fun e => (uses e).map fun u => (corners e, u)).foldl (fun bs c => useBox c.1 bs c.2)
        (List.replicate count (BBox.model big junk)) := by
  unfold loopBoxes
  rw [List.foldl_flatMap]
  congr 1
  funext bs e
  rw [List.foldl_map]

theorem loopBoxes_length (big : ℝ) (junk : P3 ℝ) (count : Nat) (elems : List Elem) (corners : Elem → List (P3 ℝ))
    (uses : Elem → List (Int × P3 ℝ)) : (loopBoxes big junk count elems corners uses).length = count := by
  rw [loopBoxes_flat, useBox_length, List.length_replicate]

/-- What the loop over the elements leaves in box `g`. -/
theorem loopBoxes_get (big : ℝ) (junk : P3 ℝ) (count : Nat) (elems : List Elem) (corners : Elem → List (P3 ℝ))
    (uses : Elem → List (Int × P3 ℝ)) (g : Nat) (hg : g < count) :
    ∃ b, (loopBoxes big junk count elems corners uses)[g]? = some b ∧
      (∀ lo hi, b.Inside lo hi ↔ (BBox.model big junk).Inside lo hi ∧
        ∀ pts, (∃ e ∈ elems, (∃ q, ((g : Int), q) ∈ uses e) ∧ pts = corners e) → ∀ p ∈ pts, Between lo p hi) ∧
      ((∃ e ∈ elems, ∃ q, ((g : Int), q) ∈ uses e) → ∃ e ∈ elems, ∃ q, ((g : Int), q) ∈ uses e ∧ b.reference = q) := by
  refine ⟨_, by rw [loopBoxes_flat, useBox_fold, List.getElem?_replicate, if_pos hg]; rfl, ?_, ?_⟩
  · intro lo hi
    rw [boxStep_inside]
    refine and_congr_right fun _ => ⟨?_, ?_⟩
    · rintro h pts ⟨e, he, ⟨q, hq⟩, rfl⟩
      exact h (corners e, (g : Int), q) (by
        simp only [List.mem_filter, List.mem_flatMap, List.mem_map]
        exact ⟨⟨e, he, _, hq, rfl⟩, by simp⟩)
    · intro h c hc
      simp only [List.mem_filter, List.mem_flatMap, List.mem_map] at hc
      obtain ⟨⟨e, he, u, hu, rfl⟩, hcg⟩ := hc
      simp only [decide_eq_true_eq] at hcg
      exact h (corners e) ⟨e, he, ⟨u.2, by rw [← hcg]; exact hu⟩, rfl⟩
  · rintro ⟨e, he, q, hq⟩
    have hne : ((elems.flatMap fun e => (uses e).map fun u => (corners e, u)).filter fun c => c.2.1 = (g : Int)) ≠ [] := by
      intro h
      have : (corners e, (g : Int), q) ∈ ([] : List (List (P3 ℝ) × Int × P3 ℝ)) := by
        rw [← h]
        simp only [List.mem_filter, List.mem_flatMap, List.mem_map]
        exact ⟨⟨e, he, _, hq, rfl⟩, by simp⟩
      cases this
    obtain ⟨c, hc, hr⟩ := boxStep_reference _ (BBox.model big junk) hne
    simp only [List.mem_filter, List.mem_flatMap, List.mem_map] at hc
    obtain ⟨⟨e', he', u, hu, rfl⟩, hcg⟩ := hc
    simp only [decide_eq_true_eq] at hcg
    exact ⟨e', he', u.2, by rw [← hcg]; exact hu, hr⟩

theorem set_rows_get {β : Type} (key : Elem → Nat) (row : Elem → β) : ∀ (es : List Elem) (l : List β) (k : Nat),
    k ∉ es.map key → (es.foldl (fun (l : List β) e => l.set (key e) (row e)) l)[k]? = l[k]? := by
  intro es
  induction es with
  | nil => intro l k _; rfl
  | cons w ws ih =>
    intro l k hk
    simp only [List.map_cons, List.mem_cons, not_or] at hk
    rw [List.foldl_cons, ih _ _ hk.2, List.getElem?_set_ne (fun h => hk.1 h.symm)]

/-- `elementCorners[index]` are the corners of the element. -/
theorem elementCorners_get (v : View) (hv : v.WF) (coord : Nat → P3 ℝ) (e : Elem) (he : e ∈ v.elems) :
    (elementCorners v coord).getD e.index [] = cornersOf v coord e := by
  have hlt := index_lt v hv he
  have hnd := hv.index_nodup
  unfold elementCorners
  have : ∀ (es : List Elem) (l : List (List (P3 ℝ))), (es.map (·.index)).Nodup → e.index < l.length → e ∈ es →
      (es.foldl (fun (l : List (List (P3 ℝ))) e => l.set e.index (cornersOf v coord e)) l)[e.index]? = some (cornersOf v coord e) := by
    intro es
    induction es with
    | nil => intro l _ _ h; cases h
    | cons w ws ih =>
      intro l hn hl hm
      rw [List.map_cons, List.nodup_cons] at hn
      rw [List.foldl_cons]
      rcases List.mem_cons.mp hm with h | h
      · subst h
        rw [set_rows_get (fun e : Elem => e.index) (cornersOf v coord) ws _ _ hn.1, List.getElem?_set_self hl]
      · exact ih _ hn.2 (by simpa using hl) h
  rw [List.getD_eq_getElem?_getD, this v.elems _ hnd (by simpa using hlt) he]
  rfl

theorem boxOfLocalDofs_inside (big : ℝ) (junk : P3 ℝ) (corners : List (List (P3 ℝ))) (lo hi : P3 ℝ) (lds : List LocalDof) :
    (boxOfLocalDofs big junk corners lds).Inside lo hi ↔ (BBox.model big junk).Inside lo hi ∧
      ∀ ld ∈ lds, ∀ p ∈ corners.getD ld.entityIndex [], Between lo p hi := by
  unfold boxOfLocalDofs
  generalize BBox.model big junk = b
  induction lds generalizing b with
  | nil => simp
  | cons c L ih =>
    rw [List.foldl_cons, ih, inside_extend]
    simp only [List.forall_mem_cons, and_assoc]

end
end Verif.DofGeo
