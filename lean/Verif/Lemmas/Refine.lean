import Verif.Spec.Refine
import Mathlib.Algebra.BigOperators.Group.List.Basic
import Mathlib.Tactic.Ring
import Mathlib.Tactic.Linarith
import Mathlib.Tactic.IntervalCases
import Mathlib.Data.Finset.Card
/-
Lemmas about the refinement loop.
-/
namespace Verif.Refine
open Verif.Grid
noncomputable section

theorem View.hasEdge_iff (v : View) (e : Nat) (p : Sym2 Nat) : v.HasEdge e p ↔ (p = v.ends e 0 ∨ p = v.ends e 1 ∨ p = v.ends e 2) := by
  constructor
  · rintro ⟨j, hj, h⟩
    interval_cases j
    · exact Or.inl h.symm
    · exact Or.inr (Or.inl h.symm)
    · exact Or.inr (Or.inr h.symm)
  · rintro (h | h | h)
    · exact ⟨0, by omega, h.symm⟩
    · exact ⟨1, by omega, h.symm⟩
    · exact ⟨2, by omega, h.symm⟩

theorem View.mem_edgeElements {v : View} (hv : v.Valid) {i j e : Nat} (hi : i < v.elementCount) (hj : j < 3) :
    e ∈ v.edgeElements (v.edge i j) ↔ e < v.elementCount ∧ v.HasEdge e (v.ends i j) := by
  unfold View.edgeElements
  simp only [List.mem_filter, List.mem_range, List.any_eq_true, beq_iff_eq]
  constructor
  · rintro ⟨h, j', hj', he⟩
    exact ⟨h, j', hj', (hv.edge_iff e h i hi j' hj' j hj).1 he⟩
  · rintro ⟨h, j', hj', he⟩
    exact ⟨h, j', hj', (hv.edge_iff e h i hi j' hj' j hj).2 he⟩

theorem View.nodup_edgeElements (v : View) (k : Nat) : (v.edgeElements k).Nodup := List.Nodup.filter _ List.nodup_range

theorem View.length_edgeElements {v : View} (hv : v.Valid) {i j : Nat} (hi : i < v.elementCount) (hj : j < 3) :
    (v.edgeElements (v.edge i j)).length ≤ 2 := by
  refine le_trans (le_of_eq ?_) (hv.manifold (v.ends i j))
  unfold View.edgeElements View.edgeCount
  rw [List.countP_eq_length_filter]
  congr 1
  apply List.filter_congr
  intro e he
  rw [List.mem_range] at he
  rw [Bool.eq_iff_iff]
  simp only [List.any_eq_true, List.mem_range, beq_iff_eq, decide_eq_true_eq]
  rw [← View.hasEdge_iff]
  constructor
  · rintro ⟨j', hj', h⟩
    exact ⟨j', hj', (hv.edge_iff e he i hi j' hj' j hj).1 h⟩
  · rintro ⟨j', hj', h⟩
    exact ⟨j', hj', (hv.edge_iff e he i hi j' hj' j hj).2 h⟩

theorem View.ends_inj {v : View} (hv : v.Valid) {e : Nat} (he : e < v.elementCount) {j j' : Nat} (hj : j < 3) (hj' : j' < 3)
    (h : v.ends e j = v.ends e j') : j = j' := by
  obtain ⟨h1, h2, h3⟩ := hv.corner_ne e he
  unfold View.ends at h
  interval_cases j <;> interval_cases j' <;> simp [Sym2.eq_iff] at h <;> omega

theorem View.visit_refined {v : View} {s : State} {i : Nat} (h : s.refinement i (v.referenceEdge i) ≠ none) : v.visit s i = some s := by
  unfold View.visit
  cases hr : s.refinement i (v.referenceEdge i) with
  | none => exact absurd hr h
  | some k => dsimp only; rw [hr]

/-- What a visit of an element does whose reference edge is not yet cut. -/
theorem View.visit_fresh {v : View} (hv : v.Valid) {s : State} {i : Nat} (hi : i < v.elementCount)
    (h : s.refinement i (v.referenceEdge i) = none) :
    ∃ mk : Finset Nat, v.visit s i = some ⟨fun e j => if e < v.elementCount ∧ j < 3 ∧ v.ends e j = v.ends i (v.referenceEdge i)
        then some s.vertexNumber else s.refinement e j, mk, s.vertexNumber + 1,
        s.newVertices ++ [midpoint (v.edgeCorners (v.edge i (v.referenceEdge i)))]⟩ ∧
      (∀ e, e ∈ mk ↔ e ∈ s.marked ∨ (e < v.elementCount ∧ e ≠ i ∧ v.HasEdge e (v.ends i (v.referenceEdge i)) ∧
        s.refinement e (v.referenceEdge e) = none)) ∧ mk.card ≤ s.marked.card + 1 := by
  have hr := hv.reference_lt i hi
  set r := v.referenceEdge i with hrdef
  have hmem := fun e => View.mem_edgeElements (e := e) hv hi hr
  have hnd := v.nodup_edgeElements (v.edge i r)
  have hlen := View.length_edgeElements hv hi hr
  have hself : i ∈ v.edgeElements (v.edge i r) := (hmem i).2 ⟨hi, r, hr, rfl⟩
  unfold View.visit
  dsimp only
  rw [← hrdef, h]
  dsimp only
  cases hl : v.edgeElements (v.edge i r) with
  | nil => rw [hl] at hself; cases hself
  | cons a l =>
    cases l with
    | nil =>
      rw [hl] at hself hmem
      have ha : i = a := by simpa using hself
      have honly : ∀ e, e < v.elementCount ∧ v.HasEdge e (v.ends i r) → e = i := fun e he => by
        have := (hmem e).2 he
        rw [ha]
        simpa using this
      refine ⟨s.marked, ?_, ?_, by omega⟩
      · dsimp only
        congr 2
        funext e j
        by_cases hc : e < v.elementCount ∧ j < 3 ∧ v.ends e j = v.ends i r
        · rw [if_pos hc]
          have he := honly e ⟨hc.1, j, hc.2.1, hc.2.2⟩
          subst he
          have := View.ends_inj hv hc.1 hc.2.1 hr hc.2.2
          rw [if_pos ⟨rfl, this⟩]
        · rw [if_neg hc, if_neg]
          rintro ⟨rfl, rfl⟩
          exact hc ⟨hi, hr, rfl⟩
      · intro e
        constructor
        · exact Or.inl
        · rintro (h' | ⟨h1, h2, h3, -⟩)
          · exact h'
          · exact absurd (honly e ⟨h1, h3⟩) h2
    | cons b l =>
      cases l with
      | cons c l => rw [hl] at hlen; simp at hlen
      | nil =>
        rw [hl] at hself hmem hnd
        have hab : a ≠ b := by
          rintro rfl
          simp at hnd
        dsimp only
        set o := if a ≠ i then a else b with ho
        have hoi : o ≠ i := by
          rw [ho]
          split
          · assumption
          · rename_i hai
            have : a = i := by simpa using hai
            rw [← this]
            exact hab.symm
        have hiff : ∀ e, (e < v.elementCount ∧ v.HasEdge e (v.ends i r)) ↔ e = i ∨ e = o := fun e => by
          rw [← hmem e]
          have hi' : i = a ∨ i = b := by simpa using hself
          rw [ho]
          simp only [List.mem_cons, List.not_mem_nil, or_false]
          rcases hi' with rfl | rfl
          · rw [if_neg (by simp)]
          · rw [if_pos hab]
            tauto
        have ho' := (hiff o).2 (Or.inr rfl)
        have hrf : (if o = i ∧ v.referenceEdge o = r then some s.vertexNumber else s.refinement o (v.referenceEdge o)) =
            s.refinement o (v.referenceEdge o) := if_neg fun hh => hoi hh.1
        refine ⟨if s.refinement o (v.referenceEdge o) = none then insert o s.marked else s.marked, ?_, ?_, ?_⟩
        · congr 2
          · funext e j
            by_cases hc : e < v.elementCount ∧ j < 3 ∧ v.ends e j = v.ends i r
            · rw [if_pos hc]
              rcases (hiff e).1 ⟨hc.1, j, hc.2.1, hc.2.2⟩ with he | he
              · subst he
                have := View.ends_inj hv hc.1 hc.2.1 hr hc.2.2
                rw [if_neg (fun hh => hoi hh.1.symm), if_pos ⟨rfl, this⟩]
              · subst he
                rw [if_pos ⟨rfl, hc.2.1, (hv.edge_iff _ hc.1 _ hi _ hc.2.1 _ hr).2 hc.2.2⟩]
            · rw [if_neg hc, if_neg, if_neg]
              · rintro ⟨rfl, rfl⟩
                exact hc ⟨hi, hr, rfl⟩
              · rintro ⟨rfl, hj, hh⟩
                exact hc ⟨ho'.1, hj, (hv.edge_iff _ ho'.1 _ hi _ hj _ hr).1 hh⟩
          · simp only [hrf]
        · intro e
          by_cases hn : s.refinement o (v.referenceEdge o) = none
          · rw [if_pos hn, Finset.mem_insert]
            constructor
            · rintro (rfl | h')
              · exact Or.inr ⟨ho'.1, hoi, ho'.2, hn⟩
              · exact Or.inl h'
            · rintro (h' | ⟨h1, h2, h3, -⟩)
              · exact Or.inr h'
              · rcases (hiff e).1 ⟨h1, h3⟩ with h4 | h4
                · exact absurd h4 h2
                · exact Or.inl h4
          · rw [if_neg hn]
            constructor
            · exact Or.inl
            · rintro (h' | ⟨h1, h2, h3, h5⟩)
              · exact h'
              · rcases (hiff e).1 ⟨h1, h3⟩ with h4 | h4
                · exact absurd h4 h2
                · rw [h4] at h5
                  exact absurd h5 hn
        · split
          · exact Finset.card_insert_le _ _
          · omega

/-- The invariant of the loop. -/
structure Inv (v : View) (M : Finset Nat) (s : State) : Prop where
  range : ∀ e j k, s.refinement e j = some k → e < v.elementCount ∧ j < 3 ∧ v.vertexCount ≤ k ∧ k < s.vertexNumber
  shared : ∀ e < v.elementCount, ∀ e' < v.elementCount, ∀ j < 3, ∀ j' < 3, v.ends e j = v.ends e' j' → s.refinement e j = s.refinement e' j'
  inj : ∀ e j e' j' k, s.refinement e j = some k → s.refinement e' j' = some k → v.ends e j = v.ends e' j'
  number : s.vertexNumber = v.vertexCount + s.newVertices.length
  coord : ∀ e j k, s.refinement e j = some k → s.newVertices[k - v.vertexCount]? = some (midpoint (v.edgeCorners (v.edge e j)))
  onto : ∀ k, v.vertexCount ≤ k → k < s.vertexNumber → ∃ e j, s.refinement e j = some k
  cut : ∀ e j k, s.refinement e j = some k → v.Cut M (v.ends e j)
  marked : ∀ e ∈ s.marked, e < v.elementCount ∧ v.Cut M (v.ends e (v.referenceEdge e))
  start : ∀ e ∈ M, e ∈ s.marked ∨ s.refinement e (v.referenceEdge e) ≠ none
  spread : ∀ e j k, s.refinement e j = some k → e ∈ s.marked ∨ s.refinement e (v.referenceEdge e) ≠ none

theorem Inv.init {v : View} {M : Finset Nat} (hM : ∀ e ∈ M, e < v.elementCount) : Inv v M (v.start M) := by
  constructor
  · intro e j k h; cases h
  · intros; rfl
  · intro e j e' j' k h; cases h
  · rfl
  · intro e j k h; cases h
  · intro k h1 h2; exact absurd h2 (by show ¬ k < v.vertexCount; omega)
  · intro e j k h; cases h
  · intro e he; exact ⟨hM e he, .marked (hM e he) he⟩
  · intro e he; exact Or.inl he
  · intro e j k h; cases h

/-- The number of elements whose reference edge is not cut, plus the number of marked elements. -/
def measure (v : View) (s : State) : Nat :=
  ((Finset.range v.elementCount).filter fun e => s.refinement e (v.referenceEdge e) = none).card + s.marked.card

theorem Inv.pop {v : View} (hv : v.Valid) {M : Finset Nat} {s : State} (H : Inv v M s) {i : Nat} (hi : i ∈ s.marked) :
    ∃ s', v.visit { s with marked := s.marked.erase i } i = some s' ∧ Inv v M s' ∧ measure v s' + 1 ≤ measure v s := by
  obtain ⟨hin, hic⟩ := H.marked i hi
  have hri := hv.reference_lt i hin
  have hcard := Finset.card_erase_add_one hi
  by_cases hr : s.refinement i (v.referenceEdge i) = none
  · obtain ⟨mk, hvis, hmk, hmc⟩ := View.visit_fresh hv (s := { s with marked := s.marked.erase i }) hin hr
    refine ⟨_, hvis, ?_, ?_⟩
    · set p := v.ends i (v.referenceEdge i) with hp
      have hnew : ∀ e j, (if e < v.elementCount ∧ j < 3 ∧ v.ends e j = p then some s.vertexNumber else s.refinement e j) = none →
          s.refinement e j = none := by
        intro e j h
        split at h
        · cases h
        · exact h
      have hnew' : ∀ e j k, (if e < v.elementCount ∧ j < 3 ∧ v.ends e j = p then some s.vertexNumber else s.refinement e j) = some k →
          (e < v.elementCount ∧ j < 3 ∧ v.ends e j = p ∧ k = s.vertexNumber) ∨ s.refinement e j = some k := by
        intro e j k h
        split at h
        · rename_i hc
          exact Or.inl ⟨hc.1, hc.2.1, hc.2.2, (Option.some.inj h).symm⟩
        · exact Or.inr h
      have hii : (if i < v.elementCount ∧ v.referenceEdge i < 3 ∧ v.ends i (v.referenceEdge i) = p then some s.vertexNumber
          else s.refinement i (v.referenceEdge i)) = some s.vertexNumber := if_pos ⟨hin, hri, hp.symm⟩
      have hvn := H.number
      constructor
      · intro e j k h
        rcases hnew' e j k h with ⟨h1, h2, -, rfl⟩ | h
        · exact ⟨h1, h2, by omega, by show s.vertexNumber < s.vertexNumber + 1; omega⟩
        · obtain ⟨h1, h2, h3, h4⟩ := H.range e j k h
          exact ⟨h1, h2, h3, by show k < s.vertexNumber + 1; omega⟩
      · intro e he e' he' j hj j' hj' h
        dsimp only
        by_cases hc : v.ends e j = p
        · rw [if_pos ⟨he, hj, hc⟩, if_pos ⟨he', hj', h ▸ hc⟩]
        · rw [if_neg (fun hh => hc hh.2.2), if_neg (fun hh => hc (h ▸ hh.2.2))]
          exact H.shared e he e' he' j hj j' hj' h
      · intro e j e' j' k h h'
        rcases hnew' e j k h with ⟨-, -, h3, h4⟩ | h
        · rcases hnew' e' j' k h' with ⟨-, -, h7, -⟩ | h'
          · rw [h3, h7]
          · have := (H.range _ _ _ h').2.2.2
            omega
        · rcases hnew' e' j' k h' with ⟨-, -, -, h8⟩ | h'
          · have := (H.range _ _ _ h).2.2.2
            omega
          · exact H.inj e j e' j' k h h'
      · show s.vertexNumber + 1 = _
        rw [List.length_append, List.length_singleton]
        show s.vertexNumber + 1 = v.vertexCount + (s.newVertices.length + 1)
        omega
      · intro e j k h
        rcases hnew' e j k h with ⟨h1, h2, h3, rfl⟩ | h
        · have he : v.edge e j = v.edge i (v.referenceEdge i) := (hv.edge_iff e h1 i hin j h2 _ hri).2 h3
          rw [he]
          show (s.newVertices ++ _)[_]? = _
          rw [List.getElem?_append_right (by omega)]
          rw [show s.vertexNumber - v.vertexCount - s.newVertices.length = 0 by omega]
          rfl
        · have := H.range e j k h
          show (s.newVertices ++ _)[_]? = _
          rw [List.getElem?_append_left (by omega)]
          exact H.coord e j k h
      · intro k h1 h2
        have h2 : k < s.vertexNumber + 1 := h2
        by_cases hk : k < s.vertexNumber
        · obtain ⟨e, j, h⟩ := H.onto k h1 hk
          refine ⟨e, j, ?_⟩
          dsimp only
          rw [if_neg]
          · exact h
          · rintro ⟨ha, hb, hc⟩
            have := H.shared e ha i hin j hb _ hri hc
            rw [h, hr] at this
            cases this
        · have : k = s.vertexNumber := by omega
          subst this
          exact ⟨i, v.referenceEdge i, hii⟩
      · intro e j k h
        rcases hnew' e j k h with ⟨-, -, h3, -⟩ | h
        · rw [h3]
          exact hic
        · exact H.cut e j k h
      · intro e he
        rcases (hmk e).1 he with h | ⟨h1, -, h3, -⟩
        · exact H.marked e (Finset.mem_of_mem_erase h)
        · exact ⟨h1, .spread h1 h3 hic⟩
      · intro e he
        by_cases hei : e = i
        · subst hei
          right
          dsimp only
          rw [hii]
          exact Option.some_ne_none _
        · rcases H.start e he with h | h
          · exact Or.inl ((hmk e).2 (Or.inl (Finset.mem_erase.2 ⟨hei, h⟩)))
          · exact Or.inr fun hh => h (hnew _ _ hh)
      · intro e j k h
        by_cases hei : e = i
        · subst hei
          right
          dsimp only
          rw [hii]
          exact Option.some_ne_none _
        · rcases hnew' e j k h with ⟨h1, h2, h3, -⟩ | h
          · by_cases hq : s.refinement e (v.referenceEdge e) = none
            · exact Or.inl ((hmk e).2 (Or.inr ⟨h1, hei, ⟨j, h2, h3⟩, hq⟩))
            · exact Or.inr fun hh => hq (hnew _ _ hh)
          · rcases H.spread e j k h with h | h
            · exact Or.inl ((hmk e).2 (Or.inl (Finset.mem_erase.2 ⟨hei, h⟩)))
            · exact Or.inr fun hh => h (hnew _ _ hh)
    · unfold measure
      dsimp only at hmc ⊢
      have : (Finset.filter (fun e => (if e < v.elementCount ∧ v.referenceEdge e < 3 ∧ v.ends e (v.referenceEdge e) = v.ends i (v.referenceEdge i)
          then some s.vertexNumber else s.refinement e (v.referenceEdge e)) = none) (Finset.range v.elementCount)).card + 1 ≤
          (Finset.filter (fun e => s.refinement e (v.referenceEdge e) = none) (Finset.range v.elementCount)).card := by
        apply Finset.card_lt_card
        rw [Finset.ssubset_iff_of_subset]
        · refine ⟨i, Finset.mem_filter.2 ⟨Finset.mem_range.2 hin, hr⟩, fun h => ?_⟩
          have := (Finset.mem_filter.1 h).2
          rw [if_pos ⟨hin, hri, rfl⟩] at this
          cases this
        · intro e he
          rw [Finset.mem_filter] at he ⊢
          refine ⟨he.1, ?_⟩
          have h2 := he.2
          split at h2
          · cases h2
          · exact h2
      omega
  · refine ⟨_, View.visit_refined hr, ?_, ?_⟩
    · refine ⟨H.range, H.shared, H.inj, H.number, H.coord, H.onto, H.cut, ?_, ?_, ?_⟩
      · intro e he; exact H.marked e (Finset.mem_of_mem_erase he)
      · intro e he
        by_cases hei : e = i
        · subst hei; exact Or.inr hr
        · rcases H.start e he with h | h
          · exact Or.inl (Finset.mem_erase.2 ⟨hei, h⟩)
          · exact Or.inr h
      · intro e j k h
        by_cases hei : e = i
        · subst hei; exact Or.inr hr
        · rcases H.spread e j k h with h | h
          · exact Or.inl (Finset.mem_erase.2 ⟨hei, h⟩)
          · exact Or.inr h
    · unfold measure
      dsimp only
      omega

theorem View.Steps.inv {v : View} (hv : v.Valid) {M : Finset Nat} {n : Nat} {s s' : State} (h : v.Steps n s s') (H : Inv v M s) :
    Inv v M s' ∧ measure v s' + n ≤ measure v s := by
  induction h with
  | zero s => exact ⟨H, by omega⟩
  | succ _ h' ih =>
    obtain ⟨h1, h2⟩ := ih H
    obtain ⟨i, hi, hvis⟩ := h'
    obtain ⟨s'', hs'', h3, h4⟩ := h1.pop hv hi
    rw [hvis] at hs''
    cases hs''
    exact ⟨h3, by omega⟩

theorem measure_start (v : View) (M : Finset Nat) : measure v (v.start M) ≤ v.elementCount + M.card := by
  unfold measure View.start
  dsimp only
  have := Finset.card_filter_le (Finset.range v.elementCount) fun _ => (none : Option Nat) = none
  rw [Finset.card_range] at this
  omega

/-- From every state the loop ends. -/
theorem Inv.finish {v : View} (hv : v.Valid) {M : Finset Nat} : ∀ (k : Nat) {s0 s : State} {n : Nat}, v.Steps n s0 s → Inv v M s → measure v s ≤ k →
    ∃ n' s', v.Steps n' s0 s' ∧ s'.marked = ∅ := by
  intro k
  induction k with
  | zero =>
    intro s0 s n h H hk
    refine ⟨n, s, h, ?_⟩
    unfold measure at hk
    exact Finset.card_eq_zero.1 (by omega)
  | succ k ih =>
    intro s0 s n h H hk
    rcases Finset.eq_empty_or_nonempty s.marked with he | ⟨i, hi⟩
    · exact ⟨n, s, h, he⟩
    · obtain ⟨s', hs', H', hm⟩ := H.pop hv hi
      exact ih (.succ h ⟨i, hi, hs'⟩) H' (by omega)

/-- The numbers of the cut edges. -/
def cutOf (v : View) (s : State) (p : Sym2 Nat) : Option Nat :=
  open Classical in
  if h : ∃ e j, e < v.elementCount ∧ j < 3 ∧ v.ends e j = p then s.refinement h.choose h.choose_spec.choose else none

theorem Inv.cutOf_ends {v : View} {M : Finset Nat} {s : State} (H : Inv v M s) {e j : Nat} (he : e < v.elementCount) (hj : j < 3) :
    cutOf v s (v.ends e j) = s.refinement e j := by
  unfold cutOf
  have h : ∃ e' j', e' < v.elementCount ∧ j' < 3 ∧ v.ends e' j' = v.ends e j := ⟨e, j, he, hj, rfl⟩
  rw [dif_pos h]
  obtain ⟨h1, h2, h3⟩ := h.choose_spec.choose_spec
  exact H.shared _ h1 e he _ h2 j hj h3

theorem cutOf_some {v : View} {s : State} {p : Sym2 Nat} {k : Nat} (h : cutOf v s p = some k) :
    ∃ e j, e < v.elementCount ∧ j < 3 ∧ v.ends e j = p ∧ s.refinement e j = some k := by
  unfold cutOf at h
  split at h
  · rename_i hh
    obtain ⟨h1, h2, h3⟩ := hh.choose_spec.choose_spec
    exact ⟨_, _, h1, h2, h3, h⟩
  · cases h

theorem Inv.numbering {v : View} (hv : v.Valid) {M : Finset Nat} {s : State} (H : Inv v M s) (hd : s.marked = ∅) :
    Numbering (v.Cut M) v.vertexCount s.newVertices.length (cutOf v s) := by
  have hdone : ∀ e j k, s.refinement e j = some k → s.refinement e (v.referenceEdge e) ≠ none := fun e j k h => by
    rcases H.spread e j k h with h | h
    · rw [hd] at h; cases h
    · exact h
  constructor
  · intro p
    constructor
    · intro h
      obtain ⟨k, hk⟩ := Option.isSome_iff_exists.1 h
      obtain ⟨e, j, he, hj, rfl, hr⟩ := cutOf_some hk
      exact H.cut e j k hr
    · intro h
      induction h with
      | @marked e he hm =>
        rw [H.cutOf_ends he (hv.reference_lt e he)]
        rcases H.start e hm with h | h
        · rw [hd] at h; cases h
        · exact Option.isSome_iff_ne_none.2 h
      | @spread e p he hp _ ih =>
        obtain ⟨j, hj, rfl⟩ := hp
        rw [H.cutOf_ends he hj] at ih
        obtain ⟨k, hk⟩ := Option.isSome_iff_exists.1 ih
        rw [H.cutOf_ends he (hv.reference_lt e he)]
        exact Option.isSome_iff_ne_none.2 (hdone e j k hk)
  · intro p k h
    obtain ⟨e, j, he, hj, rfl, hr⟩ := cutOf_some h
    have := H.range e j k hr
    rw [H.number] at this
    exact this.2.2
  · intro p q k h h'
    obtain ⟨e, j, he, hj, rfl, hr⟩ := cutOf_some h
    obtain ⟨e', j', he', hj', rfl, hr'⟩ := cutOf_some h'
    exact H.inj _ _ _ _ _ hr hr'
  · intro k h1 h2
    obtain ⟨e, j, h⟩ := H.onto k h1 (by rw [H.number]; exact h2)
    obtain ⟨he, hj, -⟩ := H.range e j k h
    exact ⟨v.ends e j, by rw [H.cutOf_ends he hj, h]⟩

end
end Verif.Refine
