import Verif.Spec.Assembly
import Verif.Lemmas.HMatrix
import Mathlib.Algebra.BigOperators.Intervals
import Mathlib.Data.List.GetD
/-
Lemmas on sums of matrix updates.
-/
namespace Verif.Assembly
open Verif.Space Verif.HMat Finset

section
variable {K : Type} [CommRing K]

/-- What a list of updates adds to entry `(i, j)`. -/
def contrib (us : List (Int × Int × K)) (i j : Int) : K :=
  (us.map fun u => if u.1 = i ∧ u.2.1 = j then u.2.2 else 0).sum

theorem contrib_nil (i j : Int) : contrib ([] : List (Int × Int × K)) i j = 0 := rfl

theorem contrib_append (a b : List (Int × Int × K)) (i j : Int) :
    contrib (a ++ b) i j = contrib a i j + contrib b i j := by
  simp [contrib]

theorem contrib_flatMap {α : Type} (l : List α) (f : α → List (Int × Int × K)) (i j : Int) :
    contrib (l.flatMap f) i j = (l.map fun x => contrib (f x) i j).sum := by
  induction l with
  | nil => rfl
  | cons a l ih => rw [List.flatMap_cons, contrib_append, ih]; simp

theorem contrib_perm {a b : List (Int × Int × K)} (h : a.Perm b) (i j : Int) : contrib a i j = contrib b i j :=
  (h.map _).sum_eq

/-- The update lies inside a matrix of this size. -/
def InRange (rows cols : Nat) (u : Int × Int × K) : Prop :=
  0 ≤ u.1 ∧ u.1 < rows ∧ 0 ≤ u.2.1 ∧ u.2.1 < cols

theorem addAt_ok (m : Mx K) (u : Int × Int × K) (h : InRange m.rows m.cols u) :
    ∃ m', addAt m u = some m' ∧ m'.rows = m.rows ∧ m'.cols = m.cols ∧
      ∀ i j : Nat, m'.e i j = m.e i j + if u.1 = i ∧ u.2.1 = j then u.2.2 else 0 := by
  unfold addAt
  unfold InRange at h
  rw [if_pos h]
  refine ⟨_, rfl, rfl, rfl, ?_⟩
  intro i j
  obtain ⟨h1, h2, h3, h4⟩ := h
  by_cases hc : u.1 = i ∧ u.2.1 = j
  · rw [if_pos hc]
    simp only
    rw [if_pos ⟨by omega, by omega⟩]
  · rw [if_neg hc, add_zero]
    simp only
    rw [if_neg (fun hh => hc ⟨by omega, by omega⟩)]

theorem addAll_ok (us : List (Int × Int × K)) : ∀ (m : Mx K), (∀ u ∈ us, InRange m.rows m.cols u) →
    ∃ m', addAll m us = some m' ∧ m'.rows = m.rows ∧ m'.cols = m.cols ∧
      ∀ i j : Nat, m'.e i j = m.e i j + contrib us i j := by
  induction us with
  | nil => intro m _; exact ⟨m, rfl, rfl, rfl, fun i j => by simp [contrib]⟩
  | cons u us ih =>
    intro m h
    obtain ⟨m1, h1, h2, h3, h4⟩ := addAt_ok m u (h u List.mem_cons_self)
    obtain ⟨m2, h5, h6, h7, h8⟩ := ih m1 (fun v hv => by rw [h2, h3]; exact h v (List.mem_cons_of_mem _ hv))
    refine ⟨m2, ?_, h6.trans h2, h7.trans h3, ?_⟩
    · unfold addAll at h5 ⊢
      rw [List.foldlM_cons, h1]
      exact h5
    · intro i j
      rw [h8, h4]
      simp [contrib, add_assoc]

theorem addAll_append (m : Mx K) (a b : List (Int × Int × K)) :
    addAll m (a ++ b) = (addAll m a).bind fun m' => addAll m' b := by
  unfold addAll
  rw [List.foldlM_append]; rfl

theorem foldlM_addAll {α : Type} (l : List α) (f : α → List (Int × Int × K)) : ∀ m : Mx K,
    l.foldlM (fun (m : Mx K) t => addAll m (f t)) m = addAll m (l.flatMap f) := by
  induction l with
  | nil => intro m; rfl
  | cons a l ih =>
    intro m
    rw [List.foldlM_cons, List.flatMap_cons, addAll_append]
    cases addAll m (f a) with
    | none => rfl
    | some m' => exact ih m'

theorem sum_zipIdx {α : Type} (g : α × Nat → K) (d : α) (l : List α) :
    (l.zipIdx.map g).sum = ∑ k ∈ range l.length, g (l.getD k d, k) := by
  induction l using List.reverseRecOn with
  | nil => rfl
  | append_singleton l x ih =>
    rw [List.zipIdx_append, List.map_append, List.sum_append, ih, List.length_append, List.length_singleton,
      Finset.sum_range_succ]
    congr 1
    · refine Finset.sum_congr rfl fun k hk => ?_
      have hk' := Finset.mem_range.mp hk
      rw [List.getD_append _ _ _ _ hk']
    · simp [List.getD_eq_getElem?_getD]

theorem contrib_pairUpdates (td ud : List Int) (f : Nat → Nat → K) (i j : Nat) :
    contrib (pairUpdates td ud f) i j = ∑ a ∈ range td.length, ∑ b ∈ range ud.length,
      if td[a]? = some (i : Int) ∧ ud[b]? = some (j : Int) then f a b else 0 := by
  unfold pairUpdates
  rw [contrib_flatMap, sum_zipIdx _ (-1), Finset.sum_comm]
  refine Finset.sum_congr rfl fun b hb => ?_
  have hb' := Finset.mem_range.mp hb
  have eb : ud[b]? = some (ud.getD b (-1)) := by
    rw [List.getD_eq_getElem?_getD, List.getElem?_eq_getElem hb']; rfl
  simp only [eb, Option.some.injEq]
  by_cases h : ud.getD b (-1) < 0
  · rw [if_pos h, contrib_nil]
    symm
    refine Finset.sum_eq_zero fun a _ => ?_
    rw [if_neg]
    rintro ⟨-, h2⟩; omega
  · rw [if_neg h, contrib_flatMap, sum_zipIdx _ (-1)]
    refine Finset.sum_congr rfl fun a ha => ?_
    have ha' := Finset.mem_range.mp ha
    have ea : td[a]? = some (td.getD a (-1)) := by
      rw [List.getD_eq_getElem?_getD, List.getElem?_eq_getElem ha']; rfl
    simp only [ea, Option.some.injEq]
    by_cases h2 : td.getD a (-1) < 0
    · rw [if_pos h2, contrib_nil, if_neg]
      rintro ⟨h3, -⟩; omega
    · rw [if_neg h2]
      simp [contrib]

theorem mem_pairUpdates {td ud : List Int} {f : Nat → Nat → K} {u : Int × Int × K} (h : u ∈ pairUpdates td ud f) :
    u.1 ∈ td ∧ u.2.1 ∈ ud ∧ 0 ≤ u.1 ∧ 0 ≤ u.2.1 := by
  unfold pairUpdates at h
  rw [List.mem_flatMap] at h
  obtain ⟨q, hq, h⟩ := h
  split at h
  · simp at h
  · rw [List.mem_flatMap] at h
    obtain ⟨p, hp, h⟩ := h
    split at h
    · simp at h
    · rw [List.mem_singleton] at h
      subst h
      exact ⟨List.fst_mem_of_mem_zipIdx hp, List.fst_mem_of_mem_zipIdx hq, not_lt.mp ‹_›, not_lt.mp ‹_›⟩

theorem sum_list_range (f : Nat → K) (n : Nat) : ((List.range n).map f).sum = ∑ k ∈ range n, f k := by
  induction n with
  | zero => rfl
  | succ n ih => rw [List.range_succ, List.map_append, List.sum_append, ih, Finset.sum_range_succ]; simp

theorem sum_list_filter {α : Type} (l : List α) (p : α → Bool) (f : α → K) (h : ∀ x ∈ l, p x = false → f x = 0) :
    ((l.filter p).map f).sum = (l.map f).sum := by
  induction l with
  | nil => rfl
  | cons a l ih =>
    have ih' := ih fun x hx => h x (List.mem_cons_of_mem _ hx)
    by_cases hp : p a = true
    · rw [List.filter_cons_of_pos hp]; simp [ih']
    · have := h a List.mem_cons_self (by simpa using hp)
      rw [List.filter_cons_of_neg (by simpa using hp)]; simp [ih', this]

/-- A sum over a duplicate-free list of indices that contains all indices with a contribution. -/
theorem sum_keys (keys : List Nat) (hn : keys.Nodup) (n : Nat) (hlt : ∀ k ∈ keys, k < n) (f : Nat → K)
    (h0 : ∀ k, k < n → k ∉ keys → f k = 0) : (keys.map f).sum = ∑ k ∈ range n, f k := by
  have h1 : (keys.map f).sum = ∑ k ∈ keys.toFinset, f k := by
    rw [List.sum_toFinset f hn]
  rw [h1]
  refine Finset.sum_subset ?_ ?_
  · intro k hk; exact Finset.mem_range.mpr (hlt k (List.mem_toFinset.mp hk))
  · intro k hk hk2
    exact h0 k (Finset.mem_range.mp hk) (fun h => hk2 (List.mem_toFinset.mpr h))

end

section
variable {K : Type} [CommRing K]

theorem ASpace.at_iff (sp : ASpace K) (e a : Nat) (g : Int) : sp.maps.At ⟨e, a⟩ g ↔ (sp.gdofs e)[a]? = some g := Iff.rfl

theorem ASpace.mem_range (sp : ASpace K) (hv : sp.Valid) {e : Nat} {g : Int} (h : g ∈ sp.gdofs e) (h0 : 0 ≤ g) :
    g < sp.globalDofCount := by
  obtain ⟨a, ha⟩ := List.mem_iff_getElem?.mp h
  rcases hv.consistent.range ⟨e, a⟩ g ha with h | h
  · omega
  · exact h.2

theorem not_contributes {ds : List Int} (h : contributes ds = false) (a : Nat) (i : Nat) : ds[a]? ≠ some (i : Int) := by
  intro hc
  unfold contributes at h
  rw [List.any_eq_false] at h
  have := h _ (List.mem_of_getElem? hc)
  simp at this

variable [StarRing K]

theorem contrib_trialUpdates (T U : ASpace K) (form : Nat → Nat → Nat → Nat → K) (t i j : Nat) :
    contrib (trialUpdates T U form t) i j = ∑ e ∈ range T.elementCount, ∑ a ∈ range (T.gdofs e).length,
      ∑ b ∈ range (U.gdofs t).length, if T.maps.At ⟨e, a⟩ i ∧ U.maps.At ⟨t, b⟩ j then
        star (T.weight e a) * U.weight t b * form e t a b else 0 := by
  unfold trialUpdates
  by_cases hc : contributes (U.gdofs t) = true
  · rw [if_pos hc, contrib_flatMap]
    unfold testIndices
    rw [sum_list_filter, sum_list_range]
    · refine Finset.sum_congr rfl fun e _ => ?_
      rw [contrib_pairUpdates]
      rfl
    · intro e _ he
      rw [contrib_pairUpdates]
      refine Finset.sum_eq_zero fun a _ => Finset.sum_eq_zero fun b _ => ?_
      rw [if_neg]
      rintro ⟨h1, -⟩
      exact not_contributes he a i h1
  · rw [if_neg hc, contrib_nil]
    symm
    refine Finset.sum_eq_zero fun e _ => Finset.sum_eq_zero fun a _ => Finset.sum_eq_zero fun b _ => ?_
    rw [if_neg]
    rintro ⟨-, h1⟩
    exact not_contributes (ds := U.gdofs t) (by simpa using hc) b j h1

theorem inRange_trialUpdates (T U : ASpace K) (hT : T.Valid) (hU : U.Valid) (form : Nat → Nat → Nat → Nat → K) (t : Nat) :
    ∀ u ∈ trialUpdates T U form t, InRange T.globalDofCount U.globalDofCount u := by
  intro u hu
  unfold trialUpdates at hu
  split at hu
  · rw [List.mem_flatMap] at hu
    obtain ⟨e, -, hu⟩ := hu
    obtain ⟨h1, h2, h3, h4⟩ := mem_pairUpdates hu
    exact ⟨h3, T.mem_range hT h1 h3, h4, U.mem_range hU h2 h4⟩
  · simp at hu

theorem contrib_potentialUpdates (points components : Nat) (U : ASpace K) (form : Nat → Nat → Nat → Nat → K) (t p c j : Nat)
    (hp : p < points) (hc : c < components) :
    contrib (potentialUpdates points components U form t) (p * components + c : Nat) j =
      ∑ b ∈ range (U.gdofs t).length, if U.maps.At ⟨t, b⟩ j then U.weight t b * form p t c b else 0 := by
  unfold potentialUpdates
  by_cases hcn : contributes (U.gdofs t) = true
  · rw [if_pos hcn, contrib_flatMap, sum_zipIdx _ (-1)]
    refine Finset.sum_congr rfl fun b hb => ?_
    have hb' := Finset.mem_range.mp hb
    have eb : (U.gdofs t)[b]? = some ((U.gdofs t).getD b (-1)) := by
      rw [List.getD_eq_getElem?_getD, List.getElem?_eq_getElem hb']; rfl
    simp only [U.at_iff, eb, Option.some.injEq]
    by_cases h : (U.gdofs t).getD b (-1) < 0
    · rw [if_pos h, contrib_nil, if_neg (by omega)]
    · rw [if_neg h, contrib_flatMap, sum_list_range]
      rw [Finset.sum_eq_single p]
      · unfold contrib
        rw [List.map_map, sum_list_range, Finset.sum_eq_single c]
        · simp
        · intro c' hc' hne
          have hc2 := Finset.mem_range.mp hc'
          simp only [Function.comp_apply]
          rw [if_neg]
          rintro ⟨h1, -⟩
          exact hne (by omega)
        · intro h2; exact absurd (Finset.mem_range.mpr hc) h2
      · intro p' hp' hne
        unfold contrib
        rw [List.map_map, sum_list_range]
        refine Finset.sum_eq_zero fun c' hc' => ?_
        have hc2 := Finset.mem_range.mp hc'
        simp only [Function.comp_apply]
        rw [if_neg]
        rintro ⟨h1, -⟩
        have h1' : p' * components + c' = p * components + c := by exact_mod_cast h1
        apply hne
        have e1 : (p' * components + c') / components = p' := by
          rw [Nat.mul_comm, Nat.mul_add_div (by omega), Nat.div_eq_of_lt hc2]; omega
        have e2 : (p * components + c) / components = p := by
          rw [Nat.mul_comm, Nat.mul_add_div (by omega), Nat.div_eq_of_lt hc]; omega
        rw [← e1, ← e2, h1']
      · intro h2; exact absurd (Finset.mem_range.mpr hp) h2
  · rw [if_neg hcn, contrib_nil]
    symm
    refine Finset.sum_eq_zero fun b _ => ?_
    rw [if_neg]
    intro h1
    exact not_contributes (ds := U.gdofs t) (by simpa using hcn) b j h1

end
end Verif.Assembly
