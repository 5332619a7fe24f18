import Verif.Model.GridFactory
import Verif.Lemmas.DataContainer
/-
Lemmas about grid creation.
-/
namespace Verif.Grid

/-- The element `i` of the connectivity array. -/
def colTri (ec : Mat Int) (i : Nat) : Tri :=
  ⟨(ec.at_ 0 i).toNat, (ec.at_ 1 i).toNat, (ec.at_ 2 i).toNat⟩

theorem insertElements_spec (n : Nat) (ec : Mat Int) (is : List Nat) :
    ((∃ i ∈ is, ∃ r < 3, ec.at_ r i < 0 ∨ (n : Int) ≤ ec.at_ r i) →
      insertElements n ec is = .error .invalidArgument) ∧
    ((∀ i ∈ is, ∀ r < 3, 0 ≤ ec.at_ r i ∧ ec.at_ r i < n) →
      insertElements n ec is = .ok (is.map (colTri ec))) := by
  induction is with
  | nil => constructor
           · rintro ⟨i, hi, _⟩; simp at hi
           · intro _; rfl
  | cons i is ih =>
    rw [insertElements]
    constructor
    · rintro ⟨j, hj, r, hr, h⟩
      by_cases hbad : ec.at_ 0 i < 0 ∨ ec.at_ 0 i ≥ n ∨ ec.at_ 1 i < 0 ∨ ec.at_ 1 i ≥ n ∨
          ec.at_ 2 i < 0 ∨ ec.at_ 2 i ≥ n
      · rw [if_pos hbad]
      · rw [if_neg hbad]
        rcases List.mem_cons.mp hj with rfl | hj
        · exfalso; apply hbad
          obtain rfl | rfl | rfl : r = 0 ∨ r = 1 ∨ r = 2 := by omega
          all_goals omega
        · rw [ih.1 ⟨j, hj, r, hr, h⟩]; rfl
    · intro h
      have h0 := h i List.mem_cons_self 0 (by omega)
      have h1 := h i List.mem_cons_self 1 (by omega)
      have h2 := h i List.mem_cons_self 2 (by omega)
      rw [if_neg (by omega), ih.2 (fun j hj => h j (List.mem_cons_of_mem _ hj))]
      rfl

theorem set_fold_get (f : Nat → Int) (n : Nat) : ∀ (out : List Int),
    (((List.range n).foldl (fun (out : List Int) i => out.set i (f i)) out).length = out.length) ∧
    ∀ k, k < out.length →
    ((List.range n).foldl (fun (out : List Int) i => out.set i (f i)) out)[k]? =
      if k < n then some (f k) else out[k]? := by
  induction n with
  | zero => intro out; simp
  | succ n ih =>
    intro out
    obtain ⟨h1, h2⟩ := ih out
    rw [List.range_succ, List.foldl_append]
    simp only [List.foldl_cons, List.foldl_nil]
    refine ⟨by rw [List.length_set, h1], ?_⟩
    intro k hk
    by_cases hkn : n = k
    · subst hkn
      rw [List.getElem?_set_self (by rw [h1]; exact hk), if_pos (by omega)]
    · rw [List.getElem?_set_ne hkn, h2 k hk]
      by_cases h : k < n
      · rw [if_pos h, if_pos (by omega)]
      · rw [if_neg h, if_neg (by omega)]

theorem permuteInsertion_eq (dom : List Int) : permuteInsertionDomainIndices dom dom.length = dom := by
  unfold permuteInsertionDomainIndices
  obtain ⟨h1, h2⟩ := set_fold_get (fun i => dom[i]?.getD 0) dom.length (List.replicate dom.length 0)
  apply List.ext_getElem?
  intro k
  by_cases hk : k < dom.length
  · rw [h2 k (by simpa using hk), if_pos hk, List.getElem?_eq_getElem hk]; rfl
  · rw [List.getElem?_eq_none (by rw [h1]; simpa using hk), List.getElem?_eq_none (by omega)]

/-- The conditions under which the import throws. -/
def ImportBad (triangular : Bool) (vrows vcols : Nat) (ec : Mat Int) (dom : List Int) : Prop :=
  triangular = false ∨ vrows ≠ 3 ∨ ec.rows < 3 ∨ (dom ≠ [] ∧ dom.length ≠ ec.cols) ∨
    ∃ i < ec.cols, ∃ r < 3, ec.at_ r i < 0 ∨ (vcols : Int) ≤ ec.at_ r i

theorem import_bad {K : Type} (triangular : Bool) (vs : Mat K) (ec : Mat Int) (dom : List Int)
    (h : ImportBad triangular vs.rows vs.cols ec dom) :
    createGridFromConnectivityArrays triangular vs ec dom = .error .invalidArgument := by
  unfold createGridFromConnectivityArrays
  cases triangular with
  | false => rfl
  | true =>
    by_cases h1 : vs.rows = 3
    · by_cases h2 : ec.rows < 3
      · simp [h1, h2, throw, throwThe, MonadExceptOf.throw, bind, Except.bind]
      · by_cases h3 : dom ≠ [] ∧ dom.length ≠ ec.cols
        · simp [h1, h2, h3, throw, throwThe, MonadExceptOf.throw, bind, Except.bind]
        · rcases h with h | h | h | h | ⟨i, hi, r, hr, h⟩
          · cases h
          · exact absurd h1 h
          · exact absurd h h2
          · exact absurd h h3
          · have := (insertElements_spec vs.cols ec (List.range ec.cols)).1
              ⟨i, List.mem_range.mpr hi, r, hr, h⟩
            simp [h1, h2, h3, this, bind, Except.bind, pure, Except.pure]
    · simp [h1, throw, throwThe, MonadExceptOf.throw, bind, Except.bind]

theorem import_good {K : Type} (triangular : Bool) (vs : Mat K) (ec : Mat Int) (dom : List Int)
    (h : ¬ ImportBad triangular vs.rows vs.cols ec dom) :
    ∃ d, DataContainer.init vs.cols ((List.range ec.cols).map (colTri ec)) = some d ∧
    createGridFromConnectivityArrays triangular vs ec dom =
      .ok ⟨(List.range vs.cols).map fun i => ⟨vs.at_ 0 i, vs.at_ 1 i, vs.at_ 2 i⟩, d,
        if dom = [] then List.replicate ec.cols 0 else dom⟩ := by
  unfold ImportBad at h
  push Not at h
  obtain ⟨h0, h1, h2, h3, h4⟩ := h
  have h0' : triangular = true := by simpa using h0
  subst h0'
  have h3' : ¬ (dom ≠ [] ∧ dom.length ≠ ec.cols) := by
    rintro ⟨ha, hb⟩; exact hb (h3 ha)
  have hins := (insertElements_spec vs.cols ec (List.range ec.cols)).2 (by
    intro i hi r hr
    exact h4 i (List.mem_range.mp hi) r hr)
  obtain ⟨d, hd, -⟩ := init_spec vs.cols ((List.range ec.cols).map (colTri ec)) 0 (by
    intro t ht v hv
    obtain ⟨i, hi, rfl⟩ := List.mem_map.mp ht
    have hi' := List.mem_range.mp hi
    have a0 := h4 i hi' 0 (by omega)
    have a1 := h4 i hi' 1 (by omega)
    have a2 := h4 i hi' 2 (by omega)
    simp only [colTri, Tri.verts, List.mem_cons, List.not_mem_nil, or_false] at hv
    omega)
  refine ⟨d, hd, ?_⟩
  unfold createGridFromConnectivityArrays
  have h2' : ¬ ec.rows < 3 := by omega
  have e1 : (List.map (fun i => (⟨vs.at_ 0 i, vs.at_ 1 i, vs.at_ 2 i⟩ : P3 K)) (List.range vs.cols)).length
      = vs.cols := by simp
  simp only [Bool.not_true, Bool.false_eq_true, if_false, h1, ne_eq, not_true, h2', h3, hins, e1, hd,
    orUb, bind, Except.bind, pure, Except.pure, List.length_map, List.length_range]
  rw [if_neg h3']
  congr 2
  by_cases hdom : dom = []
  · simp [hdom]
  · rw [if_neg hdom, if_neg hdom, ← h3 hdom, permuteInsertion_eq]

/-! ### Multi-indices -/

theorem visit_eq (L : Nat × Nat) (h1 : 0 < L.1) (n : Nat) : ∀ (k : Nat), k + n ≤ L.1 * L.2 →
    MultiIndex.visit L n (k % L.1, k / L.1) =
      (List.range n).map fun j => ((k + j) % L.1, (k + j) / L.1) := by
  induction n with
  | zero => intro k _; rfl
  | succ n ih =>
    intro k hk
    rw [MultiIndex.visit, List.range_succ_eq_map, List.map_cons, List.map_map]
    congr 1
    cases n with
    | zero => rfl
    | succ n =>
      have hstep : MultiIndex.inc L (k % L.1, k / L.1) = ((k + 1) % L.1, (k + 1) / L.1) := by
        unfold MultiIndex.inc
        simp only
        have hlt := Nat.mod_lt k h1
        have hdm := Nat.div_add_mod k L.1
        have hdm' := Nat.div_add_mod (k + 1) L.1
        have hlt' := Nat.mod_lt (k + 1) h1
        by_cases hc : k % L.1 + 1 < L.1
        · rw [if_pos hc]
          have hq : (k + 1) / L.1 = k / L.1 := by
            apply Nat.div_eq_of_lt_le
            · rw [Nat.mul_comm]; omega
            · rw [Nat.mul_comm, Nat.mul_add]; omega
          rw [hq]
          have hr : (k + 1) % L.1 = k % L.1 + 1 := by rw [hq] at hdm'; omega
          rw [hr]
        · rw [if_neg hc]
          have hq : (k + 1) / L.1 = k / L.1 + 1 := by
            apply Nat.div_eq_of_lt_le
            · rw [Nat.mul_comm, Nat.mul_add]; omega
            · rw [Nat.mul_comm, Nat.mul_add, Nat.mul_add]; omega
          have hr : (k + 1) % L.1 = 0 := by
            rw [hq, Nat.mul_add] at hdm'; omega
          have hlim : k / L.1 + 1 < L.2 := by
            rw [← hq]
            apply Nat.div_lt_of_lt_mul
            omega
          rw [if_pos hlim, hq, hr]
      rw [hstep, ih (k + 1) (by omega)]
      apply List.map_congr_left
      intro j _
      simp only [Function.comp_apply]
      rw [Nat.add_right_comm, Nat.add_assoc]

theorem visit_zero (L : Nat × Nat) (h1 : 0 < L.1) :
    MultiIndex.visit L (L.1 * L.2) (0, 0) = (List.range (L.1 * L.2)).map fun j => (j % L.1, j / L.1) := by
  have := visit_eq L h1 (L.1 * L.2) 0 (by omega)
  simpa using this

end Verif.Grid
