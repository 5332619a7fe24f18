import Verif.Spec.Shapes
import Mathlib.Tactic.Ring
import Mathlib.Tactic.Linarith
import Mathlib.Tactic.FieldSimp
import Mathlib.Algebra.BigOperators.Ring.Finset

/-!
# Self-similar subdivision in integer barycentric coordinates
-/

noncomputable section

namespace Verif.Shapes

open Finset

/-- Barycentric coordinates, scaled by the number of subdivisions. -/
abbrev Bary (m : ℕ) := Fin m → ℕ

variable {m d : ℕ}

/-- unit vector -/
def unit (i : Fin m) : Bary m := Pi.single i 1

/-- the corner of a cell from which its vertices are one unit away -/
def corners (m : ℕ) : ℕ → List (Bary m)
  | 0 => [0]
  | n + 1 => (corners m n).flatMap fun c => (List.finRange m).map fun i => c + c + unit i

/-- position -/
def pt (v : Fin m → Fin d → ℝ) (n : ℕ) (β : Bary m) : Fin d → ℝ :=
  fun x => (∑ k, (β k : ℝ) * v k x) / 2 ^ n

/-- the numbers of the vertices of a cell -/
def cell (B : List (Bary m)) (c : Bary m) : List ℕ :=
  (List.finRange m).map fun k => B.idxOf (c + unit k)

theorem unit_apply (i k : Fin m) : unit i k = if k = i then 1 else 0 := by
  unfold unit
  rw [Pi.single_apply]

theorem unit_injective {i j : Fin m} (h : unit i = unit j) : i = j := by
  have := congrFun h i
  rw [unit_apply, unit_apply] at this
  by_contra hne
  rw [if_pos rfl, if_neg hne] at this
  exact one_ne_zero this

/-- An odd barycentric point determines the cell and the edge it halves. -/
theorem edge_unique {c c' : Bary m} {i j i' j' : Fin m} (hij : i ≠ j) (hij' : i' ≠ j')
    (h : c + c + unit i + unit j = c' + c' + unit i' + unit j') :
    c = c' ∧ ((i = i' ∧ j = j') ∨ (i = j' ∧ j = i')) := by
  have key : ∀ k, c k + c k + unit i k + unit j k = c' k + c' k + unit i' k + unit j' k :=
    fun k => congrFun h k
  simp only [unit_apply] at key
  have hi := key i
  have hj := key j
  have hpairs : (i = i' ∧ j = j') ∨ (i = j' ∧ j = i') := by
    rw [if_pos rfl, if_neg hij] at hi
    rw [if_neg (Ne.symm hij), if_pos rfl] at hj
    by_cases h1 : i = i'
    · left
      refine ⟨h1, ?_⟩
      subst h1
      by_contra h2
      rw [if_neg h2, if_neg (Ne.symm hij)] at hj
      omega
    · by_cases h2 : i = j'
      · right
        refine ⟨h2, ?_⟩
        subst h2
        by_contra h3
        rw [if_neg h3, if_neg (Ne.symm hij)] at hj
        omega
      · rw [if_neg h1, if_neg h2] at hi
        omega
  refine ⟨?_, hpairs⟩
  funext k
  have := key k
  rcases hpairs with ⟨rfl, rfl⟩ | ⟨rfl, rfl⟩ <;> omega

theorem edge_not_double {c β : Bary m} {i j : Fin m} (hij : i ≠ j) :
    c + c + unit i + unit j ≠ β + β := by
  intro h
  have := congrFun h i
  simp only [Pi.add_apply, unit_apply, if_neg hij, if_true] at this
  omega

theorem child_unique {c c' : Bary m} {i i' : Fin m} (h : c + c + unit i = c' + c' + unit i') :
    c = c' ∧ i = i' := by
  have key : ∀ k, c k + c k + unit i k = c' k + c' k + unit i' k := fun k => congrFun h k
  simp only [unit_apply] at key
  have hi : i = i' := by
    by_contra hne
    have := key i
    rw [if_pos rfl, if_neg hne] at this
    omega
  subst hi
  exact ⟨funext fun k => by have := key k; omega, rfl⟩

theorem corners_nodup (m n : ℕ) : (corners m n).Nodup := by
  induction n with
  | zero => exact List.nodup_singleton _
  | succ n ih =>
    refine List.nodup_flatMap.2 ⟨fun c _ => ?_, ?_⟩
    · exact (List.nodup_finRange m).map fun i j h => (child_unique h).2
    · refine ih.imp fun {c c'} hne => ?_
      intro x hx hx'
      obtain ⟨i, -, rfl⟩ := List.mem_map.1 hx
      obtain ⟨j, -, h⟩ := List.mem_map.1 hx'
      exact hne (child_unique h).1.symm

theorem length_corners (m n : ℕ) : (corners m n).length = m ^ n := by
  induction n with
  | zero => rfl
  | succ n ih =>
    unfold corners
    rw [List.length_flatMap]
    simp only [List.length_map, List.length_finRange]
    rw [List.map_const', List.sum_replicate, ih, pow_succ, smul_eq_mul]

theorem sum_unit (i : Fin m) : ∑ k, unit i k = 1 := by
  simp only [unit_apply]
  rw [Finset.sum_ite_eq' Finset.univ i (fun _ => 1)]
  simp

theorem sum_corner {n : ℕ} {c : Bary m} (h : c ∈ corners m n) : ∑ k, c k + 1 = 2 ^ n := by
  induction n generalizing c with
  | zero =>
    rw [show corners m 0 = [0] from rfl, List.mem_singleton] at h
    subst h
    simp
  | succ n ih =>
    obtain ⟨c', hc', hc⟩ := List.mem_flatMap.1 h
    obtain ⟨i, -, rfl⟩ := List.mem_map.1 hc
    have := ih hc'
    simp only [Pi.add_apply, Finset.sum_add_distrib, sum_unit]
    rw [pow_succ, ← this]
    ring

theorem sum_vertex {n : ℕ} {c : Bary m} (h : c ∈ corners m n) (k : Fin m) :
    ∑ l, (c + unit k) l = 2 ^ n := by
  simp only [Pi.add_apply, Finset.sum_add_distrib, sum_unit]
  exact sum_corner h

/-! ### positions -/

theorem pt_double (v : Fin m → Fin d → ℝ) (n : ℕ) (β : Bary m) : pt v (n + 1) (β + β) = pt v n β := by
  funext x
  unfold pt
  have : ∑ k, (((β + β) k : ℕ) : ℝ) * v k x = 2 * ∑ k, (β k : ℝ) * v k x := by
    rw [Finset.mul_sum]
    refine Finset.sum_congr rfl fun k _ => ?_
    rw [Pi.add_apply]
    push_cast
    ring
  rw [this, pow_succ]
  field_simp

theorem pt_half (v : Fin m → Fin d → ℝ) (n : ℕ) (β γ : Bary m) :
    half (pt v n β) (pt v n γ) = pt v (n + 1) (β + γ) := by
  funext x
  unfold pt half
  have : ∑ k, (((β + γ) k : ℕ) : ℝ) * v k x
      = ∑ k, (β k : ℝ) * v k x + ∑ k, (γ k : ℝ) * v k x := by
    rw [← Finset.sum_add_distrib]
    refine Finset.sum_congr rfl fun k _ => ?_
    rw [Pi.add_apply]
    push_cast
    ring
  rw [this, pow_succ]
  field_simp

/-! ### one round of the pyramid -/

/-- what has been recorded so far in a round: `N` is the list of new points -/
structure Round (v : Fin m → Fin d → ℝ) (n : ℕ) (B : List (Bary m)) (s : PyrState (Fin d → ℝ))
    (N : List (Bary m)) : Prop where
  points : s.points = (B.map (fun β => β + β) ++ N).map (pt v (n + 1))
  nodup : N.Nodup
  isEdge : ∀ β ∈ N, ∃ c ∈ corners m n, ∃ i j : Fin m, i ≠ j ∧ β = c + c + unit i + unit j
  lookup : ∀ c ∈ corners m n, ∀ i j : Fin m, i ≠ j →
    s.vertexMap (max (B.idxOf (c + unit i)) (B.idxOf (c + unit j)))
        (min (B.idxOf (c + unit i)) (B.idxOf (c + unit j)))
      = if c + c + unit i + unit j ∈ N
        then some (B.length + N.idxOf (c + c + unit i + unit j)) else none

theorem double_injective : Function.Injective (fun β : Bary m => β + β) := by
  intro β γ h
  funext k
  have := congrFun h k
  simp only [Pi.add_apply] at this
  omega

theorem idxOf_double {B : List (Bary m)} (N : List (Bary m)) {β : Bary m} (h : β ∈ B) :
    (B.map (fun β => β + β) ++ N).idxOf (β + β) = B.idxOf β := by
  have hm : β + β ∈ B.map (fun β => β + β) := List.mem_map.2 ⟨β, h, rfl⟩
  rw [List.idxOf_append_of_mem hm]
  clear hm N
  induction B with
  | nil => cases h
  | cons b B ih =>
    rw [List.map_cons, List.idxOf_cons, List.idxOf_cons]
    by_cases hb : b = β
    · subst hb
      simp
    · have : ¬ (b + b = β + β) := fun h => hb (double_injective h)
      rw [show (b == β) = false from beq_eq_false_iff_ne.2 hb,
        show (b + b == β + β) = false from beq_eq_false_iff_ne.2 this]
      dsimp only [cond]
      rw [ih (by
        rcases List.mem_cons.1 h with h | h
        · exact absurd h.symm hb
        · exact h)]

theorem idxOf_getElem? {α : Type*} [DecidableEq α] {l : List α} {a : α} (h : a ∈ l) :
    l[l.idxOf a]? = some a := by
  rw [List.getElem?_eq_getElem (List.idxOf_lt_length_iff.2 h), List.getElem_idxOf]

theorem pget_pt {v : Fin m → Fin d → ℝ} {n : ℕ} {B N : List (Bary m)} {β : Bary m} (h : β ∈ B) :
    pget ((B.map (fun β => β + β) ++ N).map (pt v (n + 1))) (B.idxOf β) = .ok (pt v n β) := by
  unfold pget
  have hm : β + β ∈ B.map (fun β => β + β) ++ N :=
    List.mem_append_left _ (List.mem_map.2 ⟨β, h, rfl⟩)
  have := idxOf_getElem? hm
  rw [idxOf_double N h] at this
  rw [List.getElem?_map, this]
  show Except.ok _ = _
  rw [pt_double]

theorem idx_ne {B : List (Bary m)} {c : Bary m} {i j : Fin m} (hi : c + unit i ∈ B)
    (hij : i ≠ j) : B.idxOf (c + unit i) ≠ B.idxOf (c + unit j) := by
  intro h
  have h1 := idxOf_getElem? hi
  have h2 : c + unit j ∈ B := by
    rw [← List.idxOf_lt_length_iff, ← h, List.idxOf_lt_length_iff]
    exact hi
  have h2' := idxOf_getElem? h2
  rw [← h, h1] at h2'
  have h3 := Option.some.inj h2'
  exact hij (unit_injective (add_left_cancel h3))

theorem keys_eq {B : List (Bary m)} {c c' : Bary m} {i j i' j' : Fin m}
    (hi : c + unit i ∈ B) (hj : c + unit j ∈ B) (hi' : c' + unit i' ∈ B) (hj' : c' + unit j' ∈ B)
    (h1 : max (B.idxOf (c + unit i)) (B.idxOf (c + unit j))
      = max (B.idxOf (c' + unit i')) (B.idxOf (c' + unit j')))
    (h2 : min (B.idxOf (c + unit i)) (B.idxOf (c + unit j))
      = min (B.idxOf (c' + unit i')) (B.idxOf (c' + unit j'))) :
    c + c + unit i + unit j = c' + c' + unit i' + unit j' := by
  have inj : ∀ {a b : Bary m}, a ∈ B → b ∈ B → B.idxOf a = B.idxOf b → a = b := by
    intro a b ha hb hab
    have h1 := idxOf_getElem? ha
    rw [hab, idxOf_getElem? hb] at h1
    exact (Option.some.inj h1).symm
  have e : ∀ (c : Bary m) (i j : Fin m), c + c + unit i + unit j = (c + unit i) + (c + unit j) :=
    fun c i j => by abel
  rw [e, e]
  have : (B.idxOf (c + unit i) = B.idxOf (c' + unit i') ∧ B.idxOf (c + unit j) = B.idxOf (c' + unit j'))
      ∨ (B.idxOf (c + unit i) = B.idxOf (c' + unit j') ∧ B.idxOf (c + unit j) = B.idxOf (c' + unit i')) := by
    omega
  rcases this with ⟨ha, hb⟩ | ⟨ha, hb⟩
  · rw [inj hi hi' ha, inj hj hj' hb]
  · rw [inj hi hj' ha, inj hj hi' hb, add_comm]

/-- One vertex of one new cell. -/
theorem pyrEdge_spec {v : Fin m → Fin d → ℝ} {n : ℕ} {B : List (Bary m)}
    (hB : ∀ c ∈ corners m n, ∀ k, c + unit k ∈ B)
    {s : PyrState (Fin d → ℝ)} {N : List (Bary m)} (J : Round v n B s N)
    {c : Bary m} (hc : c ∈ corners m n) (i j : Fin m) :
    ∃ s' N', pyrEdge half s (B.idxOf (c + unit i)) (B.idxOf (c + unit j))
        = .ok ((B.map (fun β => β + β) ++ N').idxOf (c + c + unit i + unit j), s') ∧
      Round v n B s' N' ∧ N <+: N' ∧
      c + c + unit i + unit j ∈ B.map (fun β => β + β) ++ N' := by
  by_cases hij : i = j
  · subst hij
    have e : c + c + unit i + unit i = (c + unit i) + (c + unit i) := by abel
    refine ⟨s, N, ?_, J, List.prefix_rfl, ?_⟩
    · unfold pyrEdge
      rw [if_pos rfl, e, idxOf_double N (hB c hc i)]
    · rw [e]
      exact List.mem_append_left _ (List.mem_map.2 ⟨_, hB c hc i, rfl⟩)
  · have hne := idx_ne (hB c hc i) hij
    have hnot : ∀ N, c + c + unit i + unit j ∉ (B.map (fun β => β + β)) → 
        (B.map (fun β => β + β) ++ N).idxOf (c + c + unit i + unit j)
          = B.length + N.idxOf (c + c + unit i + unit j) := by
      intro N h
      rw [List.idxOf_append_of_notMem h, List.length_map, Nat.add_comm]
    have hnb : c + c + unit i + unit j ∉ (B.map (fun β => β + β)) := by
      intro h
      obtain ⟨β, -, hβ⟩ := List.mem_map.1 h
      exact edge_not_double hij hβ.symm
    by_cases hin : c + c + unit i + unit j ∈ N
    · refine ⟨s, N, ?_, J, List.prefix_rfl, List.mem_append_right _ hin⟩
      unfold pyrEdge
      rw [if_neg hne]
      dsimp only
      rw [J.lookup c hc i j hij, if_pos hin, hnot N hnb]
    · have hl : s.points.length = B.length + N.length := by
        rw [J.points]
        simp
      have hN' : (N ++ [c + c + unit i + unit j]).idxOf (c + c + unit i + unit j) = N.length := by
        rw [List.idxOf_append_of_notMem hin]
        simp
      refine ⟨{ points := s.points ++ [pt v (n + 1) (c + c + unit i + unit j)]
                vertexMap := fun b' a' =>
                  if b' = max (B.idxOf (c + unit i)) (B.idxOf (c + unit j)) ∧
                      a' = min (B.idxOf (c + unit i)) (B.idxOf (c + unit j))
                  then some s.points.length else s.vertexMap b' a' },
        N ++ [c + c + unit i + unit j], ?_, ?_, List.prefix_append _ _, ?_⟩
      · unfold pyrEdge
        rw [if_neg hne]
        dsimp only
        rw [J.lookup c hc i j hij, if_neg hin]
        dsimp only
        have hg : ∀ k, pget s.points (B.idxOf (c + unit k)) = .ok (pt v n (c + unit k)) := by
          intro k
          rw [J.points]
          exact pget_pt (hB c hc k)
        have hmid : ∃ pa pb, pget s.points (min (B.idxOf (c + unit i)) (B.idxOf (c + unit j))) = .ok pa ∧
            pget s.points (max (B.idxOf (c + unit i)) (B.idxOf (c + unit j))) = .ok pb ∧
            half pa pb = pt v (n + 1) (c + c + unit i + unit j) := by
          have e : c + c + unit i + unit j = (c + unit i) + (c + unit j) := by abel
          rcases lt_or_gt_of_ne hne with h | h
          · rw [min_eq_left h.le, max_eq_right h.le]
            exact ⟨_, _, hg i, hg j, by rw [pt_half, e]⟩
          · rw [min_eq_right h.le, max_eq_left h.le]
            exact ⟨_, _, hg j, hg i, by rw [pt_half, e, add_comm (c + unit j)]⟩
        obtain ⟨pa, pb, ha, hb, hm⟩ := hmid
        rw [ha, hb]
        simp only [Except.bind]
        rw [hnot _ hnb, hN', hm]
        rw [← hl]
      · refine ⟨?_, ?_, ?_, ?_⟩
        · dsimp only
          rw [J.points]
          simp
        · exact List.nodup_append.2 ⟨J.nodup, List.nodup_singleton _, by
            intro a ha b hb
            rw [List.mem_singleton] at hb
            rintro rfl
            exact hin (hb ▸ ha)⟩
        · intro β hβ
          rcases List.mem_append.1 hβ with h | h
          · exact J.isEdge β h
          · rw [List.mem_singleton] at h
            exact ⟨c, hc, i, j, hij, h⟩
        · intro c' hc' i' j' hij'
          dsimp only
          by_cases hk : (max (B.idxOf (c' + unit i')) (B.idxOf (c' + unit j')))
                = (max (B.idxOf (c + unit i)) (B.idxOf (c + unit j))) ∧
              (min (B.idxOf (c' + unit i')) (B.idxOf (c' + unit j')))
                = (min (B.idxOf (c + unit i)) (B.idxOf (c + unit j)))
          · rw [if_pos hk]
            have := keys_eq (hB c' hc' i') (hB c' hc' j') (hB c hc i) (hB c hc j) hk.1 hk.2
            rw [this, if_pos (List.mem_append_right _ (List.mem_singleton.2 rfl)), hN', hl]
          · rw [if_neg hk, J.lookup c' hc' i' j' hij']
            have hneq : c' + c' + unit i' + unit j' ≠ c + c + unit i + unit j := by
              intro h
              obtain ⟨rfl, ⟨rfl, rfl⟩ | ⟨rfl, rfl⟩⟩ := edge_unique hij' hij h
              · exact hk ⟨rfl, rfl⟩
              · exact hk ⟨max_comm _ _, min_comm _ _⟩
            by_cases hin' : c' + c' + unit i' + unit j' ∈ N
            · rw [if_pos hin', if_pos (List.mem_append_left _ hin'), List.idxOf_append_of_mem hin']
            · rw [if_neg hin', if_neg (by
                rw [List.mem_append, List.mem_singleton]
                rintro (h | h)
                · exact hin' h
                · exact hneq h)]
      · exact List.mem_append_right _ (List.mem_append_right _ (List.mem_singleton.2 rfl))

/-- One new cell. -/
theorem pyrRow_spec {v : Fin m → Fin d → ℝ} {n : ℕ} {B : List (Bary m)}
    (hB : ∀ c ∈ corners m n, ∀ k, c + unit k ∈ B) {c : Bary m} (hc : c ∈ corners m n) (i : Fin m)
    (js : List (Fin m)) {s : PyrState (Fin d → ℝ)} {N : List (Bary m)} (J : Round v n B s N) :
    ∃ s' N', pyrRow half (B.idxOf (c + unit i)) (js.map fun j => B.idxOf (c + unit j)) s
        = .ok (js.map fun j => (B.map (fun β => β + β) ++ N').idxOf (c + c + unit i + unit j), s') ∧
      Round v n B s' N' ∧ N <+: N' ∧
      ∀ j ∈ js, c + c + unit i + unit j ∈ B.map (fun β => β + β) ++ N' := by
  induction js generalizing s N with
  | nil => exact ⟨s, N, rfl, J, List.prefix_rfl, fun j hj => by cases hj⟩
  | cons j js ih =>
    obtain ⟨s1, N1, h1, J1, hp1, hm1⟩ := pyrEdge_spec hB J hc i j
    obtain ⟨s2, N2, h2, J2, hp2, hm2⟩ := ih J1
    obtain ⟨M, rfl⟩ := hp2
    refine ⟨s2, N1 ++ M, ?_, J2, hp1.trans (List.prefix_append _ _), ?_⟩
    · rw [List.map_cons]
      unfold pyrRow
      rw [h1]
      simp only [Except.bind]
      rw [h2]
      simp only [List.map_cons]
      rw [← List.append_assoc, List.idxOf_append_of_mem hm1]
    · intro k hk
      rcases List.mem_cons.1 hk with rfl | hk
      · rw [← List.append_assoc]
        exact List.mem_append_left _ hm1
      · exact hm2 k hk

/-- the vertices of the children of `c` are in the list -/
def HasChild (L : List (Bary m)) (c : Bary m) : Prop := ∀ k, c + unit k ∈ L

theorem cell_append {L : List (Bary m)} (M : List (Bary m)) {c : Bary m} (h : HasChild L c) :
    cell (L ++ M) c = cell L c := by
  unfold cell
  exact List.map_congr_left fun k _ => List.idxOf_append_of_mem (h k)

theorem HasChild.append {L : List (Bary m)} (M : List (Bary m)) {c : Bary m} (h : HasChild L c) :
    HasChild (L ++ M) c := fun k => List.mem_append_left _ (h k)

/-- One old cell. -/
theorem pyrSplit_spec {v : Fin m → Fin d → ℝ} {n : ℕ} {B : List (Bary m)}
    (hB : ∀ c ∈ corners m n, ∀ k, c + unit k ∈ B) {c : Bary m} (hc : c ∈ corners m n)
    (is : List (Fin m)) {s : PyrState (Fin d → ℝ)} {N : List (Bary m)} (J : Round v n B s N) :
    ∃ s' N', pyrSplit half (cell B c) (is.map fun i => B.idxOf (c + unit i)) s
        = .ok (is.map fun i => cell (B.map (fun β => β + β) ++ N') (c + c + unit i), s') ∧
      Round v n B s' N' ∧ N <+: N' ∧
      ∀ i ∈ is, HasChild (B.map (fun β => β + β) ++ N') (c + c + unit i) := by
  induction is generalizing s N with
  | nil => exact ⟨s, N, rfl, J, List.prefix_rfl, fun j hj => by cases hj⟩
  | cons i is ih =>
    obtain ⟨s1, N1, h1, J1, hp1, hm1⟩ := pyrRow_spec hB hc i (List.finRange m) J
    obtain ⟨s2, N2, h2, J2, hp2, hm2⟩ := ih J1
    obtain ⟨M, rfl⟩ := hp2
    have hch : HasChild (B.map (fun β => β + β) ++ N1) (c + c + unit i) :=
      fun k => hm1 k (List.mem_finRange k)
    refine ⟨s2, N1 ++ M, ?_, J2, hp1.trans (List.prefix_append _ _), ?_⟩
    · rw [List.map_cons]
      unfold pyrSplit
      rw [show cell B c = (List.finRange m).map fun k => B.idxOf (c + unit k) from rfl, h1]
      simp only [Except.bind]
      rw [show ((List.finRange m).map fun k => B.idxOf (c + unit k)) = cell B c from rfl, h2]
      simp only [List.map_cons]
      rw [← List.append_assoc, cell_append M hch]
      rfl
    · intro k hk
      rcases List.mem_cons.1 hk with rfl | hk
      · rw [← List.append_assoc]
        exact hch.append M
      · exact hm2 k hk

/-- All old cells. -/
theorem pyrAll_spec {v : Fin m → Fin d → ℝ} {n : ℕ} {B : List (Bary m)}
    (hB : ∀ c ∈ corners m n, ∀ k, c + unit k ∈ B) (cs : List (Bary m)) (hcs : ∀ c ∈ cs, c ∈ corners m n)
    {s : PyrState (Fin d → ℝ)} {N : List (Bary m)} (J : Round v n B s N) :
    ∃ s' N', pyrAll half (cs.map (cell B)) s
        = .ok ((cs.flatMap fun c => (List.finRange m).map fun i => c + c + unit i).map
            (cell (B.map (fun β => β + β) ++ N')), s') ∧
      Round v n B s' N' ∧ N <+: N' ∧
      ∀ c ∈ cs, ∀ i, HasChild (B.map (fun β => β + β) ++ N') (c + c + unit i) := by
  induction cs generalizing s N with
  | nil => exact ⟨s, N, rfl, J, List.prefix_rfl, fun j hj => by cases hj⟩
  | cons c cs ih =>
    obtain ⟨s1, N1, h1, J1, hp1, hm1⟩ :=
      pyrSplit_spec hB (hcs c (List.mem_cons_self ..)) (List.finRange m) J
    obtain ⟨s2, N2, h2, J2, hp2, hm2⟩ := ih (fun c hc => hcs c (List.mem_cons_of_mem _ hc)) J1
    obtain ⟨M, rfl⟩ := hp2
    have hch : ∀ i, HasChild (B.map (fun β => β + β) ++ N1) (c + c + unit i) :=
      fun i => hm1 i (List.mem_finRange i)
    refine ⟨s2, N1 ++ M, ?_, J2, hp1.trans (List.prefix_append _ _), ?_⟩
    · rw [List.map_cons]
      unfold pyrAll
      rw [show pyrSplit half (cell B c) (cell B c) s = _ from h1]
      simp only [Except.bind]
      rw [h2]
      simp only [List.flatMap_cons, List.map_append, List.map_map]
      congr 2
      congr 1
      refine List.map_congr_left fun i _ => ?_
      rw [Function.comp_apply, ← List.append_assoc, cell_append M (hch i)]
    · intro k hk
      rcases List.mem_cons.1 hk with rfl | hk
      · intro i
        rw [← List.append_assoc]
        exact (hch i).append M
      · exact hm2 k hk

/-- the number of vertices of all cells -/
def vertexCount (m : ℕ) : ℕ → ℕ
  | 0 => m
  | n + 1 => vertexCount m n + m ^ n *
      (((List.finRange m).product (List.finRange m)).filter fun q => decide (q.1 < q.2)).length

/-- The state after `n` subdivisions: the points are the vertices of the cells, each once. -/
structure Level (v : Fin m → Fin d → ℝ) (n : ℕ) (points : List (Fin d → ℝ)) (cells : List (List ℕ))
    (B : List (Bary m)) : Prop where
  points : points = B.map (pt v n)
  nodup : B.Nodup
  isVertex : ∀ β ∈ B, ∃ c ∈ corners m n, ∃ k, β = c + unit k
  vertex : ∀ c ∈ corners m n, ∀ k, c + unit k ∈ B
  cells : cells = (corners m n).map (cell B)
  length : B.length = vertexCount m n

/-- The midpoints of the edges of the cells, each once. -/
def middles (m n : ℕ) : List (Bary m) :=
  (corners m n).flatMap fun c =>
    (((List.finRange m).product (List.finRange m)).filter fun q => decide (q.1 < q.2)).map fun q =>
      c + c + unit q.1 + unit q.2

theorem mem_middles {n : ℕ} {β : Bary m} :
    β ∈ middles m n ↔ ∃ c ∈ corners m n, ∃ i j : Fin m, i ≠ j ∧ β = c + c + unit i + unit j := by
  unfold middles
  constructor
  · intro h
    obtain ⟨c, hc, h⟩ := List.mem_flatMap.1 h
    obtain ⟨q, hq, rfl⟩ := List.mem_map.1 h
    have := (List.mem_filter.1 hq).2
    rw [decide_eq_true_eq] at this
    exact ⟨c, hc, q.1, q.2, ne_of_lt this, rfl⟩
  · rintro ⟨c, hc, i, j, hij, rfl⟩
    refine List.mem_flatMap.2 ⟨c, hc, ?_⟩
    rcases lt_or_gt_of_ne hij with h | h
    · refine List.mem_map.2 ⟨(i, j), List.mem_filter.2 ⟨?_, ?_⟩, rfl⟩
      · exact List.mem_product.2 ⟨List.mem_finRange _, List.mem_finRange _⟩
      · simpa using h
    · refine List.mem_map.2 ⟨(j, i), List.mem_filter.2 ⟨?_, ?_⟩, ?_⟩
      · exact List.mem_product.2 ⟨List.mem_finRange _, List.mem_finRange _⟩
      · simpa using h
      · show c + c + unit j + unit i = _
        abel

theorem middles_nodup (m n : ℕ) : (middles m n).Nodup := by
  refine List.nodup_flatMap.2 ⟨fun c _ => ?_, ?_⟩
  · refine List.Nodup.map_on ?_ (((List.nodup_finRange m).product (List.nodup_finRange m)).filter _)
    rintro ⟨i, j⟩ hq ⟨i', j'⟩ hq' h
    have h1 := (List.mem_filter.1 hq).2
    have h2 := (List.mem_filter.1 hq').2
    rw [decide_eq_true_eq] at h1 h2
    obtain ⟨-, ⟨h3, h4⟩ | ⟨h3, h4⟩⟩ := edge_unique (ne_of_lt h1) (ne_of_lt h2) h
    · dsimp only at h3 h4
      rw [h3, h4]
    · dsimp only at h1 h2 h3 h4
      subst h3 h4
      exact absurd h1 (lt_asymm h2)
  · refine (corners_nodup m n).imp fun {c c'} hne => ?_
    intro x hx hx'
    obtain ⟨q, hq, rfl⟩ := List.mem_map.1 hx
    obtain ⟨q', hq', h⟩ := List.mem_map.1 hx'
    have h1 := (List.mem_filter.1 hq).2
    have h2 := (List.mem_filter.1 hq').2
    rw [decide_eq_true_eq] at h1 h2
    exact hne (edge_unique (ne_of_lt h2) (ne_of_lt h1) h).1.symm

theorem length_middles (m n : ℕ) :
    (middles m n).length
      = m ^ n * (((List.finRange m).product (List.finRange m)).filter fun q => decide (q.1 < q.2)).length := by
  unfold middles
  rw [List.length_flatMap]
  simp only [List.length_map]
  rw [List.map_const', List.sum_replicate, length_corners, smul_eq_mul]

/-- A round that halves every edge once gives the next level. -/
theorem Level.next {v : Fin m → Fin d → ℝ} {n : ℕ} {points : List (Fin d → ℝ)} {cells : List (List ℕ)}
    {B : List (Bary m)} (L : Level v n points cells B) {N : List (Bary m)}
    (hN : N.Perm (middles m n))
    {cells' : List (List ℕ)}
    (hc : cells' = (corners m (n + 1)).map (cell (B.map (fun β => β + β) ++ N))) :
    Level v (n + 1) ((B.map (fun β => β + β) ++ N).map (pt v (n + 1))) cells'
      (B.map (fun β => β + β) ++ N) := by
  refine ⟨rfl, ?_, ?_, ?_, hc, ?_⟩
  · refine List.nodup_append.2 ⟨L.nodup.map double_injective, hN.nodup_iff.2 (middles_nodup m n), ?_⟩
    intro a ha b hb
    rintro rfl
    obtain ⟨β, -, rfl⟩ := List.mem_map.1 ha
    obtain ⟨c, -, i, j, hij, h⟩ := mem_middles.1 (hN.mem_iff.1 hb)
    exact edge_not_double hij h.symm
  · intro β hβ
    rcases List.mem_append.1 hβ with h | h
    · obtain ⟨γ, hγ, rfl⟩ := List.mem_map.1 h
      obtain ⟨c, hc, k, rfl⟩ := L.isVertex γ hγ
      refine ⟨c + c + unit k, List.mem_flatMap.2 ⟨c, hc, List.mem_map.2 ⟨k, List.mem_finRange k, rfl⟩⟩, k, ?_⟩
      abel
    · obtain ⟨c, hc, i, j, -, rfl⟩ := mem_middles.1 (hN.mem_iff.1 h)
      exact ⟨c + c + unit i, List.mem_flatMap.2 ⟨c, hc, List.mem_map.2 ⟨i, List.mem_finRange i, rfl⟩⟩, j, rfl⟩
  · intro c' hc' k
    obtain ⟨c, hc, h⟩ := List.mem_flatMap.1 hc'
    obtain ⟨i, -, rfl⟩ := List.mem_map.1 h
    by_cases hik : i = k
    · subst hik
      refine List.mem_append_left _ (List.mem_map.2 ⟨c + unit i, L.vertex c hc i, ?_⟩)
      show (c + unit i) + (c + unit i) = _
      abel
    · exact List.mem_append_right _ (hN.mem_iff.2 (mem_middles.2 ⟨c, hc, i, k, hik, rfl⟩))
  · rw [List.length_append, List.length_map, hN.length_eq, length_middles, L.length]
    rfl

theorem pyrLevels_spec {v : Fin m → Fin d → ℝ} (k : ℕ) {n : ℕ} {points : List (Fin d → ℝ)}
    {cells : List (List ℕ)} {B : List (Bary m)} (L : Level v n points cells B) :
    ∃ points' cells' B', pyrLevels half k (points, cells) = .ok (points', cells') ∧
      Level v (n + k) points' cells' B' := by
  induction k generalizing n points cells B with
  | zero => exact ⟨points, cells, B, rfl, L⟩
  | succ k ih =>
    have J0 : Round v n B ⟨points, fun _ _ => none⟩ [] := by
      refine ⟨?_, List.nodup_nil, (fun β h => nomatch h), fun c _ i j _ => ?_⟩
      · rw [L.points, List.append_nil, List.map_map]
        refine List.map_congr_left fun β _ => ?_
        rw [Function.comp_apply, pt_double]
      · rw [if_neg (List.not_mem_nil)]
    obtain ⟨s', N', h, J, -, hch⟩ := pyrAll_spec L.vertex (corners m n) (fun c hc => hc) J0
    have hperm : N'.Perm (middles m n) := by
      refine (List.perm_ext_iff_of_nodup J.nodup (middles_nodup m n)).2 fun β => ?_
      rw [mem_middles]
      constructor
      · exact J.isEdge β
      · rintro ⟨c, hc, i, j, hij, rfl⟩
        rcases List.mem_append.1 (hch c hc i j) with h | h
        · obtain ⟨β, -, hβ⟩ := List.mem_map.1 h
          exact absurd hβ.symm (edge_not_double hij)
        · exact h
    have L' := L.next hperm (cells' := (corners m (n + 1)).map (cell (B.map (fun β => β + β) ++ N'))) rfl
    obtain ⟨p2, c2, B2, h2, L2⟩ := ih L'
    refine ⟨p2, c2, B2, ?_, ?_⟩
    · unfold pyrLevels
      rw [L.cells, h]
      simp only [Except.bind]
      rw [J.points]
      exact h2
    · rw [show n + (k + 1) = n + 1 + k by omega]
      exact L2

theorem vertexCount_four (n : ℕ) : vertexCount 4 n = 2 * 4 ^ n + 2 := by
  induction n with
  | zero => rfl
  | succ n ih =>
    have : (((List.finRange 4).product (List.finRange 4)).filter fun q => decide (q.1 < q.2)).length
        = 6 := by decide
    unfold vertexCount
    rw [ih, this, pow_succ]
    ring

theorem vertexCount_three (n : ℕ) : 2 * vertexCount 3 n = 3 ^ (n + 1) + 3 := by
  induction n with
  | zero => rfl
  | succ n ih =>
    have : (((List.finRange 3).product (List.finRange 3)).filter fun q => decide (q.1 < q.2)).length
        = 3 := by decide
    unfold vertexCount
    rw [this, mul_add, ih]
    ring

/-! ### words -/

/-- the corner of the cell of a word -/
def cornerOf (w : List (Fin m)) : Bary m := w.foldl (fun c i => c + c + unit i) 0

theorem corners_words (m n : ℕ) : corners m n = (words m n).map cornerOf := by
  induction n with
  | zero => rfl
  | succ n ih =>
    unfold corners words
    rw [ih, List.flatMap_map, List.map_flatMap]
    refine List.flatMap_congr fun w _ => ?_
    rw [List.map_map]
    refine List.map_congr_left fun i _ => ?_
    unfold cornerOf
    simp

theorem image_snoc (v : Fin m → Fin d → ℝ) (w : List (Fin m)) (i : Fin m) (x : Fin d → ℝ) :
    image v (w ++ [i]) x = image v w (towards (v i) x) := by
  induction w with
  | nil => rfl
  | cons j w ih =>
    rw [List.cons_append]
    unfold image
    rw [ih]

theorem length_words {n : ℕ} {w : List (Fin m)} (h : w ∈ words m n) : w.length = n := by
  induction n generalizing w with
  | zero =>
    rw [show words m 0 = [[]] from rfl, List.mem_singleton] at h
    rw [h]
    rfl
  | succ n ih =>
    obtain ⟨w', hw', h⟩ := List.mem_flatMap.1 h
    obtain ⟨i, -, rfl⟩ := List.mem_map.1 h
    simp [ih hw']

theorem image_eq (v : Fin m → Fin d → ℝ) (w : List (Fin m)) (x : Fin d → ℝ) :
    image v w x = fun r => (∑ k, (cornerOf w k : ℝ) * v k r + x r) / 2 ^ w.length := by
  induction w using List.reverseRecOn generalizing x with
  | nil =>
    funext r
    simp [image, cornerOf]
  | append_singleton w i ih =>
    rw [image_snoc, ih]
    funext r
    have hc : cornerOf (w ++ [i]) = cornerOf w + cornerOf w + unit i := by
      unfold cornerOf
      simp
    have hs : ∑ k, (cornerOf (w ++ [i]) k : ℝ) * v k r
        = 2 * ∑ k, (cornerOf w k : ℝ) * v k r + v i r := by
      rw [hc, Finset.mul_sum]
      have : v i r = ∑ k, ((unit i k : ℕ) : ℝ) * v k r := by
        simp only [unit_apply]
        rw [Finset.sum_eq_single i]
        · simp
        · intro k _ hk
          rw [if_neg hk]
          simp
        · intro h
          exact absurd (Finset.mem_univ i) h
      rw [this, ← Finset.sum_add_distrib]
      refine Finset.sum_congr rfl fun k _ => ?_
      simp only [Pi.add_apply]
      push_cast
      ring
    rw [hs, List.length_append, List.length_singleton, pow_succ]
    unfold towards
    field_simp
    ring

theorem pt_word (v : Fin m → Fin d → ℝ) (w : List (Fin m)) (k : Fin m) :
    pt v w.length (cornerOf w + unit k) = image v w (v k) := by
  rw [image_eq]
  funext r
  unfold pt
  congr 1
  have : v k r = ∑ l, ((unit k l : ℕ) : ℝ) * v l r := by
    simp only [unit_apply]
    rw [Finset.sum_eq_single k]
    · simp
    · intro l _ hl
      rw [if_neg hl]
      simp
    · intro h
      exact absurd (Finset.mem_univ k) h
  rw [this, ← Finset.sum_add_distrib]
  refine Finset.sum_congr rfl fun l _ => ?_
  simp only [Pi.add_apply]
  push_cast
  ring

theorem mem_words (m n : ℕ) (w : List (Fin m)) : w ∈ words m n ↔ w.length = n := by
  refine ⟨length_words, fun h => ?_⟩
  subst h
  induction w using List.reverseRecOn with
  | nil => exact List.mem_singleton.2 rfl
  | append_singleton w i ih =>
    rw [List.length_append, List.length_singleton]
    exact List.mem_flatMap.2 ⟨w, ih, List.mem_map.2 ⟨i, List.mem_finRange i, rfl⟩⟩

theorem words_nodup (m n : ℕ) : (words m n).Nodup := by
  have := corners_nodup m n
  rw [corners_words] at this
  exact this.of_map _

theorem words_length (m n : ℕ) : (words m n).length = m ^ n := by
  rw [← length_corners, corners_words, List.length_map]

end Verif.Shapes
