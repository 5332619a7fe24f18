import Verif.Lemmas.SpaceP1
/-
Lemmas about the continuous polynomial space.
-/
namespace Verif.Space
open Verif.Grid

theorem triangle_succ (y : Nat) : (y + 1) * y / 2 = y * (y - 1) / 2 + y := by
  cases y with
  | zero => rfl
  | succ y =>
    have h : (y + 1 + 1) * (y + 1) = (y + 1) * y + (y + 1) * 2 := by
      rw [← Nat.mul_add, Nat.mul_comm]
    rw [h, Nat.add_mul_div_right _ _ (by omega), Nat.add_sub_cancel]

theorem tri_le (p : Nat) : ∀ y, y ≤ p + 1 → y * (y - 1) / 2 ≤ y * (p + 1) := by
  intro y hy
  refine (Nat.div_le_self _ _).trans ?_
  exact Nat.mul_le_mul_left _ (by omega)

theorem polyRow_succ (p y : Nat) (hy : y ≤ p) : polyRow p (y + 1) = polyRow p y + (p + 1 - y) := by
  unfold polyRow
  have h1 := tri_le p y (by omega)
  rw [Nat.add_sub_cancel, triangle_succ, Nat.add_mul, Nat.one_mul]
  omega

theorem nodeIndex_eq (p : Nat) : ∀ y, y ≤ p + 1 → ∀ x, polyRow p y + x = nodeIndex p x y := by
  intro y
  induction y with
  | zero => intro _ x; simp [polyRow, nodeIndex]
  | succ y ih =>
    intro hy x
    have h := ih (by omega) 0
    unfold nodeIndex at h ⊢
    rw [polyRow_succ p y (by omega), List.range_succ, List.map_append, List.sum_append]
    simp only [List.map_cons, List.map_nil, List.sum_cons, List.sum_nil]
    omega

/-- All nodes. -/
def lattice (p : Nat) : List (Nat × Nat) :=
  (List.range (p + 1)).flatMap fun y => (List.range (p + 1 - y)).map fun x => (x, y)

theorem lattice_map_aux (p : Nat) : ∀ m, m ≤ p + 1 →
    ((List.range m).flatMap fun y => (List.range (p + 1 - y)).map fun x => polyRow p y + x) = List.range (polyRow p m) := by
  intro m
  induction m with
  | zero => intro _; simp [polyRow]
  | succ m ih =>
    intro hm
    rw [List.range_succ, List.flatMap_append, ih (by omega), polyRow_succ p m (by omega), List.range_add]
    simp

theorem polyRow_full (p : Nat) : polyRow p (p + 1) = polyLocalCount p := by
  unfold polyRow polyLocalCount
  have h2 : (p + 1) * (p + 2) / 2 = (p + 1) * p / 2 + (p + 1) := by
    have := triangle_succ (p + 1)
    rw [Nat.add_sub_cancel] at this
    rw [← this]
    congr 1
    exact Nat.mul_comm _ _
  have h3 : (p + 1) * (p + 1) = (p + 1) * p + (p + 1) := by rw [Nat.mul_add, Nat.mul_one]
  have h5 : (p + 1) * p / 2 * 2 = (p + 1) * p := by
    rw [Nat.div_mul_cancel]
    exact (Nat.even_mul_pred_self (p + 1)).two_dvd
  rw [h2, Nat.add_sub_cancel, h3]
  omega

theorem lattice_map (p : Nat) :
    (lattice p).map (fun q => polyRow p q.2 + q.1) = List.range (polyLocalCount p) := by
  rw [← polyRow_full, ← lattice_map_aux p (p + 1) (Nat.le_refl _)]
  unfold lattice
  rw [List.map_flatMap]
  simp [Function.comp_def]

theorem mem_lattice (p : Nat) (q : Nat × Nat) : q ∈ lattice p ↔ q.1 + q.2 ≤ p := by
  unfold lattice
  simp only [List.mem_flatMap, List.mem_map, List.mem_range]
  constructor
  · rintro ⟨y, hy, x, hx, rfl⟩; simp only; omega
  · intro h; exact ⟨q.2, by omega, q.1, by omega, rfl⟩

theorem lattice_nodup (p : Nat) : (lattice p).Nodup := by
  have : ((lattice p).map (fun q => polyRow p q.2 + q.1)).Nodup := by
    rw [lattice_map]; exact List.nodup_range
  exact List.Nodup.of_map _ this

/-- The nodes in the order in which the code writes them. -/
def writtenNodes (p : Nat) : List (Nat × Nat) :=
  [(0, 0), (p, 0), (0, p)] ++ (List.range (p - 1)).map (fun k => (k + 1, 0)) ++
    (List.range (p - 1)).map (fun k => (0, k + 1)) ++ (List.range (p - 1)).map (fun k => (p - (k + 1), k + 1)) ++
    polyBubbles p

theorem mem_polyBubbles (p : Nat) (q : Nat × Nat) : q ∈ polyBubbles p ↔ 1 ≤ q.1 ∧ 1 ≤ q.2 ∧ q.1 + q.2 < p := by
  unfold polyBubbles
  simp only [List.mem_flatMap, List.mem_map, List.mem_range]
  constructor
  · rintro ⟨y, hy, x, hx, rfl⟩; simp only; omega
  · rintro ⟨h1, h2, h3⟩
    refine ⟨q.2 - 1, by omega, q.1 - 1, by omega, ?_⟩
    apply Prod.ext <;> simp only <;> omega

theorem polyBubbles_nodup (p : Nat) : (polyBubbles p).Nodup := by
  unfold polyBubbles
  rw [List.nodup_flatMap]
  constructor
  · intro y _
    refine List.Nodup.map ?_ List.nodup_range
    intro a b hab
    simp only [Prod.mk.injEq] at hab
    omega
  · refine List.Pairwise.imp ?_ List.nodup_range
    intro a b hab
    rw [Function.onFun, List.disjoint_left]
    intro q h1 h2
    obtain ⟨_, -, rfl⟩ := List.mem_map.mp h1
    obtain ⟨_, -, h3⟩ := List.mem_map.mp h2
    simp only [Prod.mk.injEq] at h3
    omega

theorem writtenNodes_perm (p : Nat) (hp : 1 ≤ p) : (writtenNodes p).Perm (lattice p) := by
  refine (List.perm_ext_iff_of_nodup ?_ (lattice_nodup p)).mpr ?_
  · unfold writtenNodes
    have hinj : ∀ f : Nat → Nat × Nat, (∀ a b, a < p - 1 → b < p - 1 → f a = f b → a = b) →
        ((List.range (p - 1)).map f).Nodup := by
      intro f hf
      refine List.Nodup.map_on ?_ List.nodup_range
      intro a ha b hb hab
      exact hf a b (List.mem_range.mp ha) (List.mem_range.mp hb) hab
    have n1 := hinj (fun k => (k + 1, 0)) (by intro a b _ _ h; simp only [Prod.mk.injEq] at h; omega)
    have n2 := hinj (fun k => (0, k + 1)) (by intro a b _ _ h; simp only [Prod.mk.injEq] at h; omega)
    have n3 := hinj (fun k => (p - (k + 1), k + 1)) (by intro a b _ _ h; simp only [Prod.mk.injEq] at h; omega)
    have n0 : [((0 : Nat), (0 : Nat)), (p, 0), (0, p)].Nodup := by
      have : p ≠ 0 := by omega
      simp [this, Ne.symm this]
    rw [List.nodup_append, List.nodup_append, List.nodup_append, List.nodup_append]
    refine ⟨⟨⟨⟨n0, n1, ?_⟩, n2, ?_⟩, n3, ?_⟩, polyBubbles_nodup p, ?_⟩
    · rintro ⟨a, a'⟩ ha ⟨b, b'⟩ hb h
      simp only [List.mem_cons, List.not_mem_nil, or_false, List.mem_map, List.mem_range, Prod.mk.injEq] at ha hb h
      obtain ⟨k, hk, hb⟩ := hb
      omega
    · rintro ⟨a, a'⟩ ha ⟨b, b'⟩ hb h
      simp only [List.mem_cons, List.not_mem_nil, or_false, List.mem_map, List.mem_range, Prod.mk.injEq,
        List.mem_append] at ha hb h
      obtain ⟨k, hk, hb⟩ := hb
      rcases ha with ha | ⟨j, hj, ha⟩ <;> omega
    · rintro ⟨a, a'⟩ ha ⟨b, b'⟩ hb h
      simp only [List.mem_cons, List.not_mem_nil, or_false, List.mem_map, List.mem_range, Prod.mk.injEq,
        List.mem_append] at ha hb h
      obtain ⟨k, hk, hb⟩ := hb
      rcases ha with (ha | ⟨j, hj, ha⟩) | ⟨j, hj, ha⟩ <;> omega
    · rintro ⟨a, a'⟩ ha ⟨b, b'⟩ hb h
      rw [mem_polyBubbles] at hb
      simp only [List.mem_cons, List.not_mem_nil, or_false, List.mem_map, List.mem_range, Prod.mk.injEq,
        List.mem_append] at ha hb h
      rcases ha with ((ha | ⟨j, hj, ha⟩) | ⟨j, hj, ha⟩) | ⟨j, hj, ha⟩ <;> omega
  · rintro ⟨x, y⟩
    rw [mem_lattice]
    unfold writtenNodes
    simp only [List.mem_cons, List.not_mem_nil, or_false, List.mem_map, List.mem_range, Prod.mk.injEq,
      List.mem_append, mem_polyBubbles]
    constructor
    · rintro ((((h | ⟨k, hk, h⟩) | ⟨k, hk, h⟩) | ⟨k, hk, h⟩) | h) <;> omega
    · intro h
      by_cases hy : y = 0
      · by_cases hx : x = 0
        · left; left; left; left; omega
        · by_cases hxp : x = p
          · left; left; left; left; omega
          · left; left; left; right; exact ⟨x - 1, by omega, by omega, by omega⟩
      · by_cases hx : x = 0
        · by_cases hyp : y = p
          · left; left; left; left; omega
          · left; left; right; exact ⟨y - 1, by omega, by omega, by omega⟩
        · by_cases hs : x + y = p
          · left; right; exact ⟨y - 1, by omega, by omega, by omega⟩
          · right; omega

/-! ### values -/

/-- Value on an edge at distance `k` from its first end. -/
def edgeValue (p : Nat) (start : Int) (used ascending : Bool) (k : Nat) : Int :=
  if 0 ≤ start ∧ used then (if ascending then start + k - 1 else start + (p - k : Nat) - 1) else -1

/-- The global dof of node `(x, y)` of element `e`. -/
def polyGdof (v : View) (s : GridSegment) (strict : Bool) (p : Nat) (e : Elem) (q : Nat × Nat) : Int :=
  let num := polyNumbering v s strict p
  let used := !strict || inSegment s 0 e.index
  let vtx := fun k => (e.sub 2).getD k 0
  let edge := fun k => num.2.1.getD ((e.sub 1).getD k 0) (-1)
  let vdof := fun k => if used then num.1.getD (vtx k) (-1) else -1
  let bubble := num.2.2.1.getD e.index (-1)
  if q = (0, 0) then vdof 0
  else if q = (p, 0) then vdof 1
  else if q = (0, p) then vdof 2
  else if q.2 = 0 then edgeValue p (edge 0) used (vtx 0 < vtx 1) q.1
  else if q.1 = 0 then edgeValue p (edge 1) used (vtx 0 < vtx 2) q.2
  else if q.1 + q.2 = p then edgeValue p (edge 2) used (vtx 1 < vtx 2) q.2
  else if 0 ≤ bubble then bubble + ((polyBubbles p).idxOf q : Nat) else -1

theorem zipIdx_map_idxOf {α β : Type} [BEq α] [LawfulBEq α] (l : List α) (hl : l.Nodup) (f : α → Nat → β) :
    (l.zipIdx.map fun q => f q.1 q.2) = l.map fun a => f a (l.idxOf a) := by
  refine List.ext_getElem? ?_
  intro i
  rw [List.getElem?_map, List.getElem?_map, List.getElem?_zipIdx]
  cases h : l[i]? with
  | none => rfl
  | some a =>
    simp only [Option.map_some, Option.some.injEq, Nat.zero_add]
    congr 1
    have hi := (List.getElem?_eq_some_iff.mp h)
    rw [← hi.2]
    exact (List.Nodup.idxOf_getElem hl i hi.1).symm

theorem polyEdgeWrites_eq (p : Nat) (start : Int) (used asc : Bool) (ldof : Nat → Nat) (pt : Nat → Nat × Nat)
    (F : Nat × Nat → Int) (h : ∀ k, k < p - 1 → ldof (k + 1) = polyRow p (pt k).2 + (pt k).1 ∧
      F (pt k) = edgeValue p start used asc (k + 1)) :
    polyEdgeWrites p start used asc ldof = ((List.range (p - 1)).map pt).map fun q => (polyRow p q.2 + q.1, F q) := by
  unfold polyEdgeWrites
  rw [List.map_map]
  refine List.map_congr_left ?_
  intro k hk
  have hk' := List.mem_range.mp hk
  obtain ⟨h1, h2⟩ := h k hk'
  simp only [Function.comp_apply, Prod.mk.injEq]
  refine ⟨h1, ?_⟩
  rw [h2]
  unfold edgeValue
  split
  · split
    · push_cast; omega
    · omega
  · rfl

theorem polyRow_last (p : Nat) : polyRow p p = polyLocalCount p - 1 := by
  have h := polyRow_succ p p (Nat.le_refl _)
  rw [polyRow_full] at h
  omega

theorem polyWrites_eq (v : View) (s : GridSegment) (strict : Bool) (p : Nat) (hp : 1 ≤ p) (e : Elem) :
    polyWrites v s strict p e = (writtenNodes p).map fun q => (polyRow p q.2 + q.1, polyGdof v s strict p e q) := by
  have hp0 : p ≠ 0 := by omega
  have hp0' : (0 : Nat) ≠ p := by omega
  unfold polyWrites writtenNodes
  simp only [List.map_append]
  refine congrArg₂ (· ++ ·) (congrArg₂ (· ++ ·) (congrArg₂ (· ++ ·) (congrArg₂ (· ++ ·) ?_ ?_) ?_) ?_) ?_
  · simp [polyRow, polyGdof, hp0, hp0', ← polyRow_last]
  · refine polyEdgeWrites_eq _ _ _ _ _ _ _ ?_
    intro k hk
    refine ⟨by simp [polyRow], ?_⟩
    unfold polyGdof
    have h1 : k + 1 ≠ p := by omega
    simp [h1, hp0']
  · refine polyEdgeWrites_eq _ _ _ _ _ _ _ ?_
    intro k hk
    refine ⟨by simp, ?_⟩
    unfold polyGdof
    have h1 : k + 1 ≠ p := by omega
    simp [h1, hp0, hp0']
  · refine polyEdgeWrites_eq _ _ _ _ _ _ _ ?_
    intro k hk
    refine ⟨rfl, ?_⟩
    unfold polyGdof
    have h1 : k + 1 ≠ p := by omega
    have h2 : p - (k + 1) ≠ 0 := by omega
    have h3 : p - (k + 1) + (k + 1) = p := by omega
    simp only [Prod.mk.injEq, h1, h2, h3, and_false, false_and, if_false, if_true, Nat.succ_ne_zero]
  · rw [zipIdx_map_idxOf (polyBubbles p) (polyBubbles_nodup p) (fun (q : Nat × Nat) (i : Nat) =>
      (polyRow p q.2 + q.1, if 0 ≤ (polyNumbering v s strict p).2.2.1.getD e.index (-1) then
        (polyNumbering v s strict p).2.2.1.getD e.index (-1) + (i : Int) else -1))]
    refine List.map_congr_left ?_
    rintro ⟨x, y⟩ hq
    rw [mem_polyBubbles] at hq
    simp only at hq
    unfold polyGdof
    have h1 : x ≠ 0 := by omega
    have h2 : y ≠ 0 := by omega
    have h3 : x + y ≠ p := by omega
    simp only [Prod.mk.injEq, h1, h2, h3, and_false, false_and, if_false]

/-! ### separation of the numbers -/

theorem take_sum_mono (l : List Nat) {i j : Nat} (hij : i < j) {c : Nat} (hi : l[i]? = some c) :
    (l.take i).sum + c ≤ (l.take j).sum := by
  have h1 : (l.take (i + 1)).sum = (l.take i).sum + c := by
    rw [List.take_add_one, hi]; simp
  rw [← h1]
  have h2 : l.take j = l.take (i + 1) ++ (l.drop (i + 1)).take (j - (i + 1)) := by
    rw [← List.take_add]; congr 1; omega
  rw [h2, List.sum_append]; omega

theorem take_sum_le (l : List Nat) {i : Nat} {c : Nat} (hi : l[i]? = some c) :
    (l.take i).sum + c ≤ l.sum := by
  have := take_sum_mono l (j := l.length) (List.getElem?_eq_some_iff.mp hi).1 hi
  rwa [List.take_length] at this

/-- What numbering gives for an entity with `c > 0` dofs: its block lies between the initial and the final
value of the counter, and blocks of different entities do not overlap. -/
theorem numberBlocks_block {α : Type} (cnt : α → Nat) (keep : α → Int) (l : List α) (n : Nat) {i : Nat} {a : α}
    (hi : l[i]? = some a) (hc : 0 < cnt a) : ∃ st : Nat, (numberBlocks cnt keep l n).1[i]? = some (st : Int) ∧
      n ≤ st ∧ st + cnt a ≤ (numberBlocks cnt keep l n).2 := by
  refine ⟨n + ((l.take i).map cnt).sum, ?_, by omega, ?_⟩
  · rw [numberBlocks_get, hi]; simp [hc]
  · rw [numberBlocks_count]
    have := take_sum_le (l.map cnt) (i := i) (c := cnt a) (by rw [List.getElem?_map, hi]; rfl)
    rw [← List.map_take] at this
    omega

theorem numberBlocks_disjoint {α : Type} (cnt : α → Nat) (keep : α → Int) (l : List α) (n : Nat) {i j : Nat}
    {a b : α} (hi : l[i]? = some a) (hj : l[j]? = some b) (ha : 0 < cnt a) (hb : 0 < cnt b) {si sj : Int}
    (hsi : (numberBlocks cnt keep l n).1[i]? = some si) (hsj : (numberBlocks cnt keep l n).1[j]? = some sj)
    {x y : Nat} (hx : x < cnt a) (hy : y < cnt b) (heq : si + x = sj + y) : i = j := by
  rw [numberBlocks_get, hi] at hsi
  rw [numberBlocks_get, hj] at hsj
  simp only [Option.map_some, ha, hb, if_true, Option.some.injEq] at hsi hsj
  rcases Nat.lt_trichotomy i j with h | h | h
  · have := take_sum_mono (l.map cnt) h (c := cnt a) (by rw [List.getElem?_map, hi]; rfl)
    rw [← List.map_take, ← List.map_take] at this
    omega
  · exact h
  · have := take_sum_mono (l.map cnt) h (c := cnt b) (by rw [List.getElem?_map, hj]; rfl)
    rw [← List.map_take, ← List.map_take] at this
    omega

theorem numberBlocks_keep {α : Type} (cnt : α → Nat) (keep : α → Int) (l : List α) (n : Nat) {i : Nat} {a : α}
    (hi : l[i]? = some a) (hc : ¬ 0 < cnt a) : (numberBlocks cnt keep l n).1[i]? = some (keep a) := by
  rw [numberBlocks_get, hi]; simp [hc]

end Verif.Space
